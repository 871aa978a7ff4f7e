import Verif.Model.Nmea
import Verif.Lemmas.NmeaFmt
import Mathlib.Tactic
namespace Verif.Nmea
open Verif.Nmea.Spec Verif.Fp

/-- characters that may appear in a field -/
def okChar (c : Char) : Bool := c ≠ '*' ∧ c ≠ '\x00' ∧ c.toNat < 256

def Clean (s : Str) : Prop := ∀ c ∈ s, okChar c = true
theorem clean_append {a b : Str} : Clean (a ++ b) ↔ Clean a ∧ Clean b := by
  simp [Clean, or_imp, forall_and]
theorem clean_nil : Clean [] := by simp [Clean]
theorem clean_cons {c : Char} {s : Str} : Clean (c :: s) ↔ okChar c = true ∧ Clean s := by simp [Clean]
theorem clean_take {s : Str} (n : Nat) (h : Clean s) : Clean (s.take n) := fun c hc => h c (List.mem_of_mem_take hc)
theorem clean_flatten {l : List Str} (h : ∀ s ∈ l, Clean s) : Clean l.flatten := by
  intro c hc; obtain ⟨s, hs, hc⟩ := List.mem_flatten.1 hc; exact h s hs c hc

theorem isDigit_facts {c : Char} (h : c.isDigit = true) : okChar c = true ∧ c ≠ ',' := by
  simp only [Char.isDigit, Bool.and_eq_true, decide_eq_true_eq] at h
  have hn : c.toNat ≤ 57 := by
    have := h.2; rw [UInt32.le_iff_toNat_le] at this; exact this
  have hl : 48 ≤ c.toNat := by
    have := h.1; rw [ge_iff_le, UInt32.le_iff_toNat_le] at this; exact this
  have key : ∀ d : Char, d.toNat < 48 → c ≠ d := by
    intro d hd e; subst e; omega
  refine ⟨?_, key ',' (by decide)⟩
  simp only [okChar, decide_eq_true_eq]
  exact ⟨key '*' (by decide), key '\x00' (by decide), by omega⟩

theorem digits_ok {n : Nat} {c : Char} (h : c ∈ Nat.toDigits 10 n) : okChar c = true ∧ c ≠ ',' :=
  isDigit_facts (Nat.isDigit_of_mem_toDigits (by omega) (by omega) h)

/-- field text: clean and without a comma -/
def Field (s : Str) : Prop := ∀ c ∈ s, okChar c = true ∧ c ≠ ','
theorem Field.clean {s : Str} (h : Field s) : Clean s := fun c hc => (h c hc).1
theorem Field.commas {s : Str} (h : Field s) : s.count ',' = 0 := List.count_eq_zero.2 fun hc => (h _ hc).2 rfl
theorem field_append {a b : Str} (ha : Field a) (hb : Field b) : Field (a ++ b) := by
  intro c hc; rcases List.mem_append.1 hc with h | h
  · exact ha c h
  · exact hb c h
theorem field_cons {c : Char} {s : Str} (hc : okChar c = true ∧ c ≠ ',') (h : Field s) : Field (c :: s) := by
  intro x hx; rcases List.mem_cons.1 hx with h1 | h1
  · subst h1; exact hc
  · exact h x h1
theorem field_pad {w : Nat} {s : Str} (h : Field s) : Field (pad w s) := by
  refine field_append (fun c hc => ?_) h
  rw [List.mem_replicate] at hc; rw [hc.2]; decide
theorem field_digits (n : Nat) : Field (Nat.toDigits 10 n) := fun _ hc => digits_ok hc
theorem field_fmtU (w n : Nat) : Field (fmtU w n) := field_pad (field_digits n)
theorem field_fmtD (w : Nat) (n : Int) : Field (fmtD w n) := by
  unfold fmtD; split
  · exact field_cons (by decide) (field_pad (field_digits _))
  · exact field_pad (field_digits _)
theorem field_fixed (p k : Nat) : Field (fixedDigits p k) :=
  field_append (field_digits _) (field_cons (by decide) (field_pad (field_digits _)))
theorem field_fmtF (w p : Nat) (x : Dbl) : Field (fmtF w p x) := by
  cases x with
  | fin q =>
    simp only [fmtF]; split
    · exact field_cons (by decide) (field_pad (field_fixed _ _))
    · exact field_pad (field_fixed _ _)
  | inf b => cases b <;> (simp only [fmtF]; unfold Field; decide)
  | nan => simp only [fmtF]; unfold Field; decide

theorem clean_lit_iff (s : String) : Clean (lit s) ↔ (lit s).all okChar = true := by simp [Clean]

theorem latLon_clean (a b) : Clean (latLon a b) := by
  unfold latLon
  simp only [clean_append]
  refine ⟨⟨⟨⟨⟨⟨⟨⟨⟨(field_fmtU _ _).clean, (field_fmtF _ _ _).clean⟩, ?_⟩, ?_⟩, ?_⟩, (field_fmtU _ _).clean⟩, (field_fmtF _ _ _).clean⟩, ?_⟩, ?_⟩, ?_⟩
  · exact (clean_lit_iff _).2 rfl
  · split <;> simp [Clean, okChar] <;> decide
  · exact (clean_lit_iff _).2 rfl
  · exact (clean_lit_iff _).2 rfl
  · split <;> simp [Clean, okChar] <;> decide
  · exact (clean_lit_iff _).2 rfl
theorem latLon_commas (a b) : (latLon a b).count ',' = 4 := by
  unfold latLon
  simp only [List.count_append, (field_fmtU _ _).commas, (field_fmtF _ _ _).commas]
  cases a.2.2 <;> cases b.2.2 <;> rfl

theorem utc_clean (L : Lib) (a b c t) : Clean (utcString L a b c t) := by
  unfold utcString
  apply clean_take
  cases a <;> cases b <;> cases c <;>
  · simp only [Bool.false_eq_true, if_true, if_false]
    split <;> simp only [clean_append, clean_nil, (field_fmtU _ _).clean, clean_lit_iff, true_and, and_true] <;> decide

end Verif.Nmea
