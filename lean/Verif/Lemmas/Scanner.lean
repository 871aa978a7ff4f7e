import Verif.Model.Bits
/-! A generic incremental scanner and its chunking lemma. -/
namespace Verif

/-- A decision on the unread bytes: `none` = wait for more, `some (n, out)` = consume `n`, emit `out`. -/
abbrev Decision (β : Type) := Buf → Option (Nat × List β)

structure Decision.Stable {β} (d : Decision β) : Prop where
  pos : ∀ r n o, d r = some (n, o) → 0 < n ∧ n ≤ r.length
  mono : ∀ r s x, d r = some x → d (r ++ s) = some x

/-- Run the decision until it waits. -/
def scan {β} (d : Decision β) (r : Buf) : List β × Buf :=
  match d r with
  | none => ([], r)
  | some (n, o) =>
    if _h : 0 < n ∧ n ≤ r.length then
      let x := scan d (r.drop n)
      (o ++ x.1, x.2)
    else ([], r)
termination_by r.length
decreasing_by simp; omega

theorem scan_none {β} (d : Decision β) (r : Buf) (h : d r = none) : scan d r = ([], r) := by
  rw [scan, h]

theorem scan_some {β} (d : Decision β) (hd : d.Stable) (r : Buf) (n : Nat) (o : List β) (h : d r = some (n, o)) :
    scan d r = (o ++ (scan d (r.drop n)).1, (scan d (r.drop n)).2) := by
  rw [scan, h]
  simp [hd.pos r n o h]

theorem scan_append {β} (d : Decision β) (hd : d.Stable) (a b : Buf) :
    scan d (a ++ b) = ((scan d a).1 ++ (scan d ((scan d a).2 ++ b)).1, (scan d ((scan d a).2 ++ b)).2) := by
  induction h : a.length using Nat.strongRecOn generalizing a with
  | _ k ih =>
    cases ha : d a with
    | none => rw [scan_none d a ha]; simp
    | some x =>
      obtain ⟨n, o⟩ := x
      have hp := hd.pos a n o ha
      have hab := hd.mono a b _ ha
      rw [scan_some d hd a n o ha, scan_some d hd (a ++ b) n o hab]
      rw [List.drop_append_of_le_length hp.2]
      rw [ih (a.drop n).length (by simp; omega) (a.drop n) rfl]
      simp

theorem scan_rest_none {β} (d : Decision β) (hd : d.Stable) (a : Buf) : d (scan d a).2 = none := by
  induction h : a.length using Nat.strongRecOn generalizing a with
  | _ k ih =>
    cases ha : d a with
    | none => rw [scan_none d a ha]; exact ha
    | some x =>
      obtain ⟨n, o⟩ := x
      have hp := hd.pos a n o ha
      rw [scan_some d hd a n o ha]
      exact ih (a.drop n).length (by simp; omega) (a.drop n) rfl

end Verif
