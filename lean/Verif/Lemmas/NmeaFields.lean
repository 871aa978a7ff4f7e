import Verif.Spec.NmeaHeading
import Verif.Lemmas.Nmea
/-
Computing the comma separated fields of a printed text.
-/
namespace Verif.Nmea
open Verif.Nmea.Spec

/-- put text in front of the first field -/
def addHead (a : Str) : List Str → List Str
  | [] => [a]
  | f :: fs => (a ++ f) :: fs

theorem fields_ne_nil (s : Str) : fields s ≠ [] := by
  cases s with
  | nil => simp [fields]
  | cons c s => simp only [fields]; split; simp; split <;> simp

theorem fields_comma (s : Str) : fields (',' :: s) = [] :: fields s := by simp [fields]

theorem fields_char {c : Char} (h : c ≠ ',') (s : Str) : fields (c :: s) = addHead [c] (fields s) := by
  simp only [fields, if_neg h]
  cases fields s <;> rfl

theorem addHead_addHead (a b : Str) (l : List Str) : addHead a (addHead b l) = addHead (a ++ b) l := by
  cases l <;> simp [addHead]
theorem addHead_nil (l : List Str) (h : l ≠ []) : addHead [] l = l := by cases l <;> simp_all [addHead]
theorem addHead_cons (a f : Str) (fs : List Str) : addHead a (f :: fs) = (a ++ f) :: fs := rfl

theorem fields_append {a : Str} (h : a.count ',' = 0) (s : Str) : fields (a ++ s) = addHead a (fields s) := by
  induction a with
  | nil => simp [addHead_nil _ (fields_ne_nil s)]
  | cons c a ih =>
    have hc : c ≠ ',' := by intro e; subst e; simp at h
    rw [List.count_cons_of_ne hc] at h
    rw [List.cons_append, fields_char hc, ih h, addHead_addHead]; rfl

theorem fields_one {a : Str} (h : a.count ',' = 0) : fields a = [a] := by
  have := fields_append h []
  simpa [fields, addHead] using this

/-- the number of fields is the number of commas plus the address -/
theorem fields_length (s : Str) : (fields s).length = s.count ',' + 1 := by
  induction s with
  | nil => rfl
  | cons c s ih =>
    by_cases hc : c = ','
    · subst hc; rw [fields_comma]; simp [ih]
    · rw [fields_char hc, List.count_cons_of_ne hc, ← ih]
      cases h : fields s with
      | nil => exact absurd h (fields_ne_nil s)
      | cons f fs => rfl

/-- fields on both sides of a comma -/
theorem fields_split (a b : Str) : fields (a ++ ',' :: b) = fields a ++ fields b := by
  induction a with
  | nil => simp [fields_comma, fields]
  | cons c a ih =>
    rw [List.cons_append]
    by_cases hc : c = ','
    · subst hc; rw [fields_comma, fields_comma, ih]; rfl
    · rw [fields_char hc, fields_char hc, ih]
      cases h : fields a with
      | nil => exact absurd h (fields_ne_nil a)
      | cons f fs => rfl

theorem cU' (w n : Nat) : (fmtU w n).count ',' = 0 := (field_fmtU w n).commas
theorem cD' (w : Nat) (n : Int) : (fmtD w n).count ',' = 0 := (field_fmtD w n).commas
theorem cF' (w p : Nat) (x : Dbl) : (fmtF w p x).count ',' = 0 := (field_fmtF w p x).commas

/-- compute the fields of a text made of literals and printed numbers -/
macro "fields_tac" : tactic => `(tactic|
  simp [lit, fields_append, fields_comma, fields_char, cU', cD', cF', addHead_addHead, addHead_cons])

end Verif.Nmea
