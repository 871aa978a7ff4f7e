/- Specification vocabulary for bit fields, independent of the model's loops. -/
namespace Verif.Spec

/-- The `i`-th bit of a byte string, counting from the most significant bit of byte 0. `none` outside. -/
def bitAt (b : List (BitVec 8)) (i : Nat) : Option Bool := (b[i / 8]?).map (fun x => x.getMsbD (i % 8))

end Verif.Spec
