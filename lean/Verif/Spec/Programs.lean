import Verif.Model.Ubx
import Verif.Model.Ixcom
/-! What arrives at a program that reads its standard input until there is no more. -/
namespace Verif.Loop.Spec

/-- the reads of a device or pipe: non-empty pieces `cs`, then nothing, an empty read or an error, then anything -/
inductive UbxInput : List Ubx.Rd → List (List (BitVec 8)) → Prop
  | eof : UbxInput [] []
  | none (r) : UbxInput (.data [] :: r) []
  | err (c r) : c < 0 → UbxInput (.err c :: r) []
  | data (c r cs) : c ≠ [] → UbxInput r cs → UbxInput (.data c :: r) (c :: cs)

inductive IxcomInput : List Ixcom.Rd → List (List (BitVec 8)) → Prop
  | eof : IxcomInput [] []
  | none (r) : IxcomInput (.data [] :: r) []
  | err (k r) : IxcomInput (.err k :: r) []
  | data (c r cs) : c ≠ [] → IxcomInput r cs → IxcomInput (.data c :: r) (c :: cs)

end Verif.Loop.Spec
