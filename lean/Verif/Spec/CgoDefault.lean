import Verif.Spec.Options
import Verif.Model.Cgo

/-!
What a hash object over an arbitrary hash function returns.  Only the types of the calls and of their results are taken from the
model.
-/

namespace Verif.Spec

open Verif Verif.Model

/-- The result of a call on an object that holds `m`, if `hash` gives the digests and the flags. -/
def resultOf (hash : List Byte → List Byte × Bool) (m : List Byte) : Cgo.Op → Out
  | .write p => .write p.length none
  | .sum inp => .sum (inp ++ (hash m).1)
  | .collisionResistantSum inp => .collisionResistantSum (inp ++ (hash m).1) (hash m).2
  | .reset => .reset
  | .size => .size 20
  | .blockSize => .blockSize 64

/-- The bytes held after a call. -/
def heldAfter (m : List Byte) : Cgo.Op → List Byte
  | .write p => m ++ p
  | .reset => []
  | _ => m

/-- The results of a history. -/
def resultsOf (hash : List Byte → List Byte × Bool) : List Byte → List Cgo.Op → List Out
  | _, [] => []
  | m, op :: ops => resultOf hash m op :: resultsOf hash (heldAfter m op) ops

end Verif.Spec
