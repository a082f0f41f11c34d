import Verif.Spec.Detect
import Verif.Model.Digest

/-!
What a hash object is supposed to do, in terms of the bytes written to it since it was created or reset.
Only the types `Op` (the calls) and `Out` (their results) are taken from the model.
-/

namespace Verif.Spec

open Verif Verif.Model

/-- A predicate on (chaining value, block) as a Boolean verdict. -/
noncomputable def verdict (P : Regs → Block → Prop) : Regs → Block → Bool :=
  fun H M => @decide (P H M) (Classical.propDecidable _)

/-- The checkpoint format: "shacd\x01", chaining value, pending bytes zero-padded to 64, length. -/
def checkpoint (H : Regs) (pending : List Byte) (len : Word64) : List Byte :=
  [0x73, 0x68, 0x61, 0x63, 0x64, 0x01] ++ digestBytes H ++ pending ++
    List.replicate (64 - pending.length) 0 ++ word64Bytes len

/-- The bytes held by the object after a call, if it held `m` before. -/
def msgAfter (m : List Byte) : Op → List Byte
  | .write p => m ++ p
  | .reset => []
  | _ => m

/-- The bytes held by a new object after a history: everything written since the last reset. -/
def msgOf (ops : List Op) : List Byte := ops.foldl msgAfter []

/-- The result a call should give on an object holding `m`. -/
def result (det : Regs → Block → Bool) (m : List Byte) : Op → Out
  | .write p => .write p.length none
  | .sum inp => .sum (inp ++ (safeHash det m).1)
  | .collisionResistantSum inp => .collisionResistantSum (inp ++ (safeHash det m).1) (safeHash det m).2
  | .reset => .reset
  | .size => .size 20
  | .blockSize => .blockSize 64
  | .marshalBinary =>
    .marshalBinary (checkpoint (safeChain det H0 (blocks m)).1 (m.drop (64 * (m.length / 64)))
      (BitVec.ofNat 64 m.length)) none
  | .unmarshalBinary _ => .unmarshalBinary none

/-- The results a history of calls should give on an object holding `m`. -/
def results (det : Regs → Block → Bool) : List Byte → List Op → List Out
  | _, [] => []
  | m, op :: ops => result det m op :: results det (msgAfter m op) ops

/-- A call that restores a checkpoint. -/
def isRestore : Op → Bool
  | .unmarshalBinary _ => true
  | _ => false

/-- The calls that only look. -/
def isObserver : Op → Bool
  | .sum _ | .collisionResistantSum _ | .marshalBinary | .size | .blockSize => true
  | _ => false

end Verif.Spec
