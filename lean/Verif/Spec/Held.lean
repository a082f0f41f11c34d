import Verif.Spec.Object

/-!
What a hash object is supposed to do in every history, restores of arbitrary bytes included.  After a restore an object
need not hold any message that anybody ever wrote, so its contents are described by what a checkpoint stores, and the
collision flag, which a checkpoint does not store.
-/

namespace Verif.Spec

open Verif Verif.Model

/-- The contents of an object: chaining value, bytes not yet compressed, number of bytes written modulo 2^64, and
whether a collision was seen. -/
structure Held where
  H : Regs
  pend : List Byte
  len : Word64
  col : Bool

/-- A new object. -/
def Held.new : Held := ⟨H0, [], 0, false⟩

/-- The contents after a message was written to a new object. -/
def Held.message (det : Regs → Block → Bool) (m : List Byte) : Held :=
  ⟨(safeChain det H0 (blocks m)).1, m.drop (64 * (m.length / 64)), BitVec.ofNat 64 m.length,
    (safeChain det H0 (blocks m)).2⟩

/-- Writing compresses the complete blocks and keeps the rest. -/
def Held.write (det : Regs → Block → Bool) (s : Held) (p : List Byte) : Held :=
  let q := s.pend ++ p
  ⟨(safeChain det s.H (blocks q)).1, q.drop (64 * (q.length / 64)), s.len + BitVec.ofNat 64 p.length,
    s.col || (safeChain det s.H (blocks q)).2⟩

/-- The digest and the flag: the padding for the length is compressed behind the pending bytes. -/
def Held.sum (det : Regs → Block → Bool) (s : Held) : List Byte × Bool :=
  let r := safeChain det s.H
    (blocks (s.pend ++ 0x80 :: List.replicate (zeroPad s.len.toNat) 0 ++ word64Bytes (8 * s.len)))
  (digestBytes r.1, s.col || r.2)

/-- The word that starts at byte `i` of `b`. -/
def word32At (b : List Byte) (i : Nat) : Word :=
  be32 (b.getD i 0) (b.getD (i + 1) 0) (b.getD (i + 2) 0) (b.getD (i + 3) 0)

/-- Whether bytes are accepted as a checkpoint, and the error if not. -/
def restoreError (b : List Byte) : Option Err :=
  if b.take 6 ≠ [0x73, 0x68, 0x61, 0x63, 0x64, 0x01] then some .badIdentifier
  else if b.length ≠ 98 then some .badSize
  else none

/-- Restoring: the length says how many of the 64 stored bytes are pending.  The flag of the receiver stays. -/
def Held.restore (s : Held) (b : List Byte) : Held :=
  if restoreError b = none then
    let len : Word64 := word32At b 90 ++ word32At b 94
    ⟨⟨word32At b 6, word32At b 10, word32At b 14, word32At b 18, word32At b 22⟩,
      (b.drop 26).take (len.toNat % 64), len, s.col⟩
  else s

/-- The contents after a call. -/
def Held.after (det : Regs → Block → Bool) (s : Held) : Op → Held
  | .write p => s.write det p
  | .reset => .new
  | .unmarshalBinary b => s.restore b
  | _ => s

/-- The result of a call. -/
def Held.result (det : Regs → Block → Bool) (s : Held) : Op → Out
  | .write p => .write p.length none
  | .sum inp => .sum (inp ++ (s.sum det).1)
  | .collisionResistantSum inp => .collisionResistantSum (inp ++ (s.sum det).1) (s.sum det).2
  | .reset => .reset
  | .size => .size 20
  | .blockSize => .blockSize 64
  | .marshalBinary => .marshalBinary (checkpoint s.H s.pend s.len) none
  | .unmarshalBinary b => .unmarshalBinary (restoreError b)

/-- The results of a history. -/
def Held.results (det : Regs → Block → Bool) : Held → List Op → List Out
  | _, [] => []
  | s, op :: ops => s.result det op :: (s.after det op).results det ops

end Verif.Spec
