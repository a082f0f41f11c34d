import Verif.Spec.Object
import Mathlib.Data.List.Basic

/-!
How much work a block is, as a function of the block and the chaining value: which of the 32 vectors are looked at, and for
which of them the second message is reconstructed.
-/

namespace Verif.Spec

open Verif Verif.Model Classical

/-- The vectors whose unavoidable conditions the block meets. -/
def Meets (M : Block) (k : Nat) : Prop := k < 32 ∧ ubcHolds k (sched M) = true

/-- The block is flagged because of vector `k`. -/
def Hit (H : Regs) (M : Block) (k : Nat) : Prop :=
  ∃ dv, dvList[k]? = some dv ∧ ubcHolds k (sched M) = true ∧
    ((dv.T = 65 ∧ Sibling dv H M) ∨ (dv.T = 58 ∧ Misaligned dv H M))

/-- The number of vectors up to and including the first one that flags the block, if some vector's conditions are met. -/
noncomputable def lookedAt (H : Regs) (M : Block) : Nat :=
  if ∃ k, Meets M k then (List.range 32).countP fun k => decide (∀ j < k, ¬ Hit H M j) else 0

/-- The number of those whose conditions are met. -/
noncomputable def reconstructed (H : Regs) (M : Block) : Nat :=
  (List.range 32).countP fun k => decide (Meets M k ∧ ∀ j < k, ¬ Hit H M j)

/-- The steps for one block, if one compression takes `c` of them: the compression and two more; one for each vector looked
at and 105 for each reconstruction; two more compressions if the block is flagged. -/
noncomputable def blockWork (c : Nat) (H : Regs) (M : Block) : Nat :=
  c + 2 + lookedAt H M + 105 * reconstructed H M + if GoDetected H M then 2 * c else 0

/-- The steps for the blocks of a message, one after the other. -/
noncomputable def work (c : Nat) : Regs → List Block → Nat
  | _, [] => 0
  | H, M :: Ms =>
    blockWork c H M +
      work c (if GoDetected H M then compress (compress (compress H M) M) M else compress H M) Ms

/-- The steps one call takes on an object that holds the message `m`: those for the blocks it completes, beyond those that
`m` already completes. -/
noncomputable def callWork (c : Nat) (m : List Byte) : Op → Nat
  | .write p => work c H0 (blocks (m ++ p)) - work c H0 (blocks m)
  | .sum _ | .collisionResistantSum _ => work c H0 (blocks (pad m)) - work c H0 (blocks m)
  | _ => 0

/-- The steps of a history of calls on an object that holds the message `m`. -/
noncomputable def runWork (c : Nat) : List Byte → List Op → Nat
  | _, [] => 0
  | m, op :: ops => callWork c m op + runWork c (msgAfter m op) ops

end Verif.Spec
