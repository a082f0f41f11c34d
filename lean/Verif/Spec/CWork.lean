import Verif.Spec.Options
import Mathlib.Data.List.Basic

/-!
How much work a block is for the C library under given settings, as a function of the block and the chaining value.
-/

namespace Verif.Spec

open Verif Verif.Model Classical

/-- The vectors that are to be tested under the settings `o`. -/
def Options.Tested (o : Options) (M : Block) (k : Nat) : Prop := k < 32 ∧ (o.ubc = true → ubcHolds k (sched M) = true)

/-- The block is flagged because of vector `k`. -/
def Options.Hit (o : Options) (H : Regs) (M : Block) (k : Nat) : Prop :=
  ∃ dv, dvList[k]? = some dv ∧ (o.ubc = true → ubcHolds k (sched M) = true) ∧
    (Sibling dv H M ∨ (o.reduced = true ∧ ReducedSibling dv H M))

/-- The number of vectors up to and including the first one that flags the block, if any is to be tested. -/
noncomputable def Options.lookedAt (o : Options) (H : Regs) (M : Block) : Nat :=
  if ∃ k, o.Tested M k then (List.range 32).countP fun k => decide (∀ j < k, ¬ o.Hit H M j) else 0

/-- The number of those that are to be tested. -/
noncomputable def Options.reconstructed (o : Options) (H : Regs) (M : Block) : Nat :=
  (List.range 32).countP fun k => decide (o.Tested M k ∧ ∀ j < k, ¬ o.Hit H M j)

/-- The steps for one block: one for the call; with detection, one more to look for unavoidable conditions if these are
asked for, one for each vector looked at, 81 for each reconstruction, and two if a flagged block is to be compressed twice
more. -/
noncomputable def Options.blockWork (o : Options) (H : Regs) (M : Block) : Nat :=
  1 + if o.detect = true then
      (if o.ubc = true then 1 else 0) + o.lookedAt H M + 81 * o.reconstructed H M +
        if o.safe = true ∧ o.Flags H M then 2 else 0
    else 0

/-- The steps for the blocks of a message, one after the other. -/
noncomputable def Options.work (o : Options) : Regs → List Block → Nat
  | _, [] => 0
  | H, M :: Ms => o.blockWork H M + o.work (o.next H M) Ms

/-- The iterations of the loop over whole blocks when `len` bytes arrive with `r` bytes pending: those that fill up the
pending ones to a block are not part of it. -/
def bulkBlocks (r len : Nat) : Nat := (len - (64 - r) % 64) / 64

/-- The steps of one call of the library in the state `s`: only `SHA1DCUpdate` takes any. -/
noncomputable def OptState.callWork (s : OptState) : C.Call → Nat
  | .update p => s.o.work s.H (newBlocks s.m p) + bulkBlocks (s.m.length % 64) p.length
  | _ => 0

/-- The steps of a history of calls. -/
noncomputable def OptState.runWork : OptState → List C.Call → Nat
  | _, [] => 0
  | s, op :: ops => s.callWork op + (s.after op).runWork ops

/-- The steps of `SHA1DCFinal`. -/
noncomputable def OptState.finalWork (s : OptState) : Nat :=
  s.o.work s.H ((blocks (pad s.m)).drop (blocks s.m).length)

/-- The steps one method call of package cgo takes on an object that holds the message `m`. -/
noncomputable def cgoCallWork (m : List Byte) : Op → Nat
  | .write p => Options.default.work H0 (blocks (m ++ p)) - Options.default.work H0 (blocks m) +
      bulkBlocks (m.length % 64) p.length
  | .sum _ | .collisionResistantSum _ =>
      Options.default.work H0 (blocks (pad m)) - Options.default.work H0 (blocks m)
  | _ => 0

/-- The steps of a history of calls on an object that holds the message `m`. -/
noncomputable def cgoRunWork : List Byte → List Op → Nat
  | _, [] => 0
  | m, op :: ops => cgoCallWork m op + cgoRunWork (msgAfter m op) ops

end Verif.Spec
