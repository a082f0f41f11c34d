import Verif.Spec.Ubc

namespace Verif.Spec

open Verif

/-- The intended verdict on a block: it satisfies the unavoidable conditions of some listed vector and is
one half of a collision along that vector. -/
def Detected (H : Regs) (M : Block) : Prop :=
  ∃ k dv, dvList[k]? = some dv ∧ ubcHolds k (sched M) = true ∧ Sibling dv H M

/-- The five working variables moved up by two places. -/
def shift2 (s : Regs) : Regs := ⟨s.c, s.d, s.e, s.a, s.b⟩

/-- What the Go code tests instead of `Sibling` when `T = 58`: the backward half of the reconstruction
starts from the working variables moved up by two places. -/
def Misaligned (dv : DV) (H : Regs) (M : Block) : Prop :=
  ∃ δ H', IsDiff dv δ ∧
    steps (sched (xorBlock M δ)) dv.T H' = shift2 (steps (sched M) dv.T H) ∧
    H'.add (runSteps (sched (xorBlock M δ)) dv.T (80 - dv.T) (steps (sched M) dv.T H)) = compress H M

/-- The verdict that the Go code actually computes. -/
def GoDetected (H : Regs) (M : Block) : Prop :=
  ∃ k dv, dvList[k]? = some dv ∧ ubcHolds k (sched M) = true ∧
    ((dv.T = 65 ∧ Sibling dv H M) ∨ (dv.T = 58 ∧ Misaligned dv H M))

end Verif.Spec
