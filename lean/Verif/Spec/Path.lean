import Verif.Spec.Detect

/-!
What it means for two computations to follow a disturbance vector, and which collisions do so.
-/

namespace Verif.Spec

open Verif

/-- `x` is a sum of the powers of two that `d` has as bits, each with one sign or the other. -/
def Signed (d x : Word) : Prop := ∃ s, x = (d &&& s) - (d &&& ~~~s)

/-- The working variable that step `i - 1` computes. -/
def var (H : Regs) (M : Block) (i : Nat) : Word := (steps (sched M) i H).a

/-- The computations from `H` on `M` and from `H'` on `M'` follow the vector: the blocks differ by the local collisions it
prescribes, and the working variables computed in steps 30 to 65 differ by a disturbance for each of its bits,
with either sign and whatever carries this causes. -/
def Follows (dv : DV) (H : Regs) (M : Block) (H' : Regs) (M' : Block) : Prop :=
  ∃ D, IsDW dv D ∧ M' = xorBlock M (localDiff D) ∧
    ∀ i, 31 ≤ i → i ≤ 66 → Signed (D (i + 4)) (var H' M' i - var H M i)

end Verif.Spec
