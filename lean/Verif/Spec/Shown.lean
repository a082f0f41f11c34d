import Verif.Spec.Options

/-
What the members `ihv1`, `ihv2`, `m1`, `m2` of a context (cgo/sha1.h:41-59) are to tell about the block processed last.
-/

namespace Verif.Spec

open Verif Verif.Model

/-- The vector `dv`, number `k`, is tested under the settings `o` and gives block `M` away. -/
def Options.Hits (o : Options) (H : Regs) (M : Block) (k : Nat) (dv : DV) : Prop :=
  dvList[k]? = some dv ∧ (o.ubc = true → ubcHolds k (sched M) = true) ∧
    (Sibling dv H M ∨ (o.reduced = true ∧ ReducedSibling dv H M))

/-- `ihv1`, `m1` are the chaining value and the expanded block; if the block is flagged, `ihv2`, `m2` are those of the other
half of the collision, for the first vector of the list that gives it away. -/
structure Shown (o : Options) (H : Regs) (M : Block) (ihv1 ihv2 : Regs) (m1 m2 : Fin 80 → Word) : Prop where
  ihv1 : ihv1 = H
  m1 : ∀ i, m1 i = sched M i
  other : o.Flags H M → ∃ k dv δ, o.Hits H M k dv ∧ (∀ j dv', j < k → ¬ o.Hits H M j dv') ∧ IsDiff dv δ ∧
    xorBlock M δ ≠ M ∧ (∀ i, m2 i = sched (xorBlock M δ) i) ∧
    steps (sched (xorBlock M δ)) dv.T ihv2 = steps (sched M) dv.T H ∧
    (compress ihv2 (xorBlock M δ) = compress H M ∨ (o.reduced = true ∧ ihv2 = H))

end Verif.Spec
