import Verif.Model.Sync
import Verif.Spec.Par
import Mathlib.Logic.Relation

/-!
Vocabulary for goroutines that synchronise with mutexes and by waiting for each other: which sections come before which,
when a program is synchronised, and what its sections give when they are executed one after the other.  Only the types
of sections, actions and results are taken from the model.
-/

namespace Verif.Spec.Sync

open Verif Verif.Model Verif.Model.Par Verif.Model.Sync Verif.Spec.Par

/-- Section `x` (goroutine and number) comes directly before section `y`: it is the one before it in the same goroutine,
or `y` waits for it. -/
def Direct (gs : Nat → List Section) (x y : Nat × Nat) : Prop :=
  (x.1 = y.1 ∧ x.2 + 1 = y.2) ∨ ∃ s, (gs y.1)[y.2]? = some s ∧ x ∈ s.waits

/-- Section `x` comes before section `y` in every execution. -/
def Before (gs : Nat → List Section) : Nat × Nat → Nat × Nat → Prop := Relation.TransGen (Direct gs)

/-- The program is synchronised: if a section of one goroutine changes a thing that a section of another one uses, then
both hold the same mutex, or one of them comes before the other in every execution. -/
def Synced (gs : Nat → List Section) : Prop :=
  ∀ x y s s' t, x.1 ≠ y.1 → (gs x.1)[x.2]? = some s → (gs y.1)[y.2]? = some s' →
    ChangesL s.acts t → UsesL s'.acts t →
    (∃ m, s.lock = some m ∧ s'.lock = some m) ∨ Before gs x y ∨ Before gs y x

/-- `τ` is an order in which a program may have executed sections: those of goroutine `i` are its first `n i` in their
order, and what comes before a section is executed before it. -/
def Order (gs : Nat → List Section) (n : Nat → Nat) (τ : List (Nat × Nat)) : Prop :=
  (∀ i, τ.filter (fun x => x.1 = i) = (List.range (n i)).map fun k => (i, k)) ∧
  ∀ a y b, τ = a ++ y :: b → ∀ x, Before gs x y → x ∈ a

/-- The actions of a section. -/
def actsOf (gs : Nat → List Section) (x : Nat × Nat) : List Act := ((gs x.1)[x.2]?.map (·.acts)).getD []

/-- The sections executed one after the other in the order `τ`; the results come with the goroutine. -/
def serial (dg dc : Regs → Block → Bool) (gs : Nat → List Section) (w : World) :
    List (Nat × Nat) → World × List (Nat × List Res)
  | [] => (w, [])
  | x :: τ =>
    let r := Spec.Par.steps dg dc w (actsOf gs x)
    let rs := serial dg dc gs r.1 τ
    (rs.1, (x.1, r.2) :: rs.2)

/-- The results of goroutine `i`. -/
def resultsOf (i : Nat) (rs : List (Nat × List Res)) : List (List Res) :=
  (rs.filter fun r => r.1 = i).map (·.2)

end Verif.Spec.Sync
