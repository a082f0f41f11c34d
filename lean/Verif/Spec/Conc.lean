import Verif.Spec.Object

/-!
Vocabulary for goroutines: a goroutine is a list of calls, each on one of the hash objects, which are numbered.
-/

namespace Verif.Spec

open Verif Verif.Model

/-- The calls that change their object. -/
def isMutator : Op → Bool
  | .write _ | .reset | .unmarshalBinary _ => true
  | _ => false

/-- The objects a list of calls uses. -/
def Uses (cs : List (Nat × Op)) (o : Nat) : Prop := ∃ c ∈ cs, c.1 = o

/-- The objects a list of calls changes. -/
def Changes (cs : List (Nat × Op)) (o : Nat) : Prop := ∃ c ∈ cs, c.1 = o ∧ isMutator c.2 = true

/-- The calls on object `o`, in order. -/
def opsOn (o : Nat) (cs : List (Nat × Op)) : List Op := (cs.filter fun c => c.1 == o).map Prod.snd

/-- The results of the calls on object `o`, in order. -/
def outsOn (o : Nat) (cs : List (Nat × Op)) (outs : List Out) : List Out :=
  ((cs.zip outs).filter fun r => r.1.1 == o).map Prod.snd

/-- The goroutines may run at the same time: no goroutine changes an object that another one uses. -/
def Disciplined (gs : Nat → List (Nat × Op)) : Prop := ∀ i j o, i ≠ j → Changes (gs i) o → ¬ Uses (gs j) o

end Verif.Spec
