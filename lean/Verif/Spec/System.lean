import Verif.Model.Memory

/-!
Vocabulary for programs with several hash objects.  Only the types of commands and events, and the run of a program, are
taken from the model.
-/

namespace Verif.Spec

open Verif Verif.Model

/-- The calls made on object `o`. -/
def opsOf (o : Nat) (es : List Ev) : List Op :=
  es.filterMap fun
    | .call o' op _ => if o' = o then some op else none
    | .sumPkg .. => none

/-- The results of the calls made on object `o`. -/
def outsOf (o : Nat) (es : List Ev) : List Out :=
  es.filterMap fun
    | .call o' _ out => if o' = o then some out else none
    | .sumPkg .. => none

/-- The command overwrites an entry of the table that package `ubc` hands out. -/
def isSetDv : Cmd → Bool
  | .setDv .. => true
  | _ => false

/-- The states of programs that leave the table of package `ubc` alone. -/
def Reachable (B : Build) (s : Sys) : Prop :=
  ∃ cs es, (∀ c ∈ cs, isSetDv c = false) ∧ Sys.init.run (fun dvs => B.blockWith dvs) cs = .ok (s, es)

/-- Byte `j` of array `a`. -/
def byteAt (H : Heap) (a j : Nat) : Option Byte := (H[a]?).bind (·[j]?)

end Verif.Spec
