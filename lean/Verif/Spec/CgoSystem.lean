import Verif.Model.CgoMemory
import Verif.Spec.System

/-!
Vocabulary for programs with several hash objects of package cgo.  Only the types of commands and events, and the run of
a program, are taken from the model.
-/

namespace Verif.Spec

open Verif Verif.Model
open Verif.Model.C (Plat)
open Verif.Model.Cgo

/-- The calls made on object `o`. -/
def copsOf (o : Nat) (es : List CEv) : List Cgo.Op :=
  es.filterMap fun
    | .call o' op _ => if o' = o then some op else none
    | .sumPkg .. => none

/-- The results of the calls made on object `o`. -/
def coutsOf (o : Nat) (es : List CEv) : List Out :=
  es.filterMap fun
    | .call o' _ out => if o' = o then some out else none
    | .sumPkg .. => none

/-- The states of programs. -/
def CReachable (cfg : Plat) (s : CSys) : Prop := ∃ cs es, CSys.init.run cfg cs = .ok (s, es)

/-- What appending the bytes `D` to the slice `inp` of a client with the arrays `known` does: the result `r` reads `inp`
followed by `D`, and `inp` reads as before.  If `inp` has room, `r` is `inp` extended and the only bytes of the client
that change are those behind `inp`; else `r` is in an array the client did not have and no byte of the client changes. -/
structure AppendEffect (known : List Nat) (H : Heap) (inp : Sl) (D : List Byte) (H' : Heap) (r : Sl) : Prop where
  val : rd H' r = rd H inp ++ D
  arg : rd H' inp = rd H inp
  room : inp.len + D.length ≤ inp.cap → r = { inp with len := inp.len + D.length }
  full : ¬ inp.len + D.length ≤ inp.cap → r.arr ∉ known ∧ r.off = 0 ∧ r.len = inp.len + D.length
  bytes : ∀ a j, a ∈ known → byteAt H' a j =
    if inp.len + D.length ≤ inp.cap ∧ a = inp.arr ∧ inp.off + inp.len ≤ j ∧ j < inp.off + inp.len + D.length then
      D[j - (inp.off + inp.len)]? else byteAt H a j

/-- The client's actions on memory. -/
def isClientMemory : CCmd → Bool
  | .make .. => true
  | .poke .. => true
  | _ => false

end Verif.Spec
