import Verif.Proofs.DwData
import Verif.Proofs.Bits

/-! The table of differences in the code is the one prescribed by the definition of the vectors. -/

namespace Verif

open Verif.Model

/-- A data list as a function. -/
def dwFn (l : List Nat) (n : Nat) : Word := BitVec.ofNat 32 (l.getD n 0)

def checkDW (dv : Spec.DV) (l : List Nat) : Bool :=
  (List.range 16).all (fun j => dwFn l (dv.K + j + 5) == Spec.window dv.type dv.b j) &&
  (List.range 69).all (fun i => dwFn l (i + 16) ==
    Spec.rotl 1 (dwFn l (i + 13) ^^^ dwFn l (i + 8) ^^^ dwFn l (i + 2) ^^^ dwFn l i))

def checkDm (dm : Fin 80 → Word) (l : List Nat) : Bool :=
  (List.range 80).all (fun t => if h : t < 80 then dm ⟨t, h⟩ == Spec.localDiff (dwFn l) t else false)

def checkHead (k : Nat) (dv : Spec.DV) (e : DvInfo) : Bool :=
  e.DvType == (match dv.type with | .I => 1#32 | .II => 2#32) && e.DvK == BitVec.ofNat 32 dv.K &&
    e.DvB == BitVec.ofNat 32 dv.b && e.TestT == BitVec.ofNat 32 dv.T && e.MaskI == 0#32 &&
    e.MaskB == BitVec.ofNat 32 k

def checkQuiet (dv : Spec.DV) (l : List Nat) : Bool :=
  (List.range 5).all (fun i => dwFn l (dv.T + i) == 0#32)

def checkAll : Nat → List Spec.DV → List (List Nat) → List DvInfo → Bool
  | k, dv :: dvs, l :: ls, e :: es =>
    checkHead k dv e && checkDW dv l && checkDm e.Dm l && checkQuiet dv l && checkAll (k + 1) dvs ls es
  | _, [], [], [e] => e.DvType == 0#32
  | _, _, _, _ => false

theorem checkAll_ok : checkAll 0 Spec.dvList dwTable sha1Dvs = true := by decide +kernel

end Verif
