import Verif.Model.Const

namespace Verif.Model

open Verif

/-- ubc/ubc.go:8-24, the exported struct `DvInfo`. -/
structure DvInfo where
  DvType : Word
  DvK : Word
  DvB : Word
  TestT : Word
  MaskI : Word
  MaskB : Word
  Dm : Fin 80 → Word

/-- An array literal `[80]uint32{…}` (ubc/const.go:48 and the other entries). -/
def arr80 (l : List Nat) : Fin 80 → Word := fun i => BitVec.ofNat 32 (l.getD i.val 0)

end Verif.Model
