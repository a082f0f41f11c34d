import Verif.Basic

/-! Constants, internal/const.go. -/

namespace Verif.Model

open Verif

/-- internal/const.go:5 -/
def K0 : Word := 0x5A827999
/-- internal/const.go:6 -/
def K1 : Word := 0x6ED9EBA1
/-- internal/const.go:7 -/
def K2 : Word := 0x8F1BBCDC
/-- internal/const.go:8 -/
def K3 : Word := 0xCA62C1D6

/-- internal/const.go:11 -/
def Init0 : Word := 0x67452301
/-- internal/const.go:12 -/
def Init1 : Word := 0xEFCDAB89
/-- internal/const.go:13 -/
def Init2 : Word := 0x98BADCFE
/-- internal/const.go:14 -/
def Init3 : Word := 0x10325476
/-- internal/const.go:15 -/
def Init4 : Word := 0xC3D2E1F0

/-- internal/const.go:28 -/
def Size : Nat := 20
/-- internal/const.go:34 -/
def Chunk : Nat := 64
/-- internal/const.go:40, the bytes of "shacd\x01". -/
def Magic : List Byte := [0x73, 0x68, 0x61, 0x63, 0x64, 0x01]
/-- internal/const.go:41: `len(Magic) + 5*4 + Chunk + 8`. -/
def MarshaledSize : Nat := Magic.length + 5 * 4 + Chunk + 8

/-- `bits.RotateLeft32(x, k)` of Go's math/bits: `s := uint(k) & 31; x<<s | x>>(32-s)`; `k` may be
negative.  Used at sha1cdblock_generic.go:57,58,199,201 and elsewhere. -/
def rotateLeft32 (x : Word) (k : Int) : Word :=
  let s := (k % 32).toNat
  (x <<< s) ||| (x >>> (32 - s))

end Verif.Model
