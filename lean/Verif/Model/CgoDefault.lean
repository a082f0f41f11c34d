import Verif.Model.Cgo

/-!
Package cgo when `SHA1DC_INIT_SAFE_HASH_DEFAULT` is defined by whoever compiles it (cgo/sha1.c:24-26, cgo/README.md:54-57), for
instance by `CGO_CFLAGS=-DSHA1DC_INIT_SAFE_HASH_DEFAULT=0`.  Everything that does not call `SHA1DCInit` is as in `Model/Cgo`.
-/

namespace Verif.Model.Cgo

open Verif Verif.Model Verif.Model.C

/-- `SHA1DCInit`, cgo/sha1.c:2002-2016, where the macro of cgo/sha1.c:24-26 has the value `v`.  The callback is left out. -/
def initWith (v : Word) (ctx : Ctx) : Ctx :=
  { ctx with
    total := 0
    ihv := ⟨0x67452301, 0xEFCDAB89, 0x98BADCFE, 0x10325476, 0xC3D2E1F0⟩
    found_collision := 0
    safe_hash := v
    ubc_check := 1
    detect_coll := 1
    reduced_round_coll := 0 }

/-- cgo/sha1.go:49-51. -/
def Digest.resetWith (v : Word) (d : Digest) : Digest := { d with ctx := initWith v d.ctx }

/-- cgo/sha1.go:17-21. -/
def newWith (v : Word) : Digest := Digest.zero.resetWith v

/-- cgo/sha1.go:57-64. -/
def sumPkgWith (v : Word) (cfg : Plat) (data : List Byte) : GoM (List Byte × Bool) := do
  let d := Digest.zero.resetWith v
  let (d, _) ← d.write cfg data
  let (_, h, c) ← d.sum0 cfg
  pure (h, c)

/-- One method call (cgo/sha1.go:37-75). -/
def Digest.callWith (v : Word) (cfg : Plat) (d : Digest) : Op → GoM (Digest × Out)
  | .reset => pure (d.resetWith v, .reset)
  | op => d.call cfg op

/-- A history of calls on one object (cgo/sha1.go:17-75). -/
def Digest.runWith (v : Word) (cfg : Plat) (d : Digest) : List Op → GoM (Digest × List Out)
  | [] => pure (d, [])
  | op :: ops => do
    let (d, o) ← d.callWith v cfg op
    let (d, os) ← d.runWith v cfg ops
    pure (d, o :: os)

end Verif.Model.Cgo
