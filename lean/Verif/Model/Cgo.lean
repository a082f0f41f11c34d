import Verif.Model.CSha1
import Verif.Model.Build
import Verif.Model.Ubc

/-!
Package cgo, cgo/sha1.go (built with cgo) and cgo/fallback_no_cgo.go (built without).

Simplifications: methods return the new receiver; slices are lists; passing `&p[0]` and `len(p)` to C passes the list.
-/

namespace Verif.Model.Cgo

open Verif Verif.Model Verif.Model.C

/-- cgo/sha1.go:23-26. -/
structure Digest where
  ctx : Ctx
  h : List Byte

/-- The zero value, `var d digest` (cgo/sha1.go:18,58). -/
def Digest.zero : Digest :=
  { ctx :=
      { total := 0, ihv := ⟨0, 0, 0, 0, 0⟩, buffer := ⟨List.replicate 64 0, rfl⟩, found_collision := 0, safe_hash := 0,
        detect_coll := 0, ubc_check := 0, reduced_round_coll := 0, ihv1 := ⟨0, 0, 0, 0, 0⟩, ihv2 := ⟨0, 0, 0, 0, 0⟩,
        m1 := fun _ => 0, m2 := fun _ => 0, states := fun _ => ⟨0, 0, 0, 0, 0⟩ }
    h := List.replicate 20 0 }

/-- cgo/sha1.go:28-35.  Returns the modified receiver and the results. -/
def Digest.sum0 (cfg : Plat) (d : Digest) : GoM (Digest × List Byte × Bool) := do
  let (ctx, output, c) ← SHA1DCFinal cfg d.ctx
  let d := { d with ctx := ctx, h := output }
  if c ≠ 0 then pure (d, d.h, true) else pure (d, d.h, false)

/-- cgo/sha1.go:43-47.  Returns the receiver, of which a copy is used, and the results. -/
def Digest.collisionResistantSum (cfg : Plat) (d : Digest) (inp : List Byte) : GoM (Digest × List Byte × Bool) := do
  let d0 := d
  let (_, h, c) ← d0.sum0 cfg
  pure (d, inp ++ h, c)

/-- cgo/sha1.go:37-41. -/
def Digest.sum (cfg : Plat) (d : Digest) (inp : List Byte) : GoM (Digest × List Byte) := do
  let d0 := d
  let (_, h, _) ← d0.collisionResistantSum cfg inp
  pure (d, h)

/-- cgo/sha1.go:49-51. -/
def Digest.reset (d : Digest) : Digest := { d with ctx := SHA1DCInit d.ctx }

/-- cgo/sha1.go:53. -/
def Digest.size (_ : Digest) : Nat := 20

/-- cgo/sha1.go:55. -/
def Digest.blockSize (_ : Digest) : Nat := 64

/-- cgo/sha1.go:66-75. -/
def Digest.write (cfg : Plat) (d : Digest) (p : List Byte) : GoM (Digest × Nat × Option Err) :=
  if p.length = 0 then pure (d, 0, none)
  else do
    let ctx ← SHA1DCUpdate cfg d.ctx p
    pure ({ d with ctx := ctx }, p.length, none)

/-- cgo/sha1.go:17-21. -/
def new : Digest := Digest.zero.reset

/-- cgo/sha1.go:57-64. -/
def sumPkg (cfg : Plat) (data : List Byte) : GoM (List Byte × Bool) := do
  let d := Digest.zero.reset
  let (d, _) ← d.write cfg data
  let (_, h, c) ← d.sum0 cfg
  pure (h, c)

/-- The methods of the object returned by `New` (cgo/sha1.go:37-75). -/
inductive Op where
  | write (p : List Byte)
  | sum (inp : List Byte)
  | collisionResistantSum (inp : List Byte)
  | reset
  | size
  | blockSize
deriving DecidableEq, Repr

/-- One method call; the results have the types of those of package sha1cd (cgo/sha1.go:37-75). -/
def Digest.call (cfg : Plat) (d : Digest) : Op → GoM (Digest × Out)
  | .write p => do let (d, n, e) ← d.write cfg p; pure (d, .write n e)
  | .sum inp => do let (d, b) ← d.sum cfg inp; pure (d, .sum b)
  | .collisionResistantSum inp => do
    let (d, b, c) ← d.collisionResistantSum cfg inp; pure (d, .collisionResistantSum b c)
  | .reset => pure (d.reset, .reset)
  | .size => pure (d, .size d.size)
  | .blockSize => pure (d, .blockSize d.blockSize)

/-- A history of calls on one object (cgo/sha1.go:17-75). -/
def Digest.run (cfg : Plat) (d : Digest) : List Op → GoM (Digest × List Out)
  | [] => pure (d, [])
  | op :: ops => do
    let (d, o) ← d.call cfg op
    let (d, os) ← d.run cfg ops
    pure (d, o :: os)

/-- The same call on the object of package sha1cd (cgo/sha1.go:37-75, sha1cd.go:107-212). -/
def Op.toGo : Op → Model.Op
  | .write p => .write p
  | .sum inp => .sum inp
  | .collisionResistantSum inp => .collisionResistantSum inp
  | .reset => .reset
  | .size => .size
  | .blockSize => .blockSize

namespace Fallback

/-- `CalculateDvMask` without cgo, cgo/fallback_no_cgo.go:15-17.  It takes a pointer, unlike the version with cgo
(cgo/ubc_check.go:21-23), which takes the array. -/
def calculateDvMask (W : Option (Fin 80 → Word)) : Word := Model.Ubc.calculateDvMask W

/-- `New` without cgo, cgo/fallback_no_cgo.go:21-23. -/
def new : Model.Digest := Model.new

/-- `Sum` without cgo, cgo/fallback_no_cgo.go:27-32; `append(nil, hash...)` has the bytes of `hash`. -/
def sumPkg (block : BlockFn) (data : List Byte) : GoM (List Byte × Bool) := do
  let d := Model.new
  let (d, _) ← d.write block data
  let (_, b, c) ← d.collisionResistantSum block []
  pure (b, c)

end Fallback

end Verif.Model.Cgo
