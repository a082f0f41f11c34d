import Verif.Model.CSha1

/-! Histories of calls of the C library, cgo/sha1.h:60-104. -/

namespace Verif.Model.C

open Verif Verif.Model

/-- The functions of cgo/sha1.h:60-100 that a program calls on a context before `SHA1DCFinal`, with their arguments;
an `int` is a 32-bit word.  `SHA1DCSetCallback` (cgo/sha1.c:2050-2053) stores a pointer that is never used and is
left out. -/
inductive Call where
  | init
  | setSafeHash (v : Word)
  | setUseUBC (v : Word)
  | setUseDetectColl (v : Word)
  | setDetectReducedRoundCollision (v : Word)
  | update (p : List Byte)

/-- cgo/sha1.c:2002-2092: one call. -/
def Ctx.call (cfg : Plat) (c : Ctx) : Call → GoM Ctx
  | .init => pure (SHA1DCInit c)
  | .setSafeHash v => pure (SHA1DCSetSafeHash c v)
  | .setUseUBC v => pure (SHA1DCSetUseUBC c v)
  | .setUseDetectColl v => pure (SHA1DCSetUseDetectColl c v)
  | .setDetectReducedRoundCollision v => pure (SHA1DCSetDetectReducedRoundCollision c v)
  | .update p => SHA1DCUpdate cfg c p

/-- Several calls (cgo/sha1.c:2002-2092) on the same context. -/
def Ctx.run (cfg : Plat) (c : Ctx) : List Call → GoM Ctx
  | [] => pure c
  | op :: ops => do
    let c ← c.call cfg op
    c.run cfg ops

/-- Any calls at all, `SHA1DCFinal` (cgo/sha1.c:2101-2139, `none` here) included at any point, on the same context;
returns the digests and results of the calls of `SHA1DCFinal`. -/
def Ctx.runAll (cfg : Plat) (c : Ctx) : List (Option Call) → GoM (Ctx × List (List Byte × Word))
  | [] => pure (c, [])
  | some op :: ops => do
    let c ← c.call cfg op
    c.runAll cfg ops
  | none :: ops => do
    let (c, D, v) ← SHA1DCFinal cfg c
    let (c, rs) ← c.runAll cfg ops
    pure (c, (D, v) :: rs)

end Verif.Model.C
