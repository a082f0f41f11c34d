import Verif.Model.CApi
import Verif.Model.Cgo
import Verif.Model.Loops

/-!
`sha1_process`, `SHA1DCUpdate` and `SHA1DCFinal` of cgo/sha1.c and package cgo once more, with loops as the language
defines them (see `Model/Loops` for the budget): counters and lengths are machine integers, conditions are evaluated
before every iteration, array indices, shift counts and the extent of `memcpy` are checked when they are used.  Every
iteration and every call of `sha1_process`, `ubc_check`, `sha1_recompression_step` and `sha1_compression_W` costs one
unit.

Simplifications: `unsigned` has 32 bits and `size_t` has `n` bits (32 or 64, depending on the platform); a pointer into
an array is the list of the elements from there on, and for the bytes handed to `SHA1DCUpdate` also their address;
straight-line code is as in `Model/CSha1`.
-/

namespace Verif.Model.CLoops

open Verif Verif.Model Verif.Model.C Verif.Model.Loops

/-- `a[i]` for an array of fixed size (cgo/sha1.c:1950-1999,2055-2098). -/
def ldA {k : Nat} {α : Type} (a : Fin k → α) (i : Nat) : M α :=
  if h : i < k then pure (a ⟨i, h⟩) else stop .fault

/-- `a[i] = v` for an array of fixed size (cgo/sha1.c:1978). -/
def stA {k : Nat} {α : Type} (a : Fin k → α) (i : Nat) (v : α) : M (Fin k → α) :=
  if h : i < k then pure (upd a ⟨i, h⟩ v) else stop .fault

/-- `sha1_dvs[i]` (cgo/sha1.c:1973-1980). -/
def ldDv (dvs : List DvInfoT) (i : Word) : M DvInfoT :=
  if h : i.toNat < dvs.length then pure dvs[i.toNat] else stop .fault

/-- The variables of the loop cgo/sha1.c:1973-2000: the counter, the entry `sha1_dvs[i]` that the condition has read, the
context, and whether `break` has been executed. -/
structure Scan where
  i : Word
  entry : DvInfoT
  ctx : Ctx
  brk : Bool

/-- cgo/sha1.c:1977-1978, one iteration. -/
def m2Body (dm : Fin 80 → Word) (j : Word) (ctx : Ctx) : M Ctx := do
  let m ← ldA ctx.m1 j.toNat
  let x ← ldA dm j.toNat
  let m2 ← stA ctx.m2 j.toNat (m ^^^ x)
  pure { ctx with m2 := m2 }

/-- cgo/sha1.c:1980 -/
def recompress (step : Nat) (me2 : Fin 80 → Word) (state : Regs) : M (Regs × Regs) := do
  tick
  lift (sha1_recompression_step step me2 state)

/-- cgo/sha1.c:1990-1991, one of the two calls. -/
def compressW (ctx : Ctx) : M Ctx := do
  tick
  let ihv ← lift (sha1_compression_W ctx.ihv ctx.m1)
  pure { ctx with ihv := ihv }

/-- cgo/sha1.c:1974-1997, and the increment and the read of `sha1_dvs[i]` for the next test of the condition. -/
def scanBody (dvs : List DvInfoT) (mask : Word) (s : Scan) : M Scan := do
  let next (ctx : Ctx) : M Scan := do
    let e ← ldDv dvs (s.i + 1)
    pure { i := s.i + 1, entry := e, ctx := ctx, brk := false }
  if s.entry.maskb < 32 then
    if mask &&& (1#32 <<< s.entry.maskb) ≠ 0 then do
      let ctx ← forUpU 0 80 (m2Body s.entry.dm) s.ctx
      let state ← ldA ctx.states s.entry.testt
      let (ihv2, ihvtmp) ← recompress s.entry.testt ctx.m2 state
      let ctx := { ctx with ihv2 := ihv2 }
      if sameIhv ihvtmp ctx.ihv || (ctx.reduced_round_coll != 0 && sameIhv ctx.ihv1 ctx.ihv2) then do
        let ctx := { ctx with found_collision := 1 }
        if ctx.safe_hash ≠ 0 then do
          let ctx ← compressW ctx
          let ctx ← compressW ctx
          pure { s with ctx := ctx, brk := true }
        else pure { s with ctx := ctx, brk := true }
      else next ctx
    else next s.ctx
  else stop .fault

/-- cgo/sha1.c:1973-2000 -/
def dvLoop (dvs : List DvInfoT) (mask : Word) (ctx : Ctx) : M Ctx := do
  let e ← ldDv dvs 0
  let s ← whileLoop (fun s => !s.brk && decide (s.entry.dvType ≠ 0)) (scanBody dvs mask)
    { i := 0, entry := e, ctx := ctx, brk := false }
  pure s.ctx

/-- The fields of `SHA1_CTX` up to the buffer, cgo/sha1.h:42-46: name, size and alignment. -/
def ctxFields : List (String × Nat × Nat) := [("total", 8, 8), ("ihv", 20, 4), ("buffer", 64, 1)]

/-- Where a field lies in a struct that is laid out as C compilers do, `at` bytes having been used (cgo/sha1.h:42-59). -/
def offsetOf (name : String) (at_ : Nat) : List (String × Nat × Nat) → Nat
  | [] => at_
  | (s, size, align) :: fs =>
    let off := (at_ + align - 1) / align * align
    if s = name then off else offsetOf name (off + size) fs

/-- Where things are during a call of the C library: whether the processor faults on a word that does not lie at a
multiple of 4, and the addresses of the context, of the bytes given to `SHA1DCUpdate` by its caller, and of
`sha1_padding` (cgo/sha1.go:29,72, cgo/sha1.c:2055-2101). -/
structure Where where
  strict : Bool
  ctx : Nat
  buf : Nat
  pad : Nat

/-- The address of `ctx->buffer` (cgo/sha1.h:46, cgo/sha1.c:2068-2090). -/
def Where.buffer (w : Where) : Nat := w.ctx + offsetOf "buffer" 0 ctxFields

/-- Reading words from `addr` on, `m[t]` in cgo/sha1.c:146-157. -/
def words (w : Where) (addr : Nat) : M Unit := if w.strict && addr % 4 != 0 then stop .fault else pure ()

/-- cgo/sha1.c:1950-2003, `sha1_process`, on the words at `addr`. -/
def process (w : Where) (cfg : Plat) (ctx : Ctx) (addr : Nat) (block : List Byte) : M Ctx := do
  tick
  words w addr
  let ctx := { ctx with ihv1 := ctx.ihv }
  let (ihv, m1, states) ← lift (sha1_compression_states cfg ctx.ihv block ctx.m1 ctx.states)
  let ctx := { ctx with ihv := ihv, m1 := m1, states := states }
  if ctx.detect_coll ≠ 0 then do
    let mask ← if ctx.ubc_check ≠ 0 then do tick; pure (Ubc.ubcCheck ctx.m1) else pure 0xFFFFFFFF
    if mask ≠ 0 then dvLoop sha1_dvs mask ctx else pure ctx
  else pure ctx

/-- `memcpy(ctx->buffer + off, p, k)`; reading or writing outside an array is a fault (cgo/sha1.c:2068,2081,2090). -/
def memcpy (ctx : Ctx) (off : Nat) (p : List Byte) (k : Nat) : M Ctx :=
  if k ≤ p.length then do
    let b ← lift (memcpyBuf ctx.buffer off (p.take k))
    pure { ctx with buffer := b }
  else stop .fault

/-- The variables of `SHA1DCUpdate`, cgo/sha1.c:2055-2057. -/
structure Upd (n : Nat) where
  ctx : Ctx
  addr : Nat
  buf : List Byte
  len : BitVec n
  left : Word

/-- cgo/sha1.c:2062-2073. -/
def updFill {n : Nat} (w : Where) (cfg : Plat) (ctx : Ctx) (addr : Nat) (buf : List Byte) (len : BitVec n) : M (Upd n) :=
  let left : Word := (ctx.total &&& 63).setWidth 32
  let fill : Word := 64 - left
  if left ≠ 0 ∧ len ≥ fill.setWidth n then do
    let ctx := { ctx with total := ctx.total + fill.setWidth 64 }
    let ctx ← memcpy ctx left.toNat buf fill.toNat
    let ctx ← process w cfg ctx w.buffer ctx.buffer.1
    pure ⟨ctx, addr + fill.toNat, buf.drop fill.toNat, len - fill.setWidth n, 0⟩
  else pure ⟨ctx, addr, buf, len, left⟩

/-- cgo/sha1.c:2075-2085, one iteration. -/
def bulkBody {n : Nat} (w : Where) (cfg : Plat) (s : Upd n) : M (Upd n) := do
  let ctx := { s.ctx with total := s.ctx.total + 64 }
  let ctx ←
    if cfg.unaligned then process w cfg ctx s.addr s.buf
    else do
      let ctx ← memcpy ctx 0 s.buf 64
      process w cfg ctx w.buffer ctx.buffer.1
  pure { s with ctx := ctx, addr := s.addr + 64, buf := s.buf.drop 64, len := s.len - 64 }

/-- cgo/sha1.c:2055-2092, `SHA1DCUpdate`. -/
def update {n : Nat} (w : Where) (cfg : Plat) (ctx : Ctx) (addr : Nat) (buf : List Byte) (len : BitVec n) : M Ctx :=
  if len = 0 then pure ctx
  else do
    let s ← updFill w cfg ctx addr buf len
    let s ← whileLoop (fun s => decide (s.len ≥ 64)) (bulkBody w cfg) s
    if s.len > 0 then do
      let ctx := { s.ctx with total := s.ctx.total + s.len.setWidth 64 }
      memcpy ctx s.left.toNat s.buf s.len.toNat
    else pure s.ctx

/-- cgo/sha1.c:2101-2139, `SHA1DCFinal`. -/
def final (n : Nat) (w : Where) (cfg : Plat) (ctx : Ctx) : M (Ctx × List Byte × Word) := do
  let last : Word := (ctx.total &&& 63).setWidth 32
  let padn : Word := if last < 56 then 56 - last else 120 - last
  let ctx ← update w cfg ctx w.pad sha1_padding (padn.setWidth n)
  let total : Word64 := ctx.total - padn.setWidth 64
  let total := total <<< 3
  let ctx ← memcpy ctx 56
    [(total >>> 56).setWidth 8, (total >>> 48).setWidth 8, (total >>> 40).setWidth 8, (total >>> 32).setWidth 8,
     (total >>> 24).setWidth 8, (total >>> 16).setWidth 8, (total >>> 8).setWidth 8, total.setWidth 8] 8
  let ctx ← process w cfg ctx w.buffer ctx.buffer.1
  pure (ctx, out32 ctx.ihv.a ++ out32 ctx.ihv.b ++ out32 ctx.ihv.c ++ out32 ctx.ihv.d ++ out32 ctx.ihv.e,
    ctx.found_collision)

/-- cgo/sha1.go:28-35. -/
def sum0 (n : Nat) (w : Where) (cfg : Plat) (d : Cgo.Digest) : M (Cgo.Digest × List Byte × Bool) := do
  let (ctx, output, c) ← final n w cfg d.ctx
  let d := { d with ctx := ctx, h := output }
  if c ≠ 0 then pure (d, d.h, true) else pure (d, d.h, false)

/-- cgo/sha1.go:66-75; the conversion of `len(p)` to `size_t` keeps the lowest bits. -/
def write (n : Nat) (w : Where) (cfg : Plat) (d : Cgo.Digest) (p : List Byte) : M (Cgo.Digest × Nat × Option Err) :=
  if p.length = 0 then pure (d, 0, none)
  else do
    let ctx ← update w cfg d.ctx w.buf p (BitVec.ofNat n p.length)
    pure ({ d with ctx := ctx }, p.length, none)

/-- cgo/sha1.go:43-47. -/
def collisionResistantSum (n : Nat) (w : Where) (cfg : Plat) (d : Cgo.Digest) (inp : List Byte) :
    M (Cgo.Digest × List Byte × Bool) := do
  let d0 := d
  let (_, h, c) ← sum0 n w cfg d0
  pure (d, inp ++ h, c)

/-- cgo/sha1.go:37-41. -/
def sum (n : Nat) (w : Where) (cfg : Plat) (d : Cgo.Digest) (inp : List Byte) : M (Cgo.Digest × List Byte) := do
  let d0 := d
  let (_, h, _) ← collisionResistantSum n w cfg d0 inp
  pure (d, h)

/-- cgo/sha1.go:57-64. -/
def sumPkg (n : Nat) (w : Where) (cfg : Plat) (data : List Byte) : M (List Byte × Bool) := do
  let d := Cgo.Digest.zero.reset
  let (d, _) ← write n w cfg d data
  let (_, h, c) ← sum0 n w cfg d
  pure (h, c)

/-- One method call, cgo/sha1.go:37-75. -/
def call (n : Nat) (w : Where) (cfg : Plat) (d : Cgo.Digest) : Cgo.Op → M (Cgo.Digest × Out)
  | .write p => do let (d, k, e) ← write n w cfg d p; pure (d, .write k e)
  | .sum inp => do let (d, b) ← sum n w cfg d inp; pure (d, .sum b)
  | .collisionResistantSum inp => do
    let (d, b, c) ← collisionResistantSum n w cfg d inp; pure (d, .collisionResistantSum b c)
  | .reset => pure (d.reset, .reset)
  | .size => pure (d, .size d.size)
  | .blockSize => pure (d, .blockSize d.blockSize)

/-- A history of calls on one object, cgo/sha1.go:37-75.  Every call comes with the addresses involved: `Sum` passes a copy
of the object to C, and the runtime may move an object that is on a stack. -/
def run (n : Nat) (cfg : Plat) (d : Cgo.Digest) : List (Where × Cgo.Op) → M (Cgo.Digest × List Out)
  | [] => pure (d, [])
  | (w, op) :: ops => do
    let (d, o) ← call n w cfg d op
    let (d, os) ← run n cfg d ops
    pure (d, o :: os)

/-- One call of the C library, cgo/sha1.c:2002-2092. -/
def ctxCall (n : Nat) (w : Where) (cfg : Plat) (c : Ctx) : Call → M Ctx
  | .init => pure (SHA1DCInit c)
  | .setSafeHash v => pure (SHA1DCSetSafeHash c v)
  | .setUseUBC v => pure (SHA1DCSetUseUBC c v)
  | .setUseDetectColl v => pure (SHA1DCSetUseDetectColl c v)
  | .setDetectReducedRoundCollision v => pure (SHA1DCSetDetectReducedRoundCollision c v)
  | .update p => update w cfg c w.buf p (BitVec.ofNat n p.length)

/-- Any calls of the C library on a context, `SHA1DCFinal` (`none`) included (cgo/sha1.c:2002-2140). -/
def runAll (n : Nat) (cfg : Plat) (c : Ctx) : List (Where × Option Call) → M (Ctx × List (List Byte × Word))
  | [] => pure (c, [])
  | (w, some op) :: ops => do
    let c ← ctxCall n w cfg c op
    runAll n cfg c ops
  | (w, none) :: ops => do
    let (c, D, v) ← final n w cfg c
    let (c, rs) ← runAll n cfg c ops
    pure (c, (D, v) :: rs)

end Verif.Model.CLoops
