import Verif.Model.CSteps
import Verif.Model.CDvTable
import Verif.Model.CUbc

/-!
The C implementation, cgo/sha1.c, apart from the preprocessor.

Simplifications common to the file: functions with pointer arguments return the new contents; the block passed to
`sha1_process` is the list of bytes from the pointer on; reading through the pointer cast `(uint32_t *)buf` is an
ordinary 32-bit load in the byte order of the machine (no alignment faults, no aliasing-based optimisation).
The function `sha1_compression` (cgo/sha1.c:255-362) is not compiled (`BUILDNOCOLLDETECTSHA1COMPRESSION` is not
defined) and not modelled.  `ctx->callback` is never called and not modelled.
-/

namespace Verif.Model.C

open Verif Verif.Model

/-- A machine, and what the preprocessor decides for it (cgo/sha1.c:48-133). -/
structure Plat where
  /-- the byte order of the machine -/
  machineBE : Bool
  /-- `SHA1DC_BIGENDIAN` is defined, cgo/sha1.c:48-126 -/
  bigEndian : Bool
  /-- `SHA1DC_ALLOW_UNALIGNED_ACCESS` is defined, cgo/sha1.c:129-133 -/
  unaligned : Bool

/-- The platforms on which `SHA1DC_BIGENDIAN` (cgo/sha1.c:48-126) tells the byte order of the machine. -/
structure Cfg where
  bigEndian : Bool
  unaligned : Bool

/-- Such a platform (cgo/sha1.c:48-133). -/
def Cfg.plat (c : Cfg) : Plat := ⟨c.bigEndian, c.bigEndian, c.unaligned⟩

/-- Notation (cgo/sha1.c:48-133). -/
instance : Coe Cfg Plat := ⟨Cfg.plat⟩

/-- cgo/sha1.c:136, and 135 with `n` replaced by `32 - n` -/
def rotate_left (x : Word) (n : Nat) : Word := (x <<< n) ||| (x >>> (32 - n))

/-- cgo/sha1.c:135 -/
def rotate_right (x : Word) (n : Nat) : Word := (x >>> n) ||| (x <<< (32 - n))

/-- cgo/sha1.c:138-142 -/
def sha1_bswap32 (x : Word) : Word :=
  let x := ((x <<< 8) &&& 0xFF00FF00) ||| ((x >>> 8) &&& 0xFF00FF)
  (x <<< 16) ||| (x >>> 16)

/-- `m[t]` for `m = (uint32_t *)buf`: the four bytes at offset `4 t`, in the byte order of the machine (cgo/sha1.c:146-157). -/
def load32 (cfg : Plat) (buf : List Byte) (t : Nat) : GoM Word :=
  match buf.drop (4 * t) with
  | b0 :: b1 :: b2 :: b3 :: _ => pure (if cfg.machineBE then b0 ++ b1 ++ b2 ++ b3 else b3 ++ b2 ++ b1 ++ b0)
  | _ => throw .fault

/-- cgo/sha1.c:146-157 -/
def sha1_load (cfg : Plat) (m : List Byte) (t : Nat) : GoM Word := do
  let temp ← load32 cfg m t
  pure (if cfg.bigEndian then temp else sha1_bswap32 temp)

/-- cgo/sha1.c:144 -/
def sha1_mix (W : Fin 80 → Word) (t : Nat) (h1 : 16 ≤ t) (h2 : t < 80) : Word :=
  rotate_left (W ⟨t - 3, by omega⟩ ^^^ W ⟨t - 8, by omega⟩ ^^^ W ⟨t - 14, by omega⟩ ^^^ W ⟨t - 16, by omega⟩) 1

/-- cgo/sha1.c:161-164, `sha1_f1` … `sha1_f4` -/
def sha1_f (r : Nat) (b c d : Word) : Word :=
  match r with
  | 1 => d ^^^ (b &&& (c ^^^ d))
  | 2 => b ^^^ c ^^^ d
  | 3 => (b &&& c) + (d &&& (b ^^^ c))
  | _ => b ^^^ c ^^^ d

/-- The constants in the step macros of round `r`, cgo/sha1.c:168-244 -/
def sha1_k (r : Nat) : Word :=
  match r with
  | 1 => 0x5A827999
  | 2 => 0x6ED9EBA1
  | 3 => 0x8F1BBCDC
  | _ => 0xCA62C1D6

/-- The values of `a, b, c, d, e` (cgo/sha1.c:366,461). -/
abbrev Env := Var → Word

/-- Assignment to a variable (cgo/sha1.c:166-246). -/
def Env.set (v : Env) (x : Var) (y : Word) : Env := fun z => if z = x then y else v z

/-- `a = s[0], b = s[1], …` (cgo/sha1.c:366,461) -/
def Env.of (s : Regs) : Env
  | .a => s.a
  | .b => s.b
  | .c => s.c
  | .d => s.d
  | .e => s.e

/-- `s[0] = a; s[1] = b; …` (cgo/sha1.c:452-456) -/
def Env.regs (v : Env) : Regs := ⟨v .a, v .b, v .c, v .d, v .e⟩

/-- `HASHCLASH_SHA1COMPRESS_ROUNDr_STEP(a, b, c, d, e, m, t)`, cgo/sha1.c:166-185, with `w` for `m[t]` -/
def step (s : Step) (w : Word) (v : Env) : Env :=
  let v := v.set s.e (v s.e + (rotate_left (v s.a) 5 + sha1_f s.r (v s.b) (v s.c) (v s.d) + sha1_k s.r + w))
  v.set s.b (rotate_left (v s.b) 30)

/-- `HASHCLASH_SHA1COMPRESS_ROUNDr_STEP_BW(a, b, c, d, e, m, t)`, cgo/sha1.c:187-206, with `w` for `m[t]` -/
def stepBW (s : Step) (w : Word) (v : Env) : Env :=
  let v := v.set s.b (rotate_right (v s.b) 30)
  v.set s.e (v s.e - (rotate_left (v s.a) 5 + sha1_f s.r (v s.b) (v s.c) (v s.d) + sha1_k s.r + w))

/-- The last two lines of the `SHA1COMPRESS_FULL_ROUNDr_STEP…` macros, e.g. cgo/sha1.c:212-213 -/
def stepFull (s : Step) (temp : Word) (v : Env) : Env :=
  let v := v.set s.e (v s.e + (temp + rotate_left (v s.a) 5 + sha1_f s.r (v s.b) (v s.c) (v s.d) + sha1_k s.r))
  v.set s.b (rotate_left (v s.b) 30)

/-- Reading an element of a `uint32_t[80]` (cgo/sha1.c:364-457,871-1948). -/
def rd (W : Fin 80 → Word) (t : Nat) : GoM Word := if h : t < 80 then pure (W ⟨t, h⟩) else throw .fault

/-- The steps of cgo/sha1.c:368-450. -/
def runW (W : Fin 80 → Word) : List Step → Env → GoM Env
  | [], v => pure v
  | s :: ss, v => do
    let w ← rd W s.t
    runW W ss (step s w v)

/-- cgo/sha1.c:364-457, `sha1_compression_W`; returns the new `ihv`. -/
def sha1_compression_W (ihv : Regs) (W : Fin 80 → Word) : GoM Regs := do
  let v ← runW W stepsW (Env.of ihv)
  pure (ihv.add v.regs)

/-- The local variables and the two arrays written by `sha1_compression_states` (cgo/sha1.c:459-462). -/
structure CState where
  v : Env
  W : Fin 80 → Word
  states : Fin 80 → Regs

/-- One macro call of `sha1_compression_states`, cgo/sha1.c:208-253. -/
def Item.exec (cfg : Plat) (m : List Byte) (st : CState) : Item → GoM CState
  | .store i =>
    if h : i < 80 then pure { st with states := upd st.states ⟨i, h⟩ st.v.regs } else throw .fault
  | .load s => do
    let temp ← sha1_load cfg m s.t
    if h : s.t < 80 then
      pure { st with W := upd st.W ⟨s.t, h⟩ temp, v := stepFull s temp st.v }
    else throw .fault
  | .expand s =>
    if h : 16 ≤ s.t ∧ s.t < 80 then
      let temp := sha1_mix st.W s.t h.1 h.2
      pure { st with W := upd st.W ⟨s.t, h.2⟩ temp, v := stepFull s temp st.v }
    else throw .fault

/-- A list of macro calls (cgo/sha1.c:459-869). -/
def runItems (cfg : Plat) (m : List Byte) : List Item → CState → GoM CState
  | [], st => pure st
  | i :: is, st => do
    let st ← i.exec cfg m st
    runItems cfg m is st

/-- cgo/sha1.c:459-869, `sha1_compression_states`; returns the new `ihv`, `W` and `states`. -/
def sha1_compression_states (cfg : Plat) (ihv : Regs) (m : List Byte) (W : Fin 80 → Word)
    (states : Fin 80 → Regs) : GoM (Regs × (Fin 80 → Word) × (Fin 80 → Regs)) := do
  let st ← runItems cfg m stepsStates ⟨Env.of ihv, W, states⟩
  pure (ihv.add st.v.regs, st.W, st.states)

/-- The guarded backward steps, cgo/sha1.c:875-1034. -/
def runBack (t : Nat) (me2 : Fin 80 → Word) : List (Nat × Step) → Env → GoM Env
  | [], v => pure v
  | (k, s) :: ss, v =>
    if t > k then do
      let w ← rd me2 s.t
      runBack t me2 ss (stepBW s w v)
    else runBack t me2 ss v

/-- The guarded forward steps, cgo/sha1.c:1045-1204. -/
def runForw (t : Nat) (me2 : Fin 80 → Word) : List (Nat × Step) → Env → GoM Env
  | [], v => pure v
  | (k, s) :: ss, v =>
    if t ≤ k then do
      let w ← rd me2 s.t
      runForw t me2 ss (step s w v)
    else runForw t me2 ss v

/-- `SHA1_RECOMPRESS(t)`, cgo/sha1.c:871-1210, `sha1recompress_fast_t`; returns `ihvin` and `ihvout`. -/
def sha1recompress_fast (t : Nat) (me2 : Fin 80 → Word) (state : Regs) : GoM (Regs × Regs) := do
  let v ← runBack t me2 stepsBack (Env.of state)
  let ihvin := v.regs
  let v ← runForw t me2 stepsForw (Env.of state)
  pure (ihvin, ihvin.add v.regs)

/-- cgo/sha1.c:1541-1948, `sha1_recompression_step`: only the cases 58 and 65 are compiled (cgo/ubc_check.h:51-52). -/
def sha1_recompression_step (step : Nat) (me2 : Fin 80 → Word) (state : Regs) : GoM (Regs × Regs) :=
  if step = 58 then sha1recompress_fast 58 me2 state
  else if step = 65 then sha1recompress_fast 65 me2 state
  else throw .abort

/-- cgo/sha1.h:41-59, `SHA1_CTX`, without `callback`.  The `int` flags are 32-bit words: a flag is on iff it is not
0. -/
structure Ctx where
  total : Word64
  ihv : Regs
  buffer : Buf
  found_collision : Word
  safe_hash : Word
  detect_coll : Word
  ubc_check : Word
  reduced_round_coll : Word
  ihv1 : Regs
  ihv2 : Regs
  m1 : Fin 80 → Word
  m2 : Fin 80 → Word
  states : Fin 80 → Regs

/-- `0 == ((x[0] ^ y[0]) | … | (x[4] ^ y[4]))`, cgo/sha1.c:1984-1985 -/
def sameIhv (x y : Regs) : Bool :=
  ((x.a ^^^ y.a) ||| (x.b ^^^ y.b) ||| (x.c ^^^ y.c) ||| (x.d ^^^ y.d) ||| (x.e ^^^ y.e)) == 0

/-- cgo/sha1.c:1973-1998, the loop over the disturbance vectors; running past the end of the array is a fault. -/
def dvLoop (mask : Word) : List DvInfoT → Ctx → GoM Ctx
  | [], _ => throw .fault
  | dv :: dvs, ctx =>
    if dv.dvType ≠ 0 then
      if dv.maskb < 32 then
        if mask &&& (1#32 <<< dv.maskb) ≠ 0 then
          let ctx := { ctx with m2 := fun j => ctx.m1 j ^^^ dv.dm j }
          if h : dv.testt < 80 then do
            let (ihv2, ihvtmp) ← sha1_recompression_step dv.testt ctx.m2 (ctx.states ⟨dv.testt, h⟩)
            let ctx := { ctx with ihv2 := ihv2 }
            if sameIhv ihvtmp ctx.ihv || (ctx.reduced_round_coll != 0 && sameIhv ctx.ihv1 ctx.ihv2) then
              let ctx := { ctx with found_collision := 1 }
              if ctx.safe_hash ≠ 0 then do
                let ihv ← sha1_compression_W ctx.ihv ctx.m1
                let ihv ← sha1_compression_W ihv ctx.m1
                pure { ctx with ihv := ihv }
              else pure ctx
            else dvLoop mask dvs ctx
          else throw .fault
        else dvLoop mask dvs ctx
      else throw .fault
    else pure ctx

/-- cgo/sha1.c:1950-2000, `sha1_process`. -/
def sha1_process (cfg : Plat) (ctx : Ctx) (block : List Byte) : GoM Ctx := do
  let ctx := { ctx with ihv1 := ctx.ihv }
  let (ihv, m1, states) ← sha1_compression_states cfg ctx.ihv block ctx.m1 ctx.states
  let ctx := { ctx with ihv := ihv, m1 := m1, states := states }
  if ctx.detect_coll ≠ 0 then
    let mask := if ctx.ubc_check ≠ 0 then Ubc.ubcCheck ctx.m1 else 0xFFFFFFFF
    if mask ≠ 0 then dvLoop mask sha1_dvs ctx else pure ctx
  else pure ctx

/-- cgo/sha1.c:2002-2016, `SHA1DCInit`; `SHA1DC_INIT_SAFE_HASH_DEFAULT` is 1 (cgo/sha1.c:24-26). -/
def SHA1DCInit (ctx : Ctx) : Ctx :=
  { ctx with
    total := 0
    ihv := ⟨0x67452301, 0xEFCDAB89, 0x98BADCFE, 0x10325476, 0xC3D2E1F0⟩
    found_collision := 0
    safe_hash := 1
    ubc_check := 1
    detect_coll := 1
    reduced_round_coll := 0 }

/-- cgo/sha1.c:2018-2024 -/
def SHA1DCSetSafeHash (ctx : Ctx) (safehash : Word) : Ctx :=
  if safehash ≠ 0 then { ctx with safe_hash := 1 } else { ctx with safe_hash := 0 }

/-- cgo/sha1.c:2026-2032 -/
def SHA1DCSetUseUBC (ctx : Ctx) (ubc_check : Word) : Ctx :=
  if ubc_check ≠ 0 then { ctx with ubc_check := 1 } else { ctx with ubc_check := 0 }

/-- cgo/sha1.c:2034-2040 -/
def SHA1DCSetUseDetectColl (ctx : Ctx) (detect_coll : Word) : Ctx :=
  if detect_coll ≠ 0 then { ctx with detect_coll := 1 } else { ctx with detect_coll := 0 }

/-- cgo/sha1.c:2042-2048 -/
def SHA1DCSetDetectReducedRoundCollision (ctx : Ctx) (reduced_round_coll : Word) : Ctx :=
  if reduced_round_coll ≠ 0 then { ctx with reduced_round_coll := 1 } else { ctx with reduced_round_coll := 0 }

/-- `memcpy(ctx->buffer + off, p, len)`; writing outside the buffer is a fault (cgo/sha1.c:2068,2081,2090). -/
def memcpyBuf (x : Buf) (off : Nat) (p : List Byte) : GoM Buf :=
  if h : off + p.length ≤ 64 then
    pure ⟨x.1.take off ++ p ++ x.1.drop (off + p.length), by have := x.2; simp; omega⟩
  else throw .fault

/-- cgo/sha1.c:2062-2073: `left`, `fill`, and completing a partial block.  Returns the context, the rest of `buf` and
`left`. -/
def updFill (cfg : Plat) (ctx : Ctx) (buf : List Byte) : GoM (Ctx × List Byte × Nat) :=
  let left := (ctx.total &&& 63).toNat
  let fill := 64 - left
  if left ≠ 0 ∧ buf.length ≥ fill then do
    let ctx := { ctx with total := ctx.total + BitVec.ofNat 64 fill }
    let b ← memcpyBuf ctx.buffer left (buf.take fill)
    let ctx := { ctx with buffer := b }
    let ctx ← sha1_process cfg ctx ctx.buffer.1
    pure (ctx, buf.drop fill, 0)
  else pure (ctx, buf, left)

/-- cgo/sha1.c:2074-2086, the loop over complete blocks.  Returns the context and the rest of `buf`. -/
def updBulk (cfg : Plat) (ctx : Ctx) (buf : List Byte) : GoM (Ctx × List Byte) :=
  if 64 ≤ buf.length then do
    let ctx := { ctx with total := ctx.total + 64 }
    let ctx ←
      if cfg.unaligned then sha1_process cfg ctx buf
      else do
        let b ← memcpyBuf ctx.buffer 0 (buf.take 64)
        let ctx := { ctx with buffer := b }
        sha1_process cfg ctx ctx.buffer.1
    updBulk cfg ctx (buf.drop 64)
  else pure (ctx, buf)
termination_by buf.length
decreasing_by simp; omega

/-- cgo/sha1.c:2087-2091: keep the rest. -/
def updTail (ctx : Ctx) (buf : List Byte) (left : Nat) : GoM Ctx :=
  if buf.length > 0 then do
    let ctx := { ctx with total := ctx.total + BitVec.ofNat 64 buf.length }
    let b ← memcpyBuf ctx.buffer left buf
    pure { ctx with buffer := b }
  else pure ctx

/-- cgo/sha1.c:2055-2092, `SHA1DCUpdate`; `len` is the length of `buf`. -/
def SHA1DCUpdate (cfg : Plat) (ctx : Ctx) (buf : List Byte) : GoM Ctx :=
  if buf.length = 0 then pure ctx
  else do
    let (ctx, buf, left) ← updFill cfg ctx buf
    let (ctx, buf) ← updBulk cfg ctx buf
    updTail ctx buf left

/-- cgo/sha1.c:2094-2099 -/
def sha1_padding : List Byte := 0x80 :: List.replicate 63 0

/-- `(unsigned char)(x >> 24)`, …, cgo/sha1.c:2118-2137 -/
def out32 (x : Word) : List Byte :=
  [(x >>> 24).setWidth 8, (x >>> 16).setWidth 8, (x >>> 8).setWidth 8, x.setWidth 8]

/-- cgo/sha1.c:2101-2139, `SHA1DCFinal`; returns the context, `output` and the result. -/
def SHA1DCFinal (cfg : Plat) (ctx : Ctx) : GoM (Ctx × List Byte × Word) := do
  let last : Word := (ctx.total &&& 63).setWidth 32
  let padn : Word := if last < 56 then 56 - last else 120 - last
  if padn.toNat ≤ 64 then do
    let ctx ← SHA1DCUpdate cfg ctx (sha1_padding.take padn.toNat)
    let total : Word64 := ctx.total - padn.setWidth 64
    let total := total <<< 3
    let b ← memcpyBuf ctx.buffer 56
      [(total >>> 56).setWidth 8, (total >>> 48).setWidth 8, (total >>> 40).setWidth 8, (total >>> 32).setWidth 8,
       (total >>> 24).setWidth 8, (total >>> 16).setWidth 8, (total >>> 8).setWidth 8, total.setWidth 8]
    let ctx := { ctx with buffer := b }
    let ctx ← sha1_process cfg ctx ctx.buffer.1
    pure (ctx, out32 ctx.ihv.a ++ out32 ctx.ihv.b ++ out32 ctx.ihv.c ++ out32 ctx.ihv.d ++ out32 ctx.ihv.e,
      ctx.found_collision)
  else throw .fault

end Verif.Model.C
