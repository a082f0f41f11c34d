import Verif.Model.DvTable
import Verif.Model.Ubc

/-!
The portable block function, sha1cdblock_generic.go.

Simplifications common to the file: a function that writes through pointer arguments returns the new
values; `for` loops are `loopUp`/`loopDown` with the same bounds; the indices of the fixed-size arrays
carry proofs that they are in range; the process-wide table `ubc.SHA1_dvs()` is the parameter `dvs`.
-/

namespace Verif.Model

open Verif

/-- The index expression `i & 0xf`, sha1cdblock_generic.go:57,61,64 and elsewhere. -/
def ix (i : Nat) : Fin 16 := ⟨i &&& 0xf, Nat.lt_of_le_of_lt Nat.and_le_right (by decide)⟩

/-- The variables live inside the round loops of `blockGeneric` (sha1cdblock_generic.go:23-32,41):
`w`, `m1`, the tuple `a,b,c,d,e`, and `cs`. -/
structure RoundState where
  w : Fin 16 → Word
  m1 : Fin 80 → Word
  r : Regs
  cs : Fin 3 → Regs

/-- `f := b&c | (^b)&d`, sha1cdblock_generic.go:56,67,225. -/
def fCh (b c d : Word) : Word := (b &&& c) ||| (~~~b &&& d)
/-- `f := b ^ c ^ d`, sha1cdblock_generic.go:78,110,200,216,255,303. -/
def fPar (b c d : Word) : Word := b ^^^ c ^^^ d
/-- `f := ((b | c) & d) | (b & c)`, sha1cdblock_generic.go:94,208,248,296. -/
def fMaj (b c d : Word) : Word := ((b ||| c) &&& d) ||| (b &&& c)

/-- `uint32(p[j])<<24 | uint32(p[j+1])<<16 | uint32(p[j+2])<<8 | uint32(p[j+3])`,
sha1cdblock_generic.go:54. -/
def load32 (p : List Byte) (j : Nat) (h : j + 3 < p.length) : Word :=
  ((p[j].setWidth 32) <<< 24) ||| ((p[j+1].setWidth 32) <<< 16) |||
    ((p[j+2].setWidth 32) <<< 8) ||| (p[j+3].setWidth 32)

/-- One iteration of the first loop, sha1cdblock_generic.go:51-62. -/
def round1 (p : List Byte) (hp : 64 ≤ p.length) (i : Nat) (hi : i < 16) (s : RoundState) : RoundState :=
  let j := i * 4
  let w := upd s.w ⟨i, hi⟩ (load32 p j (by omega))
  let ⟨a, b, c, d, e⟩ := s.r
  let f := fCh b c d
  let t := rotateLeft32 a 5 + f + e + w (ix i) + K0
  { s with
    w := w
    r := ⟨t, a, rotateLeft32 b 30, c, d⟩
    m1 := upd s.m1 ⟨i, by omega⟩ (w (ix i)) }

/-- The expansion step `tmp := w[(i-3)&0xf] ^ w[(i-8)&0xf] ^ w[(i-14)&0xf] ^ w[(i)&0xf];
w[i&0xf] = tmp<<1 | tmp>>(32-1)`, sha1cdblock_generic.go:64-65,75-76,91-92,107-108.
Only used with `i ≥ 16`, so the `Nat` subtractions do not truncate. -/
def expand (w : Fin 16 → Word) (i : Nat) : Fin 16 → Word :=
  let tmp := w (ix (i - 3)) ^^^ w (ix (i - 8)) ^^^ w (ix (i - 14)) ^^^ w (ix i)
  upd w (ix i) ((tmp <<< 1) ||| (tmp >>> (32 - 1)))

/-- One iteration of a later loop after its optional state store: sha1cdblock_generic.go:64-72
(`f = fCh`, `k = K0`), 75-83 (`fPar`, `K1`), 91-99 (`fMaj`, `K2`), 107-115 (`fPar`, `K3`). -/
def roundN (f : Word → Word → Word → Word) (k : Word) (i : Nat) (hi : i < 80) (s : RoundState) :
    RoundState :=
  let w := expand s.w i
  let ⟨a, b, c, d, e⟩ := s.r
  let t := rotateLeft32 a 5 + f b c d + e + w (ix i) + k
  { s with
    w := w
    r := ⟨t, a, rotateLeft32 b 30, c, d⟩
    m1 := upd s.m1 ⟨i, hi⟩ (w (ix i)) }

/-- `if i == n { cs[j] = [..]uint32{a, b, c, d, e} }`, sha1cdblock_generic.go:86-89,102-105. -/
def storeCs (n : Nat) (j : Fin 3) (i : Nat) (s : RoundState) : RoundState :=
  if i = n then { s with cs := upd s.cs j s.r } else s

/-- From the label `rehash` to the end of the rounds, sha1cdblock_generic.go:40-116, with
`h` = `h0..h4`. -/
def rounds (p : List Byte) (hp : 64 ≤ p.length) (h : Regs) (s : RoundState) : RoundState :=
  let s := { s with r := h, cs := upd s.cs 0 h }
  let s := loopUp 0 16 (fun i _ hi s => round1 p hp i (by omega) s) s
  let s := loopUp 16 4 (fun i _ hi s => roundN fCh K0 i (by omega) s) s
  let s := loopUp 20 20 (fun i _ hi s => roundN fPar K1 i (by omega) s) s
  let s := loopUp 40 20 (fun i _ hi s => roundN fMaj K2 i (by omega) (storeCs 58 1 i s)) s
  loopUp 60 20 (fun i _ hi s => roundN fPar K3 i (by omega) (storeCs 65 2 i s)) s

/-- One undone step of `hasCollided`, sha1cdblock_generic.go:197-202, 205-210, 213-218, 222-228:
rotate the tuple, and if `step > i` undo the rotation of `b` and subtract from `e`. -/
def undo (f : Word → Word → Word → Word) (k : Word) (step : Word) (i : Nat) (m2 : Word) (s : Regs) :
    Regs :=
  let ⟨a, b, c, d, e⟩ : Regs := ⟨s.b, s.c, s.d, s.e, s.a⟩
  if step.toNat > i then
    let b := rotateLeft32 b (-30)
    let f := f b c d
    let e := e - (rotateLeft32 a 5 + f + k + m2)
    ⟨a, b, c, d, e⟩
  else ⟨a, b, c, d, e⟩

/-- One recomputed step of `hasCollided`, sha1cdblock_generic.go:247-251, 254-258. -/
def redo (f : Word → Word → Word → Word) (k : Word) (step : Word) (i : Nat) (m2 : Word) (s : Regs) :
    Regs :=
  let ⟨a, b, c, d, e⟩ := s
  if step.toNat ≤ i then
    let f := f b c d
    let t := rotateLeft32 a 5 + f + e + k + m2
    ⟨t, a, rotateLeft32 b 30, c, d⟩
  else s

/-- sha1cdblock_generic.go:186-273.  Simplification: the last backward loop runs `i` from 20 down to 1
and uses `j := i - 1`; the model runs `j` from 19 down to 0. -/
def hasCollided (step : Word) (m1 dm : Fin 80 → Word) (state h : Regs) : Bool :=
  let s := state
  let s := loopDown 60 5 (fun i _ hi s => undo fPar K3 step i (m1 ⟨i, by omega⟩ ^^^ dm ⟨i, by omega⟩) s) s
  let s := loopDown 40 20 (fun i _ hi s => undo fMaj K2 step i (m1 ⟨i, by omega⟩ ^^^ dm ⟨i, by omega⟩) s) s
  let s := loopDown 20 20 (fun i _ hi s => undo fPar K1 step i (m1 ⟨i, by omega⟩ ^^^ dm ⟨i, by omega⟩) s) s
  let ihv := loopDown 0 20 (fun j _ hi s => undo fCh K0 step j (m1 ⟨j, by omega⟩ ^^^ dm ⟨j, by omega⟩) s) s
  let s := state
  let s := loopUp 40 20 (fun i _ hi s => redo fMaj K2 step i (m1 ⟨i, by omega⟩ ^^^ dm ⟨i, by omega⟩) s) s
  let s := loopUp 60 20 (fun i _ hi s => redo fPar K3 step i (m1 ⟨i, by omega⟩ ^^^ dm ⟨i, by omega⟩) s) s
  let ihv := ihv.add s
  if ((ihv.a ^^^ h.a) ||| (ihv.b ^^^ h.b) ||| (ihv.c ^^^ h.c) ||| (ihv.d ^^^ h.d) |||
      (ihv.e ^^^ h.e)) = 0 then true else false

/-- The `switch dvs[i].TestT`, sha1cdblock_generic.go:156-166. -/
def selectCs (cs : Fin 3 → Regs) (testT : Word) : GoM Regs :=
  if testT = 58 then pure (cs 1)
  else if testT = 65 then pure (cs 2)
  else if testT = 0 then pure (cs 0)
  else throw Panic.badTestT

/-- The loop of `checkCollision`, sha1cdblock_generic.go:154-180.  Running off the end of the table
(no entry with `DvType == 0`) is an index panic; a `TestT` other than 58, 65, 0 panics. -/
def scanDvs (mask : Word) (m1 : Fin 80 → Word) (cs : Fin 3 → Regs) (h : Regs) :
    List DvInfo → GoM Bool
  | [] => throw .indexOutOfRange
  | dv :: rest =>
    if dv.DvType ≠ 0 then
      if mask &&& ((1#32) <<< dv.MaskB.toNat) ≠ 0 then do
        let csState ← selectCs cs dv.TestT
        let col := hasCollided dv.TestT m1 dv.Dm csState h
        if col then pure true else scanDvs mask m1 cs h rest
      else scanDvs mask m1 cs h rest
    else pure false

/-- sha1cdblock_generic.go:146-183. -/
def checkCollision (dvs : List DvInfo) (m1 : Fin 80 → Word) (cs : Fin 3 → Regs) (h : Regs) :
    GoM Bool :=
  let mask := Ubc.calculateDvMask (some m1)
  if mask ≠ 0 then scanDvs mask m1 cs h dvs else pure false

/-- sha1cdblock_generic.go:275-312; the early return for `cs == nil` is not modelled (no caller passes
nil). -/
def rectifyCompressionState (m1 : Fin 80 → Word) (cs : Fin 3 → Regs) : Fin 3 → Regs :=
  let func3 := fun (state : Regs) (i : Fin 80) =>
    let ⟨a, b, c, d, e⟩ := state
    let f := fMaj b c d
    let t := rotateLeft32 a 5 + f + e + m1 i + K2
    (⟨t, a, rotateLeft32 b 30, c, d⟩ : Regs)
  let func4 := fun (state : Regs) (i : Fin 80) =>
    let ⟨a, b, c, d, e⟩ := state
    let f := fPar b c d
    let t := rotateLeft32 a 5 + f + e + m1 i + K3
    (⟨t, a, rotateLeft32 b 30, c, d⟩ : Regs)
  let cs57 := func3 (cs 1) 56
  let cs := upd cs 1 (func3 cs57 57)
  upd cs 2 (func4 (cs 2) 64)

/-- The variables of `blockGeneric` that survive from one chunk to the next
(sha1cdblock_generic.go:23-30), plus `dig.col`. -/
structure BlockState where
  w : Fin 16 → Word
  cs : Fin 3 → Regs
  h : Regs
  col : Bool

/-- From the label `rehash` to the end of a chunk, sha1cdblock_generic.go:40-137; `goto rehash` is the
recursive call.  `m1` is declared outside the label (line 32) and is overwritten completely. -/
def rehash (dvs : List DvInfo) (p : List Byte) (hp : 64 ≤ p.length) (hi : Nat)
    (m1 : Fin 80 → Word) (st : BlockState) : GoM BlockState :=
  let r := rounds p hp st.h { w := st.w, m1 := m1, r := st.h, cs := st.cs }
  let h := st.h.add r.r
  let st := { st with w := r.w, cs := r.cs, h := h }
  if hi = 2 then
    rehash dvs p hp (hi + 1) r.m1 st
  else if hi = 1 then do
    let col ← checkCollision dvs r.m1 st.cs st.h
    if col then rehash dvs p hp (hi + 1) r.m1 { st with col := true }
    else pure st
  else pure st
termination_by 3 - hi

/-- The chunk loop, sha1cdblock_generic.go:31-140. -/
def blockLoop (dvs : List DvInfo) (st : BlockState) (p : List Byte) : GoM BlockState :=
  if hp : 64 ≤ p.length then do
    let st ← rehash dvs p hp 1 (fun _ => 0) st
    blockLoop dvs st (p.drop 64)
  else pure st
termination_by p.length
decreasing_by simp; omega

/-- The part of a digest that a block function reads and writes: `dig.h` and `dig.col`. -/
structure Core where
  h : Regs
  col : Bool
deriving DecidableEq, Repr

/-- `blockGeneric(dig, p)`, sha1cdblock_generic.go:22-143. -/
def blockGeneric (dvs : List DvInfo) (dig : Core) (p : List Byte) : GoM Core := do
  let st ← blockLoop dvs
    { w := fun _ => 0, cs := fun _ => ⟨0, 0, 0, 0, 0⟩, h := dig.h, col := dig.col } p
  pure { h := st.h, col := st.col }

end Verif.Model
