import Verif.Model.Block

/-!
What the two assembly block functions (sha1cdblock_amd64.s, sha1cdblock_arm64.s) share: 128-bit registers and
the memory they see.
-/

namespace Verif.Model

open Verif

/-- A 128-bit register as four 32-bit lanes, `l0` in bits 31:0 (sha1cdblock_amd64.s:16-266, sha1cdblock_arm64.s:15-243). -/
@[ext] structure Vec where
  l3 : Word
  l2 : Word
  l1 : Word
  l0 : Word
deriving DecidableEq, Repr

/-- The lane with number `i` (modulo 4)
(sha1cdblock_amd64.s:17,22,47,56,174,180,200,206,261,263, sha1cdblock_arm64.s:61,63,79,82,121,162). -/
def Vec.lane (v : Vec) (i : Nat) : Word :=
  match i % 4 with
  | 0 => v.l0
  | 1 => v.l1
  | 2 => v.l2
  | _ => v.l3

/-- The register with byte `i` (bits 8i+7:8i) equal to `b i` (sha1cdblock_amd64.s:60-88, sha1cdblock_arm64.s:51-69). -/
def Vec.ofBytes (b : Nat → Byte) : Vec :=
  ⟨b 15 ++ b 14 ++ b 13 ++ b 12, b 11 ++ b 10 ++ b 9 ++ b 8, b 7 ++ b 6 ++ b 5 ++ b 4,
    b 3 ++ b 2 ++ b 1 ++ b 0⟩

/-- Byte `i` of the register (sha1cdblock_amd64.s:61,69,78,88, sha1cdblock_arm64.s:66-69). -/
def Vec.byte (v : Vec) (i : Nat) : Byte := (v.lane (i / 4)).extractLsb' (8 * (i % 4)) 8

/-- The register with the given low and high 64 bits (sha1cdblock_amd64.s:268-274). -/
def Vec.ofQwords (lo hi : Word64) : Vec :=
  ⟨hi.extractLsb' 32 32, hi.extractLsb' 0 32, lo.extractLsb' 32 32, lo.extractLsb' 0 32⟩

/-- Lane-wise operation (sha1cdblock_amd64.s:46,62,83,253, sha1cdblock_arm64.s:83,235-236). -/
def Vec.map2 (f : Word → Word → Word) (v w : Vec) : Vec :=
  ⟨f v.l3 w.l3, f v.l2 w.l2, f v.l1 w.l1, f v.l0 w.l0⟩

/-- The rotation of a 32-bit word, as in the descriptions of the SHA instructions
(sha1cdblock_amd64.s:64-252, sha1cdblock_arm64.s:16-27,84-206). -/
def rol (n : Nat) (x : Word) : Word := (x <<< n) ||| (x >>> (32 - n))

/-- The arrays whose addresses are passed to the block function, and its stack frame
(sha1cdblock_amd64.s:25-32, sha1cdblock_arm64.s:30-36). -/
inductive Region where
  /-- `dig.h[:]`, five words -/
  | h
  /-- the 64-byte chunk -/
  | p
  /-- `m1[:]`, eighty words -/
  | m1
  /-- `cs[:]`, three times five words -/
  | cs
  /-- the frame -/
  | stack
deriving DecidableEq, Repr

/-- A general-purpose register: a number, or an address inside an array given by the offset from its
start.  For `Region.stack` the offset is the absolute address. -/
inductive Val where
  | int (v : Word64)
  | ptr (r : Region) (off : Word64)
deriving DecidableEq, Repr

/-- Addition; adding two addresses is meaningless (sha1cdblock_amd64.s:35,38,256, sha1cdblock_arm64.s:40,44). -/
def Val.add : Val → Val → GoM Val
  | .int a, .int b => pure (.int (a + b))
  | .ptr r a, .int b => pure (.ptr r (a + b))
  | .int a, .ptr r b => pure (.ptr r (a + b))
  | .ptr _ _, .ptr _ _ => throw .fault

/-- The memory.  Simplifications: the arrays do not overlap (Go passes `dig.h`, the caller's chunk or
`dig.x`, and two local arrays); word arrays are accessed at multiples of four bytes only; the stack frame is
accessed in aligned units of sixteen bytes only, so it is a map from addresses to registers.  Any other access
is a `fault`. -/
structure Mem where
  h : Fin 5 → Word
  p : List Byte
  m1 : Fin 80 → Word
  cs : Fin 15 → Word
  stack : Word64 → Vec

/-- Read a word of an array at a byte offset (sha1cdblock_amd64.s:44, sha1cdblock_arm64.s:43). -/
def rdW {n : Nat} (f : Fin n → Word) (off : Nat) : GoM Word :=
  if h : off % 4 = 0 ∧ off / 4 < n then pure (f ⟨off / 4, h.2⟩) else throw .fault

/-- Write a word of an array at a byte offset (sha1cdblock_amd64.s:19,263, sha1cdblock_arm64.s:79,194,210,241). -/
def wrW {n : Nat} (f : Fin n → Word) (off : Nat) (v : Word) : GoM (Fin n → Word) :=
  if h : off % 4 = 0 ∧ off / 4 < n then pure (upd f ⟨off / 4, h.2⟩ v) else throw .fault

/-- Read four consecutive words, lowest address in the lowest lane (sha1cdblock_amd64.s:45, sha1cdblock_arm64.s:42). -/
def rdV {n : Nat} (f : Fin n → Word) (off : Nat) : GoM Vec := do
  let w0 ← rdW f off
  let w1 ← rdW f (off + 4)
  let w2 ← rdW f (off + 8)
  let w3 ← rdW f (off + 12)
  pure ⟨w3, w2, w1, w0⟩

/-- Write four consecutive words (sha1cdblock_amd64.s:18,23,262, sha1cdblock_arm64.s:72-78,240). -/
def wrV {n : Nat} (f : Fin n → Word) (off : Nat) (v : Vec) : GoM (Fin n → Word) := do
  let f ← wrW f off v.l0
  let f ← wrW f (off + 4) v.l1
  let f ← wrW f (off + 8) v.l2
  wrW f (off + 12) v.l3

/-- Read sixteen bytes of the chunk (sha1cdblock_amd64.s:60,68,77,87, sha1cdblock_arm64.s:51-54). -/
def rdP (p : List Byte) (off : Nat) : GoM Vec :=
  if off + 16 ≤ p.length then pure (Vec.ofBytes fun i => p.getD (off + i) 0) else throw .fault

/-- A `[5]uint32` as the array seen by the assembly code
(sha1cdblock_amd64.go:39,46-47, sha1cdblock_arm64.go:35,42-43, the argument dig.h[:]). -/
def flat5 (s : Regs) : Fin 5 → Word := fun i =>
  match i with
  | 0 => s.a
  | 1 => s.b
  | 2 => s.c
  | 3 => s.d
  | 4 => s.e

/-- And back (sha1cdblock_amd64.go:39,46-47, sha1cdblock_arm64.go:35,42-43). -/
def unflat5 (f : Fin 5 → Word) : Regs := ⟨f 0, f 1, f 2, f 3, f 4⟩

/-- A `[3][5]uint32` as fifteen consecutive words
(sha1cdblock_amd64.go:39,46-47, sha1cdblock_arm64.go:35,42-43, the argument cs[:]). -/
def flat15 (cs : Fin 3 → Regs) : Fin 15 → Word := fun i =>
  flat5 (cs ⟨i / 5, by omega⟩) ⟨i % 5, by omega⟩

/-- And back (sha1cdblock_amd64.go:39,46-47, sha1cdblock_arm64.go:35,42-43). -/
def unflat15 (f : Fin 15 → Word) : Fin 3 → Regs := fun j =>
  ⟨f ⟨5 * j, by omega⟩, f ⟨5 * j + 1, by omega⟩, f ⟨5 * j + 2, by omega⟩, f ⟨5 * j + 3, by omega⟩,
    f ⟨5 * j + 4, by omega⟩⟩

/-- What an assembly block function gives back to Go: `h`, `m1` and `cs`
(sha1cdblock_amd64.go:19-23, sha1cdblock_arm64.go:15-19). -/
structure AsmOut where
  h : Regs
  m1 : Fin 80 → Word
  cs : Fin 3 → Regs

/-- The loop around the assembly block function, sha1cdblock_amd64.go:34-51 and sha1cdblock_arm64.go:30-47
(the same code).  `asm k` is the `k`-th call of the assembly function. -/
def simdLoop (asm : Nat → Regs → List Byte → (Fin 80 → Word) → (Fin 3 → Regs) → GoM AsmOut)
    (dvs : List DvInfo) (k : Nat) (m1 : Fin 80 → Word) (cs : Fin 3 → Regs) (dig : Core) (p : List Byte) :
    GoM Core :=
  if 64 ≤ p.length then do
    let chunk := p.take 64
    let o ← asm k dig.h chunk m1 cs
    let cs := rectifyCompressionState o.m1 o.cs
    let col ← checkCollision dvs o.m1 cs o.h
    if col then do
      let o ← asm (k + 1) o.h chunk o.m1 cs
      let o ← asm (k + 2) o.h chunk o.m1 o.cs
      simdLoop asm dvs (k + 3) o.m1 o.cs ⟨o.h, true⟩ (p.drop 64)
    else simdLoop asm dvs (k + 1) o.m1 cs ⟨o.h, dig.col⟩ (p.drop 64)
  else pure dig
termination_by p.length
decreasing_by all_goals simp; omega

/-- `block` of a SIMD build when the instructions are available: `m1` and `cs` start zeroed
(sha1cdblock_amd64.go:31-32, sha1cdblock_arm64.go:27-28). -/
def simdBlock (asm : Nat → Regs → List Byte → (Fin 80 → Word) → (Fin 3 → Regs) → GoM AsmOut)
    (dvs : List DvInfo) (dig : Core) (p : List Byte) : GoM Core :=
  simdLoop asm dvs 0 (fun _ => 0) (fun _ => ⟨0, 0, 0, 0, 0⟩) dig p

end Verif.Model
