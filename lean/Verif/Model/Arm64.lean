import Verif.Model.Asm

/-!
The block function using the ARMv8 SHA1 instructions, sha1cdblock_arm64.s, as a program for a small machine.

The semantics of the instructions is that of the Arm Architecture Reference Manual.  In Go's assembler the
destination is the last operand.  Not modelled: flags other than the outcome of the one comparison, instruction
encodings, the frame (declared but never used).
-/

namespace Verif.Model.Arm64

open Verif Verif.Model

/-- The vector registers used, sha1cdblock_arm64.s:15-241 (F20 is the low part of V20). -/
inductive V where
  | v0 | v1 | v2 | v3 | v4 | v5 | v6 | v7 | v16 | v17 | v18 | v19 | v20
deriving DecidableEq, Repr

/-- The general-purpose registers used, sha1cdblock_arm64.s:32-241; R22 only ever holds the address of the
constants and is left out. -/
inductive G where
  | r0 | r1 | r2 | r3 | r4 | r16 | r21
deriving DecidableEq, Repr

/-- The arguments read through FP, sha1cdblock_arm64.s:32-36. -/
inductive Arg where
  | hbase | pbase | plen | m1base | csbase
deriving DecidableEq, Repr

/-- The instructions used in sha1cdblock_arm64.s:15-241.  `vld1Ks` stands for the pair of lines 57-58, which
loads the sixteen bytes at `·sha1Ks`. -/
inductive Instr where
  | movdArg (a : Arg) (d : G)
  | lsr (n : Nat) (s d : G)
  | lsl (n : Nat) (s d : G)
  | add (a b d : G)
  | subImm (n : Nat) (s d : G)
  | vld1P (s : G) (d : V)
  | vld1Ks (d : V)
  | fmovsLoad (s : G) (d : V)
  | fmovsStore (s : V) (d : G)
  | vmov (s d : V)
  | vmovS0 (s d : V)
  | vdup (s : V) (i : Nat) (d : V)
  | vrev32 (s d : V)
  | vst1P (s : V) (d : G)
  | vst1S0P (s : V) (d : G)
  | vadd (a b d : V)
  | sha1c (m n d : V)
  | sha1p (m n d : V)
  | sha1m (m n d : V)
  | sha1h (n d : V)
  | sha1su0 (m n d : V)
  | sha1su1 (n d : V)

/-- The machine: registers, memory and the length argument (sha1cdblock_arm64.s:31-36). -/
structure St where
  v : V → Vec
  g : G → Val
  mem : Mem
  plen : Word64

/-- Write a vector register (sha1cdblock_arm64.s:42-236, every instruction with a V register as destination). -/
def setV (v : V → Vec) (r : V) (x : Vec) : V → Vec := fun q => if q = r then x else v q

/-- Write a vector register (sha1cdblock_arm64.s:42-236, every instruction with a V register as destination). -/
def St.setV (s : St) (r : V) (x : Vec) : St := { s with v := Arm64.setV s.v r x }

/-- Write a general-purpose register (sha1cdblock_arm64.s:32-44,57). -/
def St.setG (s : St) (r : G) (v : Val) : St := { s with g := fun q => if q = r then v else s.g q }

/-- Load sixteen bytes from `(r)`.  Byte loads (`.B16`, from the chunk) and word loads (`.S4`) put the same bits
into the register on a little-endian machine (sha1cdblock_arm64.s:42,51-54,58). -/
def St.load (s : St) (r : G) : GoM Vec :=
  match s.g r with
  | .ptr .h o => rdV s.mem.h o.toNat
  | .ptr .p o => rdP s.mem.p o.toNat
  | .ptr .m1 o => rdV s.mem.m1 o.toNat
  | .ptr .cs o => rdV s.mem.cs o.toNat
  | _ => throw .fault

/-- Store sixteen bytes to `(r)`; the chunk is never written
(sha1cdblock_arm64.s:72-78,94,102,110,118,127,135,143,151,159,168,176,184,193,209,217-220,240). -/
def St.store (s : St) (x : Vec) (r : G) : GoM St :=
  match s.g r with
  | .ptr .h o => do
    let f ← wrV s.mem.h o.toNat x
    pure { s with mem := { s.mem with h := f } }
  | .ptr .m1 o => do
    let f ← wrV s.mem.m1 o.toNat x
    pure { s with mem := { s.mem with m1 := f } }
  | .ptr .cs o => do
    let f ← wrV s.mem.cs o.toNat x
    pure { s with mem := { s.mem with cs := f } }
  | _ => throw .fault

/-- Load four bytes from `(r)` (sha1cdblock_arm64.s:43). -/
def St.loadS (s : St) (r : G) : GoM Word :=
  match s.g r with
  | .ptr .h o => rdW s.mem.h o.toNat
  | .ptr .m1 o => rdW s.mem.m1 o.toNat
  | .ptr .cs o => rdW s.mem.cs o.toNat
  | _ => throw .fault

/-- Store four bytes to `(r)` (sha1cdblock_arm64.s:79,194,210,241). -/
def St.storeS (s : St) (w : Word) (r : G) : GoM St :=
  match s.g r with
  | .ptr .h o => do
    let f ← wrW s.mem.h o.toNat w
    pure { s with mem := { s.mem with h := f } }
  | .ptr .m1 o => do
    let f ← wrW s.mem.m1 o.toNat w
    pure { s with mem := { s.mem with m1 := f } }
  | .ptr .cs o => do
    let f ← wrW s.mem.cs o.toNat w
    pure { s with mem := { s.mem with cs := f } }
  | _ => throw .fault

/-- The post-increment of an address register (`.P`): by the number of bytes transferred
(sha1cdblock_arm64.s:42,51-54,72-79,94,240). -/
def St.bump (s : St) (r : G) (n : Word64) : GoM St := do
  let v ← (s.g r).add (.int n)
  pure (s.setG r v)

/-- DUP (element) (sha1cdblock_arm64.s:63,82,121,162). -/
def dup (x : Vec) (i : Nat) : Vec := ⟨x.lane i, x.lane i, x.lane i, x.lane i⟩

/-- The bytes of a word reversed (sha1cdblock_arm64.s:66-69). -/
def rev (w : Word) : Word :=
  w.extractLsb' 0 8 ++ w.extractLsb' 8 8 ++ w.extractLsb' 16 8 ++ w.extractLsb' 24 8

/-- REV32 on bytes (sha1cdblock_arm64.s:66-69). -/
def vrev32 (x : Vec) : Vec := ⟨rev x.l3, rev x.l2, rev x.l1, rev x.l0⟩

/-- SHAchoose (sha1cdblock_arm64.s:16). -/
def shaChoose (x y z : Word) : Word := ((y ^^^ z) &&& x) ^^^ z

/-- SHAparity (sha1cdblock_arm64.s:21). -/
def shaParity (x y z : Word) : Word := x ^^^ y ^^^ z

/-- SHAmajority (sha1cdblock_arm64.s:26). -/
def shaMajority (x y z : Word) : Word := (x &&& y) ||| ((x ||| y) &&& z)

/-- One of the four iterations of SHA1C, SHA1P, SHA1M on `(Y, X)`, with `A` in lane 0 of `X` (sha1cdblock_arm64.s:16,21,26). -/
def shaStep (f : Word → Word → Word → Word) (w : Word) (y : Word × Vec) : Word × Vec :=
  let x := y.2
  let t := f x.l1 x.l2 x.l3
  let e := y.1 + rol 5 x.l0 + t + w
  (x.l3, ⟨x.l2, rol 30 x.l1, x.l0, e⟩)

/-- SHA1C, SHA1P and SHA1M: `d` holds A, B, C, D, lane 0 of `n` E, `m` the four words (sha1cdblock_arm64.s:16,21,26). -/
def shaUpdate (f : Word → Word → Word → Word) (d n m : Vec) : Vec :=
  (shaStep f m.l3 (shaStep f m.l2 (shaStep f m.l1 (shaStep f m.l0 (n.l0, d))))).2

/-- SHA1H; the upper lanes of the destination become zero (sha1cdblock_arm64.s:17,22,27). -/
def sha1h (n : Vec) : Vec := ⟨0, 0, 0, rol 30 n.l0⟩

/-- SHA1SU0 (sha1cdblock_arm64.s:84,90,98,106,114,123,131,139,147,155,164,172,180,188,198,204). -/
def sha1su0 (d n m : Vec) : Vec :=
  ⟨n.l1 ^^^ d.l3 ^^^ m.l3, n.l0 ^^^ d.l2 ^^^ m.l2, d.l3 ^^^ d.l1 ^^^ m.l1, d.l2 ^^^ d.l0 ^^^ m.l0⟩

/-- SHA1SU1 (sha1cdblock_arm64.s:86,92,100,108,116,125,133,141,149,157,166,174,182,190,200,206). -/
def sha1su1 (d n : Vec) : Vec :=
  let t0 := d.l0 ^^^ n.l1
  let t1 := d.l1 ^^^ n.l2
  let t2 := d.l2 ^^^ n.l3
  let t3 := d.l3
  ⟨rol 1 t3 ^^^ rol 2 t0, rol 1 t2, rol 1 t1, rol 1 t0⟩

/-- `·sha1Ks`, sha1cdblock_arm64.s:245-249. -/
def sha1Ks : Vec := ⟨0xCA62C1D6, 0x8F1BBCDC, 0x6ED9EBA1, 0x5A827999⟩

/-- One instruction of sha1cdblock_arm64.s. -/
def exec (s : St) : Instr → GoM St
  | .movdArg .hbase d => pure (s.setG d (.ptr .h 0))
  | .movdArg .pbase d => pure (s.setG d (.ptr .p 0))
  | .movdArg .plen d => pure (s.setG d (.int s.plen))
  | .movdArg .m1base d => pure (s.setG d (.ptr .m1 0))
  | .movdArg .csbase d => pure (s.setG d (.ptr .cs 0))
  | .lsr n a d =>
    match s.g a with
    | .int v => pure (s.setG d (.int (v >>> n)))
    | .ptr _ _ => throw .fault
  | .lsl n a d =>
    match s.g a with
    | .int v => pure (s.setG d (.int (v <<< n)))
    | .ptr _ _ => throw .fault
  | .add a b d => do
    let v ← (s.g b).add (s.g a)
    pure (s.setG d v)
  | .subImm n a d => do
    let v ← (s.g a).add (.int (-BitVec.ofNat 64 n))
    pure (s.setG d v)
  | .vld1P a d => do
    let x ← s.load a
    (s.setV d x).bump a 16
  | .vld1Ks d => pure (s.setV d sha1Ks)
  | .fmovsLoad a d => do
    let w ← s.loadS a
    pure (s.setV d ⟨0, 0, 0, w⟩)
  | .fmovsStore a d => s.storeS (s.v a).l0 d
  | .vmov a d => pure (s.setV d (s.v a))
  | .vmovS0 a d => pure (s.setV d ⟨0, 0, 0, (s.v a).l0⟩)
  | .vdup a i d => pure (s.setV d (dup (s.v a) i))
  | .vrev32 a d => pure (s.setV d (vrev32 (s.v a)))
  | .vst1P a d => do
    let s ← s.store (s.v a) d
    s.bump d 16
  | .vst1S0P a d => do
    let s ← s.storeS (s.v a).l0 d
    s.bump d 4
  | .vadd a b d => pure (s.setV d (Vec.map2 (· + ·) (s.v b) (s.v a)))
  | .sha1c m n d => pure (s.setV d (shaUpdate shaChoose (s.v d) (s.v n) (s.v m)))
  | .sha1p m n d => pure (s.setV d (shaUpdate shaParity (s.v d) (s.v n) (s.v m)))
  | .sha1m m n d => pure (s.setV d (shaUpdate shaMajority (s.v d) (s.v n) (s.v m)))
  | .sha1h n d => pure (s.setV d (sha1h (s.v n)))
  | .sha1su0 m n d => pure (s.setV d (sha1su0 (s.v d) (s.v n) (s.v m)))
  | .sha1su1 n d => pure (s.setV d (sha1su1 (s.v d) (s.v n)))

/-- A straight-line sequence (sha1cdblock_arm64.s:32-44,51-241). -/
def execs (s : St) : List Instr → GoM St
  | [] => pure s
  | i :: is => do
    let s ← exec s i
    execs s is

/-- sha1cdblock_arm64.s:15-18: the macro HASHUPDATECHOOSE. -/
def hashUpdateChoose : List Instr :=
  [.sha1c .v16 .v1 .v2, .sha1h .v3 .v1, .vmov .v2 .v3]

/-- sha1cdblock_arm64.s:20-23: the macro HASHUPDATEPARITY. -/
def hashUpdateParity : List Instr :=
  [.sha1p .v16 .v1 .v2, .sha1h .v3 .v1, .vmov .v2 .v3]

/-- sha1cdblock_arm64.s:25-28: the macro HASHUPDATEMAJ. -/
def hashUpdateMaj : List Instr :=
  [.sha1m .v16 .v1 .v2, .sha1h .v3 .v1, .vmov .v2 .v3]

/-- sha1cdblock_arm64.s:32-36: load the arguments. -/
def argLoads : List Instr :=
  [.movdArg .hbase .r0, .movdArg .pbase .r1, .movdArg .plen .r2, .movdArg .m1base .r3, .movdArg .csbase .r4]

/-- sha1cdblock_arm64.s:38-44: end pointer and hash state. -/
def setup : List Instr :=
  [.lsr 6 .r2 .r2, .lsl 6 .r2 .r2, .add .r16 .r2 .r21, .vld1P .r0 .v0, .fmovsLoad .r0 .v20,
    .subImm 16 .r0 .r0]

/-- sha1cdblock_arm64.s:51-79: load the chunk, the constants and the state; store W[0..15] and `cs[0]`. -/
def loads : List Instr :=
  [.vld1P .r1 .v4, .vld1P .r1 .v5, .vld1P .r1 .v6, .vld1P .r1 .v7, .vld1Ks .v19, .vmov .v0 .v2,
    .vmovS0 .v20 .v1, .vmov .v2 .v3, .vdup .v19 0 .v17, .vrev32 .v4 .v4, .vrev32 .v5 .v5, .vrev32 .v6 .v6,
    .vrev32 .v7 .v7, .vst1P .v4 .r3, .vst1P .v5 .r3, .vst1P .v6 .r3, .vst1P .v7 .r3, .vst1P .v0 .r4,
    .vst1S0P .v1 .r4]

/-- sha1cdblock_arm64.s:82-86: rounds 0-3. -/
def group0 : List Instr :=
  [.vdup .v19 1 .v18, .vadd .v17 .v4 .v16, .sha1su0 .v6 .v5 .v4] ++
  hashUpdateChoose ++
  [.sha1su1 .v7 .v4]

/-- sha1cdblock_arm64.s:89-94: rounds 4-7. -/
def group1 : List Instr :=
  [.vadd .v17 .v5 .v16, .sha1su0 .v7 .v6 .v5] ++
  hashUpdateChoose ++
  [.sha1su1 .v4 .v5, .vst1P .v4 .r3]

/-- sha1cdblock_arm64.s:97-102: rounds 8-11. -/
def group2 : List Instr :=
  [.vadd .v17 .v6 .v16, .sha1su0 .v4 .v7 .v6] ++
  hashUpdateChoose ++
  [.sha1su1 .v5 .v6, .vst1P .v5 .r3]

/-- sha1cdblock_arm64.s:105-110: rounds 12-15. -/
def group3 : List Instr :=
  [.vadd .v17 .v7 .v16, .sha1su0 .v5 .v4 .v7] ++
  hashUpdateChoose ++
  [.sha1su1 .v6 .v7, .vst1P .v6 .r3]

/-- sha1cdblock_arm64.s:113-118: rounds 16-19. -/
def group4 : List Instr :=
  [.vadd .v17 .v4 .v16, .sha1su0 .v6 .v5 .v4] ++
  hashUpdateChoose ++
  [.sha1su1 .v7 .v4, .vst1P .v7 .r3]

/-- sha1cdblock_arm64.s:121-127: rounds 20-23. -/
def group5 : List Instr :=
  [.vdup .v19 2 .v17, .vadd .v18 .v5 .v16, .sha1su0 .v7 .v6 .v5] ++
  hashUpdateParity ++
  [.sha1su1 .v4 .v5, .vst1P .v4 .r3]

/-- sha1cdblock_arm64.s:130-135: rounds 24-27. -/
def group6 : List Instr :=
  [.vadd .v18 .v6 .v16, .sha1su0 .v4 .v7 .v6] ++
  hashUpdateParity ++
  [.sha1su1 .v5 .v6, .vst1P .v5 .r3]

/-- sha1cdblock_arm64.s:138-143: rounds 28-31. -/
def group7 : List Instr :=
  [.vadd .v18 .v7 .v16, .sha1su0 .v5 .v4 .v7] ++
  hashUpdateParity ++
  [.sha1su1 .v6 .v7, .vst1P .v6 .r3]

/-- sha1cdblock_arm64.s:146-151: rounds 32-35. -/
def group8 : List Instr :=
  [.vadd .v18 .v4 .v16, .sha1su0 .v6 .v5 .v4] ++
  hashUpdateParity ++
  [.sha1su1 .v7 .v4, .vst1P .v7 .r3]

/-- sha1cdblock_arm64.s:154-159: rounds 36-39. -/
def group9 : List Instr :=
  [.vadd .v18 .v5 .v16, .sha1su0 .v7 .v6 .v5] ++
  hashUpdateParity ++
  [.sha1su1 .v4 .v5, .vst1P .v4 .r3]

/-- sha1cdblock_arm64.s:162-168: rounds 40-43 (the source comment says 44-47). -/
def group10 : List Instr :=
  [.vdup .v19 3 .v18, .vadd .v17 .v6 .v16, .sha1su0 .v4 .v7 .v6] ++
  hashUpdateMaj ++
  [.sha1su1 .v5 .v6, .vst1P .v5 .r3]

/-- sha1cdblock_arm64.s:171-176: rounds 44-47. -/
def group11 : List Instr :=
  [.vadd .v17 .v7 .v16, .sha1su0 .v5 .v4 .v7] ++
  hashUpdateMaj ++
  [.sha1su1 .v6 .v7, .vst1P .v6 .r3]

/-- sha1cdblock_arm64.s:179-184: rounds 48-51. -/
def group12 : List Instr :=
  [.vadd .v17 .v4 .v16, .sha1su0 .v6 .v5 .v4] ++
  hashUpdateMaj ++
  [.sha1su1 .v7 .v4, .vst1P .v7 .r3]

/-- sha1cdblock_arm64.s:187-194: rounds 52-55. -/
def group13 : List Instr :=
  [.vadd .v17 .v5 .v16, .sha1su0 .v7 .v6 .v5] ++
  hashUpdateMaj ++
  [.sha1su1 .v4 .v5, .vst1P .v3 .r4, .vst1S0P .v1 .r4]

/-- sha1cdblock_arm64.s:197-200: rounds 56-59. -/
def group14 : List Instr :=
  [.vadd .v17 .v6 .v16, .sha1su0 .v4 .v7 .v6] ++
  hashUpdateMaj ++
  [.sha1su1 .v5 .v6]

/-- sha1cdblock_arm64.s:203-210: rounds 60-63. -/
def group15 : List Instr :=
  [.vadd .v18 .v7 .v16, .sha1su0 .v5 .v4 .v7] ++
  hashUpdateParity ++
  [.sha1su1 .v6 .v7, .vst1P .v3 .r4, .vst1S0P .v1 .r4]

/-- sha1cdblock_arm64.s:213-220: rounds 64-67. -/
def group16 : List Instr :=
  [.vadd .v18 .v4 .v16] ++
  hashUpdateParity ++
  [.vst1P .v4 .r3, .vst1P .v5 .r3, .vst1P .v6 .r3, .vst1P .v7 .r3]

/-- sha1cdblock_arm64.s:223-224: rounds 68-71. -/
def group17 : List Instr :=
  [.vadd .v18 .v5 .v16] ++
  hashUpdateParity

/-- sha1cdblock_arm64.s:227-228: rounds 72-75. -/
def group18 : List Instr :=
  [.vadd .v18 .v6 .v16] ++
  hashUpdateParity

/-- sha1cdblock_arm64.s:231-232: rounds 76-79. -/
def group19 : List Instr :=
  [.vadd .v18 .v7 .v16] ++
  hashUpdateParity

/-- sha1cdblock_arm64.s:235-236: add the working registers to the hash state. -/
def addBack : List Instr :=
  [.vadd .v2 .v0 .v0, .vadd .v1 .v20 .v20]

/-- sha1cdblock_arm64.s:240-241: write the hash state back. -/
def writeBack : List Instr :=
  [.vst1P .v0 .r0, .fmovsStore .v20 .r0]

/-- The straight-line code between the branch and `end:`, sha1cdblock_arm64.s:50-236.  There is no branch back to
`loop:`, so it runs at most once. -/
def body : List Instr :=
  loads ++ group0 ++ group1 ++ group2 ++ group3 ++ group4 ++ group5 ++ group6 ++ group7 ++ group8 ++ group9 ++
    group10 ++ group11 ++ group12 ++ group13 ++ group14 ++ group15 ++ group16 ++ group17 ++ group18 ++
    group19 ++ addBack

/-- `CMP R16, R21; BLS end`, sha1cdblock_arm64.s:47-48: taken iff R21 ≤ R16 unsigned. -/
def skips (s : St) : GoM Bool :=
  match s.g .r16, s.g .r21 with
  | .int a, .int b => pure (decide (b.toNat ≤ a.toNat))
  | _, _ => throw .fault

/-- `blockARM64(h, p, m1, cs)`, sha1cdblock_arm64.s:31-243, started with arbitrary registers `s`; R16 is not an
argument register and is read without having been written (lines 40 and 47), so its value is a parameter. -/
def blockARM64 (s : St) (r16 : Word64) (h : Regs) (p : List Byte) (m1 : Fin 80 → Word) (cs : Fin 3 → Regs) :
    GoM AsmOut := do
  let s : St := { s with
    mem := { s.mem with h := flat5 h, p := p, m1 := m1, cs := flat15 cs }
    plen := BitVec.ofNat 64 p.length
    g := fun q => if q = .r16 then .int r16 else s.g q }
  let s ← execs s argLoads
  let s ← execs s setup
  let skip ← skips s
  let s ← if skip then pure s else execs s body
  let s ← execs s writeBack
  pure ⟨unflat5 s.mem.h, s.mem.m1, unflat15 s.mem.cs⟩

/-- `block` with the SHA1 instructions, sha1cdblock_arm64.go:21-48.  `s k` and `r16 k` are the machine contents
at the `k`-th call. -/
def block (s : Nat → St) (r16 : Nat → Word64) (dvs : List DvInfo) : Core → List Byte → GoM Core :=
  simdBlock (fun k => blockARM64 (s k) (r16 k)) dvs

end Verif.Model.Arm64
