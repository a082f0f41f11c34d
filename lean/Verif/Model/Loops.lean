import Verif.Model.Build

/-!
sha1cdblock_generic.go, the block functions of the assembly builds and the hashing methods of sha1cd.go once more, this
time with loops as the language defines them: counters are machine integers, conditions are evaluated before every
iteration, and array indices are checked when they are used.  Every iteration, every call of `CalculateDvMask`, which has
no loop, and every instruction of the assembly other than `CMP`, branches and `RET` costs one unit of a budget; a loop
that does not end exhausts every budget.

Simplifications: `int` has `n` bits (32 or 64, depending on the platform); lengths of slices are `Nat`; a label with
`goto` is a loop; straight-line code, including `CalculateDvMask`, is as in `Model/Block`, `Model/Ubc`, `Model/Digest`.
-/

namespace Verif.Model.Loops

open Verif Verif.Model

/-- The ways not to finish (sha1cdblock_generic.go:22-312, sha1cd.go:39-212). -/
inductive Stop where
  /-- the budget is used up -/
  | budget
  /-- a panic -/
  | panic (p : Panic)
deriving DecidableEq, Repr

/-- Go code that panics, or runs with a budget and returns what is left of it
(sha1cdblock_generic.go:22-312, sha1cd.go:39-212). -/
abbrev M := StateT Nat (Except Stop)

/-- Use one unit of the budget (sha1cdblock_generic.go:22-312, sha1cd.go:39-212). -/
def tick : M Unit := fun n =>
  match n with
  | 0 => .error .budget
  | n + 1 => .ok ((), n)

/-- `panic(p)` (sha1cdblock_generic.go:22-312, sha1cd.go:39-212). -/
def stop {α : Type} (p : Panic) : M α := fun _ => .error (.panic p)

/-- Code without loops (sha1cdblock_generic.go:22-312, sha1cd.go:39-212). -/
def lift {α : Type} (x : GoM α) : M α := fun n =>
  match x with
  | .ok a => .ok (a, n)
  | .error p => .error (.panic p)

/-- At most `fuel` iterations of `for cond { body }` (sha1cdblock_generic.go:31-142). -/
def whileFuel {S : Type} (cond : S → Bool) (body : S → M S) : Nat → S → M S
  | 0, s => if cond s then fun _ => .error .budget else pure s
  | fuel + 1, s =>
    if cond s then do
      tick
      let s ← body s
      whileFuel cond body fuel s
    else pure s

/-- `for cond { body }`.  Every iteration uses some of the budget, so that there are at most as many as the budget
allows (sha1cdblock_generic.go:31). -/
def whileLoop {S : Type} (cond : S → Bool) (body : S → M S) (s : S) : M S := fun n => whileFuel cond body n s n

/-- `for ; i < bound; i++ { body }`, `i` being an `int` (sha1cdblock_generic.go:51,63,74,85,101). -/
def forUp {n : Nat} {S : Type} (bound : BitVec n) (body : BitVec n → S → M S) (s : BitVec n × S) : M (BitVec n × S) :=
  whileLoop (fun s => s.1.slt bound) (fun s => do let t ← body s.1 s.2; pure (s.1 + 1, t)) s

/-- `for i := first; i < bound; i++ { body }`, `i` being a `uint32` (sha1cdblock_generic.go:246,253). -/
def forUpU {S : Type} (first bound : Word) (body : Word → S → M S) (s : S) : M S := do
  let (_, s) ← whileLoop (fun s => decide (s.1 < bound)) (fun s => do let t ← body s.1 s.2; pure (s.1 + 1, t)) (first, s)
  pure s

/-- `for i := first; i >= bound; i-- { body }`, `i` being a `uint32` (sha1cdblock_generic.go:196,204,212,220). -/
def forDownU {S : Type} (first bound : Word) (body : Word → S → M S) (s : S) : M S := do
  let (_, s) ← whileLoop (fun s => decide (s.1 ≥ bound)) (fun s => do let t ← body s.1 s.2; pure (s.1 - 1, t)) (first, s)
  pure s

/-- `a[i]` for an array; a negative `int` is above every bound as a `Nat` (sha1cdblock_generic.go:54-114,154-163). -/
def ld {n k : Nat} {α : Type} (a : Fin k → α) (i : BitVec n) : M α :=
  if h : i.toNat < k then pure (a ⟨i.toNat, h⟩) else stop .indexOutOfRange

/-- `a[i] = v` for an array (sha1cdblock_generic.go:54-114). -/
def st {n k : Nat} {α : Type} (a : Fin k → α) (i : BitVec n) (v : α) : M (Fin k → α) :=
  if h : i.toNat < k then pure (upd a ⟨i.toNat, h⟩ v) else stop .indexOutOfRange

/-- `p[j]` for a slice (sha1cdblock_generic.go:54,154). -/
def ldSlice {n : Nat} {α : Type} (p : List α) (j : BitVec n) : M α :=
  if h : j.toNat < p.length then pure p[j.toNat] else stop .indexOutOfRange

/-- sha1cdblock_generic.go:51-62, one iteration. -/
def body1 {n : Nat} (p : List Byte) (i : BitVec n) (s : RoundState) : M RoundState := do
  let j := i * 4
  let b0 ← ldSlice p j
  let b1 ← ldSlice p (j + 1)
  let b2 ← ldSlice p (j + 2)
  let b3 ← ldSlice p (j + 3)
  let w ← st s.w i ((b0.setWidth 32) <<< 24 ||| (b1.setWidth 32) <<< 16 ||| (b2.setWidth 32) <<< 8 ||| b3.setWidth 32)
  let ⟨a, b, c, d, e⟩ := s.r
  let f := (b &&& c) ||| (~~~b &&& d)
  let wi ← ld w (i &&& 0xf)
  let t := rotateLeft32 a 5 + f + e + wi + K0
  let wi ← ld w (i &&& 0xf)
  let m1 ← st s.m1 i wi
  pure { s with w := w, m1 := m1, r := ⟨t, a, rotateLeft32 b 30, c, d⟩ }

/-- sha1cdblock_generic.go:64-72,75-83,91-99,107-115, one iteration without the store to `cs`. -/
def bodyN {n : Nat} (f : Word → Word → Word → Word) (k : Word) (i : BitVec n) (s : RoundState) : M RoundState := do
  let w3 ← ld s.w ((i - 3) &&& 0xf)
  let w8 ← ld s.w ((i - 8) &&& 0xf)
  let w14 ← ld s.w ((i - 14) &&& 0xf)
  let w16 ← ld s.w (i &&& 0xf)
  let tmp := w3 ^^^ w8 ^^^ w14 ^^^ w16
  let w ← st s.w (i &&& 0xf) ((tmp <<< 1) ||| (tmp >>> (32 - 1)))
  let ⟨a, b, c, d, e⟩ := s.r
  let f := f b c d
  let wi ← ld w (i &&& 0xf)
  let t := rotateLeft32 a 5 + f + e + wi + k
  let wi ← ld w (i &&& 0xf)
  let m1 ← st s.m1 i wi
  pure { s with w := w, m1 := m1, r := ⟨t, a, rotateLeft32 b 30, c, d⟩ }

/-- sha1cdblock_generic.go:41-116. -/
def rounds (n : Nat) (p : List Byte) (h : Regs) (s : RoundState) : M RoundState := do
  let s := { s with r := h, cs := upd s.cs 0 h }
  let s ← forUp 16 (body1 p) ((0 : BitVec n), s)
  let s ← forUp 20 (bodyN (fun b c d => (b &&& c) ||| (~~~b &&& d)) K0) s
  let s ← forUp 40 (bodyN (fun b c d => b ^^^ c ^^^ d) K1) s
  let s ← forUp 60 (fun i s =>
    bodyN (fun b c d => ((b ||| c) &&& d) ||| (b &&& c)) K2 i (if i = 58 then { s with cs := upd s.cs 1 s.r } else s)) s
  let s ← forUp 80 (fun i s =>
    bodyN (fun b c d => b ^^^ c ^^^ d) K3 i (if i = 65 then { s with cs := upd s.cs 2 s.r } else s)) s
  pure s.2

/-- sha1cdblock_generic.go:197-202,205-210,213-218: one iteration with counter `i`; 222-228 with `j` for `i`. -/
def undoStep (f : Word → Word → Word → Word) (k : Word) (step : Word) (m1 dm : Fin 80 → Word) (i : Word) (s : Regs) :
    M Regs := do
  let ⟨a, b, c, d, e⟩ : Regs := ⟨s.b, s.c, s.d, s.e, s.a⟩
  if step > i then do
    let b := rotateLeft32 b (-30)
    let f := f b c d
    let m ← ld m1 i
    let x ← ld dm i
    let e := e - (rotateLeft32 a 5 + f + k + (m ^^^ x))
    pure ⟨a, b, c, d, e⟩
  else pure ⟨a, b, c, d, e⟩

/-- sha1cdblock_generic.go:247-251,254-258: one iteration. -/
def redoStep (f : Word → Word → Word → Word) (k : Word) (step : Word) (m1 dm : Fin 80 → Word) (i : Word) (s : Regs) :
    M Regs := do
  let ⟨a, b, c, d, e⟩ := s
  if step ≤ i then do
    let f := f b c d
    let m ← ld m1 i
    let x ← ld dm i
    let t := rotateLeft32 a 5 + f + e + k + (m ^^^ x)
    pure ⟨t, a, rotateLeft32 b 30, c, d⟩
  else pure s

/-- sha1cdblock_generic.go:186-273. -/
def hasCollided (step : Word) (m1 dm : Fin 80 → Word) (state h : Regs) : M Bool := do
  let s := state
  let s ← forDownU 64 60 (undoStep (fun b c d => b ^^^ c ^^^ d) K3 step m1 dm) s
  let s ← forDownU 59 40 (undoStep (fun b c d => ((b ||| c) &&& d) ||| (b &&& c)) K2 step m1 dm) s
  let s ← forDownU 39 20 (undoStep (fun b c d => b ^^^ c ^^^ d) K1 step m1 dm) s
  let ihv ← forDownU 20 1 (fun i => undoStep (fun b c d => (b &&& c) ||| (~~~b &&& d)) K0 step m1 dm (i - 1)) s
  let s := state
  let s ← forUpU 40 60 (redoStep (fun b c d => ((b ||| c) &&& d) ||| (b &&& c)) K2 step m1 dm) s
  let s ← forUpU 60 80 (redoStep (fun b c d => b ^^^ c ^^^ d) K3 step m1 dm) s
  let ihv := ihv.add s
  pure (if ((ihv.a ^^^ h.a) ||| (ihv.b ^^^ h.b) ||| (ihv.c ^^^ h.c) ||| (ihv.d ^^^ h.d) |||
      (ihv.e ^^^ h.e)) = 0 then true else false)

/-- The variables of the loop of `checkCollision`, sha1cdblock_generic.go:154-180: the counter, the entry `dvs[i]` that
the condition has read, and the result once it is returned. -/
structure Scan (n : Nat) where
  i : BitVec n
  entry : DvInfo
  found : Bool

/-- sha1cdblock_generic.go:155-179, and the increment and the read of `dvs[i]` for the next test of the condition. -/
def scanBody {n : Nat} (dvs : List DvInfo) (mask : Word) (m1 : Fin 80 → Word) (cs : Fin 3 → Regs) (h : Regs)
    (s : Scan n) : M (Scan n) := do
  let next : M (Scan n) := do
    let e ← ldSlice dvs (s.i + 1)
    pure { s with i := s.i + 1, entry := e }
  if mask &&& ((1#32) <<< s.entry.MaskB.toNat) ≠ 0 then do
    let csState ← lift (selectCs cs s.entry.TestT)
    let col ← hasCollided s.entry.TestT m1 s.entry.Dm csState h
    if col then pure { s with found := true } else next
  else next

/-- sha1cdblock_generic.go:146-183. -/
def checkCollision (n : Nat) (dvs : List DvInfo) (m1 : Fin 80 → Word) (cs : Fin 3 → Regs) (h : Regs) : M Bool := do
  tick
  let mask := Ubc.calculateDvMask (some m1)
  if mask ≠ 0 then do
    let e ← ldSlice dvs (0 : BitVec n)
    let s ← whileLoop (fun s => !s.found && decide (s.entry.DvType ≠ 0)) (scanBody dvs mask m1 cs h)
      ({ i := 0, entry := e, found := false } : Scan n)
    pure s.found
  else pure false

/-- The variables of one chunk, sha1cdblock_generic.go:23-33, and whether the label `rehash` is to be executed. -/
structure Chunk where
  w : Fin 16 → Word
  cs : Fin 3 → Regs
  h : Regs
  col : Bool
  m1 : Fin 80 → Word
  hi : Nat
  again : Bool

/-- From the label `rehash` to the next `goto` or the end of the chunk, sha1cdblock_generic.go:40-137. -/
def rehashBody (n : Nat) (dvs : List DvInfo) (p : List Byte) (s : Chunk) : M Chunk := do
  let r ← rounds n p s.h { w := s.w, m1 := s.m1, r := s.h, cs := s.cs }
  let s := { s with w := r.w, cs := r.cs, m1 := r.m1, h := s.h.add r.r }
  if s.hi = 2 then pure { s with hi := s.hi + 1 }
  else if s.hi = 1 then do
    let col ← checkCollision n dvs s.m1 s.cs s.h
    if col then pure { s with col := true, hi := s.hi + 1 } else pure { s with again := false }
  else pure { s with again := false }

/-- sha1cdblock_generic.go:31-140, one iteration: a chunk and the rest of `p`. -/
def chunkBody (n : Nat) (dvs : List DvInfo) (s : BlockState × List Byte) : M (BlockState × List Byte) := do
  let c ← whileLoop Chunk.again (rehashBody n dvs s.2)
    { w := s.1.w, cs := s.1.cs, h := s.1.h, col := s.1.col, m1 := fun _ => 0, hi := 1, again := true }
  pure (⟨c.w, c.cs, c.h, c.col⟩, s.2.drop 64)

/-- sha1cdblock_generic.go:22-143. -/
def blockGeneric (n : Nat) (dvs : List DvInfo) (dig : Core) (p : List Byte) : M Core := do
  let (s, _) ← whileLoop (fun s => decide (s.2.length ≥ 64)) (chunkBody n dvs)
    (⟨fun _ => 0, fun _ => ⟨0, 0, 0, 0, 0⟩, dig.h, dig.col⟩, p)
  pure { h := s.h, col := s.col }

/-- A straight-line sequence of assembly instructions (sha1cdblock_amd64.s:16-266, sha1cdblock_arm64.s:15-243). -/
def execs {S I : Type} (exec : S → I → GoM S) (s : S) : List I → M S
  | [] => pure s
  | i :: is => do
    tick
    let s ← lift (exec s i)
    execs exec s is

/-- `blockAMD64`, sha1cdblock_amd64.s:27-266, with the loop 50-258: `CMPQ SI, DX; JNE loop` is at its end. -/
def runAmd64 (s : Flat.Amd64.FSt) : M Flat.Amd64.FSt := do
  let s ← execs Flat.Amd64.exec s Amd64.argLoads
  if s.g .dx = 0 then pure s
  else do
    let s ← execs Flat.Amd64.exec s Amd64.setup
    let s ← execs Flat.Amd64.exec s Amd64.body
    let s ← whileLoop (fun s => decide (s.g .si ≠ s.g .dx)) (fun s => execs Flat.Amd64.exec s Amd64.body) s
    execs Flat.Amd64.exec s Amd64.writeBack

/-- A call of `blockAMD64`, sha1cdblock_amd64.go:39,46,47. -/
def callAmd64 (e : Flat.Amd64.Entry) (h : Regs) (p : List Byte) (m1 : Fin 80 → Word) (cs : Fin 3 → Regs) :
    M AsmOut := do
  let s ← runAmd64 ⟨e.x, fun q => if q = .sp then e.env.lay .frame else e.g q, e.r12, e.env.mem h p m1 cs, e.env.lay .args,
    Flat.Amd64.symAt e.env.lay⟩
  pure (e.env.out s.mem)

/-- `blockARM64`, sha1cdblock_arm64.s:31-243. -/
def runArm64 (s : Flat.Arm64.FSt) : M Flat.Arm64.FSt := do
  let s ← execs Flat.Arm64.exec s Arm64.argLoads
  let s ← execs Flat.Arm64.exec s Arm64.setup
  let s ← if (s.g .r21).toNat ≤ (s.g .r16).toNat then pure s else execs Flat.Arm64.exec s Arm64.body
  execs Flat.Arm64.exec s Arm64.writeBack

/-- A call of `blockARM64`, sha1cdblock_arm64.go:35,42,43. -/
def callArm64 (e : Flat.Arm64.Entry) (h : Regs) (p : List Byte) (m1 : Fin 80 → Word) (cs : Fin 3 → Regs) :
    M AsmOut := do
  let s ← runArm64 ⟨e.v, e.g, e.env.mem h p m1 cs, e.env.lay .args, e.env.lay .k0⟩
  pure (e.env.out s.mem)

/-- The variables of the loop around the assembly, sha1cdblock_amd64.go:31-34 and sha1cdblock_arm64.go:27-30, and the
number of calls made so far. -/
structure Simd where
  k : Nat
  m1 : Fin 80 → Word
  cs : Fin 3 → Regs
  dig : Core
  p : List Byte

/-- sha1cdblock_amd64.go:35-50, sha1cdblock_arm64.go:31-46: one iteration. -/
def simdBody (n : Nat) (asm : Nat → Regs → List Byte → (Fin 80 → Word) → (Fin 3 → Regs) → M AsmOut)
    (dvs : List DvInfo) (s : Simd) : M Simd := do
  let chunk := s.p.take 64
  let o ← asm s.k s.dig.h chunk s.m1 s.cs
  let cs := rectifyCompressionState o.m1 o.cs
  let col ← checkCollision n dvs o.m1 cs o.h
  if col then do
    let o ← asm (s.k + 1) o.h chunk o.m1 cs
    let o ← asm (s.k + 2) o.h chunk o.m1 o.cs
    pure ⟨s.k + 3, o.m1, o.cs, ⟨o.h, true⟩, s.p.drop 64⟩
  else pure ⟨s.k + 1, o.m1, cs, ⟨o.h, s.dig.col⟩, s.p.drop 64⟩

/-- sha1cdblock_amd64.go:31-51, sha1cdblock_arm64.go:27-47. -/
def simdBlock (n : Nat) (asm : Nat → Regs → List Byte → (Fin 80 → Word) → (Fin 3 → Regs) → M AsmOut)
    (dvs : List DvInfo) (dig : Core) (p : List Byte) : M Core := do
  let s ← whileLoop (fun s => decide (s.p.length ≥ 64)) (simdBody n asm dvs)
    ⟨0, fun _ => 0, fun _ => ⟨0, 0, 0, 0, 0⟩, dig, p⟩
  pure s.dig

/-- The code that is run: the portable block function (also in assembly builds, if `forceGeneric` is set or the CPU lacks
the instructions, sha1cdblock_amd64.go:26-29, sha1cdblock_arm64.go:22-25) or one of the assembly ones, with the contents
of the machine at each call as in `Build.amd64Flat` and `Build.arm64Flat`. -/
inductive Mach where
  | portable
  | amd64 (e : Nat → Flat.Amd64.Entry) (ok : ∀ k, (e k).env.Ok 80)
  | arm64 (e : Nat → Flat.Arm64.Entry) (ok : ∀ k, (e k).env.Ok 0) (r16 : ∀ k, ((e k).g .r16).toNat + 64 < 2 ^ 64)

/-- The build, sha1cdblock_noasm.go, sha1cdblock_amd64.go, sha1cdblock_arm64.go. -/
def Mach.build : Mach → Build
  | .portable => .noasm
  | .amd64 e ok => .amd64Flat false true e ok
  | .arm64 e ok r16 => .arm64Flat false true e ok r16

/-- `block`, sha1cdblock_noasm.go:5-7, sha1cdblock_amd64.go:25-52, sha1cdblock_arm64.go:21-48. -/
def block (n : Nat) : Mach → Core → List Byte → M Core
  | .portable => blockGeneric n sha1Dvs
  | .amd64 e _ => simdBlock n (fun k => callAmd64 (e k)) sha1Dvs
  | .arm64 e _ _ => simdBlock n (fun k => callArm64 (e k)) sha1Dvs

/-- A call of `block`, sha1cd.go:143,150. -/
def callBlock (n : Nat) (B : Mach) (d : Digest) (p : List Byte) : M Digest := do
  let c ← block n B ⟨d.h, d.col⟩ p
  pure { d with h := c.h, col := c.col }

/-- sha1cd.go:139-147. -/
def writeFill (n : Nat) (B : Mach) (d : Digest) (p : List Byte) : M (Digest × List Byte) :=
  if d.nx > 0 then
    if h : d.nx ≤ 64 then
      let k := min (64 - d.nx) p.length
      let d := { d with x := copyAt d.x d.nx h p, nx := d.nx + k }
      if d.nx = Model.Chunk then do
        let d ← callBlock n B d d.x.1
        pure ({ d with nx := 0 }, p.drop k)
      else pure (d, p.drop k)
    else stop .sliceOutOfRange
  else pure (d, p)

/-- sha1cd.go:148-152. -/
def writeBulk (n : Nat) (B : Mach) (d : Digest) (p : List Byte) : M (Digest × List Byte) :=
  if p.length ≥ Model.Chunk then do
    let k := p.length - (p.length &&& (Model.Chunk - 1))
    let d ← callBlock n B d (p.take k)
    pure (d, p.drop k)
  else pure (d, p)

/-- sha1cd.go:132-157. -/
def write (n : Nat) (B : Mach) (d : Digest) (p : List Byte) : M (Digest × Nat × Option Err) :=
  if p.length = 0 then pure (d, 0, none)
  else do
    let nn := p.length
    let d := { d with len := d.len + BitVec.ofNat 64 nn }
    let (d, p) ← writeFill n B d p
    let (d, p) ← writeBulk n B d p
    pure (d.writeTail p, nn, none)

/-- sha1cd.go:166-197. -/
def checkSum (n : Nat) (B : Mach) (d : Digest) : M (Digest × List Byte) := do
  let padlen ← lift (padding d.len)
  let (d, _) ← write n B d padlen
  if d.nx ≠ 0 then stop .nxNotZero
  else do
    let digest := List.replicate Size 0
    let digest ← lift (putAt digest 0 (bytes32 d.h.a))
    let digest ← lift (putAt digest 4 (bytes32 d.h.b))
    let digest ← lift (putAt digest 8 (bytes32 d.h.c))
    let digest ← lift (putAt digest 12 (bytes32 d.h.d))
    let digest ← lift (putAt digest 16 (bytes32 d.h.e))
    pure (d, digest)

/-- sha1cd.go:159-164. -/
def sum (n : Nat) (B : Mach) (d : Digest) (inp : List Byte) : M (Digest × List Byte) := do
  let d0 := d
  let (_, hash) ← checkSum n B d0
  pure (d, inp ++ hash)

/-- sha1cd.go:207-212. -/
def collisionResistantSum (n : Nat) (B : Mach) (d : Digest) (inp : List Byte) : M (Digest × List Byte × Bool) := do
  let d0 := d
  let (d0, hash) ← checkSum n B d0
  pure (d, inp ++ hash, d0.col)

/-- sha1cd.go:200-205. -/
def sumPkg (n : Nat) (B : Mach) (order : EvalOrder) (data : List Byte) : M (List Byte × Bool) := do
  let d := Digest.zero.reset
  let (d, _) ← write n B d data
  let (d', hash) ← checkSum n B d
  pure (hash, match order with | .callFirst => d'.col | .fieldFirst => d.col)

/-- One method call, sha1cd.go:39-212. -/
def call (n : Nat) (B : Mach) (d : Digest) : Op → M (Digest × Out)
  | .write p => do let (d, k, e) ← write n B d p; pure (d, .write k e)
  | .sum inp => do let (d, b) ← sum n B d inp; pure (d, .sum b)
  | .collisionResistantSum inp => do
    let (d, b, c) ← collisionResistantSum n B d inp; pure (d, .collisionResistantSum b c)
  | .reset => pure (d.reset, .reset)
  | .size => pure (d, .size d.size)
  | .blockSize => pure (d, .blockSize d.blockSize)
  | .marshalBinary => do let (d, b) ← lift d.marshalBinary; pure (d, .marshalBinary b none)
  | .unmarshalBinary b => do let (d, e) ← lift (d.unmarshalBinary b); pure (d, .unmarshalBinary e)

/-- A history of calls on one object (sha1cd.go:39-212). -/
def run (n : Nat) (B : Mach) (d : Digest) : List Op → M (Digest × List Out)
  | [] => pure (d, [])
  | op :: ops => do
    let (d, o) ← call n B d op
    let (d, os) ← run n B d ops
    pure (d, o :: os)

end Verif.Model.Loops
