import Verif.Model.Asm

/-!
The SHA-NI block function, sha1cdblock_amd64.s, as a program for a small machine.

The semantics of the instructions is that of the Intel SDM.  In Go's assembler the destination is the last
operand.  Not modelled: flags other than the outcome of the two comparisons, the upper halves of the YMM
registers, instruction encodings.
-/

namespace Verif.Model.Amd64

open Verif Verif.Model

/-- The XMM registers used, sha1cdblock_amd64.s:16-264. -/
inductive X where
  | x0 | x1 | x2 | x3 | x4 | x5 | x6 | x7 | x8
deriving DecidableEq, Repr

/-- The 64-bit general-purpose registers used, sha1cdblock_amd64.s:28-261. -/
inductive G where
  | di | si | dx | r13 | r15 | ax | cx | sp
deriving DecidableEq, Repr

/-- The registers used as 32-bit registers, sha1cdblock_amd64.s:56-219. -/
inductive R where
  | r12
deriving DecidableEq, Repr

/-- The arguments read through FP, sha1cdblock_amd64.s:28-32. -/
inductive Arg where
  | hbase | pbase | plen | m1base | csbase
deriving DecidableEq, Repr

/-- sha1cdblock_amd64.s:268-270. -/
def upperMask : Vec := Vec.ofQwords 0x0000000000000000 0xffffffff00000000

/-- sha1cdblock_amd64.s:272-274. -/
def shuffleMask : Vec := Vec.ofQwords 0x08090a0b0c0d0e0f 0x0001020304050607

/-- The constants used as memory operands, sha1cdblock_amd64.s:46,48. -/
inductive Sym where
  | upperMask | shuffleMask
deriving DecidableEq, Repr

/-- Their values, sha1cdblock_amd64.s:268-274. -/
def Sym.val : Sym → Vec
  | .upperMask => Amd64.upperMask
  | .shuffleMask => Amd64.shuffleMask

/-- The instructions used in sha1cdblock_amd64.s:16-264.  `VPSHUFD`/`PSHUFD` and `VPEXTRD`/`PEXTRD` differ in
encoding only. -/
inductive Instr where
  | movqArg (a : Arg) (d : G)
  | movqImm (v : Word64) (d : G)
  | addq (s d : G)
  | addqImm (v : Word64) (d : G)
  | leaq (off : Nat) (s d : G)
  | notq (d : G)
  | andq (s d : G)
  | movdquLoad (off : Nat) (s : G) (d : X)
  | movdquStore (s : X) (off : Nat) (d : G)
  | movdqa (s d : X)
  | movdqaConst (c : Sym) (d : X)
  | movdqaStore (s : X) (off : Nat) (d : G)
  | movlStore (s : R) (off : Nat) (d : G)
  | pshufd (imm : Nat) (s d : X)
  | pshufb (mask d : X)
  | paddd (s d : X)
  | padddMem (off : Nat) (s : G) (d : X)
  | pxor (s d : X)
  | pandConst (c : Sym) (d : X)
  | pinsrd (imm : Nat) (off : Nat) (s : G) (d : X)
  | pextrd (imm : Nat) (s : X) (d : R)
  | pextrdStore (imm : Nat) (s : X) (off : Nat) (d : G)
  | roll (imm : Nat) (d : R)
  | sha1rnds4 (imm : Nat) (s d : X)
  | sha1nexte (s d : X)
  | sha1nexteMem (off : Nat) (s : G) (d : X)
  | sha1msg1 (s d : X)
  | sha1msg2 (s d : X)

/-- The machine: registers, memory, the address of the 80-byte frame (sha1cdblock_amd64.s:27) and the
length argument. -/
structure St where
  x : X → Vec
  g : G → Val
  r12 : Word
  mem : Mem
  frame : Word64
  plen : Word64

/-- Write an XMM register (sha1cdblock_amd64.s:44-263, every instruction with an X register as destination). -/
def setV (x : X → Vec) (r : X) (v : Vec) : X → Vec := fun q => if q = r then v else x q

/-- Write an XMM register (sha1cdblock_amd64.s:44-263, every instruction with an X register as destination). -/
def St.setX (s : St) (r : X) (v : Vec) : St := { s with x := setV s.x r v }

/-- Write a 64-bit register (sha1cdblock_amd64.s:28-41,256). -/
def St.setG (s : St) (r : G) (v : Val) : St := { s with g := fun q => if q = r then v else s.g q }

/-- An aligned sixteen-byte slot inside the frame (sha1cdblock_amd64.s:37-41,52-53,252-253). -/
def St.slot (s : St) (a : Word64) : GoM Word64 :=
  if a.toNat % 16 = 0 ∧ s.frame.toNat ≤ a.toNat ∧ a.toNat + 16 ≤ s.frame.toNat + 80 then pure a
  else throw .fault

/-- Load sixteen bytes from `off(r)` (sha1cdblock_amd64.s:45,60,68,77,87,252-253). -/
def St.load (s : St) (off : Nat) (r : G) : GoM Vec :=
  match s.g r with
  | .ptr .h o => rdV s.mem.h (o + BitVec.ofNat 64 off).toNat
  | .ptr .p o => rdP s.mem.p (o + BitVec.ofNat 64 off).toNat
  | .ptr .m1 o => rdV s.mem.m1 (o + BitVec.ofNat 64 off).toNat
  | .ptr .cs o => rdV s.mem.cs (o + BitVec.ofNat 64 off).toNat
  | .ptr .stack o => do
    let a ← s.slot (o + BitVec.ofNat 64 off)
    pure (s.mem.stack a)
  | .int _ => throw .fault

/-- Store sixteen bytes to `off(r)`; the chunk is never written (sha1cdblock_amd64.s:18,23,52-53,262). -/
def St.store (s : St) (v : Vec) (off : Nat) (r : G) : GoM St :=
  match s.g r with
  | .ptr .h o => do
    let f ← wrV s.mem.h (o + BitVec.ofNat 64 off).toNat v
    pure { s with mem := { s.mem with h := f } }
  | .ptr .m1 o => do
    let f ← wrV s.mem.m1 (o + BitVec.ofNat 64 off).toNat v
    pure { s with mem := { s.mem with m1 := f } }
  | .ptr .cs o => do
    let f ← wrV s.mem.cs (o + BitVec.ofNat 64 off).toNat v
    pure { s with mem := { s.mem with cs := f } }
  | .ptr .stack o => do
    let a ← s.slot (o + BitVec.ofNat 64 off)
    pure { s with mem := { s.mem with stack := fun b => if b = a then v else s.mem.stack b } }
  | .ptr .p _ => throw .fault
  | .int _ => throw .fault

/-- Load sixteen bytes with an instruction that faults unless the address is a multiple of sixteen
(sha1cdblock_amd64.s:252-253): only slots of the frame are known to be aligned. -/
def St.loadA (s : St) (off : Nat) (r : G) : GoM Vec :=
  match s.g r with
  | .ptr .stack _ => s.load off r
  | _ => throw .fault

/-- Store sixteen bytes with an instruction that faults unless the address is a multiple of sixteen
(sha1cdblock_amd64.s:52-53). -/
def St.storeA (s : St) (v : Vec) (off : Nat) (r : G) : GoM St :=
  match s.g r with
  | .ptr .stack _ => s.store v off r
  | _ => throw .fault

/-- Load four bytes from `off(r)` (sha1cdblock_amd64.s:44). -/
def St.loadL (s : St) (off : Nat) (r : G) : GoM Word :=
  match s.g r with
  | .ptr .h o => rdW s.mem.h (o + BitVec.ofNat 64 off).toNat
  | .ptr .m1 o => rdW s.mem.m1 (o + BitVec.ofNat 64 off).toNat
  | .ptr .cs o => rdW s.mem.cs (o + BitVec.ofNat 64 off).toNat
  | _ => throw .fault

/-- Store four bytes to `off(r)` (sha1cdblock_amd64.s:19,263). -/
def St.storeL (s : St) (v : Word) (off : Nat) (r : G) : GoM St :=
  match s.g r with
  | .ptr .h o => do
    let f ← wrW s.mem.h (o + BitVec.ofNat 64 off).toNat v
    pure { s with mem := { s.mem with h := f } }
  | .ptr .m1 o => do
    let f ← wrW s.mem.m1 (o + BitVec.ofNat 64 off).toNat v
    pure { s with mem := { s.mem with m1 := f } }
  | .ptr .cs o => do
    let f ← wrW s.mem.cs (o + BitVec.ofNat 64 off).toNat v
    pure { s with mem := { s.mem with cs := f } }
  | _ => throw .fault

/-- PSHUFD: lane `i` of the result is the lane of the source selected by bits 2i+1:2i of the immediate
(sha1cdblock_amd64.s:17,22,47,261). -/
def pshufd (imm : Nat) (v : Vec) : Vec :=
  ⟨v.lane (imm / 64), v.lane (imm / 16), v.lane (imm / 4), v.lane imm⟩

/-- PSHUFB: byte `i` of the result is zero if bit 7 of the mask byte is set, else the byte of the operand
selected by its low four bits (sha1cdblock_amd64.s:61,69,78,88). -/
def pshufb (v mask : Vec) : Vec :=
  Vec.ofBytes fun i => if (mask.byte i).getLsbD 7 then 0 else v.byte ((mask.byte i).toNat % 16)

/-- PINSRD (sha1cdblock_amd64.s:44). -/
def pinsrd (imm : Nat) (w : Word) (v : Vec) : Vec :=
  match imm % 4 with
  | 0 => { v with l0 := w }
  | 1 => { v with l1 := w }
  | 2 => { v with l2 := w }
  | _ => { v with l3 := w }

/-- The function and constant selected by the immediate of SHA1RNDS4 (sha1cdblock_amd64.s:64-248). -/
def rnds4F (imm : Nat) (b c d : Word) : Word :=
  match imm % 4 with
  | 0 => (b &&& c) ^^^ (~~~b &&& d)
  | 1 => b ^^^ c ^^^ d
  | 2 => (b &&& c) ^^^ (b &&& d) ^^^ (c &&& d)
  | _ => b ^^^ c ^^^ d

/-- See `rnds4F` (sha1cdblock_amd64.s:64-248). -/
def rnds4K (imm : Nat) : Word :=
  match imm % 4 with
  | 0 => 0x5A827999
  | 1 => 0x6ED9EBA1
  | 2 => 0x8F1BBCDC
  | _ => 0xCA62C1D6

/-- SHA1RNDS4: four rounds on A,B,C,D in lanes 3..0 of `v`; lane 3 of `w` holds W0+E, the others W1, W2, W3
(sha1cdblock_amd64.s:64,72,81,92,101,110,119,128,137,146,155,164,173,187,199,213,225,234,242,248). -/
def sha1rnds4 (imm : Nat) (v w : Vec) : Vec :=
  let k := rnds4K imm
  let a0 := v.l3
  let b0 := v.l2
  let c0 := v.l1
  let d0 := v.l0
  let a1 := rnds4F imm b0 c0 d0 + rol 5 a0 + w.l3 + k
  let b1 := a0
  let c1 := rol 30 b0
  let d1 := c0
  let e1 := d0
  let a2 := rnds4F imm b1 c1 d1 + rol 5 a1 + w.l2 + e1 + k
  let b2 := a1
  let c2 := rol 30 b1
  let d2 := c1
  let e2 := d1
  let a3 := rnds4F imm b2 c2 d2 + rol 5 a2 + w.l1 + e2 + k
  let b3 := a2
  let c3 := rol 30 b2
  let d3 := c2
  let e3 := d2
  let a4 := rnds4F imm b3 c3 d3 + rol 5 a3 + w.l0 + e3 + k
  let b4 := a3
  let c4 := rol 30 b3
  let d4 := c3
  ⟨a4, b4, c4, d4⟩

/-- SHA1NEXTE: the destination's top lane rotated by 30 and added to the top lane of the source
(sha1cdblock_amd64.s:70,79,89,98,107,116,125,134,143,152,161,170,184,196,210,222,231,239,246,252). -/
def sha1nexte (d s : Vec) : Vec := { s with l3 := s.l3 + rol 30 d.l3 }

/-- SHA1MSG1 (sha1cdblock_amd64.s:73,82,93,102,111,120,129,138,147,156,165,175,188,201,214,226). -/
def sha1msg1 (d s : Vec) : Vec := ⟨d.l1 ^^^ d.l3, d.l0 ^^^ d.l2, s.l3 ^^^ d.l1, s.l2 ^^^ d.l0⟩

/-- SHA1MSG2 (sha1cdblock_amd64.s:91,100,109,118,127,136,145,154,163,172,186,198,212,224,233,241). -/
def sha1msg2 (d s : Vec) : Vec :=
  let w16 := rol 1 (d.l3 ^^^ s.l2)
  let w17 := rol 1 (d.l2 ^^^ s.l1)
  let w18 := rol 1 (d.l1 ^^^ s.l0)
  let w19 := rol 1 (d.l0 ^^^ w16)
  ⟨w16, w17, w18, w19⟩

/-- One instruction of sha1cdblock_amd64.s. -/
def exec (s : St) : Instr → GoM St
  | .movqArg .hbase d => pure (s.setG d (.ptr .h 0))
  | .movqArg .pbase d => pure (s.setG d (.ptr .p 0))
  | .movqArg .plen d => pure (s.setG d (.int s.plen))
  | .movqArg .m1base d => pure (s.setG d (.ptr .m1 0))
  | .movqArg .csbase d => pure (s.setG d (.ptr .cs 0))
  | .movqImm v d => pure (s.setG d (.int v))
  | .addq a d => do
    let v ← (s.g d).add (s.g a)
    pure (s.setG d v)
  | .addqImm v d => do
    let v ← (s.g d).add (.int v)
    pure (s.setG d v)
  | .leaq off a d => do
    let v ← (s.g a).add (.int (BitVec.ofNat 64 off))
    pure (s.setG d v)
  | .notq d =>
    match s.g d with
    | .int v => pure (s.setG d (.int (~~~v)))
    | .ptr _ _ => throw .fault
  | .andq a d =>
    match s.g a, s.g d with
    | .int m, .int v => pure (s.setG d (.int (v &&& m)))
    | .int m, .ptr .stack v => pure (s.setG d (.ptr .stack (v &&& m)))
    | _, _ => throw .fault
  | .movdquLoad off a d => do
    let v ← s.load off a
    pure (s.setX d v)
  | .movdquStore a off d => s.store (s.x a) off d
  | .movdqa a d => pure (s.setX d (s.x a))
  | .movdqaConst c d => pure (s.setX d c.val)
  | .movdqaStore a off d => s.storeA (s.x a) off d
  | .movlStore .r12 off d => s.storeL s.r12 off d
  | .pshufd imm a d => pure (s.setX d (pshufd imm (s.x a)))
  | .pshufb m d => pure (s.setX d (pshufb (s.x d) (s.x m)))
  | .paddd a d => pure (s.setX d (Vec.map2 (· + ·) (s.x d) (s.x a)))
  | .padddMem off a d => do
    let v ← s.loadA off a
    pure (s.setX d (Vec.map2 (· + ·) (s.x d) v))
  | .pxor a d => pure (s.setX d (Vec.map2 (· ^^^ ·) (s.x d) (s.x a)))
  | .pandConst c d => pure (s.setX d (Vec.map2 (· &&& ·) (s.x d) c.val))
  | .pinsrd imm off a d => do
    let w ← s.loadL off a
    pure (s.setX d (pinsrd imm w (s.x d)))
  | .pextrd imm a .r12 => pure { s with r12 := (s.x a).lane imm }
  | .pextrdStore imm a off d => s.storeL ((s.x a).lane imm) off d
  | .roll imm .r12 => pure { s with r12 := rol imm s.r12 }
  | .sha1rnds4 imm a d => pure (s.setX d (sha1rnds4 imm (s.x d) (s.x a)))
  | .sha1nexte a d => pure (s.setX d (sha1nexte (s.x d) (s.x a)))
  | .sha1nexteMem off a d => do
    let v ← s.loadA off a
    pure (s.setX d (sha1nexte (s.x d) v))
  | .sha1msg1 a d => pure (s.setX d (sha1msg1 (s.x d) (s.x a)))
  | .sha1msg2 a d => pure (s.setX d (sha1msg2 (s.x d) (s.x a)))

/-- A straight-line sequence (sha1cdblock_amd64.s:28-32,35-48,52-263). -/
def execs (s : St) : List Instr → GoM St
  | [] => pure s
  | i :: is => do
    let s ← exec s i
    execs s is

/-- The macro LOADCS, sha1cdblock_amd64.s:16-19. -/
def loadCS (abcd : X) (e : R) (index : Nat) (target : G) : List Instr :=
  [.pshufd 0x1b abcd .x8, .movdquStore .x8 (index * 20 + 0) target, .movlStore e (index * 20 + 16) target]

/-- The macro LOADM1, sha1cdblock_amd64.s:21-23. -/
def loadM1 (m1 : X) (index : Nat) (target : G) : List Instr :=
  [.pshufd 0x1b m1 .x8, .movdquStore .x8 (index * 16 + 0) target]

/-- sha1cdblock_amd64.s:28-32: load the arguments. -/
def argLoads : List Instr :=
  [.movqArg .hbase .di, .movqArg .pbase .si, .movqArg .plen .dx, .movqArg .m1base .r13,
    .movqArg .csbase .r15]

/-- sha1cdblock_amd64.s:35-48: end pointer, aligned save area, initial state, shuffle mask. -/
def setup : List Instr :=
  [.addq .si .dx, .leaq 15 .sp .ax, .movqImm 0xf .cx, .notq .cx, .andq .cx .ax, .pinsrd 3 16 .di .x5,
    .movdquLoad 0 .di .x0, .pandConst .upperMask .x5, .pshufd 0x1b .x0 .x0, .movdqaConst .shuffleMask .x7]

/-- sha1cdblock_amd64.s:51-57: save ABCD and E, store them as `cs[0]`. -/
def save : List Instr :=
  [.movdqaStore .x5 0 .ax, .movdqaStore .x0 16 .ax, .pextrd 3 .x5 .r12] ++
  loadCS .x0 .r12 0 .r15

/-- sha1cdblock_amd64.s:59-66: rounds 0-3. -/
def group0 : List Instr :=
  [.movdquLoad 0 .si .x1, .pshufb .x7 .x1, .paddd .x1 .x5, .movdqa .x0 .x6, .sha1rnds4 0 .x5 .x0] ++
  loadM1 .x1 0 .r13

/-- sha1cdblock_amd64.s:67-75: rounds 4-7. -/
def group1 : List Instr :=
  [.movdquLoad 16 .si .x2, .pshufb .x7 .x2, .sha1nexte .x2 .x6, .movdqa .x0 .x5, .sha1rnds4 0 .x6 .x0,
    .sha1msg1 .x2 .x1] ++
  loadM1 .x2 1 .r13

/-- sha1cdblock_amd64.s:76-85: rounds 8-11. -/
def group2 : List Instr :=
  [.movdquLoad 32 .si .x3, .pshufb .x7 .x3, .sha1nexte .x3 .x5, .movdqa .x0 .x6, .sha1rnds4 0 .x5 .x0,
    .sha1msg1 .x3 .x2, .pxor .x3 .x1] ++
  loadM1 .x3 2 .r13

/-- sha1cdblock_amd64.s:86-96: rounds 12-15. -/
def group3 : List Instr :=
  [.movdquLoad 48 .si .x4, .pshufb .x7 .x4, .sha1nexte .x4 .x6, .movdqa .x0 .x5, .sha1msg2 .x4 .x1,
    .sha1rnds4 0 .x6 .x0, .sha1msg1 .x4 .x3, .pxor .x4 .x2] ++
  loadM1 .x4 3 .r13

/-- sha1cdblock_amd64.s:97-105: rounds 16-19. -/
def group4 : List Instr :=
  [.sha1nexte .x1 .x5, .movdqa .x0 .x6, .sha1msg2 .x1 .x2, .sha1rnds4 0 .x5 .x0, .sha1msg1 .x1 .x4,
    .pxor .x1 .x3] ++
  loadM1 .x1 4 .r13

/-- sha1cdblock_amd64.s:106-114: rounds 20-23. -/
def group5 : List Instr :=
  [.sha1nexte .x2 .x6, .movdqa .x0 .x5, .sha1msg2 .x2 .x3, .sha1rnds4 1 .x6 .x0, .sha1msg1 .x2 .x1,
    .pxor .x2 .x4] ++
  loadM1 .x2 5 .r13

/-- sha1cdblock_amd64.s:115-123: rounds 24-27. -/
def group6 : List Instr :=
  [.sha1nexte .x3 .x5, .movdqa .x0 .x6, .sha1msg2 .x3 .x4, .sha1rnds4 1 .x5 .x0, .sha1msg1 .x3 .x2,
    .pxor .x3 .x1] ++
  loadM1 .x3 6 .r13

/-- sha1cdblock_amd64.s:124-132: rounds 28-31. -/
def group7 : List Instr :=
  [.sha1nexte .x4 .x6, .movdqa .x0 .x5, .sha1msg2 .x4 .x1, .sha1rnds4 1 .x6 .x0, .sha1msg1 .x4 .x3,
    .pxor .x4 .x2] ++
  loadM1 .x4 7 .r13

/-- sha1cdblock_amd64.s:133-141: rounds 32-35. -/
def group8 : List Instr :=
  [.sha1nexte .x1 .x5, .movdqa .x0 .x6, .sha1msg2 .x1 .x2, .sha1rnds4 1 .x5 .x0, .sha1msg1 .x1 .x4,
    .pxor .x1 .x3] ++
  loadM1 .x1 8 .r13

/-- sha1cdblock_amd64.s:142-150: rounds 36-39. -/
def group9 : List Instr :=
  [.sha1nexte .x2 .x6, .movdqa .x0 .x5, .sha1msg2 .x2 .x3, .sha1rnds4 1 .x6 .x0, .sha1msg1 .x2 .x1,
    .pxor .x2 .x4] ++
  loadM1 .x2 9 .r13

/-- sha1cdblock_amd64.s:151-159: rounds 40-43. -/
def group10 : List Instr :=
  [.sha1nexte .x3 .x5, .movdqa .x0 .x6, .sha1msg2 .x3 .x4, .sha1rnds4 2 .x5 .x0, .sha1msg1 .x3 .x2,
    .pxor .x3 .x1] ++
  loadM1 .x3 10 .r13

/-- sha1cdblock_amd64.s:160-168: rounds 44-47. -/
def group11 : List Instr :=
  [.sha1nexte .x4 .x6, .movdqa .x0 .x5, .sha1msg2 .x4 .x1, .sha1rnds4 2 .x6 .x0, .sha1msg1 .x4 .x3,
    .pxor .x4 .x2] ++
  loadM1 .x4 11 .r13

/-- sha1cdblock_amd64.s:169-182: rounds 48-51. -/
def group12 : List Instr :=
  [.sha1nexte .x1 .x5, .movdqa .x0 .x6, .sha1msg2 .x1 .x2, .sha1rnds4 2 .x5 .x0, .pextrd 0 .x5 .r12,
    .sha1msg1 .x1 .x4, .pxor .x1 .x3] ++
  loadM1 .x1 12 .r13 ++
  [.pextrd 3 .x0 .r12, .roll 0x1e .r12]

/-- sha1cdblock_amd64.s:183-194: rounds 52-55. -/
def group13 : List Instr :=
  [.sha1nexte .x2 .x6, .movdqa .x0 .x5, .sha1msg2 .x2 .x3, .sha1rnds4 2 .x6 .x0, .sha1msg1 .x2 .x1,
    .pxor .x2 .x4] ++
  loadM1 .x2 13 .r13 ++
  loadCS .x0 .r12 1 .r15

/-- sha1cdblock_amd64.s:195-208: rounds 56-59. -/
def group14 : List Instr :=
  [.sha1nexte .x3 .x5, .movdqa .x0 .x6, .sha1msg2 .x3 .x4, .sha1rnds4 2 .x5 .x0, .pextrd 0 .x5 .r12,
    .sha1msg1 .x3 .x2, .pxor .x3 .x1] ++
  loadM1 .x3 14 .r13 ++
  [.pextrd 3 .x0 .r12, .roll 0x1e .r12]

/-- sha1cdblock_amd64.s:209-220: rounds 60-63. -/
def group15 : List Instr :=
  [.sha1nexte .x4 .x6, .movdqa .x0 .x5, .sha1msg2 .x4 .x1, .sha1rnds4 3 .x6 .x0, .sha1msg1 .x4 .x3,
    .pxor .x4 .x2] ++
  loadM1 .x4 15 .r13 ++
  loadCS .x0 .r12 2 .r15

/-- sha1cdblock_amd64.s:221-229: rounds 64-67. -/
def group16 : List Instr :=
  [.sha1nexte .x1 .x5, .movdqa .x0 .x6, .sha1msg2 .x1 .x2, .sha1rnds4 3 .x5 .x0, .sha1msg1 .x1 .x4,
    .pxor .x1 .x3] ++
  loadM1 .x1 16 .r13

/-- sha1cdblock_amd64.s:230-237: rounds 68-71. -/
def group17 : List Instr :=
  [.sha1nexte .x2 .x6, .movdqa .x0 .x5, .sha1msg2 .x2 .x3, .sha1rnds4 3 .x6 .x0, .pxor .x2 .x4] ++
  loadM1 .x2 17 .r13

/-- sha1cdblock_amd64.s:238-244: rounds 72-75. -/
def group18 : List Instr :=
  [.sha1nexte .x3 .x5, .movdqa .x0 .x6, .sha1msg2 .x3 .x4, .sha1rnds4 3 .x5 .x0] ++
  loadM1 .x3 18 .r13

/-- sha1cdblock_amd64.s:245-250: rounds 76-79. -/
def group19 : List Instr :=
  [.sha1nexte .x4 .x6, .movdqa .x0 .x5, .sha1rnds4 3 .x6 .x0] ++
  loadM1 .x4 19 .r13

/-- sha1cdblock_amd64.s:252-253: add the saved values. -/
def addBack : List Instr :=
  [.sha1nexteMem 0 .ax .x5, .padddMem 16 .ax .x0]

/-- sha1cdblock_amd64.s:256-256: next chunk. -/
def advance : List Instr :=
  [.addqImm 0x40 .si]

/-- sha1cdblock_amd64.s:261-263: write the hash state back. -/
def writeBack : List Instr :=
  [.pshufd 0x1b .x0 .x0, .movdquStore .x0 0 .di, .pextrdStore 3 .x5 16 .di]

/-- The body of the loop, sha1cdblock_amd64.s:50-256. -/
def body : List Instr :=
  save ++ group0 ++ group1 ++ group2 ++ group3 ++ group4 ++ group5 ++ group6 ++ group7 ++ group8 ++ group9 ++
    group10 ++ group11 ++ group12 ++ group13 ++ group14 ++ group15 ++ group16 ++ group17 ++ group18 ++
    group19 ++ addBack ++ advance

/-- The loop with its exit test `CMPQ SI, DX; JNE loop`, sha1cdblock_amd64.s:50-258.  Each iteration reads 64
bytes of `p` from `SI` on, so `n = len(p)/64` iterations are all that can happen without a fault. -/
def loop : Nat → St → GoM St
  | 0, _ => throw .fault
  | n + 1, s => do
    let s ← execs s body
    if s.g .si = s.g .dx then pure s else loop n s

/-- `blockAMD64(h, p, m1, cs)`, sha1cdblock_amd64.s:27-266, started with arbitrary register and stack
contents `s`; the arrays are put into the memory of `s` and read back at the end. -/
def blockAMD64 (s : St) (h : Regs) (p : List Byte) (m1 : Fin 80 → Word) (cs : Fin 3 → Regs) :
    GoM AsmOut := do
  let s : St := { s with
    mem := { s.mem with h := flat5 h, p := p, m1 := m1, cs := flat15 cs }
    plen := BitVec.ofNat 64 p.length
    g := fun q => if q = .sp then .ptr .stack s.frame else s.g q }
  let s ← execs s argLoads
  let s ←
    if s.g .dx = .int 0 then pure s
    else do
      let s ← execs s setup
      let s ← loop (p.length / 64) s
      execs s writeBack
  pure ⟨unflat5 s.mem.h, s.mem.m1, unflat15 s.mem.cs⟩

/-- `block` with the SHA-NI instructions, sha1cdblock_amd64.go:25-52.  `s k` are the machine contents at the
`k`-th call. -/
def block (s : Nat → St) (dvs : List DvInfo) : Core → List Byte → GoM Core :=
  simdBlock (fun k => blockAMD64 (s k)) dvs

end Verif.Model.Amd64
