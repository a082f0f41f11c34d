import Verif.Model.Amd64
import Verif.Model.Arm64

/-!
The two assembly block functions once more, on machines with one flat memory of bytes.

In `Model/Amd64` and `Model/Arm64` the arrays are separate objects and an address is an array and an offset.  Here a
register holds a number, the memory is a map from 64-bit addresses to bytes, every address may or may not be readable
and writable, the arguments are loaded from the caller's frame, and arrays lie wherever the arguments say.  The
programs are the same lists of instructions.

The constants (the two masks, `sha1Ks`) are sixteen bytes each in the memory, at the addresses the linker chose; the
amd64 instructions that use them fault unless that address is a multiple of sixteen.

Simplifications: FP is a register of its own that is never written; so are the addresses of the constants, which the
instructions contain; the rest as in `Model/Amd64` and `Model/Arm64`.
-/

namespace Verif.Model.Flat

open Verif Verif.Model

/-- The memory and the permissions (sha1cdblock_amd64.s:16-266, sha1cdblock_arm64.s:15-243). -/
structure FMem where
  b : Word64 → Byte
  canRd : Word64 → Bool
  canWr : Word64 → Bool

/-- Read `n` bytes, lowest address first; a fault unless all may be read
(sha1cdblock_amd64.s:16-266, sha1cdblock_arm64.s:15-243). -/
def FMem.rd (m : FMem) (n : Nat) (a : Word64) : GoM (Nat → Byte) :=
  if ∀ i : Fin n, m.canRd (a + BitVec.ofNat 64 i) = true then pure fun i => m.b (a + BitVec.ofNat 64 i)
  else throw .fault

/-- Write `n` bytes, lowest address first; a fault unless all may be written.  Addresses wrap around
(sha1cdblock_amd64.s:16-266, sha1cdblock_arm64.s:15-243). -/
def FMem.wr (m : FMem) (n : Nat) (a : Word64) (v : Nat → Byte) : GoM FMem :=
  if ∀ i : Fin n, m.canWr (a + BitVec.ofNat 64 i) = true then
    pure { m with b := fun q => if (q - a).toNat < n then v (q - a).toNat else m.b q }
  else throw .fault

/-- A little-endian word (sha1cdblock_amd64.s:44, sha1cdblock_arm64.s:43). -/
def leWord (v : Nat → Byte) : Word := v 3 ++ v 2 ++ v 1 ++ v 0

/-- A little-endian 64-bit word (sha1cdblock_amd64.s:28-32, sha1cdblock_arm64.s:32-36). -/
def leQword (v : Nat → Byte) : Word64 := v 7 ++ v 6 ++ v 5 ++ v 4 ++ v 3 ++ v 2 ++ v 1 ++ v 0

/-- The bytes of a word, lowest first (sha1cdblock_amd64.s:19,263, sha1cdblock_arm64.s:79,194,210,241). -/
def wordBytes (w : Word) (i : Nat) : Byte := w.extractLsb' (8 * i) 8

/-- Offsets of the arguments of `func(h []uint32, p []byte, m1 []uint32, cs [][5]uint32)`,
sha1cdblock_amd64.s:28-32 and sha1cdblock_arm64.s:32-36. -/
inductive ArgOff where
  | hbase | pbase | plen | m1base | csbase
deriving DecidableEq, Repr

/-- See `ArgOff` (sha1cdblock_amd64.s:28-32, sha1cdblock_arm64.s:32-36). -/
def ArgOff.off : ArgOff → Nat
  | .hbase => 0
  | .pbase => 24
  | .plen => 32
  | .m1base => 48
  | .csbase => 72

/-- The places in memory that a call uses: the four arrays (sha1cdblock_amd64.go:23, sha1cdblock_arm64.go:19), the
frame and the arguments (sha1cdblock_amd64.s:27, sha1cdblock_arm64.s:31), and the constants: `upper_mask` and
`shuffle_mask` (sha1cdblock_amd64.s:268-274) or `sha1Ks` and nothing (sha1cdblock_arm64.s:245-249). -/
inductive Area where
  | h | p | m1 | cs | frame | args | k0 | k1
deriving DecidableEq, Repr

/-- Their sizes in bytes: five words, one chunk, eighty words, three times five words (sha1cdblock_amd64.go:31-39,
sha1cdblock_arm64.go:27-35), the part of the frame that is used, `$…-96` (sha1cdblock_amd64.s:27,
sha1cdblock_arm64.s:31), and `RODATA, $16` (sha1cdblock_amd64.s:270,274, sha1cdblock_arm64.s:249).  The part of the frame
that is used, `fr`, is 80 bytes on amd64 and nothing on arm64, which has no second constant either. -/
def Area.size (fr : Nat) : Area → Nat
  | .h => 20
  | .p => 64
  | .m1 => 320
  | .cs => 60
  | .frame => fr
  | .args => 96
  | .k0 => 16
  | .k1 => if fr = 0 then 0 else 16

/-- Whether the code may write there: not to the chunk, the arguments and the constants (sha1cdblock_amd64.s:27-266,
sha1cdblock_arm64.s:31-243). -/
def Area.written : Area → Bool
  | .h => true
  | .p => false
  | .m1 => true
  | .cs => true
  | .frame => true
  | .args => false
  | .k0 => false
  | .k1 => false

/-- Where the areas lie when sha1cdblock_amd64.go:39 or sha1cdblock_arm64.go:35 is executed. -/
abbrev Layout := Area → Word64

/-- No area wraps around, and an area that is written meets no other: `dig.h`, the chunk (the caller's bytes or
`dig.x`) and two local variables, sha1cdblock_amd64.go:31-39, sha1cdblock_arm64.go:27-35. -/
structure Layout.Ok (fr : Nat) (L : Layout) : Prop where
  fits : ∀ a, (L a).toNat + a.size fr ≤ 2 ^ 64
  apart : ∀ a b, a ≠ b → a.written = true →
    (L a).toNat + a.size fr ≤ (L b).toNat ∨ (L b).toNat + b.size fr ≤ (L a).toNat

/-- The areas may be read and, where necessary, written (memory of the running program, sha1cdblock_amd64.go:31-39,
sha1cdblock_arm64.go:27-35). -/
structure Allowed (fr : Nat) (L : Layout) (m : FMem) : Prop where
  rd : ∀ (a : Area) (i : Nat), i < a.size fr → m.canRd (L a + BitVec.ofNat 64 i) = true
  wr : ∀ (a : Area) (i : Nat), a.written = true → i < a.size fr → m.canWr (L a + BitVec.ofNat 64 i) = true

/-- The values of the constants (sha1cdblock_amd64.s:268-274, sha1cdblock_arm64.s:245-249). -/
def constVal (fr : Nat) : Area → Vec
  | .k0 => if fr = 0 then Arm64.sha1Ks else Amd64.upperMask
  | _ => Amd64.shuffleMask

/-- The constants lie in memory as the assembler and the linker put them there: with these values, and on amd64 at
addresses that are multiples of sixteen (sha1cdblock_amd64.s:268-274, sha1cdblock_arm64.s:245-249). -/
structure Consts (fr : Nat) (L : Layout) (b : Word64 → Byte) : Prop where
  aligned : fr ≠ 0 → (L .k0).toNat % 16 = 0 ∧ (L .k1).toNat % 16 = 0
  val : ∀ (a : Area) (i : Nat), a = .k0 ∨ a = .k1 → i < a.size fr → b (L a + BitVec.ofNat 64 i) = (constVal fr a).byte i

/-- The values of the arguments, sha1cdblock_amd64.go:39, sha1cdblock_arm64.go:35. -/
def argVal (L : Layout) (plen : Word64) : ArgOff → Word64
  | .hbase => L .h
  | .pbase => L .p
  | .plen => plen
  | .m1base => L .m1
  | .csbase => L .cs

/-- The word number `i` of a `[]uint32` in memory, on a little-endian machine (sha1cdblock_amd64.s:25, sha1cdblock_arm64.s:30). -/
def wordAt (m : FMem) (a : Word64) (i : Nat) : Word := leWord fun j => m.b (a + BitVec.ofNat 64 (4 * i + j))

/-- A `[5]uint32` in memory (the type of `digest.h`, sha1cd.go:30). -/
def regsAt (m : FMem) (a : Word64) : Regs := ⟨wordAt m a 0, wordAt m a 1, wordAt m a 2, wordAt m a 3, wordAt m a 4⟩

/-- A `[]byte` in memory (sha1cdblock_amd64.s:25, sha1cdblock_arm64.s:30). -/
def bytesAt (m : FMem) (a : Word64) (n : Nat) : List Byte := (List.range n).map fun i => m.b (a + BitVec.ofNat 64 i)

/-- An argument in memory, see `ArgOff` (sha1cdblock_amd64.s:28-32, sha1cdblock_arm64.s:32-36). -/
def argAt (m : FMem) (fp : Word64) (a : ArgOff) : Word64 := leQword fun i => m.b (fp + BitVec.ofNat 64 (a.off + i))

/-- The memory at a call: where things lie, what else there is, and the permissions
(sha1cdblock_amd64.s:25-32, sha1cdblock_arm64.s:30-36). -/
structure Env where
  lay : Layout
  bytes : Word64 → Byte
  canRd : Word64 → Bool
  canWr : Word64 → Bool

/-- Byte `k` of an array of words in memory (sha1cdblock_amd64.s:25, sha1cdblock_arm64.s:30). -/
def arrByte {n : Nat} (f : Fin n → Word) (k : Nat) : Byte :=
  if h : k / 4 < n then wordBytes (f ⟨k / 4, h⟩) (k % 4) else 0

/-- Byte `k` of the arguments, `other` if it belongs to a length or a capacity that the code does not read
(sha1cdblock_amd64.s:28-32, sha1cdblock_arm64.s:32-36). -/
def argByte (L : Layout) (other : Byte) (k : Nat) : Byte :=
  match k / 8 with
  | 0 => (argVal L 64 .hbase).extractLsb' (8 * (k % 8)) 8
  | 3 => (argVal L 64 .pbase).extractLsb' (8 * (k % 8)) 8
  | 4 => (argVal L 64 .plen).extractLsb' (8 * (k % 8)) 8
  | 6 => (argVal L 64 .m1base).extractLsb' (8 * (k % 8)) 8
  | 9 => (argVal L 64 .csbase).extractLsb' (8 * (k % 8)) 8
  | _ => other

/-- The memory when Go calls the assembly function with these arrays, sha1cdblock_amd64.go:39,46,47 and
sha1cdblock_arm64.go:35,42,43. -/
def Env.mem (E : Env) (h : Regs) (p : List Byte) (m1 : Fin 80 → Word) (cs : Fin 3 → Regs) : FMem where
  b q :=
    if (q - E.lay .h).toNat < 20 then arrByte (flat5 h) (q - E.lay .h).toNat
    else if (q - E.lay .m1).toNat < 320 then arrByte m1 (q - E.lay .m1).toNat
    else if (q - E.lay .cs).toNat < 60 then arrByte (flat15 cs) (q - E.lay .cs).toNat
    else if (q - E.lay .p).toNat < 64 then p.getD (q - E.lay .p).toNat 0
    else if (q - E.lay .args).toNat < 96 then argByte E.lay (E.bytes q) (q - E.lay .args).toNat
    else E.bytes q
  canRd := E.canRd
  canWr := E.canWr

/-- The arrays after the call (sha1cdblock_amd64.s:25, sha1cdblock_arm64.s:30). -/
def Env.out (E : Env) (m : FMem) : AsmOut :=
  ⟨regsAt m (E.lay .h), fun i => wordAt m (E.lay .m1) i, fun j => regsAt m (E.lay .cs + BitVec.ofNat 64 (20 * j))⟩

/-- `E.lay`, the permissions and the constants are as they should be; the areas that are not written must not overlap
either (sha1cdblock_amd64.s:25-48, sha1cdblock_arm64.s:30-44). -/
structure Env.Ok (fr : Nat) (E : Env) : Prop where
  ok : E.lay.Ok fr
  al : Allowed fr E.lay ⟨E.bytes, E.canRd, E.canWr⟩
  apart : ∀ a b, a ≠ b → a.written = false → b.written = false →
    (E.lay a).toNat + a.size fr ≤ (E.lay b).toNat ∨ (E.lay b).toNat + b.size fr ≤ (E.lay a).toNat
  consts : Consts fr E.lay E.bytes

namespace Amd64

open Verif.Model.Amd64 (X G R Arg Sym Instr)

/-- The machine, sha1cdblock_amd64.s:27; `sym` is where the constants lie. -/
structure FSt where
  x : X → Vec
  g : G → Word64
  r12 : Word
  mem : FMem
  fp : Word64
  sym : Sym → Word64

/-- Write an XMM register (sha1cdblock_amd64.s:44-263). -/
def FSt.setX (s : FSt) (r : X) (v : Vec) : FSt := { s with x := Amd64.setV s.x r v }

/-- Write a 64-bit register (sha1cdblock_amd64.s:28-41,256, sha1cdblock_arm64.s:32-44,57). -/
def FSt.setG (s : FSt) (r : G) (v : Word64) : FSt := { s with g := fun q => if q = r then v else s.g q }

/-- The argument named, sha1cdblock_amd64.s:28-32. -/
def argOff : Arg → ArgOff
  | .hbase => .hbase
  | .pbase => .pbase
  | .plen => .plen
  | .m1base => .m1base
  | .csbase => .csbase

/-- The address `off(r)` (sha1cdblock_amd64.s:44-263). -/
def FSt.ea (s : FSt) (off : Nat) (r : G) : Word64 := s.g r + BitVec.ofNat 64 off

/-- Load sixteen bytes (sha1cdblock_amd64.s:45,60,68,77,87, sha1cdblock_arm64.s:42,51-54). -/
def FSt.load (s : FSt) (off : Nat) (r : G) : GoM Vec := do
  let v ← s.mem.rd 16 (s.ea off r)
  pure (Vec.ofBytes v)

/-- Store sixteen bytes (sha1cdblock_amd64.s:18,23,262, sha1cdblock_arm64.s:72-78,240). -/
def FSt.store (s : FSt) (v : Vec) (off : Nat) (r : G) : GoM FSt := do
  let m ← s.mem.wr 16 (s.ea off r) v.byte
  pure { s with mem := m }

/-- Load sixteen bytes, with a fault unless the address is a multiple of sixteen (sha1cdblock_amd64.s:252-253). -/
def FSt.loadA (s : FSt) (off : Nat) (r : G) : GoM Vec :=
  if (s.ea off r).toNat % 16 = 0 then s.load off r else throw .fault

/-- Store sixteen bytes, with a fault unless the address is a multiple of sixteen (sha1cdblock_amd64.s:52-53). -/
def FSt.storeA (s : FSt) (v : Vec) (off : Nat) (r : G) : GoM FSt :=
  if (s.ea off r).toNat % 16 = 0 then s.store v off r else throw .fault

/-- Load four bytes (sha1cdblock_amd64.s:44). -/
def FSt.loadL (s : FSt) (off : Nat) (r : G) : GoM Word := do
  let v ← s.mem.rd 4 (s.ea off r)
  pure (leWord v)

/-- Store four bytes (sha1cdblock_amd64.s:19,263). -/
def FSt.storeL (s : FSt) (w : Word) (off : Nat) (r : G) : GoM FSt := do
  let m ← s.mem.wr 4 (s.ea off r) (wordBytes w)
  pure { s with mem := m }

/-- Load a constant, with a fault unless its address is a multiple of sixteen (sha1cdblock_amd64.s:46,48). -/
def FSt.loadC (s : FSt) (c : Sym) : GoM Vec :=
  if (s.sym c).toNat % 16 = 0 then do
    let v ← s.mem.rd 16 (s.sym c)
    pure (Vec.ofBytes v)
  else throw .fault

/-- One instruction of sha1cdblock_amd64.s. -/
def exec (s : FSt) : Instr → GoM FSt
  | .movqArg a d => do
    let v ← s.mem.rd 8 (s.fp + BitVec.ofNat 64 (argOff a).off)
    pure (s.setG d (leQword v))
  | .movqImm v d => pure (s.setG d v)
  | .addq a d => pure (s.setG d (s.g d + s.g a))
  | .addqImm v d => pure (s.setG d (s.g d + v))
  | .leaq off a d => pure (s.setG d (s.ea off a))
  | .notq d => pure (s.setG d (~~~s.g d))
  | .andq a d => pure (s.setG d (s.g d &&& s.g a))
  | .movdquLoad off a d => do
    let v ← s.load off a
    pure (s.setX d v)
  | .movdquStore a off d => s.store (s.x a) off d
  | .movdqa a d => pure (s.setX d (s.x a))
  | .movdqaConst c d => do
    let v ← s.loadC c
    pure (s.setX d v)
  | .movdqaStore a off d => s.storeA (s.x a) off d
  | .movlStore .r12 off d => s.storeL s.r12 off d
  | .pshufd imm a d => pure (s.setX d (Amd64.pshufd imm (s.x a)))
  | .pshufb m d => pure (s.setX d (Amd64.pshufb (s.x d) (s.x m)))
  | .paddd a d => pure (s.setX d (Vec.map2 (· + ·) (s.x d) (s.x a)))
  | .padddMem off a d => do
    let v ← s.loadA off a
    pure (s.setX d (Vec.map2 (· + ·) (s.x d) v))
  | .pxor a d => pure (s.setX d (Vec.map2 (· ^^^ ·) (s.x d) (s.x a)))
  | .pandConst c d => do
    let v ← s.loadC c
    pure (s.setX d (Vec.map2 (· &&& ·) (s.x d) v))
  | .pinsrd imm off a d => do
    let w ← s.loadL off a
    pure (s.setX d (Amd64.pinsrd imm w (s.x d)))
  | .pextrd imm a .r12 => pure { s with r12 := (s.x a).lane imm }
  | .pextrdStore imm a off d => s.storeL ((s.x a).lane imm) off d
  | .roll imm .r12 => pure { s with r12 := rol imm s.r12 }
  | .sha1rnds4 imm a d => pure (s.setX d (Amd64.sha1rnds4 imm (s.x d) (s.x a)))
  | .sha1nexte a d => pure (s.setX d (Amd64.sha1nexte (s.x d) (s.x a)))
  | .sha1nexteMem off a d => do
    let v ← s.loadA off a
    pure (s.setX d (Amd64.sha1nexte (s.x d) v))
  | .sha1msg1 a d => pure (s.setX d (Amd64.sha1msg1 (s.x d) (s.x a)))
  | .sha1msg2 a d => pure (s.setX d (Amd64.sha1msg2 (s.x d) (s.x a)))

/-- A straight-line sequence (sha1cdblock_amd64.s:16-266, sha1cdblock_arm64.s:15-243). -/
def execs (s : FSt) : List Instr → GoM FSt
  | [] => pure s
  | i :: is => do
    let s ← exec s i
    execs s is

/-- At most `n` iterations of the loop with its exit test `CMPQ SI, DX; JNE loop`, sha1cdblock_amd64.s:50-258. -/
def loop : Nat → FSt → GoM FSt
  | 0, _ => throw .fault
  | n + 1, s => do
    let s ← execs s Amd64.body
    if s.g .si = s.g .dx then pure s else loop n s

/-- `blockAMD64`, sha1cdblock_amd64.s:27-266, with at most `n` iterations of the loop. -/
def run (n : Nat) (s : FSt) : GoM FSt := do
  let s ← execs s Amd64.argLoads
  if s.g .dx = 0 then pure s
  else do
    let s ← execs s Amd64.setup
    let s ← loop n s
    execs s Amd64.writeBack

/-- Where the constants lie (sha1cdblock_amd64.s:268-274). -/
def symAt (L : Layout) : Sym → Word64
  | .upperMask => L .k0
  | .shuffleMask => L .k1

/-- A call of `blockAMD64` with any registers, sha1cdblock_amd64.go:39,46,47; SP holds the address of the frame. -/
def call (E : Env) (x : X → Vec) (g : G → Word64) (r12 : Word) (h : Regs) (p : List Byte) (m1 : Fin 80 → Word)
    (cs : Fin 3 → Regs) : GoM AsmOut := do
  let s ← run 1 ⟨x, fun q => if q = .sp then E.lay .frame else g q, r12, E.mem h p m1 cs, E.lay .args, symAt E.lay⟩
  pure (E.out s.mem)

/-- The machine contents at one call, sha1cdblock_amd64.go:39,46,47. -/
structure Entry where
  env : Env
  x : X → Vec
  g : G → Word64
  r12 : Word

/-- `block` with the SHA-NI instructions, sha1cdblock_amd64.go:25-52. -/
def block (e : Nat → Entry) (dvs : List DvInfo) : Core → List Byte → GoM Core :=
  simdBlock (fun k => call (e k).env (e k).x (e k).g (e k).r12) dvs

end Amd64

namespace Arm64

open Verif.Model.Arm64 (V G Arg Instr)

/-- The machine, sha1cdblock_arm64.s:31; `ks` is the address of `·sha1Ks`. -/
structure FSt where
  v : V → Vec
  g : G → Word64
  mem : FMem
  fp : Word64
  ks : Word64

/-- Write a vector register (sha1cdblock_arm64.s:42-236). -/
def FSt.setV (s : FSt) (r : V) (x : Vec) : FSt := { s with v := Arm64.setV s.v r x }

/-- Write a general-purpose register (sha1cdblock_amd64.s:28-41,256, sha1cdblock_arm64.s:32-44,57). -/
def FSt.setG (s : FSt) (r : G) (v : Word64) : FSt := { s with g := fun q => if q = r then v else s.g q }

/-- The argument named, sha1cdblock_arm64.s:32-36. -/
def argOff : Arg → ArgOff
  | .hbase => .hbase
  | .pbase => .pbase
  | .plen => .plen
  | .m1base => .m1base
  | .csbase => .csbase

/-- Load sixteen bytes (sha1cdblock_amd64.s:45,60,68,77,87, sha1cdblock_arm64.s:42,51-54). -/
def FSt.load (s : FSt) (r : G) : GoM Vec := do
  let v ← s.mem.rd 16 (s.g r)
  pure (Vec.ofBytes v)

/-- Store sixteen bytes (sha1cdblock_amd64.s:18,23,262, sha1cdblock_arm64.s:72-78,240). -/
def FSt.store (s : FSt) (x : Vec) (r : G) : GoM FSt := do
  let m ← s.mem.wr 16 (s.g r) x.byte
  pure { s with mem := m }

/-- Load four bytes (sha1cdblock_arm64.s:43). -/
def FSt.loadS (s : FSt) (r : G) : GoM Word := do
  let v ← s.mem.rd 4 (s.g r)
  pure (leWord v)

/-- Store four bytes (sha1cdblock_arm64.s:79,194,210,241). -/
def FSt.storeS (s : FSt) (w : Word) (r : G) : GoM FSt := do
  let m ← s.mem.wr 4 (s.g r) (wordBytes w)
  pure { s with mem := m }

/-- One instruction of sha1cdblock_arm64.s. -/
def exec (s : FSt) : Instr → GoM FSt
  | .movdArg a d => do
    let v ← s.mem.rd 8 (s.fp + BitVec.ofNat 64 (argOff a).off)
    pure (s.setG d (leQword v))
  | .lsr n a d => pure (s.setG d (s.g a >>> n))
  | .lsl n a d => pure (s.setG d (s.g a <<< n))
  | .add a b d => pure (s.setG d (s.g b + s.g a))
  | .subImm n a d => pure (s.setG d (s.g a - BitVec.ofNat 64 n))
  | .vld1P a d => do
    let x ← s.load a
    pure ((s.setV d x).setG a (s.g a + 16))
  | .vld1Ks d => do
    let x ← s.mem.rd 16 s.ks
    pure (s.setV d (Vec.ofBytes x))
  | .fmovsLoad a d => do
    let w ← s.loadS a
    pure (s.setV d ⟨0, 0, 0, w⟩)
  | .fmovsStore a d => s.storeS (s.v a).l0 d
  | .vmov a d => pure (s.setV d (s.v a))
  | .vmovS0 a d => pure (s.setV d ⟨0, 0, 0, (s.v a).l0⟩)
  | .vdup a i d => pure (s.setV d (Arm64.dup (s.v a) i))
  | .vrev32 a d => pure (s.setV d (Arm64.vrev32 (s.v a)))
  | .vst1P a d => do
    let s ← s.store (s.v a) d
    pure (s.setG d (s.g d + 16))
  | .vst1S0P a d => do
    let s ← s.storeS (s.v a).l0 d
    pure (s.setG d (s.g d + 4))
  | .vadd a b d => pure (s.setV d (Vec.map2 (· + ·) (s.v b) (s.v a)))
  | .sha1c m n d => pure (s.setV d (Arm64.shaUpdate Arm64.shaChoose (s.v d) (s.v n) (s.v m)))
  | .sha1p m n d => pure (s.setV d (Arm64.shaUpdate Arm64.shaParity (s.v d) (s.v n) (s.v m)))
  | .sha1m m n d => pure (s.setV d (Arm64.shaUpdate Arm64.shaMajority (s.v d) (s.v n) (s.v m)))
  | .sha1h n d => pure (s.setV d (Arm64.sha1h (s.v n)))
  | .sha1su0 m n d => pure (s.setV d (Arm64.sha1su0 (s.v d) (s.v n) (s.v m)))
  | .sha1su1 n d => pure (s.setV d (Arm64.sha1su1 (s.v d) (s.v n)))

/-- A straight-line sequence (sha1cdblock_amd64.s:16-266, sha1cdblock_arm64.s:15-243). -/
def execs (s : FSt) : List Instr → GoM FSt
  | [] => pure s
  | i :: is => do
    let s ← exec s i
    execs s is

/-- `blockARM64`, sha1cdblock_arm64.s:31-243; `CMP R16, R21; BLS end` is taken iff R21 ≤ R16 unsigned. -/
def run (s : FSt) : GoM FSt := do
  let s ← execs s Arm64.argLoads
  let s ← execs s Arm64.setup
  let s ← if (s.g .r21).toNat ≤ (s.g .r16).toNat then pure s else execs s Arm64.body
  execs s Arm64.writeBack

/-- A call of `blockARM64` with any registers, sha1cdblock_arm64.go:35,42,43. -/
def call (E : Env) (v : V → Vec) (g : G → Word64) (h : Regs) (p : List Byte) (m1 : Fin 80 → Word)
    (cs : Fin 3 → Regs) : GoM AsmOut := do
  let s ← run ⟨v, g, E.mem h p m1 cs, E.lay .args, E.lay .k0⟩
  pure (E.out s.mem)

/-- The machine contents at one call, sha1cdblock_arm64.go:35,42,43. -/
structure Entry where
  env : Env
  v : V → Vec
  g : G → Word64

/-- `block` with the SHA1 instructions, sha1cdblock_arm64.go:21-48. -/
def block (e : Nat → Entry) (dvs : List DvInfo) : Core → List Byte → GoM Core :=
  simdBlock (fun k => call (e k).env (e k).v (e k).g) dvs

end Arm64

end Verif.Model.Flat
