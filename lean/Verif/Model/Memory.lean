import Verif.Model.Build

/-!
The digest again, sha1cd.go, this time with byte arrays in memory: slices have an array, an offset, a length and a
capacity and may share arrays; the field `x` of a digest is an array in memory like any other; local arrays are
allocated.  The chaining value, the counters and the flag are as in `Model/Digest`.

`Sys` is a program: any number of hash objects, and a client that calls them in any order, makes and overwrites byte
arrays, and can reach the table that `ubc.SHA1_dvs` returns.

Simplifications: a memory is a list of arrays, the identity of an array is its position, and nothing is freed; the
block functions only read their argument, so they get its contents; an array returned by value is a list.
-/

namespace Verif.Model

open Verif

/-- Memory: the contents of every array (sha1cd.go:39-212). -/
abbrev Heap := List (List Byte)

/-- A `[]byte` (sha1cd.go:39-212). -/
structure Sl where
  arr : Nat
  off : Nat
  len : Nat
  cap : Nat
deriving DecidableEq, Repr

/-- The bytes of a slice (sha1cd.go:39-212). -/
def rd (H : Heap) (s : Sl) : List Byte := ((H.getD s.arr []).drop s.off).take s.len

/-- `l` with `bs` in place of the bytes from position `off` (sha1cd.go:39-212). -/
def splice (l : List Byte) (off : Nat) (bs : List Byte) : List Byte :=
  l.take off ++ bs ++ l.drop (off + bs.length)

/-- Overwriting bytes of an array (sha1cd.go:39-212). -/
def wr (H : Heap) (arr off : Nat) (bs : List Byte) : Heap := H.modify arr fun l => splice l off bs

/-- `s[i:j]` (sha1cd.go:48,82-88,98,104,146-151,180-181). -/
def Sl.slice (s : Sl) (i j : Nat) : GoM Sl :=
  if i ≤ j ∧ j ≤ s.cap then pure ⟨s.arr, s.off + i, j - i, s.cap - i⟩ else throw .sliceOutOfRange

/-- `a[:]` for an array of `n` bytes (sha1cd.go:88,140-143,163,211). -/
def whole (arr n : Nat) : Sl := ⟨arr, 0, n, n⟩

/-- `copy(dst, src)` (sha1cd.go:88,140,154). -/
def copySl (H : Heap) (dst src : Sl) : Heap × Nat :=
  (wr H dst.arr dst.off ((rd H src).take (min dst.len src.len)), min dst.len src.len)

/-- A new array (sha1cd.go:40,169,188). -/
def alloc (H : Heap) (bs : List Byte) : Heap × Nat := (H ++ [bs], H.length)

/-- `append(s, bs...)`, `bs` being the contents of another array: in place if the capacity allows, else in a new array
whose capacity exceeds the length by a number `grow` that Go does not specify (sha1cd.go:41-47,163,211). -/
def appendSl (H : Heap) (s : Sl) (bs : List Byte) (grow : Nat) : Heap × Sl :=
  if s.len + bs.length ≤ s.cap then
    (wr H s.arr (s.off + s.len) bs, { s with len := s.len + bs.length })
  else
    let (H', id) := alloc H (rd H s ++ bs ++ List.replicate grow 0)
    (H', ⟨id, 0, s.len + bs.length, s.len + bs.length + grow⟩)

/-- `binary.BigEndian.PutUint64(b, v)` and `PutUint32(b, v)`: the bytes `bs` are written at the start of `b`, which must
be long enough (sha1cd.go:181,190-194). -/
def putSl (H : Heap) (b : Sl) (bs : List Byte) : GoM Heap :=
  if bs.length ≤ b.len then pure (wr H b.arr b.off bs) else throw .indexOutOfRange

/-- sha1cd.go:29-37; `x` is the identity of the array. -/
structure MDigest where
  h : Regs
  x : Nat
  nx : Nat
  len : Word64
  col : Bool
deriving DecidableEq, Repr

/-- The call `block(d, p)`, sha1cd.go:143,150, on the contents of `p`. -/
def MDigest.callBlock (block : BlockFn) (d : MDigest) (p : List Byte) : GoM MDigest := do
  let c ← block ⟨d.h, d.col⟩ p
  pure { d with h := c.h, col := c.col }

/-- sha1cd.go:139-147. -/
def MDigest.writeFill (block : BlockFn) (H : Heap) (d : MDigest) (p : Sl) : GoM (Heap × MDigest × Sl) :=
  if d.nx > 0 then do
    let dst ← (whole d.x 64).slice d.nx 64
    let (H, n) := copySl H dst p
    let d := { d with nx := d.nx + n }
    if d.nx = Chunk then do
      let d ← d.callBlock block (rd H (whole d.x 64))
      let p ← p.slice n p.len
      pure (H, { d with nx := 0 }, p)
    else do
      let p ← p.slice n p.len
      pure (H, d, p)
  else pure (H, d, p)

/-- sha1cd.go:148-152. -/
def MDigest.writeBulk (block : BlockFn) (H : Heap) (d : MDigest) (p : Sl) : GoM (Heap × MDigest × Sl) :=
  if p.len ≥ Chunk then do
    let n := p.len - (p.len &&& (Chunk - 1))
    let q ← p.slice 0 n
    let d ← d.callBlock block (rd H q)
    let p ← p.slice n p.len
    pure (H, d, p)
  else pure (H, d, p)

/-- sha1cd.go:153-155. -/
def MDigest.writeTail (H : Heap) (d : MDigest) (p : Sl) : Heap × MDigest :=
  if p.len > 0 then
    let (H, n) := copySl H (whole d.x 64) p
    (H, { d with nx := n })
  else (H, d)

/-- sha1cd.go:132-157. -/
def MDigest.write (block : BlockFn) (H : Heap) (d : MDigest) (p : Sl) :
    GoM (Heap × MDigest × Nat × Option Err) :=
  if p.len = 0 then pure (H, d, 0, none)
  else do
    let nn := p.len
    let d := { d with len := d.len + BitVec.ofNat 64 nn }
    let (H, d, p) ← d.writeFill block H p
    let (H, d, p) ← d.writeBulk block H p
    let (H, d) := d.writeTail H p
    pure (H, d, nn, none)

/-- sha1cd.go:166-197; the result is the contents of the local array `digest`, returned by value. -/
def MDigest.checkSum (block : BlockFn) (H : Heap) (d : MDigest) : GoM (Heap × MDigest × List Byte) := do
  let len := d.len
  let (H, tmp) := alloc H (List.replicate 72 0)
  let H := wr H tmp 0 [0x80]
  let t : Word64 := if len % 64 < 56 then 56 - len % 64 else 64 + 56 - len % 64
  let len := len <<< 3
  let padlen ← (whole tmp 72).slice 0 (t + 8).toNat
  let b ← (whole tmp 72).slice t.toNat 72
  let H ← putSl H b (bytes64 len)
  let (H, d, _) ← d.write block H padlen
  if d.nx ≠ 0 then throw .nxNotZero
  else do
    let (H, digest) := alloc H (List.replicate Size 0)
    let H ← putSl H (← (whole digest Size).slice 0 Size) (bytes32 d.h.a)
    let H ← putSl H (← (whole digest Size).slice 4 Size) (bytes32 d.h.b)
    let H ← putSl H (← (whole digest Size).slice 8 Size) (bytes32 d.h.c)
    let H ← putSl H (← (whole digest Size).slice 12 Size) (bytes32 d.h.d)
    let H ← putSl H (← (whole digest Size).slice 16 Size) (bytes32 d.h.e)
    pure (H, d, rd H (whole digest Size))

/-- `d0 := *d`, sha1cd.go:161,209: the array `x` is copied. -/
def MDigest.clone (H : Heap) (d : MDigest) : Heap × MDigest :=
  let (H, x) := alloc H (rd H (whole d.x 64))
  (H, { d with x := x })

/-- sha1cd.go:207-212.  The receiver is not changed. -/
def MDigest.collisionResistantSum (block : BlockFn) (H : Heap) (d : MDigest) (inp : Sl) (grow : Nat) :
    GoM (Heap × Sl × Bool) := do
  let (H, d0) := d.clone H
  let (H, d0, bytes) ← d0.checkSum block H
  let (H, hash) := alloc H bytes
  let (H, r) := appendSl H inp (rd H (whole hash Size)) grow
  pure (H, r, d0.col)

/-- sha1cd.go:159-164.  The receiver is not changed. -/
def MDigest.sum (block : BlockFn) (H : Heap) (d : MDigest) (inp : Sl) (grow : Nat) : GoM (Heap × Sl) := do
  let (H, d0) := d.clone H
  let (H, _, bytes) ← d0.checkSum block H
  let (H, hash) := alloc H bytes
  let (H, r) := appendSl H inp (rd H (whole hash Size)) grow
  pure (H, r)

/-- sha1cd.go:107-117. -/
def MDigest.reset (d : MDigest) : MDigest :=
  { d with h := ⟨Init0, Init1, Init2, Init3, Init4⟩, nx := 0, len := 0, col := false }

/-- `var d digest; d.Reset()`, sha1cd.go:122-126,201-202. -/
def MDigest.make (H : Heap) : Heap × MDigest :=
  let (H, x) := alloc H (List.replicate 64 0)
  (H, MDigest.reset { h := ⟨0, 0, 0, 0, 0⟩, x := x, nx := 0, len := 0, col := false })

/-- sha1cd.go:200-205, with the call evaluated before the field. -/
def msumPkg (block : BlockFn) (H : Heap) (data : Sl) : GoM (Heap × List Byte × Bool) := do
  let (H, d) := MDigest.make H
  let (H, d, _) ← d.write block H data
  let (H, d, bytes) ← d.checkSum block H
  pure (H, bytes, d.col)

/-- sha1cd.go:39-51.  The slices appended have contents `bytes32 …`; `grow` is the spare capacity chosen if one of the
appends had to move the slice. -/
def MDigest.marshalBinary (H : Heap) (d : MDigest) (grow : Nat) : GoM (Heap × Sl) := do
  let (H, id) := alloc H (List.replicate MarshaledSize 0)
  let b : Sl := ⟨id, 0, 0, MarshaledSize⟩
  let (H, b) := appendSl H b Magic grow
  let (H, b) := appendSl H b (bytes32 d.h.a) grow
  let (H, b) := appendSl H b (bytes32 d.h.b) grow
  let (H, b) := appendSl H b (bytes32 d.h.c) grow
  let (H, b) := appendSl H b (bytes32 d.h.d) grow
  let (H, b) := appendSl H b (bytes32 d.h.e) grow
  let xs ← (whole d.x 64).slice 0 d.nx
  let (H, b) := appendSl H b (rd H xs) grow
  let b ← b.slice 0 (b.len + 64 - d.nx)
  let (H, b) := appendSl H b (bytes64 d.len) grow
  pure (H, b)

/-- sha1cd.go:101-105 on a slice. -/
def mconsume32 (H : Heap) (b : Sl) : GoM (Sl × Word) := do
  let (_, w) ← consumeUint32 (rd H b)
  let b ← b.slice 4 b.len
  pure (b, w)

/-- sha1cd.go:94-99 on a slice. -/
def mconsume64 (H : Heap) (b : Sl) : GoM (Sl × Word64) := do
  let (_, w) ← consumeUint64 (rd H b)
  let b ← b.slice 8 b.len
  pure (b, w)

/-- sha1cd.go:75-92. -/
def MDigest.unmarshalBinary (H : Heap) (d : MDigest) (b : Sl) : GoM (Heap × MDigest × Option Err) :=
  if b.len < Magic.length ∨ (rd H b).take Magic.length ≠ Magic then pure (H, d, some .badIdentifier)
  else if b.len ≠ MarshaledSize then pure (H, d, some .badSize)
  else do
    let b ← b.slice Magic.length b.len
    let (b, h0) ← mconsume32 H b
    let (b, h1) ← mconsume32 H b
    let (b, h2) ← mconsume32 H b
    let (b, h3) ← mconsume32 H b
    let (b, h4) ← mconsume32 H b
    let (H, n) := copySl H (whole d.x 64) b
    let b ← b.slice n b.len
    let (_, len) ← mconsume64 H b
    pure (H, { d with h := ⟨h0, h1, h2, h3, h4⟩, len := len, nx := (len % 64).toNat }, none)

/-- The calls, with slices as arguments (sha1cd.go:39-212). -/
inductive MOp where
  | write (p : Sl)
  | sum (inp : Sl) (grow : Nat)
  | collisionResistantSum (inp : Sl) (grow : Nat)
  | reset
  | size
  | blockSize
  | marshalBinary (grow : Nat)
  | unmarshalBinary (b : Sl)
deriving DecidableEq, Repr

/-- The slice arguments of a call (sha1cd.go:39-212). -/
def MOp.arg : MOp → Option Sl
  | .write p => some p
  | .sum inp _ => some inp
  | .collisionResistantSum inp _ => some inp
  | .unmarshalBinary b => some b
  | _ => none

/-- The call as a value: with the bytes that its argument has in memory `H` (sha1cd.go:39-212). -/
def MOp.val (H : Heap) : MOp → Op
  | .write p => .write (rd H p)
  | .sum inp _ => .sum (rd H inp)
  | .collisionResistantSum inp _ => .collisionResistantSum (rd H inp)
  | .reset => .reset
  | .size => .size
  | .blockSize => .blockSize
  | .marshalBinary _ => .marshalBinary
  | .unmarshalBinary b => .unmarshalBinary (rd H b)

/-- One method call: the new memory, the new receiver, the slice returned (if any), and the results as values (slices as
the bytes they have on return) (sha1cd.go:39-212). -/
def MDigest.call (block : BlockFn) (H : Heap) (d : MDigest) : MOp → GoM (Heap × MDigest × Option Sl × Out)
  | .write p => do let (H, d, n, e) ← d.write block H p; pure (H, d, none, .write n e)
  | .sum inp grow => do let (H, r) ← d.sum block H inp grow; pure (H, d, some r, .sum (rd H r))
  | .collisionResistantSum inp grow => do
    let (H, r, c) ← d.collisionResistantSum block H inp grow
    pure (H, d, some r, .collisionResistantSum (rd H r) c)
  | .reset => pure (H, d.reset, none, .reset)
  | .size => pure (H, d, none, .size Size)
  | .blockSize => pure (H, d, none, .blockSize Chunk)
  | .marshalBinary grow => do let (H, r) ← d.marshalBinary H grow; pure (H, d, some r, .marshalBinary (rd H r) none)
  | .unmarshalBinary b => do let (H, d, e) ← d.unmarshalBinary H b; pure (H, d, none, .unmarshalBinary e)

/-- The state of a program (sha1cd.go:39-212). -/
structure Sys where
  /-- memory -/
  heap : Heap
  /-- the hash objects made so far -/
  objs : List MDigest
  /-- the package variable `sha1_dvs`, ubc/const.go:45 -/
  dvs : List DvInfo
  /-- the arrays the client has: those it made and those it was given -/
  known : List Nat

/-- The actions of the client (sha1cd.go:39-212). -/
inductive Cmd where
  /-- `sha1cd.New()` -/
  | new
  /-- a method call on object `o` -/
  | call (o : Nat) (op : MOp)
  /-- `sha1cd.Sum(data)` -/
  | sumPkg (data : Sl)
  /-- a new array with the given contents -/
  | make (bs : List Byte)
  /-- `a[i] = b` -/
  | poke (a i : Nat) (b : Byte)
  /-- `ubc.SHA1_dvs()[i] = e`, ubc/ubc.go:374-376 -/
  | setDv (i : Nat) (e : DvInfo)

/-- What happened: the calls and their results, as values (sha1cd.go:39-212). -/
inductive Ev where
  | call (o : Nat) (op : Op) (out : Out)
  | sumPkg (data D : List Byte) (c : Bool)
deriving DecidableEq, Repr

/-- A slice the client can have: the empty one, or one of an array it has (sha1cd.go:39-212). -/
def Sys.legal (s : Sys) (p : Sl) : Bool :=
  decide (p.len ≤ p.cap) && (decide (p.cap = 0) ||
    (decide (p.arr ∈ s.known) && decide (p.off + p.cap ≤ (s.heap.getD p.arr []).length)))

/-- One action.  Actions that no client can express (unknown objects or arrays, slices that do not fit) do nothing.
`blk` is the block function of the build, as a function of the table (sha1cd.go:39-212). -/
def Sys.step (blk : List DvInfo → BlockFn) (s : Sys) : Cmd → GoM (Sys × List Ev)
  | .new =>
    let (H, d) := MDigest.make s.heap
    pure ({ s with heap := H, objs := s.objs ++ [d] }, [])
  | .call o op =>
    match s.objs[o]? with
    | none => pure (s, [])
    | some d =>
      if op.arg.all s.legal then do
        let (H, d, r, out) ← d.call (blk s.dvs) s.heap op
        pure ({ s with heap := H, objs := s.objs.set o d, known := (r.map Sl.arr).toList ++ s.known },
          [.call o (op.val s.heap) out])
      else pure (s, [])
  | .sumPkg data =>
    if s.legal data then do
      let (H, D, c) ← msumPkg (blk s.dvs) s.heap data
      pure ({ s with heap := H }, [.sumPkg (rd s.heap data) D c])
    else pure (s, [])
  | .make bs =>
    let (H, id) := alloc s.heap bs
    pure ({ s with heap := H, known := id :: s.known }, [])
  | .poke a i b =>
    if a ∈ s.known then pure ({ s with heap := s.heap.modify a fun l => l.set i b }, []) else pure (s, [])
  | .setDv i e => pure ({ s with dvs := s.dvs.set i e }, [])

/-- A program (sha1cd.go:39-212). -/
def Sys.run (blk : List DvInfo → BlockFn) (s : Sys) : List Cmd → GoM (Sys × List Ev)
  | [] => pure (s, [])
  | c :: cs => do
    let (s, e) ← s.step blk c
    let (s, es) ← s.run blk cs
    pure (s, e ++ es)

/-- The start of a program (sha1cd.go:39-212). -/
def Sys.init : Sys := ⟨[], [], sha1Dvs, []⟩

end Verif.Model
