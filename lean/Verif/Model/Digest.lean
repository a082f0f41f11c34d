import Verif.Model.Block

/-!
The hash object, sha1cd.go.

Simplifications common to the file: methods return the new receiver; slices are lists (aliasing is
modelled separately in `Model/Memory`); the block function chosen by the build (sha1cdblock_noasm.go,
sha1cdblock_amd64.go, sha1cdblock_arm64.go) is the parameter `block`.
-/

namespace Verif.Model

open Verif

/-- A `[64]byte` (sha1cd.go:31). -/
abbrev Buf := { l : List Byte // l.length = 64 }

/-- sha1cd.go:29-37.  `nx` is a Go `int` that is never negative. -/
structure Digest where
  h : Regs
  x : Buf
  nx : Nat
  len : Word64
  col : Bool
deriving DecidableEq, Repr

/-- `block(dig, p)`: reads and writes `dig.h` and `dig.col` only. -/
abbrev BlockFn := Core → List Byte → GoM Core

/-- The call `block(d, p)` on a digest, sha1cd.go:143,150. -/
def Digest.callBlock (block : BlockFn) (d : Digest) (p : List Byte) : GoM Digest := do
  let c ← block ⟨d.h, d.col⟩ p
  pure { d with h := c.h, col := c.col }

/-- `copy(x[off:], p)` into a 64-byte array, for `off ≤ 64`; `min (64-off) len(p)` bytes are copied (sha1cd.go:88,140,154). -/
def copyAt (x : Buf) (off : Nat) (h : off ≤ 64) (p : List Byte) : Buf :=
  ⟨x.1.take off ++ p.take (64 - off) ++ x.1.drop (off + min (64 - off) p.length), by
    have := x.2; simp; omega⟩

/-- The values of Go's `error` that occur (sha1cd.go:77,80). -/
inductive Err where
  /-- "crypto/sha1: invalid hash state identifier", sha1cd.go:77 -/
  | badIdentifier
  /-- "crypto/sha1: invalid hash state size", sha1cd.go:80 -/
  | badSize
deriving DecidableEq, Repr

/-- sha1cd.go:139-147: complete a partial block held in `d.x`; returns the rest of `p`. -/
def Digest.writeFill (block : BlockFn) (d : Digest) (p : List Byte) : GoM (Digest × List Byte) :=
  if d.nx > 0 then
    if h : d.nx ≤ 64 then
      let n := min (64 - d.nx) p.length
      let d := { d with x := copyAt d.x d.nx h p, nx := d.nx + n }
      if d.nx = Chunk then do
        let d ← d.callBlock block d.x.1
        pure ({ d with nx := 0 }, p.drop n)
      else pure (d, p.drop n)
    else throw .sliceOutOfRange
  else pure (d, p)

/-- sha1cd.go:148-152: hash all complete blocks of `p`; returns the rest.  `n := len(p) &^ (Chunk-1)`
clears the low six bits: `len - (len & 63)`. -/
def Digest.writeBulk (block : BlockFn) (d : Digest) (p : List Byte) : GoM (Digest × List Byte) :=
  if p.length ≥ Chunk then do
    let n := p.length - (p.length &&& (Chunk - 1))
    let d ← d.callBlock block (p.take n)
    pure (d, p.drop n)
  else pure (d, p)

/-- sha1cd.go:153-155: keep the rest in `d.x`. -/
def Digest.writeTail (d : Digest) (p : List Byte) : Digest :=
  if p.length > 0 then
    { d with x := copyAt d.x 0 (Nat.zero_le _) p, nx := min 64 p.length }
  else d

/-- sha1cd.go:132-157. -/
def Digest.write (block : BlockFn) (d : Digest) (p : List Byte) : GoM (Digest × Nat × Option Err) :=
  if p.length = 0 then pure (d, 0, none)
  else do
    let nn := p.length
    let d := { d with len := d.len + BitVec.ofNat 64 nn }
    let (d, p) ← d.writeFill block p
    let (d, p) ← d.writeBulk block p
    pure (d.writeTail p, nn, none)

/-- `binary.BigEndian.PutUint64` / `appendUint64` (sha1cd.go:62-73): the bytes written. -/
def bytes64 (v : Word64) : List Byte :=
  [(v >>> 56).setWidth 8, (v >>> 48).setWidth 8, (v >>> 40).setWidth 8, (v >>> 32).setWidth 8,
   (v >>> 24).setWidth 8, (v >>> 16).setWidth 8, (v >>> 8).setWidth 8, v.setWidth 8]

/-- `binary.BigEndian.PutUint32` / `appendUint32` (sha1cd.go:53-60): the bytes written. -/
def bytes32 (v : Word) : List Byte :=
  [(v >>> 24).setWidth 8, (v >>> 16).setWidth 8, (v >>> 8).setWidth 8, v.setWidth 8]

/-- Overwrite `bs.length` bytes of `l` from position `off`; panics if they do not fit (sha1cd.go:181,190-194). -/
def putAt (l : List Byte) (off : Nat) (bs : List Byte) : GoM (List Byte) :=
  if off + bs.length ≤ l.length then pure (l.take off ++ bs ++ l.drop (off + bs.length))
  else throw .sliceOutOfRange

/-- sha1cd.go:167-181: the padding, `tmp[:t+8]` with `tmp` a zeroed `[72]byte` whose first byte is 0x80. -/
def padding (len : Word64) : GoM (List Byte) := do
  let t : Word64 := if len % 64 < 56 then 56 - len % 64 else 64 + 56 - len % 64
  let tmp ← putAt (0x80 :: List.replicate 71 0) t.toNat (bytes64 (len <<< 3))
  if (t + 8).toNat ≤ 72 then pure (tmp.take (t + 8).toNat) else throw .sliceOutOfRange

/-- sha1cd.go:166-197.  Returns the modified receiver and the twenty bytes. -/
def Digest.checkSum (block : BlockFn) (d : Digest) : GoM (Digest × List Byte) := do
  let padlen ← padding d.len
  let (d, _) ← d.write block padlen
  if d.nx ≠ 0 then throw .nxNotZero
  else do
    let digest := List.replicate Size 0
    let digest ← putAt digest 0 (bytes32 d.h.a)
    let digest ← putAt digest 4 (bytes32 d.h.b)
    let digest ← putAt digest 8 (bytes32 d.h.c)
    let digest ← putAt digest 12 (bytes32 d.h.d)
    let digest ← putAt digest 16 (bytes32 d.h.e)
    pure (d, digest)

/-- sha1cd.go:107-117. -/
def Digest.reset (d : Digest) : Digest :=
  { d with h := ⟨Init0, Init1, Init2, Init3, Init4⟩, nx := 0, len := 0, col := false }

/-- The zero value of the struct, `var d digest` (sha1cd.go:123,201). -/
def Digest.zero : Digest :=
  { h := ⟨0, 0, 0, 0, 0⟩, x := ⟨List.replicate 64 0, rfl⟩, nx := 0, len := 0, col := false }

/-- sha1cd.go:122-126. -/
def new : Digest := Digest.zero.reset

/-- sha1cd.go:159-164.  Returns the receiver and the result; `d0 := *d` is a copy (the struct holds no
pointers), so the receiver returned is the one passed in. -/
def Digest.sum (block : BlockFn) (d : Digest) (inp : List Byte) : GoM (Digest × List Byte) := do
  let d0 := d
  let (_, hash) ← d0.checkSum block
  pure (d, inp ++ hash)

/-- sha1cd.go:207-212.  Returns the receiver and the results. -/
def Digest.collisionResistantSum (block : BlockFn) (d : Digest) (inp : List Byte) :
    GoM (Digest × List Byte × Bool) := do
  let d0 := d
  let (d0, hash) ← d0.checkSum block
  pure (d, inp ++ hash, d0.col)

/-- Go does not specify whether the operand `d.col` of `return d.checkSum(), d.col` is read before or
after the call. -/
inductive EvalOrder where
  | callFirst
  | fieldFirst
deriving DecidableEq, Repr

/-- sha1cd.go:200-205. -/
def sumPkg (block : BlockFn) (order : EvalOrder) (data : List Byte) : GoM (List Byte × Bool) := do
  let d := Digest.zero.reset
  let (d, _) ← d.write block data
  let (d', hash) ← d.checkSum block
  pure (hash, match order with | .callFirst => d'.col | .fieldFirst => d.col)

/-- sha1cd.go:128. -/
def Digest.size (_ : Digest) : Nat := Size

/-- sha1cd.go:130. -/
def Digest.blockSize (_ : Digest) : Nat := Chunk

/-- A byte slice with spare capacity: `data` is the visible part, `tail` the bytes of the underlying
array between length and capacity (sha1cd.go:40-50). -/
structure Slice where
  data : List Byte
  tail : List Byte
deriving DecidableEq, Repr

/-- `make([]byte, 0, n)` (sha1cd.go:40). -/
def Slice.make0 (n : Nat) : Slice := ⟨[], List.replicate n 0⟩

/-- `append(b, bs...)`.  Simplification: when the capacity is exceeded the new slice gets no spare
capacity (sha1cd.go:41-47,53-72). -/
def Slice.append (b : Slice) (bs : List Byte) : Slice :=
  if bs.length ≤ b.tail.length then ⟨b.data ++ bs, b.tail.drop bs.length⟩ else ⟨b.data ++ bs, []⟩

/-- `b[:n]`, which may extend into the spare capacity (sha1cd.go:48). -/
def Slice.resliceTo (b : Slice) (n : Nat) : GoM Slice :=
  if n ≤ b.data.length + b.tail.length then
    pure ⟨(b.data ++ b.tail).take n, (b.data ++ b.tail).drop n⟩
  else throw .sliceOutOfRange

/-- sha1cd.go:39-51; the error result is always nil.  Returns the receiver and the bytes. -/
def Digest.marshalBinary (d : Digest) : GoM (Digest × List Byte) := do
  let b := Slice.make0 MarshaledSize
  let b := b.append Magic
  let b := b.append (bytes32 d.h.a)
  let b := b.append (bytes32 d.h.b)
  let b := b.append (bytes32 d.h.c)
  let b := b.append (bytes32 d.h.d)
  let b := b.append (bytes32 d.h.e)
  if d.nx ≤ 64 then do
    let b := b.append (d.x.1.take d.nx)
    let b ← b.resliceTo (b.data.length + 64 - d.nx)
    let b := b.append (bytes64 d.len)
    pure (d, b.data)
  else throw .sliceOutOfRange

/-- sha1cd.go:101-105. -/
def consumeUint32 (b : List Byte) : GoM (List Byte × Word) :=
  match b with
  | b0 :: b1 :: b2 :: b3 :: rest =>
    pure (rest, b3.setWidth 32 ||| (b2.setWidth 32 <<< 8) ||| (b1.setWidth 32 <<< 16) |||
      (b0.setWidth 32 <<< 24))
  | _ => throw .indexOutOfRange

/-- sha1cd.go:94-99. -/
def consumeUint64 (b : List Byte) : GoM (List Byte × Word64) :=
  match b with
  | b0 :: b1 :: b2 :: b3 :: b4 :: b5 :: b6 :: b7 :: rest =>
    pure (rest, b7.setWidth 64 ||| (b6.setWidth 64 <<< 8) ||| (b5.setWidth 64 <<< 16) |||
      (b4.setWidth 64 <<< 24) ||| (b3.setWidth 64 <<< 32) ||| (b2.setWidth 64 <<< 40) |||
      (b1.setWidth 64 <<< 48) ||| (b0.setWidth 64 <<< 56))
  | _ => throw .indexOutOfRange

/-- sha1cd.go:75-92. -/
def Digest.unmarshalBinary (d : Digest) (b : List Byte) : GoM (Digest × Option Err) :=
  if b.length < Magic.length ∨ b.take Magic.length ≠ Magic then pure (d, some .badIdentifier)
  else if b.length ≠ MarshaledSize then pure (d, some .badSize)
  else do
    let b := b.drop Magic.length
    let (b, h0) ← consumeUint32 b
    let (b, h1) ← consumeUint32 b
    let (b, h2) ← consumeUint32 b
    let (b, h3) ← consumeUint32 b
    let (b, h4) ← consumeUint32 b
    let x := copyAt d.x 0 (Nat.zero_le _) b
    let b := b.drop (min 64 b.length)
    let (_, len) ← consumeUint64 b
    pure ({ d with h := ⟨h0, h1, h2, h3, h4⟩, x := x, len := len, nx := (len % 64).toNat }, none)

/-- The methods of the object returned by `New`, with their arguments (sha1cd.go:39-212). -/
inductive Op where
  | write (p : List Byte)
  | sum (inp : List Byte)
  | collisionResistantSum (inp : List Byte)
  | reset
  | size
  | blockSize
  | marshalBinary
  | unmarshalBinary (b : List Byte)
deriving DecidableEq, Repr

/-- The results of the methods (sha1cd.go:39-212). -/
inductive Out where
  | write (n : Nat) (err : Option Err)
  | sum (b : List Byte)
  | collisionResistantSum (b : List Byte) (col : Bool)
  | reset
  | size (n : Nat)
  | blockSize (n : Nat)
  | marshalBinary (b : List Byte) (err : Option Err)
  | unmarshalBinary (err : Option Err)
deriving DecidableEq, Repr

/-- One method call (sha1cd.go:39-212). -/
def Digest.call (block : BlockFn) (d : Digest) : Op → GoM (Digest × Out)
  | .write p => do let (d, n, e) ← d.write block p; pure (d, .write n e)
  | .sum inp => do let (d, b) ← d.sum block inp; pure (d, .sum b)
  | .collisionResistantSum inp => do
    let (d, b, c) ← d.collisionResistantSum block inp; pure (d, .collisionResistantSum b c)
  | .reset => pure (d.reset, .reset)
  | .size => pure (d, .size d.size)
  | .blockSize => pure (d, .blockSize d.blockSize)
  | .marshalBinary => do let (d, b) ← d.marshalBinary; pure (d, .marshalBinary b none)
  | .unmarshalBinary b => do let (d, e) ← d.unmarshalBinary b; pure (d, .unmarshalBinary e)

/-- A history of calls on one object (sha1cd.go:39-212). -/
def Digest.run (block : BlockFn) (d : Digest) : List Op → GoM (Digest × List Out)
  | [] => pure (d, [])
  | op :: ops => do
    let (d, o) ← d.call block op
    let (d, os) ← d.run block ops
    pure (d, o :: os)

/-- sha1cdblock_noasm.go:5-7 with the package's own table. -/
def blockNoasm : BlockFn := blockGeneric sha1Dvs

end Verif.Model
