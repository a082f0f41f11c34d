import Verif.Model.Digest

/-!
The methods of sha1cd.go as sequences of memory accesses, and goroutines that interleave them.

A location is a field of a hash object, or one element of its arrays `h` and `x`.  Everything else a method touches is
local to the call (the copy `d0`, `tmp`, the arrays of the block functions) or read-only (the table).

Simplifications: accesses take effect one at a time, in program order (a weaker memory: `Model/Sync`); arguments are values, so
the caller's slices are not shared with a writer; the block functions read `h` and `col`, compute, and write `h` and
`col` back (the code writes `col` only if it has flagged a block); the copy `*d` reads the fields in the order of the
struct.
-/

namespace Verif.Model.Conc

open Verif Verif.Model

/-- The locations of an object, sha1cd.go:29-37. -/
inductive Field where
  | h (i : Fin 5)
  | x (i : Fin 64)
  | nx
  | len
  | col
deriving DecidableEq, Repr

/-- The type of the value at a location, sha1cd.go:29-37. -/
abbrev Field.ty : Field → Type
  | .h _ => Word
  | .x _ => Byte
  | .nx => Nat
  | .len => Word64
  | .col => Bool

/-- `d.h[i]` -/
def getH (s : Regs) (i : Fin 5) : Word :=
  match i with
  | 0 => s.a
  | 1 => s.b
  | 2 => s.c
  | 3 => s.d
  | 4 => s.e

/-- `d.h[i] = v` -/
def putH (s : Regs) (i : Fin 5) (v : Word) : Regs :=
  match i with
  | 0 => { s with a := v }
  | 1 => { s with b := v }
  | 2 => { s with c := v }
  | 3 => { s with d := v }
  | 4 => { s with e := v }

/-- Reading a location (sha1cd.go:29-212). -/
def get (d : Digest) : (f : Field) → f.ty
  | .h i => getH d.h i
  | .x i => d.x.1[i.val]'(by rw [d.x.2]; exact i.isLt)
  | .nx => d.nx
  | .len => d.len
  | .col => d.col

/-- Writing a location (sha1cd.go:29-212). -/
def put (d : Digest) : (f : Field) → f.ty → Digest
  | .h i, v => { d with h := putH d.h i v }
  | .x i, v => { d with x := ⟨d.x.1.set i.val v, by rw [List.length_set]; exact d.x.2⟩ }
  | .nx, v => { d with nx := v }
  | .len, v => { d with len := v }
  | .col, v => { d with col := v }

/-- Memory: the hash objects (sha1cd.go:29-212). -/
abbrev Store := Nat → Digest

/-- A changed object (sha1cd.go:29-212). -/
def Store.set (S : Store) (o : Nat) (d : Digest) : Store := fun q => if q = o then d else S q

/-- Code: a sequence of accesses to objects, each of which may depend on the values read before (sha1cd.go:29-212). -/
inductive Prog (α : Type) where
  | ret (a : α)
  | panic (e : Panic)
  | rd (o : Nat) (f : Field) (k : f.ty → Prog α)
  | wr (o : Nat) (f : Field) (v : f.ty) (k : Prog α)

/-- Sequencing (sha1cd.go:29-212). -/
def Prog.bind {α β : Type} : Prog α → (α → Prog β) → Prog β
  | .ret a, g => g a
  | .panic e, _ => .panic e
  | .rd o f k, g => .rd o f fun v => (k v).bind g
  | .wr o f v k, g => .wr o f v (k.bind g)

/-- Notation (sha1cd.go:29-212). -/
instance : Monad Prog where
  pure := .ret
  bind := .bind

/-- One read (sha1cd.go:29-212). -/
def rd (o : Nat) (f : Field) : Prog f.ty := .rd o f .ret

/-- One write (sha1cd.go:29-212). -/
def wr (o : Nat) (f : Field) (v : f.ty) : Prog Unit := .wr o f v (.ret ())

/-- Local computation (sha1cd.go:29-212). -/
def lift {α : Type} : GoM α → Prog α
  | .ok a => .ret a
  | .error e => .panic e

/-- Reading `d.h`. -/
def rdH (o : Nat) : Prog Regs := do
  let a ← rd o (.h 0)
  let b ← rd o (.h 1)
  let c ← rd o (.h 2)
  let d ← rd o (.h 3)
  let e ← rd o (.h 4)
  pure ⟨a, b, c, d, e⟩

/-- Writing `d.h`. -/
def wrH (o : Nat) (s : Regs) : Prog Unit := do
  wr o (.h 0) s.a
  wr o (.h 1) s.b
  wr o (.h 2) s.c
  wr o (.h 3) s.d
  wr o (.h 4) s.e

/-- Reading `d.x[:n]` (sha1cd.go:46,143). -/
def rdX (o : Nat) : (n : Nat) → n ≤ 64 → Prog { l : List Byte // l.length = n }
  | 0, _ => pure ⟨[], rfl⟩
  | n + 1, h => do
    let l ← rdX o n (Nat.le_of_succ_le h)
    let b ← rd o (.x ⟨n, h⟩)
    pure ⟨l.1 ++ [b], by rw [List.length_append, l.2]; rfl⟩

/-- `copy(d.x[off:], p)` (sha1cd.go:88,140,154). -/
def wrX (o : Nat) : Nat → List Byte → Prog Unit
  | _, [] => pure ()
  | off, b :: bs =>
    if h : off < 64 then do
      wr o (.x ⟨off, h⟩) b
      wrX o (off + 1) bs
    else pure ()

/-- `block(d, p)`, sha1cd.go:143,150. -/
def callBlock (block : BlockFn) (o : Nat) (p : List Byte) : Prog Unit := do
  let h ← rdH o
  let col ← rd o .col
  let c ← lift (block ⟨h, col⟩ p)
  wrH o c.h
  wr o .col c.col

/-- sha1cd.go:139-147. -/
def writeFill (block : BlockFn) (o : Nat) (p : List Byte) : Prog (List Byte) := do
  let nx ← rd o .nx
  if nx > 0 then
    if nx ≤ 64 then do
      let n := min (64 - nx) p.length
      wrX o nx p
      let nx ← rd o .nx
      wr o .nx (nx + n)
      let nx ← rd o .nx
      if nx = Chunk then do
        let x ← rdX o 64 (Nat.le_refl _)
        callBlock block o x.1
        wr o .nx (0 : Nat)
        pure (p.drop n)
      else pure (p.drop n)
    else .panic .sliceOutOfRange
  else pure p

/-- sha1cd.go:148-152. -/
def writeBulk (block : BlockFn) (o : Nat) (p : List Byte) : Prog (List Byte) :=
  if p.length ≥ Chunk then do
    let n := p.length - (p.length &&& (Chunk - 1))
    callBlock block o (p.take n)
    pure (p.drop n)
  else pure p

/-- sha1cd.go:153-155. -/
def writeTail (o : Nat) (p : List Byte) : Prog Unit :=
  if p.length > 0 then do
    wrX o 0 p
    wr o .nx (min 64 p.length)
  else pure ()

/-- sha1cd.go:132-157. -/
def write (block : BlockFn) (o : Nat) (p : List Byte) : Prog Out :=
  if p.length = 0 then pure (.write 0 none)
  else do
    let nn := p.length
    let len ← rd o .len
    wr o .len (len + BitVec.ofNat 64 nn)
    let p ← writeFill block o p
    let p ← writeBulk block o p
    writeTail o p
    pure (.write nn none)

/-- `d0 := *d`, sha1cd.go:161,209. -/
def copy (o : Nat) : Prog Digest := do
  let h ← rdH o
  let x ← rdX o 64 (Nat.le_refl _)
  let nx ← rd o .nx
  let len ← rd o .len
  let col ← rd o .col
  pure { h := h, x := x, nx := nx, len := len, col := col }

/-- sha1cd.go:159-164. -/
def sum (block : BlockFn) (o : Nat) (inp : List Byte) : Prog Out := do
  let d0 ← copy o
  let (_, hash) ← lift (d0.checkSum block)
  pure (.sum (inp ++ hash))

/-- sha1cd.go:207-212. -/
def collisionResistantSum (block : BlockFn) (o : Nat) (inp : List Byte) : Prog Out := do
  let d0 ← copy o
  let (d0, hash) ← lift (d0.checkSum block)
  pure (.collisionResistantSum (inp ++ hash) d0.col)

/-- sha1cd.go:107-117. -/
def reset (o : Nat) : Prog Out := do
  wr o (.h 0) Init0
  wr o (.h 1) Init1
  wr o (.h 2) Init2
  wr o (.h 3) Init3
  wr o (.h 4) Init4
  wr o .nx (0 : Nat)
  wr o .len (0 : Word64)
  wr o .col false
  pure .reset

/-- sha1cd.go:39-51. -/
def marshalBinary (o : Nat) : Prog Out := do
  let b := Slice.make0 MarshaledSize
  let b := b.append Magic
  let h0 ← rd o (.h 0)
  let b := b.append (bytes32 h0)
  let h1 ← rd o (.h 1)
  let b := b.append (bytes32 h1)
  let h2 ← rd o (.h 2)
  let b := b.append (bytes32 h2)
  let h3 ← rd o (.h 3)
  let b := b.append (bytes32 h3)
  let h4 ← rd o (.h 4)
  let b := b.append (bytes32 h4)
  let nx ← rd o .nx
  if h : nx ≤ 64 then do
    let x ← rdX o nx h
    let b := b.append x.1
    let nx ← rd o .nx
    let b ← lift (b.resliceTo (b.data.length + 64 - nx))
    let len ← rd o .len
    let b := b.append (bytes64 len)
    pure (.marshalBinary b.data none)
  else .panic .sliceOutOfRange

/-- sha1cd.go:75-92. -/
def unmarshalBinary (o : Nat) (b : List Byte) : Prog Out :=
  if b.length < Magic.length ∨ b.take Magic.length ≠ Magic then pure (.unmarshalBinary (some .badIdentifier))
  else if b.length ≠ MarshaledSize then pure (.unmarshalBinary (some .badSize))
  else do
    let b := b.drop Magic.length
    let (b, h0) ← lift (consumeUint32 b)
    wr o (.h 0) h0
    let (b, h1) ← lift (consumeUint32 b)
    wr o (.h 1) h1
    let (b, h2) ← lift (consumeUint32 b)
    wr o (.h 2) h2
    let (b, h3) ← lift (consumeUint32 b)
    wr o (.h 3) h3
    let (b, h4) ← lift (consumeUint32 b)
    wr o (.h 4) h4
    wrX o 0 b
    let b := b.drop (min 64 b.length)
    let (_, len) ← lift (consumeUint64 b)
    wr o .len len
    let len ← rd o .len
    wr o .nx (len % 64).toNat
    pure (.unmarshalBinary none)

/-- One method call on object `o` (sha1cd.go:39-212). -/
def call (block : BlockFn) (o : Nat) : Op → Prog Out
  | .write p => write block o p
  | .sum inp => sum block o inp
  | .collisionResistantSum inp => collisionResistantSum block o inp
  | .reset => reset o
  | .size => pure (.size Size)
  | .blockSize => pure (.blockSize Chunk)
  | .marshalBinary => marshalBinary o
  | .unmarshalBinary b => unmarshalBinary o b

/-- A goroutine: calls in order, on any objects; it ends with the list of results (sha1cd.go:39-212). -/
def goroutine (block : BlockFn) : List (Nat × Op) → Prog (List Out)
  | [] => pure []
  | (o, op) :: cs => do
    let r ← call block o op
    let rs ← goroutine block cs
    pure (r :: rs)

/-- One access (sha1cd.go:29-212). -/
def Prog.step {α : Type} (S : Store) : Prog α → Store × Prog α
  | .ret a => (S, .ret a)
  | .panic e => (S, .panic e)
  | .rd o f k => (S, k (get (S o) f))
  | .wr o f v k => (S.set o (put (S o) f v), k)

/-- Memory and goroutines (sha1cd.go:29-212). -/
structure Conf where
  store : Store
  gos : Nat → Prog (List Out)

/-- Goroutine `i` makes one access (sha1cd.go:29-212). -/
def Conf.step (c : Conf) (i : Nat) : Conf :=
  let r := (c.gos i).step c.store
  ⟨r.1, fun j => if j = i then r.2 else c.gos j⟩

/-- A schedule: which goroutine makes each access (sha1cd.go:29-212). -/
def Conf.run (c : Conf) : List Nat → Conf
  | [] => c
  | i :: is => (c.step i).run is

/-- The access the code is about to make: the location, and whether it is a write (sha1cd.go:29-212). -/
def Prog.next {α : Type} : Prog α → Option (Nat × Field × Bool)
  | .ret _ => none
  | .panic _ => none
  | .rd o f _ => some (o, f, false)
  | .wr o f _ _ => some (o, f, true)

/-- A data race in the sense of the Go memory model (https://go.dev/ref/mem): two goroutines are about to access the
same location, and one of the accesses is a write (sha1cd.go:29-212). -/
def Conf.Race (c : Conf) : Prop :=
  ∃ i j o f w, i ≠ j ∧ (c.gos i).next = some (o, f, true) ∧ (c.gos j).next = some (o, f, w)

end Verif.Model.Conc
