import Verif.Model.Conc
import Verif.Model.CgoMemory

/-!
Goroutines that share hash objects of both packages, byte arrays and the table of package `ubc`.

The methods of package sha1cd are those of `Model/Conc`; the methods of package cgo (cgo/sha1.go, with the functions of
cgo/sha1.c they call) are given here as sequences of memory accesses.  Slices are parts of arrays, as in `Model/Memory`,
and may overlap; `Sum` and `CollisionResistantSum` append to them, in place if the capacity allows.

Simplifications: accesses take effect one at a time, in program order (a weaker memory: `Model/Sync`); a method of package
sha1cd that hashes reads the bytes of its argument and the 33 entries of the table before anything else; a member of
`SHA1_CTX` that is an array is one location; `sha1_process` reads all members, computes, and writes all members back;
arrays have no end (a program has slices of what it has allocated only), an element is a byte; memory that a call
allocates is the array `fresh` that comes with the action, and what a call allocates for itself is not shared.
-/

namespace Verif.Model.Par

open Verif Verif.Model Verif.Model.C

/-- The locations of an object of package cgo, cgo/sha1.go:23-26 with cgo/sha1.h:41-59. -/
inductive CField where
  | total
  | ihv
  | buffer
  | found_collision
  | safe_hash
  | detect_coll
  | ubc_check
  | reduced_round_coll
  | ihv1
  | ihv2
  | m1
  | m2
  | states
  | h
deriving DecidableEq, Repr

/-- The type of the value at a location, cgo/sha1.go:23-26 with cgo/sha1.h:41-59. -/
abbrev CField.ty : CField → Type
  | .total => Word64
  | .ihv => Regs
  | .buffer => Buf
  | .found_collision => Word
  | .safe_hash => Word
  | .detect_coll => Word
  | .ubc_check => Word
  | .reduced_round_coll => Word
  | .ihv1 => Regs
  | .ihv2 => Regs
  | .m1 => Fin 80 → Word
  | .m2 => Fin 80 → Word
  | .states => Fin 80 → Regs
  | .h => List Byte

/-- Reading a location of an object of package cgo (cgo/sha1.go:23-26). -/
def cget (d : Cgo.Digest) : (f : CField) → f.ty
  | .total => d.ctx.total
  | .ihv => d.ctx.ihv
  | .buffer => d.ctx.buffer
  | .found_collision => d.ctx.found_collision
  | .safe_hash => d.ctx.safe_hash
  | .detect_coll => d.ctx.detect_coll
  | .ubc_check => d.ctx.ubc_check
  | .reduced_round_coll => d.ctx.reduced_round_coll
  | .ihv1 => d.ctx.ihv1
  | .ihv2 => d.ctx.ihv2
  | .m1 => d.ctx.m1
  | .m2 => d.ctx.m2
  | .states => d.ctx.states
  | .h => d.h

/-- Writing a location of an object of package cgo (cgo/sha1.go:23-26). -/
def cput (d : Cgo.Digest) : (f : CField) → f.ty → Cgo.Digest
  | .total, v => { d with ctx := { d.ctx with total := v } }
  | .ihv, v => { d with ctx := { d.ctx with ihv := v } }
  | .buffer, v => { d with ctx := { d.ctx with buffer := v } }
  | .found_collision, v => { d with ctx := { d.ctx with found_collision := v } }
  | .safe_hash, v => { d with ctx := { d.ctx with safe_hash := v } }
  | .detect_coll, v => { d with ctx := { d.ctx with detect_coll := v } }
  | .ubc_check, v => { d with ctx := { d.ctx with ubc_check := v } }
  | .reduced_round_coll, v => { d with ctx := { d.ctx with reduced_round_coll := v } }
  | .ihv1, v => { d with ctx := { d.ctx with ihv1 := v } }
  | .ihv2, v => { d with ctx := { d.ctx with ihv2 := v } }
  | .m1, v => { d with ctx := { d.ctx with m1 := v } }
  | .m2, v => { d with ctx := { d.ctx with m2 := v } }
  | .states, v => { d with ctx := { d.ctx with states := v } }
  | .h, v => { d with h := v }

/-- Memory: the objects (sha1cd.go:29-37, cgo/sha1.go:23-26), the byte arrays behind slices, and the table. -/
structure Memory where
  /-- the objects of package sha1cd -/
  go : Nat → Model.Digest
  /-- the objects of package cgo -/
  cgo : Nat → Cgo.Digest
  /-- the byte arrays -/
  arr : Nat → Nat → Byte
  /-- the table `sha1_dvs`, ubc/const.go:45 -/
  dv : Nat → DvInfo

/-- The locations (sha1cd.go:29-212, cgo/sha1.go:17-75, ubc/const.go). -/
inductive Loc where
  /-- a field of an object of package sha1cd -/
  | go (o : Nat) (f : Conc.Field)
  /-- a field of an object of package cgo -/
  | cgo (o : Nat) (f : CField)
  /-- element `i` of array `a` -/
  | byte (a i : Nat)
  /-- an entry of the table -/
  | dv (i : Nat)
deriving DecidableEq, Repr

/-- The type of the value at a location (sha1cd.go:29-37, cgo/sha1.go:23-26, ubc/const.go:45). -/
abbrev Loc.ty : Loc → Type
  | .go _ f => f.ty
  | .cgo _ f => f.ty
  | .byte _ _ => Byte
  | .dv _ => DvInfo

/-- Reading a location (of the objects of sha1cd.go:29-37 and cgo/sha1.go:23-26, a byte, or an entry of ubc/const.go:45). -/
def Memory.get (M : Memory) : (l : Loc) → l.ty
  | .go o f => Conc.get (M.go o) f
  | .cgo o f => cget (M.cgo o) f
  | .byte a i => M.arr a i
  | .dv i => M.dv i

/-- Writing a location (of the objects of sha1cd.go:29-37 and cgo/sha1.go:23-26, a byte, or an entry of ubc/const.go:45). -/
def Memory.put (M : Memory) : (l : Loc) → l.ty → Memory
  | .go o f, v => { M with go := fun q => if q = o then Conc.put (M.go o) f v else M.go q }
  | .cgo o f, v => { M with cgo := fun q => if q = o then cput (M.cgo o) f v else M.cgo q }
  | .byte a i, v => { M with arr := fun b j => if b = a ∧ j = i then v else M.arr b j }
  | .dv i, v => { M with dv := fun j => if j = i then v else M.dv j }

/-- Code of sha1cd.go, cgo/sha1.go and cgo/sha1.c:2002-2139: a sequence of accesses, each of which may depend on the values read before. -/
inductive Prog (α : Type) where
  | ret (a : α)
  | panic (e : Panic)
  | rd (l : Loc) (k : l.ty → Prog α)
  | wr (l : Loc) (v : l.ty) (k : Prog α)

/-- Sequencing of statements (no counterpart of its own in the source) (sha1cd.go:29-212, cgo/sha1.go:17-75, ubc/const.go). -/
def Prog.bind {α β : Type} : Prog α → (α → Prog β) → Prog β
  | .ret a, g => g a
  | .panic e, _ => .panic e
  | .rd l k, g => .rd l fun v => (k v).bind g
  | .wr l v k, g => .wr l v (k.bind g)

/-- Notation (sha1cd.go:29-212, cgo/sha1.go:17-75, ubc/const.go). -/
instance : Monad Prog where
  pure := .ret
  bind := .bind

/-- One read (no counterpart of its own in the source) (sha1cd.go:29-212, cgo/sha1.go:17-75, ubc/const.go). -/
def rd (l : Loc) : Prog l.ty := .rd l .ret

/-- One write (no counterpart of its own in the source) (sha1cd.go:29-212, cgo/sha1.go:17-75, ubc/const.go). -/
def wr (l : Loc) (v : l.ty) : Prog Unit := .wr l v (.ret ())

/-- Local computation, by the functions of `Model/Digest` and `Model/CSha1`
(sha1cd.go:29-212, cgo/sha1.go:17-75, ubc/const.go). -/
def lift {α : Type} : GoM α → Prog α
  | .ok a => .ret a
  | .error e => .panic e

/-- The code of package sha1cd (`Model/Conc`), with its accesses as accesses to this memory (sha1cd.go:39-212). -/
def embed {α : Type} : Conc.Prog α → Prog α
  | .ret a => .ret a
  | .panic e => .panic e
  | .rd o f k => .rd (.go o f) fun v => embed (k v)
  | .wr o f v k => .wr (.go o f) v (embed k)

/-- Reading `n` bytes of array `a` from position `off` (cgo/sha1.c:2062-2092 reads its argument in such runs). -/
def rdBytes (a off : Nat) : Nat → Prog (List Byte)
  | 0 => pure []
  | n + 1 => do
    let b ← rd (.byte a off)
    let bs ← rdBytes a (off + 1) n
    pure (b :: bs)

/-- Writing bytes into array `a` from position `off`, as `append` does (sha1cd.go:163, cgo/sha1.go:46). -/
def wrBytes (a off : Nat) : List Byte → Prog Unit
  | [] => pure ()
  | b :: bs => do
    wr (.byte a off) b
    wrBytes a (off + 1) bs

/-- The bytes of a slice, as an argument of `Write` (sha1cd.go:132-157, cgo/sha1.go:66-75) and `Sum`. -/
def rdSl (s : Sl) : Prog (List Byte) := rdBytes s.arr s.off s.len

/-- Reading `n` entries of the table from entry `i` (ubc/ubc.go:374-376). -/
def rdDvs (i : Nat) : Nat → Prog (List DvInfo)
  | 0 => pure []
  | n + 1 => do
    let e ← rd (.dv i)
    let es ← rdDvs (i + 1) n
    pure (e :: es)

/-- Reading the table (ubc/ubc.go:374-376, ubc/const.go:45). -/
def rdTable : Prog (List DvInfo) := rdDvs 0 sha1Dvs.length

/-- `append(s, bs...)` (as `appendSl`), sha1cd.go:163,211 and cgo/sha1.go:46. -/
def append (s : Sl) (bs : List Byte) (grow fresh : Nat) : Prog Sl :=
  if s.len + bs.length ≤ s.cap then do
    wrBytes s.arr (s.off + s.len) bs
    pure { s with len := s.len + bs.length }
  else do
    let old ← rdSl s
    wrBytes fresh 0 (old ++ bs ++ List.replicate grow 0)
    pure ⟨fresh, 0, s.len + bs.length, s.len + bs.length + grow⟩

/-- What an action gives, the results of the methods of sha1cd.go and cgo/sha1.go: slices are parts of arrays. -/
inductive Res where
  | write (n : Nat) (e : Option Err)
  | slice (r : Sl)
  | sliceFlag (r : Sl) (c : Bool)
  | sliceErr (r : Sl) (e : Option Err)
  | value (D : List Byte) (c : Bool)
  | err (e : Option Err)
  | num (n : Nat)
  | byte (b : Byte)
  | none
deriving DecidableEq, Repr

/-! ### Package sha1cd -/

/-- sha1cd.go:132-157. -/
def goWrite (blk : List DvInfo → BlockFn) (o : Nat) (p : Sl) : Prog Res := do
  let bs ← rdSl p
  let t ← rdTable
  match ← embed (Conc.write (blk t) o bs) with
  | .write n e => pure (.write n e)
  | _ => pure .none

/-- sha1cd.go:159-164. -/
def goSum (blk : List DvInfo → BlockFn) (o : Nat) (inp : Sl) (grow fresh : Nat) : Prog Res := do
  let t ← rdTable
  match ← embed (Conc.sum (blk t) o []) with
  | .sum hash => do
    let r ← append inp hash grow fresh
    pure (.slice r)
  | _ => pure .none

/-- sha1cd.go:207-212. -/
def goCrs (blk : List DvInfo → BlockFn) (o : Nat) (inp : Sl) (grow fresh : Nat) : Prog Res := do
  let t ← rdTable
  match ← embed (Conc.collisionResistantSum (blk t) o []) with
  | .collisionResistantSum hash c => do
    let r ← append inp hash grow fresh
    pure (.sliceFlag r c)
  | _ => pure .none

/-- sha1cd.go:39-51; the slice made has the bytes of the checkpoint. -/
def goMarshal (o fresh : Nat) : Prog Res := do
  match ← embed (Conc.marshalBinary o) with
  | .marshalBinary b e => do
    wrBytes fresh 0 b
    pure (.sliceErr ⟨fresh, 0, b.length, b.length⟩ e)
  | _ => pure .none

/-- sha1cd.go:75-92. -/
def goUnmarshal (o : Nat) (b : Sl) : Prog Res := do
  let bs ← rdSl b
  match ← embed (Conc.unmarshalBinary o bs) with
  | .unmarshalBinary e => pure (.err e)
  | _ => pure .none

/-- One method call on object `o` of package sha1cd, sha1cd.go:39-212. -/
def goCall (blk : List DvInfo → BlockFn) (o fresh : Nat) : MOp → Prog Res
  | .write p => goWrite blk o p
  | .sum inp grow => goSum blk o inp grow fresh
  | .collisionResistantSum inp grow => goCrs blk o inp grow fresh
  | .reset => do
    let _ ← embed (Conc.reset o)
    pure .none
  | .size => pure (.num Size)
  | .blockSize => pure (.num Chunk)
  | .marshalBinary _ => goMarshal o fresh
  | .unmarshalBinary b => goUnmarshal o b

/-- sha1cd.go:200-205: the object is local. -/
def goSumPkg (blk : List DvInfo → BlockFn) (data : Sl) : Prog Res := do
  let bs ← rdSl data
  let t ← rdTable
  let (D, c) ← lift (Model.sumPkg (blk t) .callFirst bs)
  pure (.value D c)

/-! ### Package cgo -/

/-- Reading all members of `ctx` (cgo/sha1.h:41-59). -/
def rdCtx (o : Nat) : Prog Ctx := do
  let total ← rd (.cgo o .total)
  let ihv ← rd (.cgo o .ihv)
  let buffer ← rd (.cgo o .buffer)
  let found ← rd (.cgo o .found_collision)
  let safe ← rd (.cgo o .safe_hash)
  let detect ← rd (.cgo o .detect_coll)
  let ubc ← rd (.cgo o .ubc_check)
  let reduced ← rd (.cgo o .reduced_round_coll)
  let ihv1 ← rd (.cgo o .ihv1)
  let ihv2 ← rd (.cgo o .ihv2)
  let m1 ← rd (.cgo o .m1)
  let m2 ← rd (.cgo o .m2)
  let states ← rd (.cgo o .states)
  pure ⟨total, ihv, buffer, found, safe, detect, ubc, reduced, ihv1, ihv2, m1, m2, states⟩

/-- Writing all members of `ctx` (cgo/sha1.h:41-59). -/
def wrCtx (o : Nat) (c : Ctx) : Prog Unit := do
  wr (.cgo o .total) c.total
  wr (.cgo o .ihv) c.ihv
  wr (.cgo o .buffer) c.buffer
  wr (.cgo o .found_collision) c.found_collision
  wr (.cgo o .safe_hash) c.safe_hash
  wr (.cgo o .detect_coll) c.detect_coll
  wr (.cgo o .ubc_check) c.ubc_check
  wr (.cgo o .reduced_round_coll) c.reduced_round_coll
  wr (.cgo o .ihv1) c.ihv1
  wr (.cgo o .ihv2) c.ihv2
  wr (.cgo o .m1) c.m1
  wr (.cgo o .m2) c.m2
  wr (.cgo o .states) c.states

/-- `sha1_process(ctx, block)`, cgo/sha1.c:1950-2000. -/
def process (cfg : Plat) (o : Nat) (block : List Byte) : Prog Unit := do
  let c ← rdCtx o
  let c ← lift (sha1_process cfg c block)
  wrCtx o c

/-- `memcpy(ctx->buffer + off, buf, n)`, cgo/sha1.c:2068,2081,2090; writing outside the buffer or reading more than the
caller passed is a fault. -/
def memcpy (o off : Nat) (p : Sl) (n : Nat) : Prog Unit :=
  if n ≤ p.len then do
    let bs ← rdBytes p.arr p.off n
    let x ← rd (.cgo o .buffer)
    let x ← lift (memcpyBuf x off bs)
    wr (.cgo o .buffer) x
  else .panic .fault

/-- cgo/sha1.c:2062-2073, as `updFill`. -/
def updFill (cfg : Plat) (o : Nat) (p : Sl) : Prog (Sl × Nat) := do
  let total ← rd (.cgo o .total)
  let left := (total &&& 63).toNat
  let fill := 64 - left
  if left ≠ 0 ∧ p.len ≥ fill then do
    let total ← rd (.cgo o .total)
    wr (.cgo o .total) (total + BitVec.ofNat 64 fill)
    memcpy o left p fill
    let x ← rd (.cgo o .buffer)
    process cfg o x.1
    pure (Cgo.adv p fill, 0)
  else pure (p, left)

/-- The body of the loop, cgo/sha1.c:2074-2086. -/
def updBlock (cfg : Plat) (o : Nat) (p : Sl) : Prog Unit := do
  let total ← rd (.cgo o .total)
  wr (.cgo o .total) (total + 64)
  if cfg.unaligned then do
    let bs ← rdBytes p.arr p.off 64
    process cfg o bs
  else do
    memcpy o 0 p 64
    let x ← rd (.cgo o .buffer)
    process cfg o x.1

/-- cgo/sha1.c:2074-2086, as `updBulk`. -/
def updBulk (cfg : Plat) (o : Nat) (p : Sl) : Prog Sl :=
  if 64 ≤ p.len then do
    updBlock cfg o p
    updBulk cfg o (Cgo.adv p 64)
  else pure p
termination_by p.len
decreasing_by simp only [Cgo.adv]; omega

/-- cgo/sha1.c:2087-2091, as `updTail`. -/
def updTail (o : Nat) (p : Sl) (left : Nat) : Prog Unit :=
  if p.len > 0 then do
    let total ← rd (.cgo o .total)
    wr (.cgo o .total) (total + BitVec.ofNat 64 p.len)
    memcpy o left p p.len
  else pure ()

/-- `SHA1DCUpdate(&d.ctx, buf, len)`, cgo/sha1.c:2055-2092. -/
def update (cfg : Plat) (o : Nat) (p : Sl) : Prog Unit :=
  if p.len = 0 then pure ()
  else do
    let (p, left) ← updFill cfg o p
    let p ← updBulk cfg o p
    updTail o p left

/-- cgo/sha1.go:66-75. -/
def cgoWrite (cfg : Plat) (o : Nat) (p : Sl) : Prog Res :=
  if p.len = 0 then pure (.write 0 none)
  else do
    update cfg o p
    pure (.write p.len none)

/-- `d0 := *d`, cgo/sha1.go:38,44. -/
def copy (o : Nat) : Prog Cgo.Digest := do
  let c ← rdCtx o
  let h ← rd (.cgo o .h)
  pure ⟨c, h⟩

/-- cgo/sha1.go:43-47: the copy `d0` is local. -/
def cgoCrs (cfg : Plat) (o : Nat) (inp : Sl) (grow fresh : Nat) : Prog Res := do
  let d0 ← copy o
  let (_, h, c) ← lift (d0.sum0 cfg)
  let r ← append inp h grow fresh
  pure (.sliceFlag r c)

/-- cgo/sha1.go:37-41, with the call of `CollisionResistantSum` on the local copy `d0`, which copies it again. -/
def cgoSum (cfg : Plat) (o : Nat) (inp : Sl) (grow fresh : Nat) : Prog Res := do
  let d0 ← copy o
  let (_, h, _) ← lift (d0.sum0 cfg)
  let r ← append inp h grow fresh
  pure (.slice r)

/-- cgo/sha1.go:49-51 with cgo/sha1.c:2002-2016. -/
def cgoReset (o : Nat) : Prog Res := do
  wr (.cgo o .total) (0 : Word64)
  wr (.cgo o .ihv) (⟨0x67452301, 0xEFCDAB89, 0x98BADCFE, 0x10325476, 0xC3D2E1F0⟩ : Regs)
  wr (.cgo o .found_collision) (0 : Word)
  wr (.cgo o .safe_hash) (1 : Word)
  wr (.cgo o .ubc_check) (1 : Word)
  wr (.cgo o .detect_coll) (1 : Word)
  wr (.cgo o .reduced_round_coll) (0 : Word)
  pure .none

/-- One method call on object `o` of package cgo, cgo/sha1.go:37-75. -/
def cgoCall (cfg : Plat) (o fresh : Nat) : Cgo.CMOp → Prog Res
  | .write p => cgoWrite cfg o p
  | .sum inp grow => cgoSum cfg o inp grow fresh
  | .collisionResistantSum inp grow => cgoCrs cfg o inp grow fresh
  | .reset => cgoReset o
  | .size => pure (.num 20)
  | .blockSize => pure (.num 64)

/-- cgo/sha1.go:57-64: the object is local; `h[:]` is a slice of the local array `h`, which is returned. -/
def cgoSumPkg (cfg : Plat) (data : Sl) (fresh : Nat) : Prog Res := do
  let bs ← rdSl data
  let (D, c) ← lift (Cgo.sumPkg cfg bs)
  wrBytes fresh 0 D
  pure (.sliceFlag (whole fresh D.length) c)

/-! ### Goroutines -/

/-- What a goroutine of the user does with the exported functions and methods (sha1cd.go, cgo/sha1.go) and its own data. -/
inductive Act where
  /-- a method call on object `o` of package sha1cd -/
  | go (o : Nat) (op : MOp) (fresh : Nat)
  /-- `sha1cd.Sum(data)` -/
  | goSum (data : Sl)
  /-- a method call on object `o` of package cgo -/
  | cgo (o : Nat) (op : Cgo.CMOp) (fresh : Nat)
  /-- `cgo.Sum(data)` -/
  | cgoSum (data : Sl) (fresh : Nat)
  /-- `a[i]` -/
  | peek (a i : Nat)
  /-- `a[i] = b` -/
  | poke (a i : Nat) (b : Byte)
  /-- `ubc.SHA1_dvs()[i] = e`, ubc/ubc.go:374-376 -/
  | setDv (i : Nat) (e : DvInfo)

/-- The accesses of an action (sha1cd.go:29-212, cgo/sha1.go:17-75, ubc/const.go). -/
def Act.prog (blk : List DvInfo → BlockFn) (cfg : Plat) : Act → Prog Res
  | .go o op fresh => goCall blk o fresh op
  | .goSum data => goSumPkg blk data
  | .cgo o op fresh => cgoCall cfg o fresh op
  | .cgoSum data fresh => cgoSumPkg cfg data fresh
  | .peek a i => do
    let b ← rd (.byte a i)
    pure (.byte b)
  | .poke a i b => do
    wr (.byte a i) b
    pure .none
  | .setDv i e => do
    wr (.dv i) e
    pure .none

/-- A goroutine: actions in order; it ends with the list of results (sha1cd.go:29-212, cgo/sha1.go:17-75, ubc/const.go). -/
def goroutine (blk : List DvInfo → BlockFn) (cfg : Plat) : List Act → Prog (List Res)
  | [] => pure []
  | c :: cs => do
    let r ← c.prog blk cfg
    let rs ← goroutine blk cfg cs
    pure (r :: rs)

/-- One access (sha1cd.go:29-212, cgo/sha1.go:17-75, ubc/const.go). -/
def Prog.step {α : Type} (M : Memory) : Prog α → Memory × Prog α
  | .ret a => (M, .ret a)
  | .panic e => (M, .panic e)
  | .rd l k => (M, k (M.get l))
  | .wr l v k => (M.put l v, k)

/-- Memory and goroutines (sha1cd.go:29-212, cgo/sha1.go:17-75, ubc/const.go). -/
structure Conf where
  mem : Memory
  gos : Nat → Prog (List Res)

/-- Goroutine `i` makes one access (sha1cd.go:29-212, cgo/sha1.go:17-75, ubc/const.go). -/
def Conf.step (c : Conf) (i : Nat) : Conf :=
  let r := (c.gos i).step c.mem
  ⟨r.1, fun j => if j = i then r.2 else c.gos j⟩

/-- A schedule: which goroutine makes each access (sha1cd.go:29-212, cgo/sha1.go:17-75, ubc/const.go). -/
def Conf.run (c : Conf) : List Nat → Conf
  | [] => c
  | i :: is => (c.step i).run is

/-- The start: goroutine `j` is going to do `gs j`, with build `B` of package sha1cd (sha1cdblock_*.go) and package cgo
compiled for `cfg`. -/
def start (B : Build) (cfg : Plat) (M : Memory) (gs : Nat → List Act) : Conf :=
  ⟨M, fun j => goroutine (fun t => B.blockWith t) cfg (gs j)⟩

/-- The access the code is about to make: the location, and whether it is a write
(sha1cd.go:29-212, cgo/sha1.go:17-75, ubc/const.go). -/
def Prog.next {α : Type} : Prog α → Option (Loc × Bool)
  | .ret _ => none
  | .panic _ => none
  | .rd l _ => some (l, false)
  | .wr l _ _ => some (l, true)

/-- A data race (as `Conc.Conf.Race`) (sha1cd.go:29-212, cgo/sha1.go:17-75, ubc/const.go). -/
def Conf.Race (c : Conf) : Prop :=
  ∃ i j l w, i ≠ j ∧ (c.gos i).next = some (l, true) ∧ (c.gos j).next = some (l, w)

end Verif.Model.Par
