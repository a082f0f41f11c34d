import Verif.Model.Cgo
import Verif.Model.Memory

/-!
Package cgo again, cgo/sha1.go and the parts of cgo/sha1.c that touch byte arrays, this time with byte arrays in memory
as in `Model/Memory`: the fields `ctx.buffer` and `h` of a digest are arrays in memory like any other, and what Go passes
to C is a pointer into the caller's array.

`CSys` is a program: any number of hash objects of package cgo, and a client that calls them in any order and makes and
overwrites byte arrays.

Simplifications: as in `Model/Memory`; the words of `SHA1_CTX` (all but `buffer`) are as in `Model/CSha1`, so
`sha1_process` gets the bytes its pointer points to; the static array `sha1_padding`, which is `const`, is a new array in
each call.
-/

namespace Verif.Model.Cgo

open Verif Verif.Model Verif.Model.C

/-- cgo/sha1.go:23-26 with cgo/sha1.h:41-59: the field `buffer` of `ctx` is the array `buf`, and the field of that name
inside `ctx` is not used; `h` is an array too. -/
structure MCgo where
  ctx : Ctx
  buf : Nat
  h : Nat

/-- `buf += n; len -= n;`, cgo/sha1.c:2070-2071,2084-2085: the pointer `buf` with the `len` bytes behind it. -/
def adv (p : Sl) (n : Nat) : Sl := ⟨p.arr, p.off + n, p.len - n, p.cap - n⟩

/-- `memcpy(ctx->buffer + off, buf, n)`, cgo/sha1.c:2068,2081,2090; writing outside the buffer or reading more than the
caller passed is a fault. -/
def memcpyM (H : Heap) (x off : Nat) (p : Sl) (n : Nat) : GoM Heap :=
  if off + n ≤ 64 ∧ n ≤ p.len then pure (wr H x off ((rd H p).take n)) else throw .fault

/-- The call `sha1_process(ctx, p)`, cgo/sha1.c:2069,2079,2082,2118. -/
def MCgo.process (cfg : Plat) (H : Heap) (d : MCgo) (p : Sl) : GoM MCgo := do
  let ctx ← sha1_process cfg d.ctx (rd H p)
  pure { d with ctx := ctx }

/-- cgo/sha1.c:2062-2073, as `updFill`. -/
def MCgo.updFill (cfg : Plat) (H : Heap) (d : MCgo) (p : Sl) : GoM (Heap × MCgo × Sl × Nat) :=
  let left := (d.ctx.total &&& 63).toNat
  let fill := 64 - left
  if left ≠ 0 ∧ p.len ≥ fill then do
    let d := { d with ctx := { d.ctx with total := d.ctx.total + BitVec.ofNat 64 fill } }
    let H ← memcpyM H d.buf left p fill
    let d ← d.process cfg H (whole d.buf 64)
    pure (H, d, adv p fill, 0)
  else pure (H, d, p, left)

/-- cgo/sha1.c:2074-2086, as `updBulk`. -/
def MCgo.updBulk (cfg : Plat) (H : Heap) (d : MCgo) (p : Sl) : GoM (Heap × MCgo × Sl) :=
  if 64 ≤ p.len then do
    let d := { d with ctx := { d.ctx with total := d.ctx.total + 64 } }
    let (H, d) ←
      if cfg.unaligned then do
        let d ← d.process cfg H p
        pure (H, d)
      else do
        let H ← memcpyM H d.buf 0 p 64
        let d ← d.process cfg H (whole d.buf 64)
        pure (H, d)
    MCgo.updBulk cfg H d (adv p 64)
  else pure (H, d, p)
termination_by p.len
decreasing_by simp only [adv]; omega

/-- cgo/sha1.c:2087-2091, as `updTail`. -/
def MCgo.updTail (H : Heap) (d : MCgo) (p : Sl) (left : Nat) : GoM (Heap × MCgo) :=
  if p.len > 0 then do
    let d := { d with ctx := { d.ctx with total := d.ctx.total + BitVec.ofNat 64 p.len } }
    let H ← memcpyM H d.buf left p p.len
    pure (H, d)
  else pure (H, d)

/-- `SHA1DCUpdate(&d.ctx, buf, len)`, cgo/sha1.c:2055-2092. -/
def MCgo.update (cfg : Plat) (H : Heap) (d : MCgo) (p : Sl) : GoM (Heap × MCgo) :=
  if p.len = 0 then pure (H, d)
  else do
    let (H, d, p, left) ← d.updFill cfg H p
    let (H, d, p) ← d.updBulk cfg H p
    d.updTail H p left

/-- `SHA1DCFinal(output, &d.ctx)`, cgo/sha1.c:2101-2139, `output` being the array of that identity. -/
def MCgo.final (cfg : Plat) (H : Heap) (d : MCgo) (output : Nat) : GoM (Heap × MCgo × Word) := do
  let last : Word := (d.ctx.total &&& 63).setWidth 32
  let padn : Word := if last < 56 then 56 - last else 120 - last
  let (H, padding) := alloc H sha1_padding
  if padn.toNat ≤ 64 then do
    let (H, d) ← d.update cfg H ⟨padding, 0, padn.toNat, 64⟩
    let total : Word64 := d.ctx.total - padn.setWidth 64
    let total := total <<< 3
    let H := wr H d.buf 56
      [(total >>> 56).setWidth 8, (total >>> 48).setWidth 8, (total >>> 40).setWidth 8, (total >>> 32).setWidth 8,
       (total >>> 24).setWidth 8, (total >>> 16).setWidth 8, (total >>> 8).setWidth 8, total.setWidth 8]
    let d ← d.process cfg H (whole d.buf 64)
    let H := wr H output 0
      (out32 d.ctx.ihv.a ++ out32 d.ctx.ihv.b ++ out32 d.ctx.ihv.c ++ out32 d.ctx.ihv.d ++ out32 d.ctx.ihv.e)
    pure (H, d, d.ctx.found_collision)
  else throw .fault

/-- cgo/sha1.go:28-35; the array `d.h` is returned by value. -/
def MCgo.sum0 (cfg : Plat) (H : Heap) (d : MCgo) : GoM (Heap × MCgo × List Byte × Bool) := do
  let (H, d, c) ← d.final cfg H d.h
  if c ≠ 0 then pure (H, d, rd H (whole d.h 20), true) else pure (H, d, rd H (whole d.h 20), false)

/-- `d0 := *d`, cgo/sha1.go:38,44: both arrays are copied. -/
def MCgo.clone (H : Heap) (d : MCgo) : Heap × MCgo :=
  let (H, buf) := alloc H (rd H (whole d.buf 64))
  let (H, h) := alloc H (rd H (whole d.h 20))
  (H, { d with buf := buf, h := h })

/-- cgo/sha1.go:43-47.  The receiver is not changed; the local array `h` is allocated. -/
def MCgo.collisionResistantSum (cfg : Plat) (H : Heap) (d : MCgo) (inp : Sl) (grow : Nat) : GoM (Heap × Sl × Bool) := do
  let (H, d0) := d.clone H
  let (H, _, bytes, c) ← d0.sum0 cfg H
  let (H, h) := alloc H bytes
  let (H, r) := appendSl H inp (rd H (whole h 20)) grow
  pure (H, r, c)

/-- cgo/sha1.go:37-41.  The receiver is not changed. -/
def MCgo.sum (cfg : Plat) (H : Heap) (d : MCgo) (inp : Sl) (grow : Nat) : GoM (Heap × Sl) := do
  let (H, d0) := d.clone H
  let (H, h, _) ← d0.collisionResistantSum cfg H inp grow
  pure (H, h)

/-- cgo/sha1.go:49-51. -/
def MCgo.reset (d : MCgo) : MCgo := { d with ctx := SHA1DCInit d.ctx }

/-- `var d digest; d.Reset()`, cgo/sha1.go:17-21,58-59. -/
def MCgo.make (H : Heap) : Heap × MCgo :=
  let (H, buf) := alloc H (List.replicate 64 0)
  let (H, h) := alloc H (List.replicate 20 0)
  (H, MCgo.reset { ctx := Digest.zero.ctx, buf := buf, h := h })

/-- cgo/sha1.go:66-75. -/
def MCgo.write (cfg : Plat) (H : Heap) (d : MCgo) (p : Sl) : GoM (Heap × MCgo × Nat × Option Err) :=
  if p.len = 0 then pure (H, d, 0, none)
  else do
    let (H, d) ← d.update cfg H p
    pure (H, d, p.len, none)

/-- cgo/sha1.go:57-64: `h[:]` is a slice of the local array `h`. -/
def msumPkg (cfg : Plat) (H : Heap) (data : Sl) : GoM (Heap × Sl × Bool) := do
  let (H, d) := MCgo.make H
  let (H, d, _) ← d.write cfg H data
  let (H, _, bytes, c) ← d.sum0 cfg H
  let (H, h) := alloc H bytes
  pure (H, whole h 20, c)

/-- The calls, cgo/sha1.go:37-75, with slices as arguments; `grow` is the extra capacity `append` gives a new array. -/
inductive CMOp where
  | write (p : Sl)
  | sum (inp : Sl) (grow : Nat)
  | collisionResistantSum (inp : Sl) (grow : Nat)
  | reset
  | size
  | blockSize
deriving DecidableEq, Repr

/-- The slice argument of a call, cgo/sha1.go:37,43,66. -/
def CMOp.arg : CMOp → Option Sl
  | .write p => some p
  | .sum inp _ => some inp
  | .collisionResistantSum inp _ => some inp
  | _ => none

/-- The call as a value (cgo/sha1.go:37-75): with the bytes that its argument has in memory `H`. -/
def CMOp.val (H : Heap) : CMOp → Op
  | .write p => .write (rd H p)
  | .sum inp _ => .sum (rd H inp)
  | .collisionResistantSum inp _ => .collisionResistantSum (rd H inp)
  | .reset => .reset
  | .size => .size
  | .blockSize => .blockSize

/-- One method call, cgo/sha1.go:37-75: the new memory, the new receiver, the slice returned (if any), and the results as values (slices as
the bytes they have on return). -/
def MCgo.call (cfg : Plat) (H : Heap) (d : MCgo) : CMOp → GoM (Heap × MCgo × Option Sl × Out)
  | .write p => do let (H, d, n, e) ← d.write cfg H p; pure (H, d, none, .write n e)
  | .sum inp grow => do let (H, r) ← d.sum cfg H inp grow; pure (H, d, some r, .sum (rd H r))
  | .collisionResistantSum inp grow => do
    let (H, r, c) ← d.collisionResistantSum cfg H inp grow
    pure (H, d, some r, .collisionResistantSum (rd H r) c)
  | .reset => pure (H, d.reset, none, .reset)
  | .size => pure (H, d, none, .size 20)
  | .blockSize => pure (H, d, none, .blockSize 64)

/-- The state of a program (cgo/sha1.go:17-75). -/
structure CSys where
  /-- memory -/
  heap : Heap
  /-- the hash objects made so far -/
  objs : List MCgo
  /-- the arrays the client has: those it made and those it was given -/
  known : List Nat

/-- The actions of the client (cgo/sha1.go:17-75). -/
inductive CCmd where
  /-- `cgo.New()` -/
  | new
  /-- a method call on object `o` -/
  | call (o : Nat) (op : CMOp)
  /-- `cgo.Sum(data)` -/
  | sumPkg (data : Sl)
  /-- a new array with the given contents -/
  | make (bs : List Byte)
  /-- `a[i] = b` -/
  | poke (a i : Nat) (b : Byte)

/-- What happened: the calls and their results, as values (cgo/sha1.go:17-75). -/
inductive CEv where
  | call (o : Nat) (op : Op) (out : Out)
  | sumPkg (data D : List Byte) (c : Bool)
deriving DecidableEq, Repr

/-- A slice the client can have: the empty one, or one of an array it has (as `Sys.legal`) (cgo/sha1.go:17-75). -/
def CSys.legal (s : CSys) (p : Sl) : Bool := Sys.legal ⟨s.heap, [], [], s.known⟩ p

/-- One action.  Actions that no client can express (unknown objects or arrays, slices that do not fit) do nothing
(cgo/sha1.go:17-75). -/
def CSys.step (cfg : Plat) (s : CSys) : CCmd → GoM (CSys × List CEv)
  | .new =>
    let (H, d) := MCgo.make s.heap
    pure ({ s with heap := H, objs := s.objs ++ [d] }, [])
  | .call o op =>
    match s.objs[o]? with
    | none => pure (s, [])
    | some d =>
      if op.arg.all s.legal then do
        let (H, d, r, out) ← d.call cfg s.heap op
        pure ({ s with heap := H, objs := s.objs.set o d, known := (r.map Sl.arr).toList ++ s.known },
          [.call o (op.val s.heap) out])
      else pure (s, [])
  | .sumPkg data =>
    if s.legal data then do
      let (H, r, c) ← msumPkg cfg s.heap data
      pure ({ s with heap := H, known := r.arr :: s.known }, [.sumPkg (rd s.heap data) (rd H r) c])
    else pure (s, [])
  | .make bs =>
    let (H, id) := alloc s.heap bs
    pure ({ s with heap := H, known := id :: s.known }, [])
  | .poke a i b =>
    if a ∈ s.known then pure ({ s with heap := s.heap.modify a fun l => l.set i b }, []) else pure (s, [])

/-- A program (cgo/sha1.go:17-75). -/
def CSys.run (cfg : Plat) (s : CSys) : List CCmd → GoM (CSys × List CEv)
  | [] => pure (s, [])
  | c :: cs => do
    let (s, e) ← s.step cfg c
    let (s, es) ← s.run cfg cs
    pure (s, e ++ es)

/-- The start of a program (cgo/sha1.go:17-75). -/
def CSys.init : CSys := ⟨[], [], []⟩

end Verif.Model.Cgo
