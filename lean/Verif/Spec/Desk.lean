import Verif.Spec.Held
import Verif.Spec.System
import Verif.Source.GoClient

/-!
What a program that uses the package is supposed to see: its hash objects hold what `Spec/Held` says, its arrays are
lists of bytes, its slices are parts of them, and `append` is Go's.  Only the type of the steps is taken from `Source/GoClient`.
-/

namespace Verif.Spec

open Verif Verif.Model Verif.Source.Go

/-- A slice: where it starts in which array, its length and its capacity. -/
structure Part where
  arr : Nat
  off : Nat
  len : Nat
  cap : Nat
deriving DecidableEq, Repr

/-- The hash objects, arrays and slices of a program; `none` is the slice `nil`. -/
structure Desk where
  objs : List Held
  arrs : List (List Byte)
  held : List (Option Part)

/-- A program at its start. -/
def Desk.new : Desk := ⟨[], [], []⟩

/-- The bytes of a slice. -/
def Desk.bytes (k : Desk) : Option Part → List Byte
  | none => []
  | some p => ((k.arrs.getD p.arr []).drop p.off).take p.len

/-- A new array, and a slice of its first `len` bytes. -/
def Desk.fresh (k : Desk) (bs : List Byte) (len : Nat) : Desk :=
  { k with arrs := k.arrs ++ [bs], held := k.held ++ [some ⟨k.arrs.length, 0, len, bs.length⟩] }

/-- The bytes from index `i` on replaced. -/
def overwrite (bs : List Byte) (i : Nat) (new : List Byte) : List Byte := bs.take i ++ new ++ bs.drop (i + new.length)

/-- `append(p, add...)`: behind the slice if there is room, else in a new array, which has `room n` bytes more than the `n` needed. -/
def Desk.append (room : Nat → Nat) (k : Desk) (p : Option Part) (add : List Byte) : Desk :=
  let full := k.fresh (k.bytes p ++ add ++ List.replicate (room (k.bytes p ++ add).length) 0) (k.bytes p ++ add).length
  match p with
  | none => full
  | some q =>
    if q.len + add.length ≤ q.cap then
      { k with arrs := k.arrs.modify q.arr (overwrite · (q.off + q.len) add), held := k.held ++ [some { q with len := q.len + add.length }] }
    else full

/-- A step of the program, and what it sees of the package.  Slices of `limit` bytes or more are not handed over. -/
def Desk.step (det : Regs → Block → Bool) (room : Nat → Nat) (limit : Nat) (k : Desk) : Step → Desk × List Ev
  | .new => ({ k with objs := k.objs ++ [.new] }, [])
  | .null => ({ k with held := k.held ++ [none] }, [])
  | .make bs => (k.fresh bs bs.length, [])
  | .reslice s i j =>
    match k.held[s]? with
    | some (some p) => if i ≤ j ∧ j ≤ p.cap then ({ k with held := k.held ++ [some ⟨p.arr, p.off + i, j - i, p.cap - i⟩] }, []) else (k, [])
    | _ => (k, [])
  | .poke s i b =>
    match k.held[s]? with
    | some (some p) => if i < p.len then ({ k with arrs := k.arrs.modify p.arr (overwrite · (p.off + i) [b]) }, []) else (k, [])
    | _ => (k, [])
  | .call0 o f =>
    match k.objs[o]? with
    | some H =>
      let k' := { k with objs := k.objs.set o (H.after det f.op) }
      (if f = .marshalBinary then k'.fresh (checkpoint H.H H.pend H.len) (checkpoint H.H H.pend H.len).length else k',
        [.call o f.op (H.result det f.op)])
    | none => (k, [])
  | .call1 o f s =>
    match k.objs[o]?, k.held[s]? with
    | some H, some p =>
      let bs := k.bytes p
      if bs.length < limit then
        let k' := { k with objs := k.objs.set o (H.after det (f.op bs)) }
        (if f = .sum ∨ f = .collisionResistantSum then k'.append room p (H.sum det).1 else k', [.call o (f.op bs) (H.result det (f.op bs))])
      else (k, [])
    | _, _ => (k, [])
  | .sumPkg s =>
    match k.held[s]? with
    | some p =>
      let bs := k.bytes p
      if bs.length < limit then (k, [.sumPkg bs (safeHash det bs).1 (safeHash det bs).2]) else (k, [])
    | none => (k, [])

/-- A program. -/
def Desk.run (det : Regs → Block → Bool) (room : Nat → Nat) (limit : Nat) (k : Desk) : List Step → Desk × List Ev
  | [] => (k, [])
  | s :: ss =>
    let (k1, e) := k.step det room limit s
    let (k2, es) := k1.run det room limit ss
    (k2, e ++ es)

end Verif.Spec
