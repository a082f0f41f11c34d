import Verif.Model.Par
import Verif.Spec.Conc

/-!
Vocabulary for goroutines that share hash objects of both packages, byte arrays and the table of package `ubc`: which
things an action uses and changes, and what actions give when they are executed one after the other.  Only the types of
actions, slices and results are taken from the model.
-/

namespace Verif.Spec.Par

open Verif Verif.Model Verif.Model.Par

/-- What goroutines can share. -/
inductive Thing where
  /-- a hash object of package sha1cd -/
  | go (o : Nat)
  /-- a hash object of package cgo -/
  | cgo (o : Nat)
  /-- byte `i` of array `a` -/
  | byte (a i : Nat)
  /-- an entry of the table of package `ubc` -/
  | dv (i : Nat)
deriving DecidableEq, Repr

/-- A byte of the slice. -/
def InSlice (s : Sl) : Thing → Prop
  | .byte a i => a = s.arr ∧ s.off ≤ i ∧ i < s.off + s.len
  | _ => False

/-- Appending 20 bytes to `s` looks at the bytes of `s` if there is no room for them, since they have to move. -/
def AppendLooks (s : Sl) (t : Thing) : Prop := ¬ s.len + 20 ≤ s.cap ∧ InSlice s t

/-- Appending 20 bytes to `s` changes the 20 bytes behind `s` if there is room, and else writes new memory only. -/
def AppendChanges (s : Sl) (fresh : Nat) : Thing → Prop
  | .byte a i => if s.len + 20 ≤ s.cap then a = s.arr ∧ s.off + s.len ≤ i ∧ i < s.off + s.len + 20 else a = fresh
  | _ => False

/-- An entry of the table. -/
def InTable : Thing → Prop
  | .dv _ => True
  | _ => False

/-- The things an action looks at. -/
def Looks : Act → Thing → Prop
  | .go o (.write p) _, t => t = .go o ∨ InSlice p t ∨ InTable t
  | .go o (.sum inp _) _, t => t = .go o ∨ AppendLooks inp t ∨ InTable t
  | .go o (.collisionResistantSum inp _) _, t => t = .go o ∨ AppendLooks inp t ∨ InTable t
  | .go o (.marshalBinary _) _, t => t = .go o
  | .go _ (.unmarshalBinary b) _, t => InSlice b t
  | .go _ .reset _, _ | .go _ .size _, _ | .go _ .blockSize _, _ => False
  | .goSum data, t => InSlice data t ∨ InTable t
  | .cgo o (.write p) _, t => t = .cgo o ∨ InSlice p t
  | .cgo o (.sum inp _) _, t => t = .cgo o ∨ AppendLooks inp t
  | .cgo o (.collisionResistantSum inp _) _, t => t = .cgo o ∨ AppendLooks inp t
  | .cgo _ .reset _, _ | .cgo _ .size _, _ | .cgo _ .blockSize _, _ => False
  | .cgoSum data _, t => InSlice data t
  | .peek a i, t => t = .byte a i
  | .poke _ _ _, _ | .setDv _ _, _ => False

/-- The things an action changes. -/
def Changes : Act → Thing → Prop
  | .go o (.write _) _, t | .go o .reset _, t | .go o (.unmarshalBinary _) _, t => t = .go o
  | .go _ (.sum inp _) fresh, t | .go _ (.collisionResistantSum inp _) fresh, t => AppendChanges inp fresh t
  | .go _ (.marshalBinary _) fresh, t => ∃ i, t = .byte fresh i
  | .go _ .size _, _ | .go _ .blockSize _, _ => False
  | .goSum _, _ => False
  | .cgo o (.write _) _, t | .cgo o .reset _, t => t = .cgo o
  | .cgo _ (.sum inp _) fresh, t | .cgo _ (.collisionResistantSum inp _) fresh, t => AppendChanges inp fresh t
  | .cgo _ .size _, _ | .cgo _ .blockSize _, _ => False
  | .cgoSum _ fresh, t => ∃ i, t = .byte fresh i
  | .peek _ _, _ => False
  | .poke a i _, t => t = .byte a i
  | .setDv i _, t => t = .dv i

/-- The things a goroutine changes. -/
def ChangesL (cs : List Act) (t : Thing) : Prop := ∃ c ∈ cs, Changes c t

/-- The things a goroutine uses. -/
def UsesL (cs : List Act) (t : Thing) : Prop := ∃ c ∈ cs, Looks c t ∨ Changes c t

/-- The goroutines may run at the same time: no goroutine changes a thing that another one uses. -/
def Separate (gs : Nat → List Act) : Prop := ∀ i j t, i ≠ j → ChangesL (gs i) t → ¬ UsesL (gs j) t

/-- The thing has the same contents in both memories. -/
def SameAt (M M' : Memory) : Thing → Prop
  | .go o => M.go o = M'.go o
  | .cgo o => M.cgo o = M'.cgo o
  | .byte a i => M.arr a i = M'.arr a i
  | .dv i => M.dv i = M'.dv i

/-! ### What actions give when they are executed one after the other -/

/-- The state: the bytes written to each object since it was made or reset, and the byte arrays. -/
structure World where
  go : Nat → List Byte
  cgo : Nat → List Byte
  arr : Nat → Nat → Byte

/-- The bytes of a slice. -/
def World.bytes (w : World) (s : Sl) : List Byte := (List.range s.len).map fun j => w.arr s.arr (s.off + j)

/-- `bs` stored in array `a` from position `off`. -/
def World.store (w : World) (a off : Nat) (bs : List Byte) : World :=
  { w with arr := fun b j => if b = a ∧ off ≤ j ∧ j < off + bs.length then bs.getD (j - off) 0 else w.arr b j }

/-- `append(s, bs...)`. -/
def World.append (w : World) (s : Sl) (bs : List Byte) (grow fresh : Nat) : World × Sl :=
  if s.len + bs.length ≤ s.cap then
    (w.store s.arr (s.off + s.len) bs, { s with len := s.len + bs.length })
  else
    (w.store fresh 0 (w.bytes s ++ bs ++ List.replicate grow 0),
      ⟨fresh, 0, s.len + bs.length, s.len + bs.length + grow⟩)

/-- One method call on object `o` of package sha1cd. -/
def goStep (det : Regs → Block → Bool) (w : World) (o fresh : Nat) : MOp → World × Res
  | .write p =>
    ({ w with go := fun q => if q = o then w.go o ++ w.bytes p else w.go q }, .write p.len none)
  | .sum inp grow =>
    let r := w.append inp (safeHash det (w.go o)).1 grow fresh
    (r.1, .slice r.2)
  | .collisionResistantSum inp grow =>
    let r := w.append inp (safeHash det (w.go o)).1 grow fresh
    (r.1, .sliceFlag r.2 (safeHash det (w.go o)).2)
  | .reset => ({ w with go := fun q => if q = o then [] else w.go q }, .none)
  | .size => (w, .num 20)
  | .blockSize => (w, .num 64)
  | .marshalBinary _ =>
    let cp := checkpoint (safeChain det H0 (blocks (w.go o))).1 ((w.go o).drop (64 * ((w.go o).length / 64)))
      (BitVec.ofNat 64 (w.go o).length)
    (w.store fresh 0 cp, .sliceErr ⟨fresh, 0, cp.length, cp.length⟩ none)
  | .unmarshalBinary _ => (w, .none)

/-- One method call on object `o` of package cgo. -/
def cgoStep (det : Regs → Block → Bool) (w : World) (o fresh : Nat) : Cgo.CMOp → World × Res
  | .write p =>
    ({ w with cgo := fun q => if q = o then w.cgo o ++ w.bytes p else w.cgo q }, .write p.len none)
  | .sum inp grow =>
    let r := w.append inp (safeHash det (w.cgo o)).1 grow fresh
    (r.1, .slice r.2)
  | .collisionResistantSum inp grow =>
    let r := w.append inp (safeHash det (w.cgo o)).1 grow fresh
    (r.1, .sliceFlag r.2 (safeHash det (w.cgo o)).2)
  | .reset => ({ w with cgo := fun q => if q = o then [] else w.cgo q }, .none)
  | .size => (w, .num 20)
  | .blockSize => (w, .num 64)

/-- One action; `dg` and `dc` are the verdicts of the two packages.  Restoring a checkpoint and changing the table of
package `ubc` are not covered. -/
def step (dg dc : Regs → Block → Bool) (w : World) : Act → World × Res
  | .go o op fresh => goStep dg w o fresh op
  | .goSum data => (w, .value (safeHash dg (w.bytes data)).1 (safeHash dg (w.bytes data)).2)
  | .cgo o op fresh => cgoStep dc w o fresh op
  | .cgoSum data fresh =>
    (w.store fresh 0 (safeHash dc (w.bytes data)).1, .sliceFlag ⟨fresh, 0, 20, 20⟩ (safeHash dc (w.bytes data)).2)
  | .peek a i => (w, .byte (w.arr a i))
  | .poke a i b => (w.store a i [b], .none)
  | .setDv _ _ => (w, .none)

/-- The actions covered by `step`. -/
def Covered : Act → Bool
  | .go _ (.unmarshalBinary _) _ | .setDv _ _ => false
  | _ => true

/-- Commands one after the other. -/
def steps (dg dc : Regs → Block → Bool) (w : World) : List Act → World × List Res
  | [] => (w, [])
  | c :: cs =>
    let r := step dg dc w c
    let rs := steps dg dc r.1 cs
    (rs.1, r.2 :: rs.2)

end Verif.Spec.Par
