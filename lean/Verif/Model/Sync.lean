import Verif.Model.Par

/-!
Goroutines that synchronise, on a memory that does not keep the order of accesses.

The accesses are those of `Model/Par`.  What a goroutine does is cut into sections.  A section may hold a mutex from
its beginning to its end, and may begin only when given sections of other goroutines are over: they send on a channel
from which this one receives, or call `Done` on a group for which this one waits, or execute the `go` statement that
starts this goroutine.

There is no one memory.  Every goroutine has a view of its own, which says for every location the newest write that has
reached it.  A write changes the view of the goroutine that makes it and gets the next number; it may reach any other goroutine at any
time later or never, before or after the writes that the same goroutine made before it; only a write to a location that
is older than the one already there does not come back.  Beginning a section with a mutex brings what the goroutine that last held the mutex
had when it let go of it, and waiting for a section brings what its goroutine had at its end.  That is what the memory
model of Go promises for mutexes, channels and wait groups, and it promises no more.

Simplifications: the writes to one location have one order, that in which they are made, for all goroutines; a read does not return a value
that is written later; a goroutine that panics stays where it is and keeps its mutex; the code that
synchronises is not modelled (there is none in the packages), only its effect; further as in `Model/Par`, except that accesses need
not take effect one at a time in program order.
-/

namespace Verif.Model.Sync

open Verif Verif.Model Verif.Model.C Verif.Model.Par

/-- What a goroutine has of every location (those of sha1cd.go:29-37, cgo/sha1.go:23-26, ubc/const.go:45 and of byte
arrays): the number of the newest write that has reached it, 0 for what was there at the start, and the value. -/
abbrev View := (l : Loc) → Nat × l.ty

/-- A write to `l` reaches a view, as the stores of sha1cd.go:132-157 do. -/
def View.set (V : View) (l : Loc) (x : Nat × l.ty) : View := fun l' => if h : l = l' then h ▸ x else V l'

/-- Everything of `V'` reaches `V`, as it does by synchronisation (none in sha1cd.go:29-212, cgo/sha1.go:17-75). -/
def View.join (V V' : View) : View := fun l => if (V l).1 < (V' l).1 then V' l else V l

/-- A section: the mutex it holds, the sections it waits for (goroutine and number), and what it does with the exported
functions and methods (sha1cd.go:29-212, cgo/sha1.go:17-75, ubc/const.go). -/
structure Section where
  lock : Option Nat
  waits : List (Nat × Nat)
  acts : List Act

/-- A state of the goroutines that use the packages (sha1cd.go:29-212, cgo/sha1.go:17-75, ubc/const.go). -/
structure State where
  /-- the number of writes made -/
  clock : Nat
  /-- the writes made -/
  log : List ((l : Loc) × Nat × l.ty)
  /-- the view of each goroutine -/
  view : Nat → View
  /-- who holds each mutex -/
  held : Nat → Option Nat
  /-- the view left with each mutex -/
  left : Nat → View
  /-- the results of the sections that are over, for each goroutine -/
  done : Nat → List (List Res)
  /-- the view at the end of the sections that are over: of goroutine, number -/
  sent : Nat → Nat → View
  /-- the code each goroutine is in the middle of, if it is in a section -/
  now : Nat → Option (Prog (List Res))

/-- A function changed at one place (no counterpart of its own in the source; sha1cd.go:29-212). -/
def setAt {α : Type} (f : Nat → α) (i : Nat) (a : α) : Nat → α := fun j => if j = i then a else f j

/-- May a section begin?  The mutex is free and the sections it waits for are over (sha1cd.go:29-212 and
cgo/sha1.go:17-75 do not synchronise; their user does). -/
def State.ready (c : State) (s : Section) : Bool :=
  (match s.lock with
    | some m => (c.held m).isNone
    | none => true) &&
  s.waits.all fun x => decide (x.2 < (c.done x.1).length)

/-- Goroutine `i` begins section `s` (calls of sha1cd.go:29-212, cgo/sha1.go:17-75). -/
def State.begin (blk : List DvInfo → BlockFn) (cfg : Plat) (c : State) (i : Nat) (s : Section) : State :=
  let V := match s.lock with
    | some m => (c.view i).join (c.left m)
    | none => c.view i
  let V := s.waits.foldl (fun V x => V.join (c.sent x.1 x.2)) V
  { c with
    view := setAt c.view i V
    held := match s.lock with
      | some m => setAt c.held m (some i)
      | none => c.held
    now := setAt c.now i (some (goroutine blk cfg s.acts)) }

/-- Goroutine `i` ends section `s` with results `rs` (of calls of sha1cd.go:29-212, cgo/sha1.go:17-75). -/
def State.finish (c : State) (i : Nat) (s : Section) (rs : List Res) : State :=
  { c with
    held := match s.lock with
      | some m => setAt c.held m none
      | none => c.held
    left := match s.lock with
      | some m => setAt c.left m (c.view i)
      | none => c.left
    done := setAt c.done i (c.done i ++ [rs])
    sent := setAt c.sent i (setAt (c.sent i) (c.done i).length (c.view i))
    now := setAt c.now i none }

/-- Goroutine `i` makes an access, or begins or ends a section, or cannot go on (sha1cd.go:29-212, cgo/sha1.go:17-75,
ubc/const.go). -/
def State.step (blk : List DvInfo → BlockFn) (cfg : Plat) (gs : Nat → List Section) (c : State) (i : Nat) : State :=
  match (gs i)[(c.done i).length]? with
  | none => c
  | some s =>
    match c.now i with
    | none => if c.ready s then c.begin blk cfg i s else c
    | some (.ret rs) => c.finish i s rs
    | some (.panic _) => c
    | some (.rd l k) => { c with now := setAt c.now i (some (k (c.view i l).2)) }
    | some (.wr l v k) =>
      { c with
        clock := c.clock + 1
        log := c.log ++ [⟨l, c.clock + 1, v⟩]
        view := setAt c.view i ((c.view i).set l (c.clock + 1, v))
        now := setAt c.now i (some k) }

/-- What happens next: a goroutine goes on, or a write that was made reaches a goroutine (sha1cd.go:29-212,
cgo/sha1.go:17-75). -/
inductive SEv where
  | go (i : Nat)
  | reach (n i : Nat)
deriving DecidableEq, Repr

/-- One event (sha1cd.go:29-212, cgo/sha1.go:17-75, ubc/const.go). -/
def State.next (blk : List DvInfo → BlockFn) (cfg : Plat) (gs : Nat → List Section) (c : State) : SEv → State
  | .go i => c.step blk cfg gs i
  | .reach n i =>
    match c.log[n]? with
    | none => c
    | some x => if (c.view i x.1).1 < x.2.1 then { c with view := setAt c.view i ((c.view i).set x.1 x.2) } else c

/-- Events one after the other (sha1cd.go:29-212, cgo/sha1.go:17-75, ubc/const.go). -/
def State.run (blk : List DvInfo → BlockFn) (cfg : Plat) (gs : Nat → List Section) (c : State) : List SEv → State
  | [] => c
  | e :: es => (c.next blk cfg gs e).run blk cfg gs es

/-- The start: memory is `M` for everybody, no mutex is held, and goroutine `j` is going to execute the sections `gs j`
(sha1cd.go:29-212, cgo/sha1.go:17-75, ubc/const.go). -/
def State.init (M : Memory) : State where
  clock := 0
  log := []
  view := fun _ l => (0, M.get l)
  held := fun _ => none
  left := fun _ l => (0, M.get l)
  done := fun _ => []
  sent := fun _ _ l => (0, M.get l)
  now := fun _ => none

/-- An execution with build `B` of package sha1cd (sha1cdblock_*.go) and package cgo compiled for `cfg`. -/
def exec (B : Build) (cfg : Plat) (M : Memory) (gs : Nat → List Section) (es : List SEv) : State :=
  (State.init M).run (fun t => B.blockWith t) cfg gs es

/-- A data race: one goroutine is about to write a location that another is about to access (sha1cd.go:29-212,
cgo/sha1.go:17-75, ubc/const.go). -/
def State.Race (c : State) : Prop :=
  ∃ i j p q l w, i ≠ j ∧ c.now i = some p ∧ c.now j = some q ∧ p.next = some (l, true) ∧ q.next = some (l, w)

/-- Code executed with nothing else running, on one memory (sha1cd.go:29-212, cgo/sha1.go:17-75, ubc/const.go). -/
def whole {α : Type} (M : Memory) : Prog α → GoM (Memory × α)
  | .ret a => .ok (M, a)
  | .panic e => .error e
  | .rd l k => whole M (k (M.get l))
  | .wr l v k => whole (M.put l v) k

/-- Sections executed one after the other on one memory, in the order `τ` (goroutine and number of each): the memory and the results
of each section (sha1cd.go:29-212, cgo/sha1.go:17-75, ubc/const.go). -/
def oneByOne (B : Build) (cfg : Plat) (gs : Nat → List Section) (M : Memory) :
    List (Nat × Nat) → GoM (Memory × List (Nat × List Res))
  | [] => .ok (M, [])
  | x :: τ => do
    let r ← whole M (goroutine (fun t => B.blockWith t) cfg (((gs x.1)[x.2]?.map (·.acts)).getD []))
    let rs ← oneByOne B cfg gs r.1 τ
    pure (rs.1, (x.1, r.2) :: rs.2)

end Verif.Model.Sync
