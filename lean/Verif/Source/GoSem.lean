import Verif.Basic
import Verif.Source.GoSyntax

/-!
What the programs of `Source/GoSyntax` do.

Memory consists of frames, each a list of slots; a slot holds a value, arrays and structs being values; a pointer is a
frame, a slot and a path of indices and fields.  Frame 0 holds the package variables.  A call makes a new frame.

Simplifications, beside the ones noted below: one goroutine; `int` has 64 bits; the memory is never exhausted; a frame
is kept after its function has returned exactly if the function takes addresses or slices at all; the slots of a block
are given up at its end (no pointer to such a variable is used after that, in these files); a function literal holds
copies of the variables it captures (they are not assigned to afterwards); operands are evaluated from the left.
An untyped constant is a value `const` of its own, which takes the type of what it meets.
-/

namespace Verif.Source.Go

open Verif Verif.Source

/-- Where a variable, an array element or a field is (sha1cdblock_generic.go:159). -/
structure Loc where
  frame : Nat
  slot : Nat
  path : List Nat
deriving DecidableEq, Repr

/-- An element or field of what is at a place (sha1cdblock_generic.go:159). -/
def Loc.sub (l : Loc) (i : Nat) : Loc := { l with path := l.path ++ [i] }

/-- Values (sha1cd.go:29-37). -/
inductive Val where
  | u8 (x : Byte)
  | u32 (x : Word)
  | u64 (x : Word64)
  | int (x : Int)
  /-- an untyped constant -/
  | const (x : Int)
  | bool (b : Bool)
  | str (s : List Nat)
  | arr (n : Nat) (f : Nat → Val)
  /-- the fields by their names -/
  | struct (f : Nat → Val)
  | ptr (l : Loc)
  /-- `len` elements from index `off` of the array at `l`, with room for `cap` -/
  | slice (l : Loc) (off len cap : Nat)
  /-- `nil` -/
  | null
  /-- an error with its message -/
  | err (s : List Nat)
  /-- a function literal with what it captured -/
  | clo (idx : Nat) (caps : List Val)

/-- Why a run ends early: a panic of the program or of the run-time system, or that the run was given too few
iterations or nested calls, or that the program makes no sense to the interpreter. -/
inductive Stop where
  | panic (v : Val)
  | index
  | bounds
  | nil
  | fuel
  | stuck

/-- The memory: the frame of the running function, the other frames, and the number of the next new one. -/
structure Mem where
  id : Nat
  cur : List Val
  old : Nat → List Val
  next : Nat

/-- A computation. -/
def M (α : Type) : Type := Mem → Except Stop (α × Mem)

instance : Monad M where
  pure a := fun m => .ok (a, m)
  bind x f := fun m => match x m with
    | .ok (a, m') => f a m'
    | .error e => .error e

/-- End the run. -/
def stop {α : Type} (e : Stop) : M α := fun _ => .error e

/-- A result that may be an early end. -/
def lift {α : Type} (x : Except Stop α) : M α := fun m => match x with
  | .ok a => .ok (a, m)
  | .error e => .error e

/-- Frame `g`. -/
def Mem.frame (m : Mem) (g : Nat) : List Val := if g = m.id then m.cur else m.old g

/-- Replace frame `g`. -/
def Mem.setFrame (m : Mem) (g : Nat) (vs : List Val) : Mem :=
  if g = m.id then { m with cur := vs } else { m with old := fun k => if k = g then vs else m.old k }

/-- The part of a value at the end of a path; an index outside an array is a panic. -/
def Val.get : Val → List Nat → Except Stop Val
  | v, [] => .ok v
  | .arr n f, i :: p => if i < n then (f i).get p else .error .index
  | .struct f, i :: p => (f i).get p
  | _, _ :: _ => .error .stuck

/-- `like a b` is `b`, with the type of `a` if it is an untyped constant. -/
def like : Val → Val → Val
  | .u8 _, .const n => .u8 (BitVec.ofInt 8 n)
  | .u32 _, .const n => .u32 (BitVec.ofInt 32 n)
  | .u64 _, .const n => .u64 (BitVec.ofInt 64 n)
  | .int _, .const n => .int n
  | _, v => v

/-- A value with the part at the end of a path replaced. -/
def Val.set : Val → List Nat → Val → Except Stop Val
  | old, [], v => .ok (like old v)
  | .arr n f, i :: p, v =>
    if i < n then
      match (f i).set p v with
      | .ok w => .ok (.arr n fun j => if j = i then w else f j)
      | .error e => .error e
    else .error .index
  | .struct f, i :: p, v =>
    match (f i).set p v with
    | .ok w => .ok (.struct fun j => if j = i then w else f j)
    | .error e => .error e
  | _, _ :: _, _ => .error .stuck

/-- The value at a place. -/
def load (l : Loc) : M Val := fun m =>
  match (m.frame l.frame)[l.slot]? with
  | some v => match v.get l.path with
    | .ok w => .ok (w, m)
    | .error e => .error e
  | none => .error .stuck

/-- Put a value at a place. -/
def store (l : Loc) (v : Val) : M Unit := fun m =>
  match (m.frame l.frame)[l.slot]? with
  | some old => match old.set l.path v with
    | .ok w => .ok ((), m.setFrame l.frame ((m.frame l.frame).set l.slot w))
    | .error e => .error e
  | none => .error .stuck

/-- New slots of the running function. -/
def push (vs : List Val) : M Unit := fun m => .ok ((), { m with cur := m.cur ++ vs })

/-- Give up the slots after the first `n`. -/
def trunc (n : Nat) : M Unit := fun m => .ok ((), { m with cur := m.cur.take n })

/-- A new frame with one slot. -/
def alloc (v : Val) : M Loc := fun m =>
  .ok ({ frame := m.next, slot := 0, path := [] },
    { m with old := fun k => if k = m.next then [v] else m.old k, next := m.next + 1 })

/-- The zero value of a type (sha1cdblock_generic.go:23-28, sha1cd.go:112). -/
def zero : Ty → Val
  | .u8 => .u8 0
  | .u32 => .u32 0
  | .u64 => .u64 0
  | .int => .int 0
  | .bool => .bool false
  | .str => .str []
  | .any | .ptr _ | .slice _ => .null
  | .arr n t => .arr n fun _ => zero t
  | .none => .struct fun _ => .null
  | .field f t rest => .struct fun g => if g = f then zero t else match zero rest with
    | .struct h => h g
    | _ => .null

/-- An `int`, wrapped to 64 bits (sha1cd.go:125). -/
def wrap (x : Int) : Int := (BitVec.ofInt 64 x).toInt

/-- A value where type `t` is expected: an untyped constant takes that type. -/
def ofTy : Ty → Val → Val
  | .u8, .const n => .u8 (BitVec.ofInt 8 n)
  | .u32, .const n => .u32 (BitVec.ofInt 32 n)
  | .u64, .const n => .u64 (BitVec.ofInt 64 n)
  | .int, .const n => .int n
  | _, v => v

/-- The value of a new variable: an untyped constant is an `int` (sha1cdblock_generic.go:33). -/
def fresh : Val → Val
  | .const n => .int n
  | v => v

/-- A conversion between numeric types (sha1cd.go:71, sha1cdblock_generic.go:54).  Conversions of constants that do not
fit do not occur (the compiler rejects them). -/
def convert : Ty → Val → Option Val
  | .u8, .u8 x => some (.u8 x)
  | .u8, .u32 x => some (.u8 (x.setWidth 8))
  | .u8, .u64 x => some (.u8 (x.setWidth 8))
  | .u32, .u8 x => some (.u32 (x.setWidth 32))
  | .u32, .u32 x => some (.u32 x)
  | .u32, .u64 x => some (.u32 (x.setWidth 32))
  | .u32, .const n => some (.u32 (BitVec.ofInt 32 n))
  | .u64, .u8 x => some (.u64 (x.setWidth 64))
  | .u64, .u32 x => some (.u64 (x.setWidth 64))
  | .u64, .int n => some (.u64 (BitVec.ofInt 64 n))
  | .int, .u64 x => some (.int x.toInt)
  | .int, .const n => some (.int n)
  | _, _ => none

/-- Operators on `uint32` values (sha1cdblock_generic.go:54-58); shifts are elsewhere. -/
def arith32 (x y : Word) : BOp → Option Val
  | .add => some (.u32 (x + y))
  | .sub => some (.u32 (x - y))
  | .mul => some (.u32 (x * y))
  | .and => some (.u32 (x &&& y))
  | .or => some (.u32 (x ||| y))
  | .xor => some (.u32 (x ^^^ y))
  | .andNot => some (.u32 (x &&& ~~~y))
  | .eq => some (.bool (decide (x = y)))
  | .ne => some (.bool (decide (x ≠ y)))
  | .lt => some (.bool (decide (x.toNat < y.toNat)))
  | .le => some (.bool (decide (x.toNat ≤ y.toNat)))
  | .gt => some (.bool (decide (x.toNat > y.toNat)))
  | .ge => some (.bool (decide (x.toNat ≥ y.toNat)))
  | _ => none

/-- Operators on `uint64` values (sha1cd.go:126,160-163); shifts are elsewhere. -/
def arith64 (x y : Word64) : BOp → Option Val
  | .add => some (.u64 (x + y))
  | .sub => some (.u64 (x - y))
  | .mul => some (.u64 (x * y))
  | .rem => if y = 0 then none else some (.u64 (x % y))
  | .and => some (.u64 (x &&& y))
  | .or => some (.u64 (x ||| y))
  | .xor => some (.u64 (x ^^^ y))
  | .andNot => some (.u64 (x &&& ~~~y))
  | .eq => some (.bool (decide (x = y)))
  | .ne => some (.bool (decide (x ≠ y)))
  | .lt => some (.bool (decide (x.toNat < y.toNat)))
  | .le => some (.bool (decide (x.toNat ≤ y.toNat)))
  | .gt => some (.bool (decide (x.toNat > y.toNat)))
  | .ge => some (.bool (decide (x.toNat ≥ y.toNat)))
  | _ => none

/-- Operators on `int` values (sha1cd.go:123-143, sha1cdblock_generic.go:51-57). -/
def arithInt (x y : Int) : BOp → Option Val
  | .add => some (.int (wrap (x + y)))
  | .sub => some (.int (wrap (x - y)))
  | .mul => some (.int (wrap (x * y)))
  | .and => some (.int (BitVec.ofInt 64 x &&& BitVec.ofInt 64 y).toInt)
  | .andNot => some (.int (BitVec.ofInt 64 x &&& ~~~BitVec.ofInt 64 y).toInt)
  | .eq => some (.bool (decide (x = y)))
  | .ne => some (.bool (decide (x ≠ y)))
  | .lt => some (.bool (decide (x < y)))
  | .le => some (.bool (decide (x ≤ y)))
  | .gt => some (.bool (decide (x > y)))
  | .ge => some (.bool (decide (x ≥ y)))
  | _ => none

/-- Operators on untyped constants (sha1cd.go:126,158,163, ubc/ubc.go:40). -/
def arithConst (x y : Int) : BOp → Option Val
  | .add => some (.const (x + y))
  | .sub => some (.const (x - y))
  | .mul => some (.const (x * y))
  | _ => none

/-- The amount of a shift (sha1cdblock_generic.go:54,155). -/
def amount : Val → Option Nat
  | .const n => if 0 ≤ n then some n.toNat else none
  | .u32 x => some x.toNat
  | .u64 x => some x.toNat
  | _ => none

/-- A shift to the left (sha1cdblock_generic.go:54,155, sha1cd.go:166). -/
def shiftL : Val → Nat → Option Val
  | .u32 x, n => some (.u32 (x <<< n))
  | .u64 x, n => some (.u64 (x <<< n))
  | .const x, n => some (.const (x * 2 ^ n))
  | _, _ => none

/-- A shift to the right (sha1cd.go:71, sha1cdblock_generic.go:65). -/
def shiftR : Val → Nat → Option Val
  | .u32 x, n => some (.u32 (x >>> n))
  | .u64 x, n => some (.u64 (x >>> n))
  | _, _ => none

/-- A binary operator on operands of the same type (sha1cd.go:78, ubc/ubc.go:33). -/
def arithSame : BOp → Val → Val → Option Val
  | o, .u32 x, .u32 y => arith32 x y o
  | o, .u64 x, .u64 y => arith64 x y o
  | o, .int x, .int y => arithInt x y o
  | o, .const x, .const y => arithConst x y o
  | .eq, .ptr _, .null => some (.bool false)
  | .eq, .null, .null => some (.bool true)
  | .ne, .str s, .str t => some (.bool (decide (s ≠ t)))
  | _, _, _ => none

/-- A binary operator (sha1cdblock_generic.go:54-58). -/
def arith : BOp → Val → Val → Option Val
  | .shl, a, b => match amount b with
    | some n => shiftL a n
    | none => none
  | .shr, a, b => match amount b with
    | some n => shiftR a n
    | none => none
  | o, a, b => arithSame o (like b a) (like a b)

/-- A unary operator (sha1cdblock_generic.go:56,199, sha1cdblock_amd64.go:26). -/
def unary : UOp → Val → Option Val
  | .not, .bool b => some (.bool !b)
  | .com, .u32 x => some (.u32 (~~~x))
  | .neg, .const n => some (.const (-n))
  | _, _ => none

/-- A value that must make sense. -/
def need {α : Type} (x : Option α) : M α := fun m => match x with
  | some a => .ok (a, m)
  | none => .error .stuck

/-- The number that an index or a bound is (sha1cdblock_generic.go:54,201, sha1cd.go:167). -/
def number : Val → Option Int
  | .int x => some x
  | .const x => some x
  | .u32 x => some x.toNat
  | .u64 x => some x.toNat
  | _ => none

/-- An index into `n` elements; outside it is a panic. -/
def indexIn (i : Int) (n : Nat) : Except Stop Nat := if 0 ≤ i ∧ i < n then .ok i.toNat else .error .index

/-- A slice as its parts (sha1cd.go:125,143); `nil` has none. -/
def parts : Val → Option (Loc × Nat × Nat × Nat)
  | .slice l off len cap => some (l, off, len, cap)
  | .null => some (⟨0, 0, []⟩, 0, 0, 0)
  | _ => none

/-- The only value of a list. -/
def single : List Val → M Val
  | [v] => pure v
  | _ => stop .stuck

/-- The element at an index of an array, of the array a pointer points to, or of a slice (sha1cdblock_generic.go:54,202,
155). -/
def elemOf (a i : Val) : M Val := do
  let i ← need (number i)
  match a with
  | .arr n f => do
    let k ← lift (indexIn i n)
    pure (f k)
  | .ptr l => do
    match ← load l with
    | .arr n f => do
      let k ← lift (indexIn i n)
      pure (f k)
    | _ => stop .stuck
  | .slice l off len _ => do
    let k ← lift (indexIn i len)
    load (l.sub (off + k))
  | .null => stop .nil
  | _ => stop .stuck

/-- Where the element at an index is, the array, pointer or slice being at a place (sha1cdblock_generic.go:54,159,169). -/
def elemPlace (l : Loc) (i : Val) : M Loc := do
  let i ← need (number i)
  match ← load l with
  | .arr n _ => do
    let k ← lift (indexIn i n)
    pure (l.sub k)
  | .ptr l' => do
    match ← load l' with
    | .arr n _ => do
      let k ← lift (indexIn i n)
      pure (l'.sub k)
    | _ => stop .stuck
  | .slice l' off len _ => do
    let k ← lift (indexIn i len)
    pure (l'.sub (off + k))
  | .null => stop .nil
  | _ => stop .stuck

/-- The field of a struct, or of the struct a pointer points to (sha1cd.go:41, sha1cdblock_generic.go:154). -/
def fieldOf (a : Val) (f : Nat) : M Val :=
  match a with
  | .struct g => pure (g f)
  | .ptr l => load (l.sub f)
  | .null => stop .nil
  | _ => stop .stuck

/-- What a pointer at a place points to; or the place itself (sha1cd.go:99, sha1cd.go:113). -/
def through (l : Loc) : M Loc := do
  match ← load l with
  | .ptr l' => pure l'
  | .struct _ => pure l
  | .null => stop .nil
  | _ => stop .stuck

/-- A bound of a slice expression, or what it is if left out (sha1cd.go:47). -/
def bound (v : Option Val) (dflt : Nat) : M Int :=
  match v with
  | some v => need (number v)
  | none => pure dflt

/-- The slice from `lo` to `hi` of the slice, array or array pointed to at a place (sha1cd.go:47,143,167). -/
def sliceOf (l : Loc) (lo hi : Option Val) : M Val := do
  let v ← load l
  let (base, off, len, cap) ← (match v with
    | .slice l' off len cap => pure (l', off, len, cap)
    | .arr n _ => pure (l, 0, n, n)
    | .null => pure (⟨0, 0, []⟩, 0, 0, 0)
    | _ => stop .stuck)
  let lo ← bound lo 0
  let hi ← bound hi len
  if 0 ≤ lo ∧ lo ≤ hi ∧ hi ≤ cap then
    pure (.slice base (off + lo.toNat) (hi - lo).toNat (cap - lo.toNat))
  else stop .bounds

/-- The elements of an array, the ones from `off` on replaced by `k` of `g`. -/
def splice (f g : Nat → Val) (off k : Nat) : Nat → Val :=
  fun i => if off ≤ i ∧ i < off + k then g (i - off) else f i

/-- Put `k` elements into the array at a place, from index `off` on. -/
def storeMany (l : Loc) (off k : Nat) (g : Nat → Val) : M Unit := do
  match ← load l with
  | .arr n f => if off + k ≤ n then store l (.arr n (splice f g off k)) else stop .stuck
  | _ => stop .stuck

/-- The array a slice lies in, as the function from indices to elements. -/
def arrayAt (l : Loc) : M (Nat → Val) := do
  match ← load l with
  | .arr _ f => pure f
  | _ => stop .stuck

/-- The elements of a slice (sha1cd.go:40,151). -/
def sliceElems (v : Val) : M ((Nat → Val) × Nat) := do
  let (l, off, len, _) ← need (parts v)
  if len = 0 then pure (fun _ => .null, 0)
  else do
    let f ← arrayAt l
    pure (fun i => f (off + i), len)

/-- `copy(dst, src)` (sha1cd.go:85,129). -/
def copySlice (dst src : Val) : M Val := do
  let (l, off, len, _) ← need (parts dst)
  let (g, n) ← sliceElems src
  let k := min len n
  if k = 0 then pure (.int 0)
  else do
    storeMany l off k g
    pure (.int k)

/-- `append(s, …)` of `k` elements (sha1cd.go:40,70,151); `room` is how much more than needed a new array has, which Go
leaves open.  All slices that are appended to hold bytes. -/
def appendSlice (room : Nat → Nat) (s : Val) (g : Nat → Val) (k : Nat) : M Val := do
  let (l, off, len, cap) ← need (parts s)
  if len + k ≤ cap then do
    if k = 0 then pure s
    else do
      storeMany l (off + len) k g
      pure (.slice l off (len + k) cap)
  else do
    let (f, _) ← sliceElems s
    let l' ← alloc (.arr (len + k + room (len + k))
      (fun i => if i < len then f i else if i < len + k then g (i - len) else .u8 0))
    pure (.slice l' 0 (len + k) (len + k + room (len + k)))

/-- The bytes of a string or slice as character codes (sha1cd.go:78). -/
def codes (g : Nat → Val) (n : Nat) : List Nat :=
  (List.range n).map fun i => match g i with
    | .u8 x => x.toNat
    | _ => 0

/-- What an expression needs to know: where the package variables are in frame 0, what a call does, and how much room
`append` leaves. -/
structure World where
  glob : Nat → Nat → Option Nat
  call : Nat → Nat → List Val → M (List Val)
  room : Nat → Nat

/-- The fields of a struct literal (ubc/const.go:46). -/
def withFields (f : Nat → Val) : List (Nat × Val) → Nat → Val
  | [] => f
  | (k, v) :: rest => withFields (fun j => if j = k then like (f k) v else f j) rest

/-- The elements of an array literal (sha1cdblock_generic.go:49). -/
def fromList (t : Ty) (vs : List Val) : Nat → Val := fun i => match vs[i]? with
  | some v => ofTy t v
  | none => zero t

mutual

/-- The values of an expression: one, but for lists of expressions and calls (sha1cd.go:38-208,
sha1cdblock_generic.go:22-312). -/
def evs (X : World) : Expr → M (List Val)
  | .nil => pure []
  | .cons e es => do
    let v ← evs X e
    let vs ← evs X es
    pure (v ++ vs)
  | .num n => pure [.const n]
  | .str s => pure [.str s]
  | .bool b => pure [.bool b]
  | .null => pure [.null]
  | .blank => stop .stuck
  | .omit => pure []
  | .loc k => fun m => match m.cur[k]? with
    | some v => .ok ([v], m)
    | none => .error .stuck
  | .glob p n => do
    let k ← need (X.glob p n)
    let v ← load ⟨0, k, []⟩
    pure [v]
  | .both a b => do
    match ← single (← evs X a) with
    | .bool true => evs X b
    | .bool false => pure [.bool false]
    | _ => stop .stuck
  | .either a b => do
    match ← single (← evs X a) with
    | .bool true => pure [.bool true]
    | .bool false => evs X b
    | _ => stop .stuck
  | .bin o a b => do
    let x ← single (← evs X a)
    let y ← single (← evs X b)
    let v ← need (arith o x y)
    pure [v]
  | .un o a => do
    let x ← single (← evs X a)
    let v ← need (unary o x)
    pure [v]
  | .conv t e => do
    let x ← single (← evs X e)
    match t with
    | .str => do
      let (g, n) ← sliceElems x
      pure [.str (codes g n)]
    | _ => do
      let v ← need (convert t x)
      pure [v]
  | .field e f => do
    let a ← single (← evs X e)
    let v ← fieldOf a f
    pure [v]
  | .index e i => do
    let a ← single (← evs X e)
    let k ← single (← evs X i)
    let v ← elemOf a k
    pure [v]
  | .slice e lo hi => do
    let l ← place X e
    let a ← evs X lo
    let b ← evs X hi
    let v ← sliceOf l a.head? b.head?
    pure [v]
  | .addr e => do
    let l ← place X e
    pure [.ptr l]
  | .deref e => do
    match ← single (← evs X e) with
    | .ptr l => do
      let v ← load l
      pure [v]
    | .null => stop .nil
    | _ => stop .stuck
  | .call p n args => do
    let vs ← evs X args
    X.call p n vs
  | .method f e args => do
    let l ← place X e
    let l ← through l
    let vs ← evs X args
    X.call 0 f (.ptr l :: vs)
  | .callVar k args => fun m => match m.cur[k]? with
    | some (.clo i caps) => (do
        let vs ← evs X args
        X.call 1 i (caps ++ vs)) m
    | _ => .error .stuck
  | .func i n => fun m => .ok ([.clo i (m.cur.take n)], m)
  | .lit t es => do
    match t with
    | .arr n u => do
      let vs ← evs X es
      pure [.arr n (fromList u vs)]
    | .slice u => do
      let vs ← evs X es
      let l ← alloc (.arr vs.length (fromList u vs))
      pure [.slice l 0 vs.length vs.length]
    | .field _ _ _ => do
      let kvs ← fields X es
      match zero t with
      | .struct f => pure [.struct (withFields f kvs)]
      | _ => stop .stuck
    | _ => pure [zero t]
  | .kv _ _ _ => stop .stuck
  | .len e => do
    match ← single (← evs X e) with
    | .arr n _ => pure [.int n]
    | .slice _ _ n _ => pure [.int n]
    | .null => pure [.int 0]
    | .str s => pure [.const s.length]
    | _ => stop .stuck
  | .copy a b => do
    let d ← single (← evs X a)
    let s ← single (← evs X b)
    let v ← copySlice d s
    pure [v]
  | .append s args => do
    let d ← single (← evs X s)
    let vs ← evs X args
    let v ← appendSlice X.room d (fun i => (vs[i]?).getD .null) vs.length
    pure [v]
  | .appendAll s e => do
    let d ← single (← evs X s)
    match ← single (← evs X e) with
    | .str t => do
      let v ← appendSlice X.room d (fun i => .u8 (BitVec.ofNat 8 ((t[i]?).getD 0))) t.length
      pure [v]
    | x => do
      let (g, n) ← sliceElems x
      let v ← appendSlice X.room d g n
      pure [v]
  | .make t n c => do
    let len ← need (number (← single (← evs X n)))
    let cap ← need (number (← single (← evs X c)))
    match t with
    | .slice u =>
      if 0 ≤ len ∧ len ≤ cap then do
        let l ← alloc (.arr cap.toNat fun _ => zero u)
        pure [.slice l 0 len.toNat cap.toNat]
      else stop .bounds
    | _ => stop .stuck
  | .panic e => do
    let v ← single (← evs X e)
    stop (.panic v)

/-- Where a variable, element or field is (sha1cd.go:81, sha1cdblock_generic.go:54,159). -/
def place (X : World) : Expr → M Loc
  | .loc k => fun m => .ok (⟨m.id, k, []⟩, m)
  | .glob p n => do
    let k ← need (X.glob p n)
    pure ⟨0, k, []⟩
  | .field e f => do
    let l ← place X e
    let l ← through l
    pure (l.sub f)
  | .index e i => do
    let l ← place X e
    let k ← single (← evs X i)
    elemPlace l k
  | .deref e => do
    match ← single (← evs X e) with
    | .ptr l => pure l
    | .null => stop .nil
    | _ => stop .stuck
  | _ => stop .stuck

/-- The fields of a struct literal (ubc/const.go:46). -/
def fields (X : World) : Expr → M (List (Nat × Val))
  | .nil => pure []
  | .kv f e es => do
    let v ← single (← evs X e)
    let kvs ← fields X es
    pure ((f, v) :: kvs)
  | _ => stop .stuck

end

/-- The value of an expression (sha1cd.go:38-208). -/
def ev (X : World) (e : Expr) : M Val := do single (← evs X e)

/-- The places on the left of an assignment; `_` is none (sha1cd.go:80,93, sha1cdblock_generic.go:58). -/
def places (X : World) : Expr → M (List (Option Loc))
  | .nil => pure []
  | .cons e es => do
    let l ← (match e with
      | .blank => pure none
      | _ => do
        let l ← place X e
        pure (some l))
    let ls ← places X es
    pure (l :: ls)
  | _ => stop .stuck

/-- Put values at places, from the left (sha1cdblock_generic.go:58). -/
def storeAll : List (Option Loc) → List Val → M Unit
  | [], [] => pure ()
  | none :: ls, _ :: vs => storeAll ls vs
  | some l :: ls, v :: vs => do
    store l v
    storeAll ls vs
  | _, _ => stop .stuck

/-- How a statement ends: normally, on the way to a label, or with the function returning. -/
inductive Sig where
  | normal
  | goto (l : Nat)
  | ret (vs : List Val)

/-- A loop (sha1cdblock_generic.go:31,51,154), for at most `n` iterations. -/
def runLoop (c : M Val) (body : M Sig) (post : M Sig) : Nat → M Sig
  | 0 => stop .fuel
  | n + 1 => do
    match ← c with
    | .bool true => do
      match ← body with
      | .normal => do
        let _ ← post
        runLoop c body post n
      | s => pure s
    | .bool false => pure .normal
    | _ => stop .stuck

/-- The statements after a label (sha1cdblock_generic.go:40), run again when they go to it, for at most `n` times; the
frame has `k` slots at the label. -/
def runLabel (l k : Nat) (body : M Sig) : Nat → M Sig
  | 0 => stop .fuel
  | n + 1 => do
    match ← body with
    | .goto l' =>
      if l' = l then do
        trunc k
        runLabel l k body n
      else pure (.goto l')
    | s => pure s

/-- What a statement does (sha1cd.go:38-208); loops run at most `N` iterations each. -/
def exec (X : World) (N : Nat) : Stmt → M Sig
  | .skip => pure .normal
  | .seq a b => do
    match ← exec X N a with
    | .normal => exec X N b
    | s => pure s
  | .expr e => do
    let _ ← evs X e
    pure .normal
  | .define k es => do
    let vs ← evs X es
    if vs.length = k then do
      push (vs.map fresh)
      pure .normal
    else stop .stuck
  | .var t => do
    push [zero t]
    pure .normal
  | .assign ls rs => do
    let ps ← places X ls
    let vs ← evs X rs
    storeAll ps vs
    pure .normal
  | .opAssign o l r => do
    let p ← place X l
    let a ← load p
    let b ← ev X r
    let v ← need (arith o a b)
    store p v
    pure .normal
  | .ite c a b => do
    match ← ev X c with
    | .bool true => exec X N a
    | .bool false => exec X N b
    | _ => stop .stuck
  | .block n s => do
    match ← exec X N s with
    | .ret vs => pure (.ret vs)
    | g => do
      trunc n
      pure g
  | .loop c post body => runLoop (ev X c) (exec X N body) (exec X N post) N
  | .label l k s => runLabel l k (exec X N s) N
  | .goto l => pure (.goto l)
  | .leave l s => do
    match ← exec X N s with
    | .goto l' => if l' = l then pure .normal else pure (.goto l')
    | g => pure g
  | .ret es => do
    let vs ← evs X es
    pure (.ret vs)

/-- Whether addresses or slices are taken in an expression (sha1cd.go:115,151, sha1cdblock_generic.go:129). -/
def Expr.addrs : Expr → Bool
  | .addr _ | .slice _ _ _ | .method _ _ _ => true
  | .cons a b | .bin _ a b | .both a b | .either a b | .kv _ a b | .index a b | .copy a b | .append a b | .appendAll a b | .make _ a b => a.addrs || b.addrs
  | .un _ a | .conv _ a | .field a _ | .deref a | .call _ _ a | .callVar _ a | .lit _ a | .len a
  | .panic a => a.addrs
  | _ => false

/-- Whether addresses or slices are taken in a statement (sha1cd.go:115,151, sha1cdblock_generic.go:129). -/
def Stmt.addrs : Stmt → Bool
  | .seq a b => a.addrs || b.addrs
  | .expr e | .define _ e | .ret e => e.addrs
  | .assign a b | .opAssign _ a b => a.addrs || b.addrs
  | .ite c a b => c.addrs || a.addrs || b.addrs
  | .block _ s | .label _ _ s | .leave _ s => s.addrs
  | .loop c p b => c.addrs || p.addrs || b.addrs
  | _ => false

/-- The arguments of a call, the last ones for the parameters of the given types (sha1cd.go:69); what comes before them
was captured. -/
def passed (ts : List Ty) (vs : List Val) : List Val :=
  vs.take (vs.length - ts.length) ++ List.zipWith ofTy ts (vs.drop (vs.length - ts.length))

/-- The memory in which the body of a function begins. -/
def Mem.enter (m : Mem) (args : List Val) : Mem :=
  { id := m.next, cur := args, old := fun g => if g = m.id then m.cur else m.old g, next := m.next + 1 }

/-- The memory after the return from a function that began with `m.enter`, `m'` being the memory at its end; with
`keep` its frame stays. -/
def Mem.leave (m m' : Mem) (keep : Bool) : Mem :=
  { id := m.id
    cur := m'.old m.id
    old := fun g => if g = m.id then m.old g else if keep = true ∧ g = m'.id then m'.cur else m'.old g
    next := if keep = true ∨ m'.next ≠ m.next + 1 then m'.next else m.next }

/-- The results of a function whose body ended with `s` (sha1cd.go:38-208). -/
def results (ts : List Ty) : Sig → Except Stop (List Val)
  | .ret vs => if vs.length = ts.length then .ok (List.zipWith ofTy ts vs) else .error .stuck
  | .normal => if ts.length = 0 then .ok [] else .error .stuck
  | .goto _ => .error .stuck

/-- Run a function (sha1cd.go:38-208). -/
def runFunc (X : World) (N : Nat) (f : Func) (vs : List Val) : M (List Val) := fun m =>
  match f.body with
  | none => .error .stuck
  | some b =>
    if vs.length < f.params.length then .error .stuck
    else
      match exec X N b (m.enter (passed f.params vs ++ (if f.named then f.results.map zero else []))) with
      | .ok (s, m') => match results f.results s with
        | .ok rs => .ok (rs, m.leave m' b.addrs)
        | .error e => .error e
      | .error e => .error e

/-- The four or eight bytes of a number, the highest first (sha1cd.go:167,190). -/
def bigEndian (n : Nat) (w : Nat) : Nat → Val := fun i => .u8 (BitVec.ofNat 8 (w >>> (8 * (n - 1 - i))))

/-- `binary.BigEndian.PutUint32(b, v)` for `n = 4` and `PutUint64` for `n = 8` (sha1cd.go:167,190); too short a slice is
an index panic. -/
def putUint (n : Nat) (b : Val) (w : Nat) : M (List Val) := do
  let (l, off, len, _) ← need (parts b)
  if n ≤ len then do
    storeMany l off n (bigEndian n w)
    pure []
  else stop .index

/-- The functions of other packages (sha1cd.go:79,167,190, sha1cdblock_generic.go:57,166): their meaning is assumed.
`fmt.Sprintf` is not carried out, its value is its format. -/
def extern (p n : Nat) (vs : List Val) : Option (M (List Val)) :=
  if p = name! "bits" ∧ n = name! "RotateLeft32" then
    some (match vs with
      | [.u32 x, k] => do
        let k ← need (number k)
        let s := (k % 32).toNat
        pure [.u32 ((x <<< s) ||| (x >>> (32 - s)))]
      | _ => stop .stuck)
  else if p = name! "BigEndian" ∧ n = name! "PutUint32" then
    some (match vs with
      | [b, .u32 x] => putUint 4 b x.toNat
      | _ => stop .stuck)
  else if p = name! "BigEndian" ∧ n = name! "PutUint64" then
    some (match vs with
      | [b, .u64 x] => putUint 8 b x.toNat
      | _ => stop .stuck)
  else if p = name! "errors" ∧ n = name! "New" then
    some (match vs with
      | [.str s] => pure [.err s]
      | _ => stop .stuck)
  else if p = name! "fmt" ∧ n = name! "Sprintf" then
    some (match vs with
      | .str s :: _ => pure [.str s]
      | _ => stop .stuck)
  else none

/-- The function with a name (sha1cd.go:38-208). -/
def findFunc (p n : Nat) : List Func → Option Func
  | [] => none
  | f :: fs => if n = f.name ∧ p = f.pkg then some f else findFunc p n fs

/-- A program with what is left open about it: the functions without a body, and how much room `append` leaves. -/
structure Program where
  funcs : List Func
  glob : Nat → Nat → Option Nat
  asm : Nat → List Val → M (List Val)
  room : Nat → Nat

/-- What a call does (sha1cd.go:38-208), calls nesting at most `d` deep and loops running at most `N` iterations. -/
def Program.call (P : Program) (N : Nat) : Nat → Nat → Nat → List Val → M (List Val)
  | 0, _, _, _ => stop .fuel
  | d + 1, p, n, vs =>
    match extern p n vs with
    | some x => x
    | none => match findFunc p n P.funcs with
      | some f => match f.body with
        | some _ => runFunc { glob := P.glob, call := P.call N d, room := P.room } N f vs
        | none => P.asm n (List.zipWith ofTy f.params vs)
      | none => stop .stuck

/-- What expressions need to know, calls nesting at most `d` deep. -/
def Program.world (P : Program) (N d : Nat) : World := { glob := P.glob, call := P.call N d, room := P.room }

/-- Where a package variable is in frame 0, in the order of declaration; the list is backwards (ubc/const.go:44,
sha1cdblock_generic.go:18). -/
def globIndex (p n : Nat) : List (Nat × Nat × Expr) → Option Nat
  | [] => none
  | (q, x, _) :: rest => if n = x ∧ p = q then some rest.length else globIndex p n rest

end Verif.Source.Go
