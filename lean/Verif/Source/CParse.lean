import Verif.Source.CLex

/-!
From the tokens of the C files to the programs of `Source/GoSyntax`, which serve for C as well.

How C is put in their terms:
* `unsigned` and `uint32_t` are `u32`, `uint64_t` and `size_t` are `u64`, `unsigned char` and `char` are `u8`.  (What
  `char` is used for, passing bytes on, does not depend on its sign.)
* `int` is kept apart while reading, and held as `u32`: the only things that the files do with an `int` that is not a
  constant are to compare it for equality, to use it as an index or the amount of a shift, to assign it, and to return it.
* A pointer to numbers, and an array as a parameter, is a slice; `a` for an array is `a[:]`, `a + n` is `a[n:]`, and
  `p += n` is `p = p[n:]`.  So a pointer knows the array it points into, and access outside it ends the run.
* A pointer to a struct is a pointer; a pointer to a function is of type `any` and is only ever assigned.
* `(uint32_t *)p` for a pointer to bytes is a call of a function `words` that has no body here.
* `*(T *)&x` is `x`.
* `memcpy(p + a, q + b, n)` is `copy(p[a:a + n], q[b:b + n])`.
* A variable that is not initialised is zero (none is read before it is assigned to).
* `static const` numbers are constants.
* `break` goes to the end of the loop, label 0.

Simplifications: only what the files use is understood, anything else makes reading fail.
-/

namespace Verif.Source.C

open Verif.Source
open Verif.Source.Go (GTok Ty BOp UOp Expr Stmt Func memNat isOp isId find findOp elemTy fieldTy)

/-- The package under which the functions and variables of the C files are known. -/
def pkg : Nat := name! "C"

/-- What has been declared in the files so far (cgo/sha1.h:24-104, cgo/ubc_check.h:37-49): types, numbers that are
constant, variables, functions with the types of their parameters and of their result. -/
structure Env where
  types : List (Nat × Nat × Ty)
  consts : List (Nat × Nat × Expr × Ty)
  globals : List (Nat × Nat × Expr × Ty)
  sigs : List (Nat × Nat × List Ty × Ty)

/-- The rest of the tokens, the variables in the slots of the frame, where the slots of the innermost block begin, the type
of the result of the function (cgo/sha1.c:1-2144). -/
structure St where
  toks : List GTok
  scope : List (Nat × Ty)
  base : Nat
  ret : Ty

/-- A parser (cgo/sha1.c:1-2144). -/
def P (α : Type) : Type := St → Option (α × St)

instance : Monad P where
  pure a := fun s => some (a, s)
  bind x f := fun s => match x s with
    | none => none
    | some (a, s') => f a s'

/-- No parse. -/
def fail {α : Type} : P α := fun _ => none

/-- A result that there must be. -/
def need {α : Type} (x : Option α) : P α := fun s => match x with
  | some a => some (a, s)
  | none => none

/-- The next token (cgo/sha1.c:1-2144); at the end it is the operator 0. -/
def peek : P GTok := fun s => match s.toks with
  | [] => some (.op 0, s)
  | t :: _ => some (t, s)

/-- The token after the next one (cgo/sha1.c:1-2144). -/
def peek2 : P GTok := fun s => match s.toks with
  | _ :: t :: _ => some (t, s)
  | _ => some (.op 0, s)

/-- Go on to the next token (cgo/sha1.c:1-2144). -/
def skip1 : P Unit := fun s => match s.toks with
  | [] => none
  | _ :: ts => some ((), { s with toks := ts })

/-- The operator `o` must be next (cgo/sha1.c:1-2144). -/
def expect (o : Nat) : P Unit := do
  let t ← peek
  bif isOp o t then skip1 else fail

/-- Skip the operator `o` if it is next, and say whether it was (cgo/sha1.c:1-2144). -/
def accept (o : Nat) : P Bool := do
  let t ← peek
  bif isOp o t then do skip1; pure true else pure false

/-- Skip the word `w` if it is next, and say whether it was (cgo/sha1.c:1-2144). -/
def acceptId (w : Nat) : P Bool := do
  let t ← peek
  bif isId w t then do skip1; pure true else pure false

/-- A name (cgo/sha1.c:1-2144). -/
def ident : P Nat := fun s => match s.toks with
  | .id n :: ts => some (n, { s with toks := ts })
  | _ => none

/-- The slot and type of the last variable with a name (cgo/sha1.c:1952-1954). -/
def lastIdx (x : Nat) : List (Nat × Ty) → Nat → Option (Nat × Ty) → Option (Nat × Ty)
  | [], _, r => r
  | (y, t) :: ys, k, r => lastIdx x ys (Nat.succ k) (bif Nat.beq x y then some (k, t) else r)

/-- The slot and type of a name that is a local variable (cgo/sha1.c:1952-1954). -/
def slotOf (x : Nat) : P (Option (Nat × Ty)) := fun s => some (lastIdx x s.scope 0 none, s)

/-- A new slot; its number (cgo/sha1.c:1952-1954). -/
def declare (x : Nat) (t : Ty) : P Nat := fun s =>
  bif (s.scope.drop s.base).any (fun y => Nat.beq x y.1) then none
  else some (s.scope.length, { s with scope := s.scope ++ [(x, t)] })

/-- A parser whose declarations end with it (cgo/sha1.c:1951-2000); it is given the number of slots. -/
def inScope {α : Type} (p : Nat → P α) : P α := fun s =>
  match p s.scope.length { s with base := s.scope.length } with
  | none => none
  | some (a, s') => some (a, { s' with scope := s'.scope.take s.scope.length, base := s.base })

/-- The type as which values are held: an `int` is 32 bits (cgo/sha1.h:47-51). -/
def rep : Ty → Ty
  | .int => .u32
  | .arr n t => .arr n (rep t)
  | .slice t => .slice (rep t)
  | .ptr t => .ptr (rep t)
  | .field f t rest => .field f (rep t) (rep rest)
  | t => t

/-- The words a type can begin with that are no type (cgo/sha1.c:255-2140). -/
def qualifiers : List Nat := [name! "static", name! "const", name! "extern", name! "volatile"]

/-- The types of the language and of its library (cgo/sha1.c:255-2140); `void` has no values. -/
def basicTypes : List (Nat × Ty) :=
  [(name! "uint32_t", .u32), (name! "uint64_t", .u64), (name! "size_t", .u64), (name! "int", .int), (name! "char", .u8),
   (name! "unsigned", .u32), (name! "void", .none)]

/-- The binary operators with their precedences (cgo/sha1.c:135-253). -/
def binOps : List (Nat × BOp × Nat) :=
  [(name! "+", .add, 9), (name! "-", .sub, 9), (name! "<<", .shl, 8), (name! ">>", .shr, 8), (name! "<", .lt, 7),
   (name! "<=", .le, 7), (name! ">", .gt, 7), (name! ">=", .ge, 7), (name! "==", .eq, 6), (name! "!=", .ne, 6),
   (name! "&", .and, 5), (name! "^", .xor, 4), (name! "|", .or, 3)]

/-- The assignments `x op= e` (cgo/sha1.c:166-206,2067,2109, cgo/ubc_check.c:76). -/
def assignOps : List (Nat × BOp) :=
  [(name! "+=", .add), (name! "-=", .sub), (name! "&=", .and), (name! "|=", .or), (name! "^=", .xor), (name! "<<=", .shl),
   (name! ">>=", .shr)]

/-- An expression as a condition (cgo/ubc_check.c:119, cgo/sha1.c:1964,2065). -/
def asBool : Expr × Ty → Option Expr
  | (.num n, _) => some (.bool (!Nat.beq n 0))
  | (e, .bool) => some e
  | (e, .u32) => some (.bin .ne e (.num 0))
  | (e, .u64) => some (.bin .ne e (.num 0))
  | (e, .int) => some (.bin .ne e (.num 0))
  | _ => none

/-- The size of a type of numbers (cgo/sha1.c:2103-2117); `int` is smaller than `unsigned`. -/
def rank : Ty → Nat
  | .int => 1
  | .u32 => 2
  | .u64 => 3
  | _ => 0

/-- Whether an operator compares (cgo/sha1.c:1971-1983). -/
def compares : BOp → Bool
  | .eq | .ne | .lt | .le | .gt | .ge => true
  | _ => false

/-- An operator on constants (cgo/sha1.c:144,871-1210, cgo/ubc_check.c:79). -/
def foldOp : BOp → Nat → Nat → Option (Expr × Ty)
  | .add, a, b => some (.num (Nat.add a b), .int)
  | .sub, a, b => bif Nat.ble b a then some (.num (Nat.sub a b), .int) else none
  | .shl, a, b => some (.num (Nat.shiftLeft a b), .int)
  | .lt, a, b => some (.bool (Nat.blt a b), .bool)
  | .le, a, b => some (.bool (Nat.ble a b), .bool)
  | .gt, a, b => some (.bool (Nat.blt b a), .bool)
  | .ge, a, b => some (.bool (Nat.ble b a), .bool)
  | .eq, a, b => some (.bool (Nat.beq a b), .bool)
  | .ne, a, b => some (.bool (!Nat.beq a b), .bool)
  | _, _, _ => none

/-- A number of type `from` as one of type `to` at least as large (cgo/sha1.c:2065). -/
def widen (to : Ty) (e : Expr) (t : Ty) : Option Expr :=
  match to, t with
  | .u64, .u64 => some e
  | .u64, .u32 => some (.conv .u64 e)
  | .u32, .u32 => some e
  | .u32, .int => some e
  | .int, .int => some e
  | _, _ => none

/-- A binary operator on numbers at least one of which is not constant (cgo/sha1.c:135-253): the smaller type becomes the
larger one, a constant takes the type of the other operand. -/
def binary (o : BOp) (a : Expr) (ta : Ty) (b : Expr) (tb : Ty) (isConst : Bool) : Option (Expr × Ty) :=
  let t := bif isConst || Nat.ble (rank tb) (rank ta) then ta else tb
  match widen t a ta, bif isConst then some b else widen t b tb with
  | some a', some b' =>
    match t with
    | .int => match o with
      | .eq => some (.bin .eq a' b', .bool)
      | .ne => some (.bin .ne a' b', .bool)
      | _ => none
    | _ => some (.bin o a' b', bif compares o then .bool else t)
  | _, _ => none

/-- `a o b` (cgo/sha1.c:135-253). -/
def binE (o : BOp) : Expr × Ty → Expr × Ty → Option (Expr × Ty)
  | (.num x, _), (.num y, _) => foldOp o x y
  | (a, .arr _ u), (b, tb) => match o with
    | .add => bif Nat.beq (rank tb) 0 then none else some (.slice a b .omit, .slice u)
    | _ => none
  | (a, ta), (b, tb) =>
    match o with
    | .shl | .shr => match ta with
      | .u32 => bif Nat.beq (rank tb) 0 then none else some (.bin o a b, .u32)
      | .u64 => bif Nat.beq (rank tb) 0 then none else some (.bin o a b, .u64)
      | _ => none
    | _ => match a, b with
      | .num x, b => match binary o b tb (.num x) .int true with
        | some (.bin o' b' a', t) => some (.bin o' a' b', t)
        | _ => none
      | a, .num y => binary o a ta (.num y) .int true
      | a, b => binary o a ta b tb false

/-- An array as a pointer to its elements (cgo/sha1.c:1962). -/
def decay : Expr × Ty → Option (Expr × Ty)
  | (e, .arr _ u) => some (.slice e .omit .omit, .slice u)
  | (e, .slice u) => some (e, .slice u)
  | _ => none

/-- An expression where a value of type `t` is expected (cgo/sha1.c:255-2140). -/
def coerce (t : Ty) (e : Expr × Ty) : Option Expr :=
  match t with
  | .u8 | .u32 | .u64 => match e.1 with
    | .num n => some (.num n)
    | x => match e.2 with
      | .int => bif t == .u32 then some x else none
      | .u8 | .u32 | .u64 => bif t == e.2 then some x else some (.conv t x)
      | _ => none
  | .int => match e.1 with
    | .num n => some (.num n)
    | x => bif e.2 == .int then some x else none
  | .slice _ => match decay e with
    | some (x, u) => bif t == u then some x else none
    | none => none
  | .ptr u => bif e.2 == .ptr u then some e.1 else none
  | .any => bif e.2 == .any then some e.1 else none
  | _ => none

/-- A pointer for `memcpy`, with what has been added to it (cgo/sha1.c:2068,2081,2090). -/
def base : Expr × Ty → Option (Expr × Expr)
  | (.slice x lo .omit, .slice .u8) => some (x, lo)
  | (x, .arr _ .u8) => some (x, .num 0)
  | (x, .slice .u8) => some (x, .num 0)
  | _ => none

/-- A number as one of 64 bits, for a bound (cgo/sha1.c:2068). -/
def to64 (e : Expr × Ty) : Option Expr :=
  match e with
  | (.num n, _) => some (.num n)
  | (x, .u32) => some (.conv .u64 x)
  | (x, .u64) => some x
  | _ => none

/-- `a + b`, for constants the sum (cgo/sha1.c:2068). -/
def plus : Expr → Expr → Expr
  | .num a, .num b => .num (Nat.add a b)
  | a, b => .bin .add a b

/-- The amount that has been added to a pointer, as 64 bits (cgo/sha1.c:2068): it is a constant or of 32 bits. -/
def low64 : Expr → Expr
  | .num n => .num n
  | e => .conv .u64 e

/-- `memcpy(d, s, n)` (cgo/sha1.c:2068,2081,2090). -/
def memcpyE : List (Expr × Ty) → Option Expr
  | [d, s, n] => match base d, base s, to64 n with
    | some (d, a), some (s, b), some n =>
      some (.copy (.slice d a (plus (low64 a) n)) (.slice s b (plus (low64 b) n)))
    | _, _, _ => none
  | _ => none

/-- The parsers that need each other. -/
structure R where
  /-- an expression with operators of at least the given precedence -/
  expr : Nat → P (Expr × Ty)
  binTail : Nat → Expr × Ty → P (Expr × Ty)
  unary : P (Expr × Ty)
  suffix : Expr × Ty → P (Expr × Ty)
  /-- arguments up to the closing parenthesis -/
  args : P (List (Expr × Ty))
  /-- what initialises a variable of the given type, and its type with the size of an array -/
  init : Ty → P (Expr × Ty)
  /-- the elements of an array up to the closing brace, and their number -/
  elems : Ty → P (Expr × Nat)
  /-- what initialises the given fields up to the closing brace -/
  values : Ty → P Expr
  /-- the sizes of an array in brackets, if any, around a type -/
  dims : Ty → P Ty
  /-- stars after a type -/
  stars : Ty → P Ty
  /-- a type -/
  spec : P Ty
  /-- variables of a type up to the semicolon -/
  decls : Ty → P Stmt
  stmts : P Stmt
  stmt : P Stmt
  cases : Nat → P Stmt
  params : P (List (Nat × Ty))
  fields : P Ty

/-- Parsers that may not nest at all. -/
def R.none : R where
  expr _ := fail
  binTail _ _ := fail
  unary := fail
  suffix _ := fail
  args := fail
  init _ := fail
  elems _ := fail
  values _ := fail
  dims _ := fail
  stars _ := fail
  spec := fail
  decls _ := fail
  stmts := fail
  stmt := fail
  cases _ := fail
  params := fail
  fields := fail

section

variable (v : Env) (r : R)

/-- Whether a type begins with a token (cgo/sha1.c:255-2140). -/
def beginsType : GTok → Bool
  | .id x => memNat x qualifiers || (findOp x basicTypes).isSome || (find pkg x v.types).isSome
  | _ => false

/-- A type without its stars (cgo/sha1.c:255-2140). -/
def specP : P Ty := do
  let x ← ident
  bif memNat x qualifiers then r.spec
  else bif Nat.beq x (name! "unsigned") then do
    if ← acceptId (name! "char") then pure .u8 else pure .u32
  else do
    let t ← need (match findOp x basicTypes with
      | some t => some t
      | Option.none => find pkg x v.types)
    let _ ← acceptId (name! "const")
    pure t

/-- Stars after a type (cgo/sha1.h:35,62). -/
def starsP (t : Ty) : P Ty := do
  if ← accept (name! "*") then
    match t with
    | .field f u rest => r.stars (.ptr (.field f u rest))
    | .u8 | .u32 | .u64 => r.stars (.slice t)
    | _ => fail
  else pure t

/-- The sizes of an array (cgo/sha1.h:45,58); one that is left out is 0. -/
def dimsP (t : Ty) : P Ty := do
  if ← accept (name! "[") then do
    if ← accept (name! "]") then do
      let u ← r.dims t
      pure (.arr 0 u)
    else do
      let (e, _) ← r.expr 1
      expect (name! "]")
      let u ← r.dims t
      match e with
      | .num n => pure (.arr n u)
      | _ => fail
  else pure t

/-- Binary operators (cgo/sha1.c:135-253); `&&` has precedence 2 and `||` precedence 1. -/
def binTailP (p : Nat) (a : Expr × Ty) : P (Expr × Ty) := do
  match ← peek with
  | .op n => match findOp n binOps with
    | some (o, q) =>
      bif Nat.ble p q then do
        skip1
        let b ← r.expr (Nat.succ q)
        let c ← need (binE o a b)
        r.binTail p c
      else pure a
    | Option.none =>
      bif Nat.beq n (name! "&&") && Nat.ble p 2 then do
        skip1
        let b ← r.expr 3
        let x ← need (asBool a)
        let y ← need (asBool b)
        r.binTail p (.both x y, .bool)
      else bif Nat.beq n (name! "||") && Nat.ble p 1 then do
        skip1
        let b ← r.expr 2
        let x ← need (asBool a)
        let y ← need (asBool b)
        r.binTail p (.either x y, .bool)
      else pure a
  | _ => pure a

/-- The arguments of a call after its opening parenthesis (cgo/sha1.c:1962). -/
def argsP : P (List (Expr × Ty)) := do
  if ← accept (name! ")") then pure []
  else do
    let e ← r.expr 1
    if ← accept (name! ",") then do
      let es ← r.args
      pure (e :: es)
    else do expect (name! ")"); pure [e]

/-- Arguments as the parameters want them (cgo/sha1.c:1962). -/
def passE : List Ty → List (Expr × Ty) → Option Expr
  | [], [] => some .nil
  | t :: ts, e :: es => match coerce t e, passE ts es with
    | some x, some xs => some (.cons x xs)
    | _, _ => Option.none
  | _, _ => Option.none

/-- A name (cgo/sha1.c:255-2140). -/
def nameP (x : Nat) : P (Expr × Ty) := do
  match ← slotOf x with
  | some (k, t) => pure (.loc k, t)
  | Option.none =>
    match find pkg x v.consts with
    | some e => pure e
    | Option.none => match find pkg x v.globals with
      | some (_, t) => pure (.glob pkg x, t)
      | Option.none =>
        bif Nat.beq x (name! "NULL") then pure (.null, .any)
        else do
          expect (name! "(")
          let es ← r.args
          bif Nat.beq x (name! "memcpy") then do
            let e ← need (memcpyE es)
            pure (e, .none)
          else bif Nat.beq x (name! "abort") then
            match es with
            | [] => pure (.panic (.str (chars! "abort")), .none)
            | _ => fail
          else match find pkg x v.sigs with
            | some (ts, t) => do
              let as ← need (passE ts es)
              pure (.call pkg x as, t)
            | Option.none => fail

/-- `(t)e` (cgo/sha1.c:1975,2069-2138, cgo/ubc_check.c:37). -/
def castE (t : Ty) (e : Expr × Ty) : Option (Expr × Ty) :=
  match t with
  | .u8 | .u32 | .u64 => match e with
    | (.num n, _) => some (.conv t (.num n), t)
    | (x, .u32) => bif t == .u32 then some (x, t) else some (.conv t x, t)
    | (x, .u64) => bif t == .u64 then some (x, t) else some (.conv t x, t)
    | _ => Option.none
  | .slice .u32 => match e with
    | (.addr x, .ptr .u32) => some (.addr x, .ptr .u32)
    | _ => match decay e with
      | some (x, .slice .u8) => some (.call pkg (name! "words") (.cons x .nil), .slice .u32)
      | _ => Option.none
  | .slice .u8 => match decay e with
    | some (x, .slice .u8) => some (x, .slice .u8)
    | _ => Option.none
  | _ => Option.none

/-- An expression before binary operators (cgo/sha1.c:135-253, cgo/ubc_check.c:75,208). -/
def unaryP : P (Expr × Ty) := do
  match ← peek with
  | .num n => do skip1; pure (.num n, .int)
  | .id x => do
    skip1
    let e ← nameP v r x
    r.suffix e
  | .op o =>
    bif Nat.beq o (name! "(") then do
      skip1
      if beginsType v (← peek) then do
        let t ← r.spec
        let t ← r.stars t
        expect (name! ")")
        let e ← r.unary
        need (castE t e)
      else do
        let e ← r.expr 1
        expect (name! ")")
        r.suffix e
    else bif Nat.beq o (name! "!") then do
      skip1
      let e ← r.unary
      let x ← need (asBool e)
      pure (.un .not x, .bool)
    else bif Nat.beq o (name! "~") then do
      skip1
      let e ← r.unary
      match e with
      | (x, .u32) => pure (.un .com x, .u32)
      | _ => fail
    else bif Nat.beq o (name! "&") then do
      skip1
      let (x, t) ← r.unary
      pure (.addr x, .ptr t)
    else bif Nat.beq o (name! "*") then do
      skip1
      match ← r.unary with
      | (.addr x, .ptr t) => pure (x, t)
      | _ => fail
    else fail
  | _ => fail

/-- What follows an operand (cgo/sha1.c:255-2140). -/
def suffixP (e : Expr × Ty) : P (Expr × Ty) := do
  let t ← peek
  bif isOp (name! "[") t then do
    skip1
    let (i, ti) ← r.expr 1
    expect (name! "]")
    let u ← need (elemTy e.2)
    bif Nat.beq (rank ti) 0 then fail else r.suffix (.index e.1 i, u)
  else bif isOp (name! "->") t then do
    skip1
    let f ← ident
    match e.2 with
    | .ptr s => do
      let u ← need (fieldTy f s)
      r.suffix (.field e.1 f, u)
    | _ => fail
  else bif isOp (name! ".") t then do
    skip1
    let f ← ident
    let u ← need (fieldTy f e.2)
    r.suffix (.field e.1 f, u)
  else pure e

/-- What initialises a variable (cgo/sha1.c:1953,2103, cgo/ubc_check.c:70-72). -/
def initP (t : Ty) : P (Expr × Ty) := do
  if ← accept (name! "{") then
    match t with
    | .arr n u => do
      let (es, k) ← r.elems u
      bif Nat.beq n 0 then pure (.lit (.arr k (rep u)) es, .arr k u)
      else bif Nat.ble k n then pure (.lit (.arr n (rep u)) es, .arr n u)
      else fail
    | .field f u rest => do
      let es ← r.values (.field f u rest)
      pure (.lit (rep t) es, t)
    | _ => fail
  else do
    let e ← r.expr 1
    let x ← need (coerce t e)
    pure (x, t)

/-- The elements of an array (cgo/ubc_check.c:70-72); a comma may follow the last. -/
def elemsP (u : Ty) : P (Expr × Nat) := do
  if ← accept (name! "}") then pure (.nil, 0)
  else do
    let (e, _) ← r.init u
    if ← accept (name! ",") then do
      let (es, k) ← r.elems u
      pure (.cons e es, Nat.succ k)
    else do
      expect (name! "}")
      pure (.cons e .nil, 1)

/-- The fields of a struct, in order (cgo/ubc_check.c:70-72). -/
def valuesP (t : Ty) : P Expr := do
  match t with
  | .field f u rest => do
    let (e, _) ← r.init u
    if ← accept (name! ",") then do
      let es ← r.values rest
      pure (.kv f e es)
    else do
      expect (name! "}")
      pure (.kv f e .nil)
  | _ => do expect (name! "}"); pure .nil

/-- Assign a value to what is on the left (cgo/sha1.c:1956). -/
def assignS (l : Expr) (e : Expr) : Stmt := .assign (.cons l .nil) (.cons e .nil)

/-- A value that initialises a new variable (cgo/sha1.c:874): a constant gets a type. -/
def typed (t : Ty) : Expr → Expr
  | .num n => .conv (rep t) (.num n)
  | e => e

/-- Variables of a type, after it (cgo/sha1.c:874,1952-1954,2057,2103-2105). -/
def declsP (t : Ty) : P Stmt := do
  let x ← ident
  let u ← r.dims t
  let s ← (do
    if ← accept (name! "=") then do
      let t ← peek
      bif isOp (name! "{") t then do
        let (e, _) ← r.init u
        let _ ← declare x u
        pure (Stmt.define 1 (.cons e .nil))
      else do
        let e ← r.expr 1
        if ← accept (name! "?") then do
          let c ← need (asBool e)
          let a ← r.expr 1
          expect (name! ":")
          let b ← r.expr 1
          let a ← need (coerce u a)
          let b ← need (coerce u b)
          let k ← declare x u
          pure (Stmt.seq (.var (rep u)) (.ite c (assignS (.loc k) a) (assignS (.loc k) b)))
        else do
          let e ← need (coerce u e)
          let _ ← declare x u
          pure (Stmt.define 1 (.cons (typed u e) .nil))
    else do
      let _ ← declare x u
      pure (Stmt.var (rep u)))
  if ← accept (name! ",") then do
    let rest ← r.decls t
    pure (.seq s rest)
  else do
    expect (name! ";")
    pure s

/-- `l o= e` (cgo/sha1.c:166-206,2067-2071,2109). -/
def opAssignS (o : BOp) (l e : Expr × Ty) : Option Stmt :=
  match l.2 with
  | .slice _ => match o with
    | .add => bif Nat.beq (rank e.2) 0 then Option.none else some (assignS l.1 (.slice l.1 e.1 .omit))
    | _ => Option.none
  | t => match binE o l e with
    | some (.bin o' _ b, t') => bif t == t' then some (.opAssign o' l.1 b) else Option.none
    | _ => Option.none

/-- An assignment or a call (cgo/sha1.c:255-2140). -/
def simpleP : P Stmt := do
  if ← accept (name! "++") then do
    let l ← r.unary
    need (opAssignS .add l (.num 1, .int))
  else do
    let l ← r.expr 1
    match ← peek with
    | .op o =>
      bif Nat.beq o (name! "=") then do
        skip1
        let e ← r.expr 1
        let x ← need (coerce l.2 e)
        pure (assignS l.1 x)
      else match findOp o assignOps with
        | some b => do
          skip1
          let e ← r.expr 1
          need (opAssignS b l e)
        | Option.none => pure (.expr l.1)
    | _ => fail

/-- A block, with its braces (cgo/sha1.c:1967-1969). -/
def blockP : P Stmt := inScope fun n => do
  expect (name! "{")
  let s ← r.stmts
  expect (name! "}")
  pure (.block n s)

/-- A condition in parentheses (cgo/sha1.c:1964). -/
def condP : P Expr := do
  expect (name! "(")
  let e ← r.expr 1
  expect (name! ")")
  need (asBool e)

/-- The clauses of a `switch` (cgo/sha1.c:1543-1947), the value being in slot `k`: each is one statement and `break`, and
`default` is the last. -/
def casesP (k : Nat) : P Stmt := do
  if ← acceptId (name! "case") then do
    let (e, _) ← r.expr 1
    expect (name! ":")
    let a ← r.stmt
    if ← acceptId (name! "break") then do
      expect (name! ";")
      let b ← r.cases k
      match e with
      | .num n => pure (.ite (.bin .eq (.loc k) (.num n)) a b)
      | _ => fail
    else fail
  else if ← acceptId (name! "default") then do
    expect (name! ":")
    let a ← r.stmt
    expect (name! "}")
    pure a
  else fail

/-- A statement (cgo/sha1.c:255-2140). -/
def stmtP : P Stmt := do
  match ← peek with
  | .op o =>
    bif Nat.beq o (name! "{") then blockP r
    else bif Nat.beq o (name! ";") then do skip1; pure .skip
    else do
      let s ← simpleP r
      expect (name! ";")
      pure s
  | .id x =>
    bif Nat.beq x (name! "if") then do
      skip1
      let c ← condP r
      let a ← r.stmt
      if ← acceptId (name! "else") then do
        let b ← r.stmt
        pure (.ite c a b)
      else pure (.ite c a .skip)
    else bif Nat.beq x (name! "for") then do
      skip1
      expect (name! "(")
      let i ← simpleP r
      expect (name! ";")
      let e ← r.expr 1
      let c ← need (asBool e)
      expect (name! ";")
      let p ← simpleP r
      expect (name! ")")
      let b ← r.stmt
      pure (.seq i (.leave 0 (.loop c p b)))
    else bif Nat.beq x (name! "while") then do
      skip1
      let c ← condP r
      let b ← r.stmt
      pure (.leave 0 (.loop c .skip b))
    else bif Nat.beq x (name! "switch") then do
      skip1
      inScope fun n => do
        expect (name! "(")
        let e ← r.expr 1
        expect (name! ")")
        expect (name! "{")
        let k ← declare 0 e.2
        let s ← r.cases k
        pure (.block n (.seq (.define 1 (.cons e.1 .nil)) s))
    else bif Nat.beq x (name! "break") then do
      skip1
      expect (name! ";")
      pure (.goto 0)
    else bif Nat.beq x (name! "return") then do
      skip1
      if ← accept (name! ";") then pure (.ret .nil)
      else do
        let e ← r.expr 1
        expect (name! ";")
        let x ← (fun s => match coerce s.ret e with
          | some x => some (x, s)
          | Option.none => Option.none : P Expr)
        pure (.ret (.cons x .nil))
    else bif beginsType v (.id x) then do
      let t ← r.spec
      let t ← r.stars t
      r.decls t
    else do
      let s ← simpleP r
      expect (name! ";")
      pure s
  | _ => fail

/-- The statements of a block (cgo/sha1.c:255-2140). -/
def stmtsP : P Stmt := do
  let t ← peek
  bif isOp (name! "}") t then pure .skip
  else do
    let a ← r.stmt
    let b ← r.stmts
    pure (.seq a b)

/-- A parameter's type: an array is a pointer (cgo/sha1.h:24). -/
def paramTy : Ty → Ty
  | .arr _ u => .slice u
  | t => t

/-- The parameters of a function (cgo/sha1.h:24,62-104), which may have no names. -/
def paramsP : P (List (Nat × Ty)) := do
  let t ← r.spec
  let t ← r.stars t
  let x ← (do
    match ← peek with
    | .id x => do skip1; pure x
    | _ => pure 0)
  let t ← r.dims t
  if ← accept (name! ",") then do
    let ps ← r.params
    pure ((x, paramTy t) :: ps)
  else do
    expect (name! ")")
    pure [(x, paramTy t)]

/-- The fields of a struct (cgo/sha1.h:42-59). -/
def fieldsP : P Ty := do
  if ← accept (name! "}") then pure .none
  else do
    let t ← r.spec
    let t ← r.stars t
    let f ← ident
    let t ← r.dims t
    expect (name! ";")
    let rest ← r.fields
    pure (.field f t rest)

/-- The parsers, given those for what is nested in theirs. -/
def R.next : R where
  expr p := do
    let a ← r.unary
    r.binTail p a
  binTail := binTailP r
  unary := unaryP v r
  suffix := suffixP r
  args := argsP r
  init := initP r
  elems := elemsP r
  values := valuesP r
  dims := dimsP r
  stars := starsP r
  spec := specP v r
  decls := declsP r
  stmts := stmtsP r
  stmt := stmtP v r
  cases := casesP r
  params := paramsP r
  fields := fieldsP r

end

/-- The parsers that may nest `n` deep. -/
def parsers (v : Env) : Nat → R
  | 0 => R.none
  | n + 1 => R.next v (parsers v n)

/-- What the files contain (cgo/sha1.c:1-2144). -/
structure Prog where
  env : Env
  funcs : List Func

/-- Before anything has been read: only `words`, which has no body (cgo/sha1.c:2069). -/
def Prog.empty : Prog where
  env := { types := [], consts := [], globals := [], sigs := [] }
  funcs := [{ pkg := pkg, name := name! "words", params := [.slice .u8], results := [.slice .u32], named := false, body := none }]

/-- Skip tokens up to a semicolon (cgo/sha1.h:35,39). -/
def skipDecl : List GTok → Option (List GTok)
  | [] => none
  | t :: ts => bif isOp (name! ";") t then some ts else skipDecl ts

/-- What a declaration adds (cgo/sha1.c:255-2140). -/
inductive Decl where
  | type (x : Nat) (t : Ty)
  | sig (x : Nat) (ts : List Ty) (t : Ty)
  | func (f : Func) (ts : List Ty) (t : Ty)
  | const (x : Nat) (e : Expr) (t : Ty)
  | var (x : Nat) (e : Expr) (t : Ty)
  | nothing

/-- The results of a function (cgo/sha1.c:2101); `void` is none. -/
def resultsOf : Ty → List Ty
  | .none => []
  | t => [rep t]

/-- A declaration of a file (cgo/sha1.c:255-2140, cgo/sha1.h:24-104, cgo/ubc_check.c:37-293, cgo/ubc_check.h:37-49). -/
def declP (v : Env) (r : R) : P Decl := do
  if ← acceptId (name! "typedef") then do
    if ← acceptId (name! "struct") then do
      expect (name! "{")
      let t ← r.fields
      let x ← ident
      expect (name! ";")
      pure (.type x t)
    else do
      let _ ← r.spec
      expect (name! "(")
      expect (name! "*")
      let x ← ident
      expect (name! ")")
      (fun s => match skipDecl s.toks with
        | some ts => some ((), { s with toks := ts })
        | none => none : P Unit)
      pure (.type x .any)
  else do
    let external ← acceptId (name! "extern")
    let static ← acceptId (name! "static")
    let fixed ← acceptId (name! "const")
    let t ← r.spec
    let x ← ident
    if ← accept (name! "(") then do
      let ps ← r.params
      if ← accept (name! ";") then pure (.sig x (ps.map (·.2)) t)
      else fun s =>
        match blockP (parsers { v with sigs := (pkg, x, ps.map (·.2), t) :: v.sigs } 1000)
            { s with scope := ps, base := ps.length, ret := t } with
        | some (b, s') => some (.func { pkg := pkg, name := x, params := ps.map fun p => rep p.2, results := resultsOf t,
                                        named := false, body := some b } (ps.map (·.2)) t, { s' with scope := [], base := 0 })
        | none => none
    else do
      let t ← r.dims t
      bif external then do expect (name! ";"); pure .nothing
      else do
        expect (name! "=")
        let tok ← peek
        bif isOp (name! "{") tok then do
          let (e, t) ← r.init t
          expect (name! ";")
          pure (.var x e t)
        else do
          let e ← r.expr 1
          let e ← need (coerce t e)
          expect (name! ";")
          bif static && fixed then pure (.const x e t) else fail

/-- Add a declaration (cgo/sha1.c:255-2140). -/
def Prog.add (g : Prog) : Decl → Prog
  | .type x t => { g with env := { g.env with types := (pkg, x, t) :: g.env.types } }
  | .sig x ts t => { g with env := { g.env with sigs := (pkg, x, ts, t) :: g.env.sigs } }
  | .func f ts t => { env := { g.env with sigs := (pkg, f.name, ts, t) :: g.env.sigs }, funcs := g.funcs ++ [f] }
  | .const x e t => { g with env := { g.env with consts := (pkg, x, e, t) :: g.env.consts } }
  | .var x e t => { g with env := { g.env with globals := (pkg, x, e, t) :: g.env.globals } }
  | .nothing => g

/-- The declarations of a file, at most `n` (cgo/sha1.c:1-2144). -/
def addDecls : Nat → Prog → List GTok → Option Prog
  | 0, _, _ => none
  | _ + 1, g, [] => some g
  | n + 1, g, ts => match declP g.env (parsers g.env 1000) { toks := ts, scope := [], base := 0, ret := .none } with
    | some (d, s) => addDecls n (g.add d) s.toks
    | none => none

end Verif.Source.C
