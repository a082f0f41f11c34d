import Verif.Source.GoSyntax

/-!
From the tokens of the Go files to the programs of `Source/GoSyntax`.

Simplifications: only what the eight files use is understood, anything else makes reading fail; the parsers call
each other through `R`, whose `n`-th version may nest calls `n` deep.
-/

namespace Verif.Source.Go

open Verif.Source

/-- What has been declared at package level (internal/const.go:3-44, ubc/const.go:6-41, sha1cd.go:22-36). -/
structure Env where
  /-- the package of the file being read -/
  pkg : Nat
  consts : List (Nat × Nat × Expr)
  types : List (Nat × Nat × Ty)
  /-- package variables, with what initialises them -/
  globals : List (Nat × Nat × Expr)
deriving DecidableEq

/-- What a parser has to do with: the rest of the tokens, the names of the slots of the frame, where the slots of the
innermost block begin, the slots of named results, and the function literals so far (sha1cdblock_generic.go:290). -/
structure St where
  toks : List GTok
  scope : List Nat
  base : Nat
  ret : Expr
  lits : List Func

/-- A parser of a part of a file (sha1cd.go:1-212). -/
def P (α : Type) : Type := St → Option (α × St)

instance : Monad P where
  pure a := fun s => some (a, s)
  bind x f := fun s => match x s with
    | none => none
    | some (a, s') => f a s'

/-- No parse. -/
def fail {α : Type} : P α := fun _ => none

/-- The next token (sha1cd.go:1-212); at the end of the file it is the operator 0. -/
def peek : P GTok := fun s => match s.toks with
  | [] => some (.op 0, s)
  | t :: _ => some (t, s)

/-- The token after the next one (sha1cd.go:1-212). -/
def peek2 : P GTok := fun s => match s.toks with
  | _ :: t :: _ => some (t, s)
  | _ => some (.op 0, s)

/-- Go on to the next token (sha1cd.go:1-212). -/
def skip1 : P Unit := fun s => match s.toks with
  | [] => none
  | _ :: ts => some ((), { s with toks := ts })

/-- Whether a token is the operator `o` (sha1cd.go:1-212). -/
def isOp (o : Nat) : GTok → Bool
  | .op n => Nat.beq n o
  | _ => false

/-- Whether a token is the word `w` (sha1cd.go:1-212). -/
def isId (w : Nat) : GTok → Bool
  | .id n => Nat.beq n w
  | _ => false

/-- The operator `o` must be next (sha1cd.go:1-212). -/
def expect (o : Nat) : P Unit := do
  let t ← peek
  bif isOp o t then skip1 else fail

/-- Skip the operator `o` if it is next, and say whether it was (sha1cd.go:1-212). -/
def accept (o : Nat) : P Bool := do
  let t ← peek
  bif isOp o t then do skip1; pure true else pure false

/-- A name (sha1cd.go:1-212). -/
def ident : P Nat := fun s => match s.toks with
  | .id n :: ts => some (n, { s with toks := ts })
  | _ => none

/-- The number of slots of the frame (sha1cdblock_generic.go:22-143). -/
def depth : P Nat := fun s => some (s.scope.length, s)

/-- The position in the list of its last name equal to `x` (sha1cdblock_generic.go:22-143): the innermost variable. -/
def lastIdx (x : Nat) : List Nat → Nat → Option Nat → Option Nat
  | [], _, r => r
  | y :: ys, k, r => lastIdx x ys (Nat.succ k) (bif Nat.beq x y then some k else r)

/-- The slot of a name that is a local variable (sha1cdblock_generic.go:22-143). -/
def slotOf (x : Nat) : P (Option Nat) := fun s => some (lastIdx x s.scope 0 none, s)

/-- New slots (sha1cdblock_generic.go:41).  A name already declared in the same block is not allowed for. -/
def declare (xs : List Nat) : P Unit := fun s =>
  bif xs.any (fun x => memNat x (s.scope.drop s.base)) then none
  else some ((), { s with scope := s.scope ++ xs })

/-- A parser whose declarations end with it (sha1cdblock_generic.go:31-140); it is given the number of slots. -/
def inScope {α : Type} (p : Nat → P α) : P α := fun s =>
  match p s.scope.length { s with base := s.scope.length } with
  | none => none
  | some (a, s') => some (a, { s' with scope := s'.scope.take s.scope.length, base := s.base })

/-- What is recorded for the name `x` of package `p` (internal/const.go:3-44). -/
def find {α : Type} (p x : Nat) : List (Nat × Nat × α) → Option α
  | [] => none
  | (q, y, a) :: rest => bif Nat.beq x y && Nat.beq p q then some a else find p x rest

/-- The predeclared types (sha1cd.go:29-37). -/
def basicType (x : Nat) : Option Ty :=
  find 0 x [(0, name! "uint32", .u32), (0, name! "byte", .u8), (0, name! "int", .int), (0, name! "uint64", .u64),
    (0, name! "bool", .bool), (0, name! "string", .str), (0, name! "error", .any)]

/-- The packages the files import, by the names they use for them (sha1cd.go:13-19, sha1cdblock_generic.go:10-16,
sha1cdblock_amd64.go:6-11). -/
def packages : List Nat :=
  [name! "shared", name! "ubc", name! "bits", name! "binary", name! "errors", name! "fmt", name! "hash",
   name! "runtime", name! "cpuid"]

/-- The binary operators with their precedences (sha1cdblock_generic.go:54-57). -/
def binOps : List (Nat × (Expr → Expr → Expr) × Nat) :=
  [(name! "*", .bin .mul, 5), (name! "%", .bin .rem, 5), (name! "<<", .bin .shl, 5), (name! ">>", .bin .shr, 5),
   (name! "&", .bin .and, 5), (name! "&^", .bin .andNot, 5), (name! "+", .bin .add, 4), (name! "-", .bin .sub, 4),
   (name! "|", .bin .or, 4), (name! "^", .bin .xor, 4), (name! "==", .bin .eq, 3), (name! "!=", .bin .ne, 3),
   (name! "<", .bin .lt, 3), (name! "<=", .bin .le, 3), (name! ">", .bin .gt, 3), (name! ">=", .bin .ge, 3),
   (name! "&&", .both, 2), (name! "||", .either, 1)]

/-- The entry for an operator (sha1cdblock_generic.go:54-57). -/
def findOp {α : Type} (n : Nat) : List (Nat × α) → Option α
  | [] => none
  | (m, a) :: rest => bif Nat.beq n m then some a else findOp n rest

/-- The assignments `x op= e` (sha1cd.go:126, sha1cdblock_generic.go:118, ubc/ubc.go:37). -/
def assignOps : List (Nat × BOp) :=
  [(name! "+=", .add), (name! "-=", .sub), (name! "&=", .and), (name! "|=", .or), (name! "^=", .xor),
   (name! "<<=", .shl), (name! ">>=", .shr)]

/-- The value of a constant expression (internal/const.go:3-44, ubc/const.go:7-41): a number, a typed number or a
string. -/
def fold : Expr → Option Expr
  | .num n => some (.num n)
  | .str s => some (.str s)
  | .conv t a => match fold a with
    | some (.num n) => some (.conv t (.num n))
    | _ => none
  | .len a => match fold a with
    | some (.str s) => some (.num s.length)
    | _ => none
  | .bin o a b => match fold a, fold b with
    | some (.num x), some (.num y) => match o with
      | .add => some (.num (Nat.add x y))
      | .sub => bif Nat.ble y x then some (.num (Nat.sub x y)) else none
      | .mul => some (.num (Nat.mul x y))
      | .shl => some (.num (Nat.shiftLeft x y))
      | _ => none
    | _, _ => none
  | _ => none

/-- The length of an array type (sha1cd.go:29-30). -/
def sizeOf (e : Expr) : P Nat := match fold e with
  | some (.num n) => pure n
  | _ => fail

/-- The parsers that need each other. -/
structure R where
  /-- an expression with operators of at least the given precedence -/
  expr : Nat → P Expr
  /-- more operators of at least the given precedence after an operand -/
  binTail : Nat → Expr → P Expr
  unary : P Expr
  /-- selectors, indices and slices after an operand -/
  suffix : Expr → P Expr
  /-- arguments up to the closing parenthesis, and whether `...` follows the last -/
  args : P (Expr × Bool)
  /-- the elements of a literal of the given type up to the closing brace -/
  elems : Ty → P Expr
  ty : P Ty
  /-- expressions separated by commas -/
  exprs : P Expr
  stmts : P Stmt
  stmt : P Stmt
  /-- an `if` statement after its keyword -/
  cond : P Stmt
  /-- the clauses of a `switch` on the variable in the given slot -/
  cases : Nat → P Stmt
  /-- names before a type -/
  names : P (List Nat)
  /-- parameters up to the closing parenthesis -/
  params : P (List (Nat × Ty))
  /-- types up to the closing parenthesis -/
  tys : P (List Ty)
  /-- the fields of a struct type up to the closing brace -/
  fields : P Ty

/-- Parsers that may not nest at all. -/
def R.none : R where
  expr _ := fail
  binTail _ _ := fail
  unary := fail
  suffix _ := fail
  args := fail
  elems _ := fail
  ty := fail
  exprs := fail
  stmts := fail
  stmt := fail
  cond := fail
  cases _ := fail
  names := fail
  params := fail
  tys := fail
  fields := fail

section

variable (v : Env) (r : R)

/-- Binary operators (sha1cdblock_generic.go:54-57). -/
def binTailP (p : Nat) (a : Expr) : P Expr := do
  match ← peek with
  | .op n => match findOp n binOps with
    | some (o, q) =>
      bif Nat.ble p q then do
        skip1
        let b ← r.expr (Nat.succ q)
        r.binTail p (o a b)
      else pure a
    | Option.none => pure a
  | _ => pure a

/-- The arguments of a call after its opening parenthesis (sha1cd.go:70-75). -/
def argsP : P (Expr × Bool) := do
  if ← accept (name! ")") then pure (.nil, false)
  else do
    let e ← r.expr 1
    if ← accept (name! "...") then do expect (name! ")"); pure (.cons e .nil, true)
    else if ← accept (name! ",") then do
      let (es, b) ← r.args
      pure (.cons e es, b)
    else do expect (name! ")"); pure (.cons e .nil, false)

/-- A call of a predeclared function, after its name (sha1cd.go:39-46,85,126). -/
def builtin (x : Nat) : P Expr := do
  expect (name! "(")
  bif Nat.beq x (name! "make") then do
    let t ← r.ty
    expect (name! ",")
    let n ← r.expr 1
    expect (name! ",")
    let c ← r.expr 1
    expect (name! ")")
    pure (.make t n c)
  else do
    let (es, all) ← r.args
    match all, es with
    | true, .cons s (.cons e .nil) => bif Nat.beq x (name! "append") then pure (.appendAll s e) else fail
    | false, .cons a rest =>
      bif Nat.beq x (name! "append") then pure (.append a rest)
      else bif Nat.beq x (name! "copy") then
        match rest with
        | .cons b .nil => pure (.copy a b)
        | _ => fail
      else match rest with
        | .nil => bif Nat.beq x (name! "len") then pure (.len a) else bif Nat.beq x (name! "panic") then pure (.panic a) else fail
        | _ => fail
    | _, _ => fail

/-- A call, after the name of the function (sha1cd.go:41). -/
def callP (p x : Nat) : P Expr := do
  expect (name! "(")
  let (es, all) ← r.args
  bif all then fail else pure (.call p x es)

/-- A name of package `p` that is not a local variable (internal/const.go:3-44, ubc/ubc.go:374). -/
def member (p x : Nat) : P Expr :=
  match find p x v.consts with
  | some e => pure e
  | Option.none => match find p x v.globals with
    | some _ => pure (.glob p x)
    | Option.none => callP r p x

/-- A name (sha1cd.go:38-208). -/
def nameP (x : Nat) : P Expr := do
  match ← slotOf x with
  | some k =>
    if isOp (name! "(") (← peek) then do
      skip1
      let (es, all) ← r.args
      bif all then fail else pure (.callVar k es)
    else pure (.loc k)
  | Option.none =>
    bif Nat.beq x (name! "_") then pure .blank
    else bif Nat.beq x (name! "true") then pure (.bool true)
    else bif Nat.beq x (name! "false") then pure (.bool false)
    else bif Nat.beq x (name! "nil") then pure .null
    else bif memNat x [name! "len", name! "copy", name! "append", name! "make", name! "panic"] then builtin r x
    else match basicType x with
      | some t => do
        expect (name! "(")
        let e ← r.expr 1
        expect (name! ")")
        pure (.conv t e)
      | Option.none =>
        bif memNat x packages then do
          expect (name! ".")
          let y ← ident
          if ← accept (name! ".") then do
            let z ← ident
            callP r y z
          else member v r x y
        else member v r v.pkg x

/-- The parameters of a function (sha1cdblock_generic.go:146-150). -/
def paramsP : P (List (Nat × Ty)) := do
  if ← accept (name! ")") then pure []
  else do
    let xs ← r.names
    let t ← r.ty
    if ← accept (name! ",") then do
      let ps ← r.params
      pure (xs.map (fun x => (x, t)) ++ ps)
    else do
      expect (name! ")")
      pure (xs.map (fun x => (x, t)))

/-- Types in parentheses (sha1cd.go:38). -/
def tysP : P (List Ty) := do
  let t ← r.ty
  if ← accept (name! ",") then do
    let ts ← r.tys
    pure (t :: ts)
  else do
    expect (name! ")")
    pure [t]

/-- The results of a function: names (none if there are none) and types (sha1cd.go:38,117,120,122). -/
def resultsP : P (List Nat × List Ty) := do
  let t ← peek
  bif isOp (name! "{") t || isOp (name! ";") t then pure ([], [])
  else bif isOp (name! "(") t then do
    skip1
    match ← peek, ← peek2 with
    | .id _, .id _ => do
      let ps ← r.params
      pure (ps.map (·.1), ps.map (·.2))
    | _, _ => do
      let ts ← r.tys
      pure ([], ts)
  else do
    let t ← r.ty
    pure ([], [t])

/-- A block, with its braces (sha1cd.go:38-51). -/
def blockP : P Stmt := inScope fun n => do
  expect (name! "{")
  let s ← r.stmts
  expect (name! "}")
  pure (.block n s)

/-- A function literal, after `func` (sha1cdblock_generic.go:290-303). -/
def funcLitP : P Expr := do
  expect (name! "(")
  let ps ← r.params
  let (_, rs) ← resultsP r
  let body ← inScope fun _ => do
    declare (ps.map (·.1))
    blockP r
  fun s => some (.func s.lits.length s.scope.length,
    { s with lits := s.lits ++
        [{ pkg := 1, name := s.lits.length, params := ps.map (·.2), results := rs, named := false, body := some body }] })

/-- An operand (sha1cd.go:38-208). -/
def operandP : P Expr := do
  match ← peek with
  | .num n => do skip1; pure (.num n)
  | .str s => do skip1; pure (.str s)
  | .id x => do
    skip1
    bif Nat.beq x (name! "func") then funcLitP r else nameP v r x
  | .op o =>
    bif Nat.beq o (name! "(") then do
      skip1
      match ← peek, ← peek2 with
      | .id x, .op c =>
        match bif Nat.beq c (name! ")") then basicType x else Option.none with
        | some t => do
          skip1
          skip1
          expect (name! "(")
          let e ← r.expr 1
          expect (name! ")")
          pure (.conv t e)
        | Option.none => do
          let e ← r.expr 1
          expect (name! ")")
          pure e
      | _, _ => do
        let e ← r.expr 1
        expect (name! ")")
        pure e
    else bif Nat.beq o (name! "[") then do
      let t ← r.ty
      expect (name! "{")
      let es ← r.elems t
      pure (.lit t es)
    else fail

/-- An expression before binary operators (sha1cdblock_generic.go:56,158, sha1cd.go:149). -/
def unaryP : P Expr := do
  let t ← peek
  bif isOp (name! "!") t then do skip1; let e ← r.unary; pure (.un .not e)
  else bif isOp (name! "-") t then do skip1; let e ← r.unary; pure (.un .neg e)
  else bif isOp (name! "^") t then do skip1; let e ← r.unary; pure (.un .com e)
  else bif isOp (name! "&") t then do skip1; let e ← r.unary; pure (.addr e)
  else bif isOp (name! "*") t then do skip1; let e ← r.unary; pure (.deref e)
  else do
    let e ← operandP v r
    r.suffix e

/-- What follows an operand (sha1cd.go:47,85,149-151). -/
def suffixP (e : Expr) : P Expr := do
  let t ← peek
  bif isOp (name! ".") t then do
    skip1
    let f ← ident
    if ← accept (name! "(") then do
      let (es, all) ← r.args
      bif all then fail else r.suffix (.method f e es)
    else r.suffix (.field e f)
  else bif isOp (name! "[") t then do
    skip1
    if ← accept (name! ":") then do
      if ← accept (name! "]") then r.suffix (.slice e .omit .omit)
      else do
        let hi ← r.expr 1
        expect (name! "]")
        r.suffix (.slice e .omit hi)
    else do
      let i ← r.expr 1
      if ← accept (name! ":") then do
        if ← accept (name! "]") then r.suffix (.slice e i .omit)
        else do
          let hi ← r.expr 1
          expect (name! "]")
          r.suffix (.slice e i hi)
      else do
        expect (name! "]")
        r.suffix (.index e i)
  else pure e

/-- The type of the elements of an array or slice type (ubc/const.go:44). -/
def elemTy : Ty → Option Ty
  | .arr _ t => some t
  | .slice t => some t
  | _ => Option.none

/-- The type of the field `f` (ubc/ubc.go:8-24). -/
def fieldTy (f : Nat) : Ty → Option Ty
  | .field g t rest => bif Nat.beq f g then some t else fieldTy f rest
  | _ => Option.none

/-- The elements of a composite literal, after the opening brace (ubc/const.go:44-624, sha1cdblock_generic.go:49). -/
def elemsP (t : Ty) : P Expr := do
  if ← accept (name! "}") then pure .nil
  else do
    let e : Expr → Expr ← (match elemTy t with
      | some u => do
        if ← accept (name! "{") then do
          let es ← r.elems u
          pure (Expr.cons (.lit u es))
        else do
          let e ← r.expr 1
          pure (Expr.cons e)
      | Option.none => do
        let f ← ident
        expect (name! ":")
        match fieldTy f t with
        | some _ => do
          let e ← r.expr 1
          pure (Expr.kv f e)
        | Option.none => fail)
    if ← accept (name! ",") then do
      let es ← r.elems t
      pure (e es)
    else do
      expect (name! "}")
      pure (e .nil)

/-- A type (sha1cd.go:29-37, sha1cdblock_generic.go:146-150).  A type of another package that is not known is an
interface type (`hash.Hash`, sha1cd.go:111). -/
def tyP : P Ty := do
  let t ← peek
  bif isOp (name! "*") t then do skip1; let u ← r.ty; pure (.ptr u)
  else bif isOp (name! "[") t then do
    skip1
    if ← accept (name! "]") then do
      let u ← r.ty
      pure (.slice u)
    else do
      let e ← r.expr 1
      let n ← sizeOf e
      expect (name! "]")
      let u ← r.ty
      pure (.arr n u)
  else do
    let x ← ident
    match basicType x with
    | some u => pure u
    | Option.none =>
      bif memNat x packages then do
        expect (name! ".")
        let y ← ident
        match find x y v.types with
        | some u => pure u
        | Option.none => pure .any
      else bif Nat.beq x (name! "struct") then do
        expect (name! "{")
        r.fields
      else match find v.pkg x v.types with
        | some u => pure u
        | Option.none => fail

/-- The fields of a struct type (sha1cd.go:29-37, ubc/ubc.go:8-24). -/
def fieldsP : P Ty := do
  if ← accept (name! "}") then pure .none
  else do
    let f ← ident
    let t ← r.ty
    expect (name! ";")
    let rest ← r.fields
    pure (.field f t rest)

/-- Expressions separated by commas (sha1cdblock_generic.go:41). -/
def exprsP : P Expr := do
  let e ← r.expr 1
  if ← accept (name! ",") then do
    let es ← r.exprs
    pure (.cons e es)
  else pure (.cons e .nil)

/-- Names separated by commas (sha1cdblock_generic.go:186). -/
def namesP : P (List Nat) := do
  let x ← ident
  if ← accept (name! ",") then do
    let xs ← r.names
    pure (x :: xs)
  else pure [x]

/-- The names before `:=`, if that is what the statement begins with (sha1cdblock_generic.go:41). -/
def defNames : List GTok → Option (List Nat × List GTok)
  | .id x :: .op o :: ts =>
    bif Nat.beq o (name! ":=") then some ([x], ts)
    else bif Nat.beq o (name! ",") then
      match defNames ts with
      | some (xs, rest) => some (x :: xs, rest)
      | Option.none => Option.none
    else Option.none
  | _ => Option.none

/-- A simple statement (sha1cd.go:38-208). -/
def simpleP : P Stmt := do
  match ← (fun s => some (defNames s.toks, s) : P _) with
  | some (xs, ts) => do
    (fun s => some ((), { s with toks := ts }) : P Unit)
    let es ← r.exprs
    declare xs
    pure (.define xs.length es)
  | Option.none => do
    let ls ← r.exprs
    match ← peek with
    | .op o =>
      bif Nat.beq o (name! "=") then do
        skip1
        let rs ← r.exprs
        pure (.assign ls rs)
      else match ls with
        | .cons l .nil =>
          bif Nat.beq o (name! "++") then do skip1; pure (.opAssign .add l (.num 1))
          else bif Nat.beq o (name! "--") then do skip1; pure (.opAssign .sub l (.num 1))
          else match findOp o assignOps with
            | some b => do
              skip1
              let e ← r.expr 1
              pure (.opAssign b l e)
            | Option.none => pure (.expr l)
        | _ => fail
    | _ => fail

/-- An `if` statement, after its keyword (sha1cdblock_generic.go:151, sha1cd.go:160-164). -/
def condP : P Stmt := inScope fun n => do
  let first ← simpleP r
  let withInit ← accept (name! ";")
  let c ← (bif withInit then r.expr 1 else match first with
    | .expr c => pure c
    | _ => fail)
  let a ← blockP r
  let b ← (do
    if isId (name! "else") (← peek) then do
      skip1
      if isId (name! "if") (← peek) then do
        skip1
        r.cond
      else blockP r
    else pure .skip)
  pure (bif withInit then .block n (.seq first (.ite c a b)) else .ite c a b)

/-- A `for` statement, after its keyword (sha1cdblock_generic.go:31,51,154). -/
def loopP : P Stmt := inScope fun n => do
  let init ← (do if isOp (name! ";") (← peek) then pure .skip else simpleP r)
  if ← accept (name! ";") then do
    let c ← r.expr 1
    expect (name! ";")
    let post ← simpleP r
    let body ← blockP r
    pure (.block n (.seq init (.loop c post body)))
  else match init with
    | .expr c => do
      let body ← blockP r
      pure (.loop c .skip body)
    | _ => fail

/-- The clauses of a `switch` statement (sha1cdblock_generic.go:157-166), the value being in slot `k`; `default` must be
the last. -/
def casesP (k : Nat) : P Stmt := do
  match ← peek with
  | .id x =>
    bif Nat.beq x (name! "case") then do
      skip1
      let e ← r.expr 1
      expect (name! ":")
      let a ← inScope fun n => do
        let s ← r.stmts
        pure (.block n s)
      let b ← r.cases k
      pure (.ite (.bin .eq (.loc k) e) a b)
    else bif Nat.beq x (name! "default") then do
      skip1
      expect (name! ":")
      let a ← inScope fun n => do
        let s ← r.stmts
        pure (.block n s)
      expect (name! "}")
      pure a
    else fail
  | _ => do
    expect (name! "}")
    pure .skip

/-- A `switch` statement, after its keyword (sha1cdblock_generic.go:156): its value goes into a slot of its own. -/
def switchP : P Stmt := inScope fun n => do
  let e ← r.expr 1
  expect (name! "{")
  declare [0]
  let s ← r.cases n
  pure (.block n (.seq (.define 1 (.cons e .nil)) s))

/-- A statement (sha1cd.go:38-208). -/
def stmtP : P Stmt := do
  match ← peek with
  | .id x =>
    bif Nat.beq x (name! "if") then do skip1; r.cond
    else bif Nat.beq x (name! "for") then do skip1; loopP r
    else bif Nat.beq x (name! "switch") then do skip1; switchP r
    else bif Nat.beq x (name! "goto") then do skip1; let l ← ident; pure (.goto l)
    else bif Nat.beq x (name! "var") then do
      skip1
      let y ← ident
      let t ← r.ty
      declare [y]
      pure (.var t)
    else bif Nat.beq x (name! "return") then do
      skip1
      if isOp (name! ";") (← peek) then (fun s => some (.ret s.ret, s) : P Stmt)
      else do
        let es ← r.exprs
        pure (.ret es)
    else simpleP r
  | _ => simpleP r

/-- The statements of a block or clause (sha1cd.go:38-208). -/
def stmtsP : P Stmt := do
  let t ← peek
  bif isOp (name! "}") t || isId (name! "case") t || isId (name! "default") t then pure .skip
  else bif isOp (name! ";") t then do skip1; r.stmts
  else match t with
    | .id l => do
      if isOp (name! ":") (← peek2) then do
        skip1
        skip1
        let n ← depth
        let s ← r.stmts
        pure (.label l n s)
      else do
        let a ← r.stmt
        let b ← r.stmts
        pure (.seq a b)
    | _ => do
      let a ← r.stmt
      let b ← r.stmts
      pure (.seq a b)

/-- The parsers, given those for what is nested in theirs. -/
def R.next : R where
  expr p := do
    let a ← r.unary
    r.binTail p a
  binTail := binTailP r
  unary := unaryP v r
  suffix := suffixP r
  args := argsP r
  elems := elemsP r
  ty := tyP v r
  exprs := exprsP r
  stmts := stmtsP r
  stmt := stmtP r
  cond := condP r
  cases := casesP r
  names := namesP r
  params := paramsP r
  tys := tysP r
  fields := fieldsP r

end

/-- The parsers that may nest `n` deep. -/
def parsers (v : Env) : Nat → R
  | 0 => R.none
  | n + 1 => R.next v (parsers v n)

/-- How deep the files need the parsers to nest (lists count their length). -/
def nesting : Nat := 1000

/-- What is known of a program: its declarations and its functions (sha1cd.go:1-212). -/
structure Prog where
  env : Env
  funcs : List Func
  lits : List Func

/-- Run a parser on tokens (sha1cd.go:1-212), and go on with what it leaves. -/
def runP {α : Type} (ts : List GTok) (scope : List Nat) (ret : Expr) (lits : List Func) (p : P α) :
    Option (α × List GTok × List Func) :=
  match p { toks := ts, scope := scope, base := 0, ret := ret, lits := lits } with
  | some (a, s) => some (a, s.toks, s.lits)
  | none => none

/-- The slots `k`, `k + 1`, … of named results (sha1cd.go:122). -/
def slots : Nat → Nat → Expr
  | _, 0 => .nil
  | k, n + 1 => .cons (.loc k) (slots (k + 1) n)

/-- A function, after `func` (sha1cd.go:38-208). -/
def funcP (v : Env) : P Func := do
  let r := parsers v nesting
  let recv ← (do
    if ← accept (name! "(") then r.params else pure [])
  let x ← ident
  expect (name! "(")
  let ps ← r.params
  let (rn, rt) ← resultsP r
  let all := recv ++ ps
  let pkg := bif recv.isEmpty then v.pkg else 0
  if isOp (name! ";") (← peek) then
    pure { pkg := pkg, name := x, params := all.map (·.2), results := rt, named := false, body := none }
  else do
    (fun s => some ((), { s with scope := all.map (·.1) ++ rn, ret := slots all.length rn.length }) : P Unit)
    let b ← blockP r
    pure { pkg := pkg, name := x, params := all.map (·.2), results := rt, named := !rn.isEmpty, body := some b }

/-- A constant declaration `x = e` (internal/const.go:5, sha1cd.go:22). -/
def constP (v : Env) : P (Nat × Expr) := do
  let x ← ident
  expect (name! "=")
  let e ← (parsers v nesting).expr 1
  expect (name! ";")
  match fold e with
  | some c => pure (x, c)
  | none => fail

/-- Skip the tokens up to the end of a declaration (sha1cd.go:13-19), `d` being the number of brackets open. -/
def skipDecl : Nat → List GTok → List GTok
  | _, [] => []
  | d, t :: ts =>
    match t with
    | .op o =>
      bif memNat o [name! "(", name! "[", name! "{"] then skipDecl (Nat.succ d) ts
      else bif memNat o [name! ")", name! "]", name! "}"] then skipDecl (Nat.pred d) ts
      else bif Nat.beq o (name! ";") && Nat.beq d 0 then ts
      else skipDecl d ts
    | _ => skipDecl d ts

/-- Skip the tokens up to the next semicolon (sha1cdblock_amd64.go:13-17): what initialises a variable from the features
of the processor, which is not modelled. -/
def afterSemi : List GTok → List GTok
  | [] => []
  | t :: ts => bif isOp (name! ";") t then ts else afterSemi ts

/-- A package variable, after `var` (ubc/const.go:44, sha1cdblock_generic.go:18, sha1cdblock_amd64.go:13). -/
def globalP (v : Env) : P (Nat × Expr) := do
  let x ← ident
  let r := parsers v nesting
  if ← accept (name! "=") then do
    if isOp (name! "(") (← peek) then do
      (fun s => some ((), { s with toks := afterSemi s.toks }) : P Unit)
      pure (x, .null)
    else do
      let e ← r.expr 1
      pure (x, e)
  else do
    let t ← r.ty
    pure (x, .lit t .nil)

/-- A constant added to what is known (internal/const.go:3-44). -/
def Prog.addConst (g : Prog) (x : Nat) (e : Expr) : Prog :=
  { g with env := { g.env with consts := (g.env.pkg, x, e) :: g.env.consts } }

/-- A file (sha1cd.go:1-212), or inside a `const ( … )` declaration the rest of one; `n` bounds the number of
declarations.  With `first` only the package clause, the constants and the types are read, without it the other
declarations: the order of declarations in Go does not matter. -/
def fileP (first : Bool) : Nat → Bool → Prog → List GTok → Option Prog
  | 0, _, _, _ => none
  | _ + 1, inConst, g, [] => bif inConst then none else some g
  | n + 1, true, g, ts =>
    match ts with
    | .op o :: rest =>
      bif Nat.beq o (name! ")") then fileP first n false g rest else none
    | _ => match runP ts [] .nil g.lits (constP g.env) with
      | some ((x, e), ts', _) => fileP first n true (g.addConst x e) ts'
      | none => none
  | n + 1, false, g, .op o :: ts => bif Nat.beq o (name! ";") then fileP first n false g ts else none
  | n + 1, false, g, .id w :: ts =>
    bif Nat.beq w (name! "package") then
      match ts with
      | .id p :: rest => fileP first n false { g with env := { g.env with pkg := p } } rest
      | _ => none
    else bif Nat.beq w (name! "const") then
      bif first then
        match ts with
        | .op _ :: rest => fileP first n true g rest
        | _ => match runP ts [] .nil g.lits (constP g.env) with
          | some ((x, e), ts', _) => fileP first n false (g.addConst x e) ts'
          | none => none
      else fileP first n false g (skipDecl 0 ts)
    else bif Nat.beq w (name! "type") then
      bif first then
        match ts with
        | .id x :: rest => match runP rest [] .nil g.lits (parsers g.env nesting).ty with
          | some (t, ts', _) =>
            fileP first n false { g with env := { g.env with types := (g.env.pkg, x, t) :: g.env.types } } ts'
          | none => none
        | _ => none
      else fileP first n false g (skipDecl 0 ts)
    else bif Nat.beq w (name! "import") || first then fileP first n false g (skipDecl 0 ts)
    else bif Nat.beq w (name! "var") then
      match runP ts [] .nil g.lits (globalP g.env) with
      | some ((x, e), ts', _) =>
        fileP first n false { g with env := { g.env with globals := (g.env.pkg, x, e) :: g.env.globals } } ts'
      | none => none
    else bif Nat.beq w (name! "func") then
      match runP ts [] .nil g.lits (funcP g.env) with
      | some (f, ts', lits) => fileP first n false { g with funcs := g.funcs ++ [f], lits := lits } ts'
      | none => none
    else none
  | _ + 1, false, _, _ => none

/-- Read the files, given as tokens, one after the other (sha1cd.go:1-212). -/
def filesP (first : Bool) : Prog → List (List GTok) → Option Prog
  | g, [] => some g
  | g, ts :: rest => match fileP first 300 false g ts with
    | some g' => filesP first g' rest
    | none => none

/-- Add the files of a package to what is known (sha1cd.go:1-212, sha1cdblock_generic.go:1-312). -/
def addPackage (g : Prog) (files : List (List GTok)) : Option Prog :=
  match filesP true g files with
  | some g' => filesP false g' files
  | none => none

/-- Nothing is known. -/
def Prog.empty : Prog := { env := { pkg := 0, consts := [], types := [], globals := [] }, funcs := [], lits := [] }

end Verif.Source.Go
