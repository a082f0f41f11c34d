import Verif.Source.GoLex

/-!
The programs that the Go files contain, after names have been resolved: local variables are positions in the frame
of the function, constants have been put in, fields and functions are named.

Simplification: lists of expressions are themselves expressions (`nil`, `cons`), and struct types lists of fields
(`none`, `field`), so that each of the three types below is a plain inductive type.
-/

namespace Verif.Source.Go

/-- Types (sha1cd.go:29-37,69,93; ubc/ubc.go:8-24). -/
inductive Ty where
  | u8 | u32 | u64 | int | bool | str
  /-- an interface type: `error`, `hash.Hash` -/
  | any
  | ptr (t : Ty)
  | slice (t : Ty)
  | arr (n : Nat) (t : Ty)
  /-- a struct without (further) fields -/
  | none
  /-- a struct with field `f` of type `t` and then those of `rest` -/
  | field (f : Nat) (t rest : Ty)
deriving DecidableEq, Repr

/-- Binary operators (sha1cd.go:70-170, sha1cdblock_generic.go:51-270). -/
inductive BOp where
  | add | sub | mul | rem | and | or | xor | shl | shr | andNot | eq | ne | lt | le | gt | ge
deriving DecidableEq, Repr

/-- Unary operators (sha1cdblock_generic.go:56, sha1cdblock_amd64.go:26). -/
inductive UOp where
  | not | neg | com
deriving DecidableEq, Repr

/-- Expressions (sha1cd.go:38-208, sha1cdblock_generic.go:22-312, ubc/ubc.go:32-376). -/
inductive Expr where
  | nil
  | cons (e rest : Expr)
  | num (n : Nat)
  | str (s : List Nat)
  | bool (b : Bool)
  /-- the predeclared `nil` -/
  | null
  /-- `_` on the left of an assignment -/
  | blank
  /-- a bound of a slice expression that is left out -/
  | omit
  /-- the local variable in slot `k` -/
  | loc (k : Nat)
  /-- the package variable `name` of package `pkg` -/
  | glob (pkg name : Nat)
  | bin (o : BOp) (a b : Expr)
  /-- `a && b` -/
  | both (a b : Expr)
  /-- `a || b` -/
  | either (a b : Expr)
  | un (o : UOp) (a : Expr)
  | conv (t : Ty) (e : Expr)
  | field (e : Expr) (f : Nat)
  | index (e i : Expr)
  | slice (e lo hi : Expr)
  | addr (e : Expr)
  | deref (e : Expr)
  /-- a call of function `name` of package `pkg` -/
  | call (pkg name : Nat) (args : Expr)
  /-- a call of a method -/
  | method (name : Nat) (recv args : Expr)
  /-- a call of a function value in a local variable -/
  | callVar (k : Nat) (args : Expr)
  /-- a function literal, with the first `n` slots of the frame as what it captures -/
  | func (idx n : Nat)
  /-- a composite literal -/
  | lit (t : Ty) (elems : Expr)
  /-- an element `f: e` of a struct literal, and the other elements -/
  | kv (f : Nat) (e rest : Expr)
  | len (e : Expr)
  | copy (dst src : Expr)
  | append (s args : Expr)
  /-- `append(s, e...)` -/
  | appendAll (s e : Expr)
  | make (t : Ty) (n cap : Expr)
  | panic (e : Expr)
deriving DecidableEq, Repr

/-- Statements (sha1cd.go:38-208, sha1cdblock_generic.go:22-312, ubc/ubc.go:32-376). -/
inductive Stmt where
  | skip
  | seq (a b : Stmt)
  | expr (e : Expr)
  /-- `x, y := es`: `k` new slots -/
  | define (k : Nat) (es : Expr)
  /-- `var x T`: a new slot -/
  | var (t : Ty)
  | assign (ls rs : Expr)
  | opAssign (o : BOp) (l r : Expr)
  | ite (c : Expr) (a b : Stmt)
  /-- a block, entered with `n` slots in the frame -/
  | block (n : Nat) (s : Stmt)
  | loop (c : Expr) (post body : Stmt)
  /-- a label, reached with `n` slots in the frame, and the rest of its block -/
  | label (l n : Nat) (s : Stmt)
  | goto (l : Nat)
  /-- a statement that a `goto l` in it ends (`break` in C, cgo/sha1.c:2049) -/
  | leave (l : Nat) (s : Stmt)
  | ret (es : Expr)
deriving DecidableEq, Repr

/-- A function, method (package 0) or function literal (package 1) (sha1cd.go:38-208). -/
structure Func where
  pkg : Nat
  name : Nat
  params : List Ty
  results : List Ty
  /-- whether the results have names, and so slots after the parameters -/
  named : Bool
  /-- none for a function declared without a body (sha1cdblock_amd64.go:24) -/
  body : Option Stmt
deriving DecidableEq, Repr

end Verif.Source.Go
