import Verif.Source.GoParse
import Verif.Source.GoSem

/-!
From the text of the Go files to what they do: the packages are read one after the other, the package variables get their
initial values.
-/

namespace Verif.Source.Go

open Verif.Source

/-- Read packages, each a list of files, a file being its lines, one package after the other (sha1cd.go:1-212). -/
def readAll : Prog → List (List (List (List Nat))) → Option Prog
  | g, [] => some g
  | g, files :: rest => match addPackage g (files.map tokens) with
    | some g' => readAll g' rest
    | none => none

/-- What was read, as a program (sha1cd.go:1-212); `asm` are the functions without a body, `room` is how much room `append`
leaves. -/
def Prog.program (g : Prog) (asm : Nat → List Val → M (List Val)) (room : Nat → Nat) : Program :=
  { funcs := g.funcs ++ g.lits, glob := fun p n => globIndex p n g.env.globals, asm := asm, room := room }

/-- Give the package variables their initial values, in the order of declaration (ubc/const.go:44,
sha1cdblock_generic.go:18).  What initialises `hasSHANI` and `hasSHA1` is not modelled, these are `nil` at first. -/
def initVars (X : World) : List (Nat × Nat × Expr) → M Unit
  | [] => pure ()
  | (_, _, e) :: rest => do
    initVars X rest
    let v ← ev X e
    push [v]

/-- The memory when the program starts: only frame 0, the package variables, which are initialised (ubc/const.go:44,
sha1cdblock_generic.go:18). -/
def Prog.start (g : Prog) (X : World) : Except Stop Mem :=
  match initVars X g.env.globals { id := 0, cur := [], old := fun _ => [], next := 1 } with
  | .ok (_, m) => .ok m
  | .error e => .error e

end Verif.Source.Go
