import Verif.Source.CParse
import Verif.Source.GoProgram

/-!
From the text of the C files to what they do: the files are read one after the other, the variables of the files get their
initial values.
-/

namespace Verif.Source.C

open Verif Verif.Source
open Verif.Source.Go (Val Loc M Mem World Program Stop)

/-- The headers that the files include, with the name each is included by (cgo/sha1.c:28-29, cgo/ubc_check.c:35). -/
def headers : List (List Nat × List (List Go.GTok)) :=
  [(chars! "ubc_check.h", lines ubcHeaderLines), (chars! "sha1.h", lines sha1HeaderLines)]

/-- The program of two files, the tokens of each given (cgo/ubc_check.c:1-297, cgo/sha1.c:1-2144). Simplification: the two
files, which are compiled apart and linked, are read as one. -/
def linked (us ss : List Go.GTok) : Option Prog :=
  match addDecls 500 Prog.empty us with
  | some g => addDecls 500 g ss
  | none => none

/-- Read ubc_check.c and then sha1.c, the compiler defining the macros `pre` (cgo/ubc_check.c:1-297, cgo/sha1.c:1-2144). -/
def read (pre : List (Nat × Nat)) : Option Prog :=
  (tokens headers pre (lines ubcCLines)).bind fun us =>
    (tokens headers pre (lines sha1CLines)).bind fun ss => linked us ss

/-- Four bytes as the processor reads a word from them, with `be` the first one the highest (cgo/sha1.c:146-157). -/
def wordAt (be : Bool) (f : Nat → Val) (k : Nat) : Val :=
  match f k, f (k + 1), f (k + 2), f (k + 3) with
  | .u8 a, .u8 b, .u8 c, .u8 d => .u32 (bif be then a ++ b ++ c ++ d else d ++ c ++ b ++ a)
  | _, _, _, _ => .null

/-- What `(const uint32_t*)p` points to, for a pointer to bytes (cgo/sha1.c:2069,2079,2082,2118): sixteen words that consist of the
bytes.  Simplification: they are copied when the pointer is made; in these files the bytes do not change while such a
pointer is in use, and nothing is written through it. -/
def wordsFn (be : Bool) (n : Nat) (vs : List Val) : M (List Val) :=
  if n = name! "words" then
    match vs with
    | [b] => do
      let (l, off, len, _) ← Go.need (Go.parts b)
      if 64 ≤ len then do
        let f ← Go.arrayAt l
        let l' ← Go.alloc (.arr 16 fun k => bif Nat.blt k 16 then wordAt be f (off + 4 * k) else .u32 0)
        pure [.slice l' 0 16 16]
      else Go.stop .bounds
    | _ => Go.stop .stuck
  else Go.stop .stuck

/-- The variables of the files with their initial values (cgo/ubc_check.c:70-72, cgo/sha1.c:2094-2099). -/
def Prog.globals (g : Prog) : List (Nat × Nat × Go.Expr) := g.env.globals.map fun x => (x.1, x.2.1, x.2.2.1)

/-- What was read, as a program, for a processor of the given byte order (cgo/sha1.c:1-2144). -/
def Prog.program (g : Prog) (be : Bool) : Program :=
  { funcs := g.funcs, glob := fun p n => Go.globIndex p n g.globals, asm := wordsFn be, room := fun _ => 0 }

/-- The memory when the program starts: only frame 0, the variables of the files, which are initialised
(cgo/ubc_check.c:70-72, cgo/sha1.c:2094-2099). -/
def Prog.start (g : Prog) (X : World) : Except Stop Mem :=
  match Go.initVars X g.globals { id := 0, cur := [], old := fun _ => [], next := 1 } with
  | .ok (_, m) => .ok m
  | .error e => .error e

end Verif.Source.C
