import Verif.Source.CProgram
import Verif.Model.CApi

/-!
A program that uses the C library: it has a context and an array of 20 bytes and calls the functions of the library with
them, each call being a call of the function that the text describes.
-/

namespace Verif.Source.C

open Verif Verif.Source Verif.Source.Go
open Verif.Model.C (Call)

/-- An array with the given bytes (cgo/sha1.h:91-100). -/
def bytesOf (p : List Byte) : Val := .arr p.length fun j => .u8 (p.getD j 0)

/-- One call of a function of the library (cgo/sha1.c:2002-2139), on the context at `L`.  The bytes of `SHA1DCUpdate` are in
an array of their own.  `SHA1DCFinal`, `none` here, writes to the array at `lo`; the 20 bytes and what it returns are
returned.  For `SHA1DCSetCallback` (cgo/sha1.c:2050-2053) see `useAny`. -/
def use (P : Program) (N d : Nat) (L lo : Loc) : Option Call → M (List (List Val))
  | some .init => do
    let _ ← P.call N d (name! "C") (name! "SHA1DCInit") [.ptr L]
    pure []
  | some (.setSafeHash v) => do
    let _ ← P.call N d (name! "C") (name! "SHA1DCSetSafeHash") [.ptr L, .u32 v]
    pure []
  | some (.setUseUBC v) => do
    let _ ← P.call N d (name! "C") (name! "SHA1DCSetUseUBC") [.ptr L, .u32 v]
    pure []
  | some (.setUseDetectColl v) => do
    let _ ← P.call N d (name! "C") (name! "SHA1DCSetUseDetectColl") [.ptr L, .u32 v]
    pure []
  | some (.setDetectReducedRoundCollision v) => do
    let _ ← P.call N d (name! "C") (name! "SHA1DCSetDetectReducedRoundCollision") [.ptr L, .u32 v]
    pure []
  | some (.update p) => do
    let l ← Go.alloc (bytesOf p)
    let _ ← P.call N d (name! "C") (name! "SHA1DCUpdate") [.ptr L, .slice l 0 p.length p.length, .u64 (BitVec.ofNat 64 p.length)]
    pure []
  | none => do
    let vs ← P.call N d (name! "C") (name! "SHA1DCFinal") [.slice lo 0 20 20, .ptr L]
    let f ← Go.arrayAt lo
    pure [(List.range 20).map f ++ vs]

/-- Several calls (cgo/sha1.c:2002-2139); what the calls of `SHA1DCFinal` produced. -/
def useAll (P : Program) (N d : Nat) (L lo : Loc) : List (Option Call) → M (List (List Val))
  | [] => pure []
  | op :: ops => do
    let r ← use P N d L lo op
    let rs ← useAll P N d L lo ops
    pure (r ++ rs)

/-- A program that has a context with the contents `c` and an array of 20 bytes with the contents `o`, and makes the calls
(cgo/sha1.c:1-2144).  `N` and `d` bound the rounds of a loop and the depth of calls. -/
def Prog.run (g : Prog) (be : Bool) (N d : Nat) (c : Val) (o : List Byte) (ops : List (Option Call)) :
    Except Stop (List (List Val)) :=
  match g.start ((g.program be).world N d) with
  | .error e => .error e
  | .ok m =>
    match (do
      let L ← Go.alloc c
      let lo ← Go.alloc (bytesOf o)
      useAll (g.program be) N d L lo ops : M (List (List Val))) m with
    | .error e => .error e
    | .ok (rs, _) => .ok rs

/-- One call of a function of the library, which may be `SHA1DCSetCallback` with any value at all as the function that is
passed (cgo/sha1.c:2002-2139, cgo/sha1.h:37-39,95-97). -/
def useAny (P : Program) (N d : Nat) (L lo : Loc) : Val ⊕ Option Call → M (List (List Val))
  | .inl f => do
    let _ ← P.call N d (name! "C") (name! "SHA1DCSetCallback") [.ptr L, f]
    pure []
  | .inr op => use P N d L lo op

/-- Several calls, some of which may set a callback (cgo/sha1.c:2002-2139). -/
def useEvery (P : Program) (N d : Nat) (L lo : Loc) : List (Val ⊕ Option Call) → M (List (List Val))
  | [] => pure []
  | op :: ops => do
    let r ← useAny P N d L lo op
    let rs ← useEvery P N d L lo ops
    pure (r ++ rs)

/-- As `Prog.run`, for calls some of which may set a callback (cgo/sha1.c:1-2144). -/
def Prog.runAny (g : Prog) (be : Bool) (N d : Nat) (c : Val) (o : List Byte) (ops : List (Val ⊕ Option Call)) :
    Except Stop (List (List Val)) :=
  match g.start ((g.program be).world N d) with
  | .error e => .error e
  | .ok m =>
    match (do
      let L ← Go.alloc c
      let lo ← Go.alloc (bytesOf o)
      useEvery (g.program be) N d L lo ops : M (List (List Val))) m with
    | .error e => .error e
    | .ok (rs, _) => .ok rs

/-- Some macros, each defined before those in front of it in the list (cgo/sha1.c:25,36): of two with one name the first
counts. -/
def defsOf : List Macro → Defs
  | [] => .empty
  | m :: ms => (defsOf ms).add m

/-- The tokens of a file for a compiler that defines the macros `ms` beforehand, of whatever form (cgo/sha1.c:1-2144). -/
def tokensWith (files : List (List Nat × List (List Go.GTok))) (ms : List Macro) (ls : List (List Go.GTok)) :
    Option (List Go.GTok) :=
  match preprocess files 5000 ⟨defsOf ms, []⟩ ls [] with
  | some out => some out.reverse
  | none => none

/-- Read ubc_check.c and then sha1.c, the compiler defining the macros `ms` beforehand (cgo/ubc_check.c:1-297,
cgo/sha1.c:1-2144). -/
def readWith (ms : List Macro) : Option Prog :=
  (tokensWith headers ms (lines ubcCLines)).bind fun us =>
    (tokensWith headers ms (lines sha1CLines)).bind fun ss => linked us ss

/-- Macros that stand for numbers (cgo/sha1.c:31-100). -/
def numbers (pre : List (Nat × Nat)) : List Macro := pre.map fun p => ⟨p.1, none, [.num p.2]⟩

/-- The lines of the four files (cgo/ubc_check.h:1-64, cgo/sha1.h:1-114, cgo/ubc_check.c:1-297, cgo/sha1.c:1-2144). -/
def allLines : List (List Go.GTok) := lines ubcHeaderLines ++ lines sha1HeaderLines ++ lines ubcCLines ++ lines sha1CLines

/-- The names that occur in the four files, and what `##` can make of them: a name followed by digits (cgo/sha1.c:872). -/
inductive Named : Nat → Prop
  | written {x : Nat} {l : List Go.GTok} : l ∈ allLines → .id x ∈ l → Named x
  | digit {n k : Nat} : Named n → k ≤ 9 → Named (256 * n + (48 + k))

/-- The lines of the four files other than those that find out the byte order and whether unaligned access is allowed
(cgo/sha1.c:31-133) and those that look for `__unix__` (cgo/sha1.c:15-16). -/
def codeLines : List (List Go.GTok) :=
  lines ubcHeaderLines ++ lines sha1HeaderLines ++ lines ubcCLines ++
    ((lines sha1CLines).take 5 ++ ((lines sha1CLines).drop 7).take 10 ++ (lines sha1CLines).drop 50)

/-- The names that occur in these lines, and what `##` can make of them (cgo/sha1.c:872). -/
inductive Code : Nat → Prop
  | written {x : Nat} {l : List Go.GTok} : l ∈ codeLines → .id x ∈ l → Code x
  | digit {n k : Nat} : Code n → k ≤ 9 → Code (256 * n + (48 + k))

end Verif.Source.C
