import Verif.Proofs.CRead

/-!
The parts in which the C files are read, for writing them out.
-/

namespace Verif.Source.C

open Verif.Source
open Verif.Source.Go (GTok Func)

/-- The headers by tokens. -/
noncomputable def headersLexed : List (List Nat × List (List GTok)) :=
  [(chars! "ubc_check.h", ubcHLexed), (chars! "sha1.h", sha1HLexed)]

theorem headers_eq : headers = headersLexed := by rw [headers, lexed_ubcH, lexed_sha1H]; rfl

/-- The lines of a file in parts of the given lengths. -/
def cuts : List Nat → List (List GTok) → List (List (List GTok))
  | [], ls => [ls]
  | n :: ns, ls => ls.take n :: cuts ns (ls.drop n)

/-- What the preprocessor makes of each of some parts. -/
def preParts : Nat → Pre → List (List (List GTok)) → List (Nat × Pre × List GTok)
  | _, _, [] => []
  | n, p, x :: xs => match preTo headers n p x [] with
    | some (n', p', out) => (n', p', out.reverse) :: preParts n' p' xs
    | none => []

/-- Where sha1.c is cut (cgo/sha1.c:458, 870, 1450, 1478): after `sha1_compression_W`, after `sha1_compression_states`, and after each
of the two `sha1recompress_fast`. -/
def sha1Cuts : List Nat := [268, 330, 181, 21]

/-- The parts of sha1.c after the preprocessor (cgo/sha1.c:1-2144). -/
def sha1Parts (pre : List (Nat × Nat)) : List (Nat × Pre × List GTok) :=
  preParts 5000 ⟨predefined pre, []⟩ (cuts sha1Cuts (lines sha1CLines))

/-- How many declarations some tokens are, and what is declared afterwards. -/
def declsIn : Nat → Env → List GTok → Nat × Env × List Func
  | 0, v, _ => (0, v, [])
  | n + 1, v, ts =>
    match declP v (parsers v 1000) { toks := ts, scope := [], base := 0, ret := .none } with
    | some (d, s) =>
      let r := declsIn n (Prog.add ⟨v, []⟩ d).env s.toks
      (r.1 + 1, r.2.1, (Prog.add ⟨v, []⟩ d).funcs ++ r.2.2)
    | none => (0, v, [])

/-- The declarations in each of some parts. -/
def declParts : Env → List (List GTok) → List (Nat × Env × List Func)
  | _, [] => []
  | v, x :: xs => let r := declsIn 500 v x; r :: declParts r.2.1 xs

/-- The macros of gcc for amd64 under Linux that the files ask for (cgo/sha1.c:14-16,31-119): little-endian, and an Intel
processor. -/
def amd64Macros : List (Nat × Nat) :=
  [(name! "__unix__", 1), (name! "__amd64__", 1), (name! "__amd64", 1), (name! "__x86_64__", 1), (name! "__x86_64", 1),
   (name! "__BYTE_ORDER__", 1234), (name! "__ORDER_BIG_ENDIAN__", 4321), (name! "__BYTE_ORDER", 1234), (name! "__BIG_ENDIAN", 4321)]

/-- The macros of gcc for arm64 under Linux that the files ask for (cgo/sha1.c:14-16,31-119): little-endian, not an Intel
processor. -/
def arm64Macros : List (Nat × Nat) :=
  [(name! "__unix__", 1), (name! "__aarch64__", 1), (name! "__BYTE_ORDER__", 1234), (name! "__ORDER_BIG_ENDIAN__", 4321),
   (name! "__BYTE_ORDER", 1234), (name! "__BIG_ENDIAN", 4321)]

/-- The macros of gcc for s390x under Linux that the files ask for (cgo/sha1.c:14-16,31-119): big-endian. -/
def s390xMacros : List (Nat × Nat) :=
  [(name! "__unix__", 1), (name! "__s390x__", 1), (name! "__BYTE_ORDER__", 4321), (name! "__ORDER_BIG_ENDIAN__", 4321),
   (name! "__BYTE_ORDER", 4321), (name! "__BIG_ENDIAN", 4321)]

/-- The tokens of ubc_check.c (cgo/ubc_check.c:1-297). -/
def ubcTokens (pre : List (Nat × Nat)) : List GTok := (tokens headers pre (lines ubcCLines)).getD []

/-- The declarations of ubc_check.c. -/
def ubcDecls (pre : List (Nat × Nat)) : Nat × Env × List Func := declsIn 500 Prog.empty.env (ubcTokens pre)

/-- The tokens of a part of sha1.c. -/
def toksOf (pre : List (Nat × Nat)) (k : Nat) : List GTok := ((sha1Parts pre)[k]?.getD (0, ⟨.empty, []⟩, [])).2.2

/-- What the preprocessor knows after a part of sha1.c. -/
def preOf (pre : List (Nat × Nat)) (k : Nat) : Pre := ((sha1Parts pre)[k]?.getD (0, ⟨.empty, []⟩, [])).2.1

/-- The declarations of a part of sha1.c. -/
def declsOf (pre : List (Nat × Nat)) (k : Nat) : Nat × Env × List Func :=
  (declParts (ubcDecls pre).2.1 ((sha1Parts pre).map (·.2.2)))[k]?.getD (0, Prog.empty.env, [])

evaluated_list! toksU : GTok := ubcTokens amd64Macros
evaluated_list! toks1 : GTok := toksOf amd64Macros 0
evaluated_list! toks2Le : GTok := toksOf amd64Macros 1
evaluated_list! toks2Be : GTok := toksOf s390xMacros 1
evaluated_list! toks3 : GTok := toksOf amd64Macros 2
evaluated_list! toks4 : GTok := toksOf amd64Macros 3
evaluated_list! toks5U : GTok := toksOf amd64Macros 4
evaluated_list! toks5A : GTok := toksOf arm64Macros 4

/-- What is declared after ubc_check.c (cgo/ubc_check.c:1-297). -/
def envU : Env := evaluated! (ubcDecls amd64Macros).2.1
/-- What is declared after `sha1_compression_W` (cgo/sha1.c:1-457). -/
def env1 : Env := evaluated! (declsOf amd64Macros 0).2.1
/-- What is declared after `sha1_compression_states` (cgo/sha1.c:1-869). -/
def env2 : Env := evaluated! (declsOf amd64Macros 1).2.1
/-- What is declared after `sha1recompress_fast_58` (cgo/sha1.c:1-1450). -/
def env3 : Env := evaluated! (declsOf amd64Macros 2).2.1
/-- What is declared after `sha1recompress_fast_65` (cgo/sha1.c:1-1478). -/
def env4 : Env := evaluated! (declsOf amd64Macros 3).2.1
/-- What is declared after sha1.c (cgo/sha1.c:1-2144). -/
def env5 : Env := evaluated! (declsOf amd64Macros 4).2.1

/-- `ubc_check` (cgo/ubc_check.c:73-293). -/
def funcsU : List Func := evaluated! (ubcDecls amd64Macros).2.2
/-- `sha1_compression_W` (cgo/sha1.c:364-457). -/
def funcs1 : List Func := evaluated! (declsOf amd64Macros 0).2.2
/-- `sha1_compression_states` on a little-endian processor (cgo/sha1.c:459-869). -/
def funcs2Le : List Func := evaluated! (declsOf amd64Macros 1).2.2
/-- `sha1_compression_states` on a big-endian processor (cgo/sha1.c:459-869). -/
def funcs2Be : List Func := evaluated! (declsOf s390xMacros 1).2.2
/-- `sha1recompress_fast_58` (cgo/sha1.c:871-1210,1450). -/
def funcs3 : List Func := evaluated! (declsOf amd64Macros 2).2.2
/-- `sha1recompress_fast_65` (cgo/sha1.c:871-1210,1478). -/
def funcs4 : List Func := evaluated! (declsOf amd64Macros 3).2.2
/-- The functions from `sha1_recompression_step` on, where words may lie at any address (cgo/sha1.c:1541-2139). -/
def funcs5U : List Func := evaluated! (declsOf amd64Macros 4).2.2
/-- The functions from `sha1_recompression_step` on, where words must be aligned (cgo/sha1.c:1541-2139). -/
def funcs5A : List Func := evaluated! (declsOf arm64Macros 4).2.2

end Verif.Source.C
