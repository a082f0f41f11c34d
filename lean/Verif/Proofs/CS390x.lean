import Verif.Proofs.CDecls1
import Verif.Proofs.CDecls2
import Verif.Proofs.CDecls3

/-!
What the text of the C files is as a program for s390x.
-/

namespace Verif.Source.C.S390x

open Verif.Source Verif.Source.C

/-- What the preprocessor knows at the end of ubc_check.c. -/
def preU : Pre := evaluated! ((preParts 5000 ⟨predefined s390xMacros, []⟩ [lines ubcCLines])[0]?.getD (0, ⟨.empty, []⟩, [])).2.1
/-- What the preprocessor knows after each part of sha1.c. -/
def pres : List Pre := evaluated! (sha1Parts s390xMacros).map (·.2.1)
/-- What the preprocessor knows after part 1 of sha1.c. -/
def pre1 : Pre := evaluated! pres[0]?.getD ⟨.empty, []⟩
/-- What the preprocessor knows after part 2 of sha1.c. -/
def pre2 : Pre := evaluated! pres[1]?.getD ⟨.empty, []⟩
/-- What the preprocessor knows after part 3 of sha1.c. -/
def pre3 : Pre := evaluated! pres[2]?.getD ⟨.empty, []⟩
/-- What the preprocessor knows after part 4 of sha1.c. -/
def pre4 : Pre := evaluated! pres[3]?.getD ⟨.empty, []⟩
/-- What the preprocessor knows after part 5 of sha1.c. -/
def pre5 : Pre := evaluated! pres[4]?.getD ⟨.empty, []⟩

theorem leavesU : leaves headersLexed 5000 ⟨predefined s390xMacros, []⟩ ubcLexed 4704 preU toksU = true := by decide +kernel
theorem leaves1 : leaves headersLexed 5000 ⟨predefined s390xMacros, []⟩ (sha1Lexed.take 268) 4656 pre1 toks1 = true := by
  decide +kernel
theorem leaves2 : leaves headersLexed 4656 pre1 ((sha1Lexed.drop 268).take 330) 4326 pre2 toks2Be = true := by
  decide +kernel
theorem leaves3 : leaves headersLexed 4326 pre2 (((sha1Lexed.drop 268).drop 330).take 181) 4145 pre3 toks3 = true := by
  decide +kernel
theorem leaves4 :
    leaves headersLexed 4145 pre3 ((((sha1Lexed.drop 268).drop 330).drop 181).take 21) 4124 pre4 toks4 = true := by
  decide +kernel
theorem leaves5 :
    leaves headersLexed 4124 pre4 ((((sha1Lexed.drop 268).drop 330).drop 181).drop 21) 3499 pre5 toks5A = true := by
  decide +kernel

/-- The text of the C files, as a program (cgo/ubc_check.c:1-297, cgo/sha1.c:1-2144). -/
def prog : Prog := ⟨env5, Prog.empty.funcs ++ funcsU ++ funcs1 ++ funcs2Be ++ funcs3 ++ funcs4 ++ funcs5A⟩

theorem tokens_ubc : tokens headers s390xMacros (lines ubcCLines) = some toksU :=
  tokens_one headers_eq lexed_ubc leavesU rfl

theorem tokens_sha1 : tokens headers s390xMacros (lines sha1CLines) =
    some (toks1 ++ (toks2Be ++ (toks3 ++ (toks4 ++ toks5A)))) :=
  tokens_five headers_eq lexed_sha1 leaves1 leaves2 leaves3 leaves4 leaves5 rfl

/-- The text of the C files is the program. -/
theorem read_eq : read s390xMacros = some prog :=
  read_of tokens_ubc tokens_sha1 (linked_of declsU decls1 decls2Be decls3 decls4 decls5A)

end Verif.Source.C.S390x
