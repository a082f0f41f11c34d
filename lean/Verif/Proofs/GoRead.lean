import Verif.Source.Evaluated

/-!
What the texts of the Go files of packages `shared` and `ubc` are as programs: the tokens and the programs written out, and that reading the text gives
them.
-/

namespace Verif.Source.Go

open Verif.Source

/-- The tokens of internal/const.go:1-42. -/
def constToks : List GTok := evaluated! tokens constLines
/-- The tokens of ubc/const.go:1-624. -/
def ubcConstToks : List GTok := evaluated! tokens ubcConstLines
/-- The tokens of ubc/ubc.go:1-376. -/
def ubcToks : List GTok := evaluated! tokens ubcLines
/-- Package `shared`, internal/const.go:1-42. -/
def progShared : Prog := evaluated! (addPackage Prog.empty [constToks]).getD Prog.empty
/-- And package `ubc`, ubc/const.go:1-624 and ubc/ubc.go:1-376. -/
def progUbc : Prog := evaluated! (addPackage progShared [ubcConstToks, ubcToks]).getD Prog.empty
theorem tokens_const : tokens constLines = constToks := eq_of_sameToks (by decide +kernel)
theorem tokens_ubcConst : tokens ubcConstLines = ubcConstToks := eq_of_sameToks (by decide +kernel)
theorem tokens_ubc : tokens ubcLines = ubcToks := eq_of_sameToks (by decide +kernel)
theorem add_shared : addPackage Prog.empty [constToks] = some progShared := by decide +kernel
theorem add_ubc : addPackage progShared [ubcConstToks, ubcToks] = some progUbc := by decide +kernel

end Verif.Source.Go
