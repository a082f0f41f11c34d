import Verif.Proofs.GoRead

/-!
What the texts of the Go files of package `sha1cd` are as programs: the tokens and the programs written out, and that reading the text gives
them.
-/

namespace Verif.Source.Go

open Verif.Source

/-- The tokens of sha1cd.go:1-212. -/
def sha1cdToks : List GTok := evaluated! tokens sha1cdLines
/-- The tokens of sha1cdblock_generic.go:1-312. -/
def genericToks : List GTok := evaluated! tokens genericLines
/-- The tokens of sha1cdblock_noasm.go:1-7. -/
def noasmToks : List GTok := evaluated! tokens blockNoasmLines
/-- The tokens of sha1cdblock_amd64.go:1-52. -/
def amd64Toks : List GTok := evaluated! tokens blockAmd64Lines
/-- The tokens of sha1cdblock_arm64.go:1-48. -/
def arm64Toks : List GTok := evaluated! tokens blockArm64Lines
/-- And the files of package `sha1cd` common to all platforms, sha1cd.go:1-212 and sha1cdblock_generic.go:1-312. -/
def progSha1cd : Prog := evaluated! (addPackage progUbc [sha1cdToks, genericToks]).getD Prog.empty
/-- And sha1cdblock_noasm.go:1-7. -/
def progNoasm : Prog := evaluated! (addPackage progSha1cd [noasmToks]).getD Prog.empty
/-- Or sha1cdblock_amd64.go:1-52. -/
def progAmd64 : Prog := evaluated! (addPackage progSha1cd [amd64Toks]).getD Prog.empty
/-- Or sha1cdblock_arm64.go:1-48. -/
def progArm64 : Prog := evaluated! (addPackage progSha1cd [arm64Toks]).getD Prog.empty
theorem tokens_sha1cd : tokens sha1cdLines = sha1cdToks := eq_of_sameToks (by decide +kernel)
theorem tokens_generic : tokens genericLines = genericToks := eq_of_sameToks (by decide +kernel)
theorem tokens_noasm : tokens blockNoasmLines = noasmToks := eq_of_sameToks (by decide +kernel)
theorem tokens_amd64 : tokens blockAmd64Lines = amd64Toks := eq_of_sameToks (by decide +kernel)
theorem tokens_arm64 : tokens blockArm64Lines = arm64Toks := eq_of_sameToks (by decide +kernel)
theorem add_sha1cd : addPackage progUbc [sha1cdToks, genericToks] = some progSha1cd := by decide +kernel
theorem add_noasm : addPackage progSha1cd [noasmToks] = some progNoasm := by decide +kernel
theorem add_amd64 : addPackage progSha1cd [amd64Toks] = some progAmd64 := by decide +kernel
theorem add_arm64 : addPackage progSha1cd [arm64Toks] = some progArm64 := by decide +kernel

end Verif.Source.Go
