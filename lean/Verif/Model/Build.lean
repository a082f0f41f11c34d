import Verif.Model.Digest
import Verif.Model.Flat

/-! Which block function a build of the package uses. -/

namespace Verif.Model

/-- `block` of an amd64 build with table `dvs`, sha1cdblock_amd64.go:25-29: the portable function if `forceGeneric`
(sha1cdblock_generic.go:18) is set or the CPU lacks the instructions (sha1cdblock_amd64.go:13-17), else the
SHA-NI one. -/
def blockAmd64Build (forceGeneric hasSHANI : Bool) (s : Nat → Amd64.St) (dvs : List DvInfo) : BlockFn :=
  if forceGeneric || !hasSHANI then blockGeneric dvs else Amd64.block s dvs

/-- `block` of an arm64 build with table `dvs`, sha1cdblock_arm64.go:21-25: the portable function if `forceGeneric` is set or the
CPU lacks the instructions (sha1cdblock_arm64.go:13), else the one with the SHA1 instructions. -/
def blockArm64Build (forceGeneric hasSHA1 : Bool) (s : Nat → Arm64.St) (r16 : Nat → Word64)
    (dvs : List DvInfo) : BlockFn :=
  if forceGeneric || !hasSHA1 then blockGeneric dvs else Arm64.block s r16 dvs

/-- `blockAmd64Build` with the assembly on a flat memory, sha1cdblock_amd64.go:25-52. -/
def blockAmd64Flat (forceGeneric hasSHANI : Bool) (e : Nat → Flat.Amd64.Entry) (dvs : List DvInfo) : BlockFn :=
  if forceGeneric || !hasSHANI then blockGeneric dvs else Flat.Amd64.block e dvs

/-- `blockArm64Build` with the assembly on a flat memory, sha1cdblock_arm64.go:21-48. -/
def blockArm64Flat (forceGeneric hasSHA1 : Bool) (e : Nat → Flat.Arm64.Entry) (dvs : List DvInfo) : BlockFn :=
  if forceGeneric || !hasSHA1 then blockGeneric dvs else Flat.Arm64.block e dvs

/-- The ways `block` is bound (sha1cdblock_amd64.go:25-29, sha1cdblock_arm64.go:21-25, sha1cdblock_noasm.go:5-7). -/
inductive Build where
  /-- sha1cdblock_noasm.go:5-7 -/
  | noasm
  /-- sha1cdblock_amd64.go:25-52, for any contents `s k` of the registers and of the stack at the `k`-th call of
  the assembly function; `ok` says that the stack frame does not wrap around the end of the address space. -/
  | amd64 (forceGeneric hasSHANI : Bool) (s : Nat → Amd64.St) (ok : ∀ k, (s k).frame.toNat + 80 ≤ 2 ^ 64)
  /-- sha1cdblock_arm64.go:21-48, for any contents of the registers at the `k`-th call of the assembly function,
  except that the value found in R16 (which the assembly reads without having set it) is not one of the 64
  largest.  What happens for those is stated separately (C17). -/
  | arm64 (forceGeneric hasSHA1 : Bool) (s : Nat → Arm64.St) (r16 : Nat → Word64)
      (ok : ∀ k, (r16 k).toNat + 64 < 2 ^ 64)
  /-- sha1cdblock_amd64.go:25-52 with all arrays in one memory, at any addresses that do not overlap. -/
  | amd64Flat (forceGeneric hasSHANI : Bool) (e : Nat → Flat.Amd64.Entry) (ok : ∀ k, (e k).env.Ok 80)
  /-- sha1cdblock_arm64.go:21-48 with all arrays in one memory; R16 as for `arm64`. -/
  | arm64Flat (forceGeneric hasSHA1 : Bool) (e : Nat → Flat.Arm64.Entry) (ok : ∀ k, (e k).env.Ok 0)
      (r16 : ∀ k, ((e k).g .r16).toNat + 64 < 2 ^ 64)

/-- The function `block` of the build, when the table `sha1_dvs` (ubc/const.go:45) has contents `dvs`. -/
def Build.blockWith (dvs : List DvInfo) : Build → BlockFn
  | .noasm => blockGeneric dvs
  | .amd64 forceGeneric hasSHANI s _ => blockAmd64Build forceGeneric hasSHANI s dvs
  | .arm64 forceGeneric hasSHA1 s r16 _ => blockArm64Build forceGeneric hasSHA1 s r16 dvs
  | .amd64Flat forceGeneric hasSHANI e _ => blockAmd64Flat forceGeneric hasSHANI e dvs
  | .arm64Flat forceGeneric hasSHA1 e _ _ => blockArm64Flat forceGeneric hasSHA1 e dvs

/-- The function `block` of the build with the table as it is in the source
(sha1cdblock_amd64.go:25-52, sha1cdblock_arm64.go:21-48, sha1cdblock_noasm.go:5-7). -/
def Build.block (B : Build) : BlockFn := B.blockWith sha1Dvs

end Verif.Model
