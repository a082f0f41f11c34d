import Verif.Proofs.GoBuilds
import Verif.Props.GoSource

/-!
C66 for the builds with assembly: the text of the Go files and the text of the assembly files, together.
-/

namespace Verif.Props

open Verif Verif.Model Verif.Spec
open Verif.Source (constLines ubcConstLines ubcLines sha1cdLines genericLines blockAmd64Lines blockArm64Lines)
open Verif.Source.Go

/-- The Go files of the amd64 build, package by package. -/
def goFilesAmd64 : List (List (List (List Nat))) :=
  [[constLines], [ubcConstLines, ubcLines], [sha1cdLines, genericLines], [blockAmd64Lines]]

/-- The Go files of the arm64 build, package by package. -/
def goFilesArm64 : List (List (List (List Nat))) :=
  [[constLines], [ubcConstLines, ubcLines], [sha1cdLines, genericLines], [blockArm64Lines]]

/-- C66: the files of the amd64 build can be read. -/
theorem C66_read_amd64 : readAll Prog.empty goFilesAmd64 = some progAmd64 :=
  (readAll_cons (map_tokens1 tokens_const) add_shared _).trans
    ((readAll_cons (map_tokens2 tokens_ubcConst tokens_ubc) add_ubc _).trans
      ((readAll_cons (map_tokens2 tokens_sha1cd tokens_generic) add_sha1cd _).trans
        (readAll_cons (map_tokens1 tokens_amd64) add_amd64 _)))

/-- C66: the files of the arm64 build can be read. -/
theorem C66_read_arm64 : readAll Prog.empty goFilesArm64 = some progArm64 :=
  (readAll_cons (map_tokens1 tokens_const) add_shared _).trans
    ((readAll_cons (map_tokens2 tokens_ubcConst tokens_ubc) add_ubc _).trans
      ((readAll_cons (map_tokens2 tokens_sha1cd tokens_generic) add_sha1cd _).trans
        (readAll_cons (map_tokens1 tokens_arm64) add_arm64 _)))

/-- What is on the machine at the calls of `blockAMD64`: memory that the function may use as C48 says. -/
abbrev CallsAmd64 := List Source.Go.Val → Source.Go.Mem → Flat.Amd64.Entry
/-- What is on the machine at the calls of `blockARM64`. -/
abbrev CallsArm64 := List Source.Go.Val → Source.Go.Mem → Flat.Arm64.Entry

theorem asmAmd64_run (e : CallsAmd64) (ok : ∀ vs m, (e vs m).env.Ok 80) :
    ∃ run, (∀ vs, asmAmd64 e (name! "blockAMD64") vs = asmCall run vs) ∧
      ∀ vs m h p m1 cs, p.length = 64 → run vs m h p m1 cs = .ok (rightAsm h p m1 cs) :=
  ⟨fun vs m => Source.callAmd64 Source.amd64Lines 220 (e vs m).env (e vs m).x (e vs m).g (e vs m).r12, fun _ => if_pos rfl, fun vs m h p m1 cs hp =>
    callAmd64_ok (Nat.le_refl _) (Flat.Amd64.call_ok _ (ok vs m) (e vs m).x (e vs m).g (e vs m).r12 h p hp m1 cs)⟩

theorem asmArm64_run (e : CallsArm64) (ok : ∀ vs m, (e vs m).env.Ok 0) (r16 : ∀ vs m, ((e vs m).g .r16).toNat + 64 < 2 ^ 64) :
    ∃ run, (∀ vs, asmArm64 e (name! "blockARM64") vs = asmCall run vs) ∧
      ∀ vs m h p m1 cs, p.length = 64 → run vs m h p m1 cs = .ok (rightAsm h p m1 cs) :=
  ⟨fun vs m => Source.callArm64 Source.arm64Lines 180 (e vs m).env (e vs m).v (e vs m).g, fun _ => if_pos rfl, fun vs m h p m1 cs hp =>
    callArm64_ok (Nat.le_refl _) (Flat.Arm64.call_ok _ (ok vs m) (e vs m).v (e vs m).g (r16 vs m) h p hp m1 cs)⟩

theorem simd_inv (b : Bool) : Source.Go.Inv (simdVars b) (blockGeneric sha1Dvs) ⟨[], []⟩ (simdMem b) [] :=
  ⟨rfl, Nat.le_refl _, simdMem_boot b, by simp, by simp, by simp [opsOf, outsOf], by simp, by simp⟩

/-- C66 for amd64: the Go files and sha1cdblock_amd64.s, as text, on a machine with the instructions or without them.  Whatever a program does with the
package, no call panics or runs forever, and all results are the specified ones. -/
theorem C66_amd64_every_program (e : CallsAmd64) (ok : ∀ vs m, (e vs m).env.Ok 80) (hasSHANI : Bool) (room : Nat → Nat) (N d : Nat)
    (hN : 33 < N) (hd : 8 ≤ d) (ss : List Step) :
    ∃ g m0, readAll Prog.empty goFilesAmd64 = some g ∧
      g.startOn ((g.program (asmAmd64 e) room).world N d) (name! "hasSHANI") hasSHANI = .ok m0 ∧
      ∃ c es m, (Client.mk [] []).run (g.program (asmAmd64 e) room) N d ss m0 = .ok ((c, es), m) ∧
        (∀ o, outsOf o es = Held.new.results goVerdict (opsOf o es)) ∧
        ∀ data h b, .sumPkg data h b ∈ es → (h, b) = safeHash goVerdict data :=
  ⟨progAmd64, simdMem hasSHANI, C66_read_amd64, amd64_start _ _,
    every_program (amd64_all _ room (asmAmd64_run e ok) hN hasSHANI) hN hd (simd_inv hasSHANI) ss⟩

/-- C66 for arm64, with the restriction of C17 on R16. -/
theorem C66_arm64_every_program (e : CallsArm64) (ok : ∀ vs m, (e vs m).env.Ok 0) (r16 : ∀ vs m, ((e vs m).g .r16).toNat + 64 < 2 ^ 64)
    (hasSHA1 : Bool) (room : Nat → Nat) (N d : Nat) (hN : 33 < N) (hd : 8 ≤ d) (ss : List Step) :
    ∃ g m0, readAll Prog.empty goFilesArm64 = some g ∧
      g.startOn ((g.program (asmArm64 e) room).world N d) (name! "hasSHA1") hasSHA1 = .ok m0 ∧
      ∃ c es m, (Client.mk [] []).run (g.program (asmArm64 e) room) N d ss m0 = .ok ((c, es), m) ∧
        (∀ o, outsOf o es = Held.new.results goVerdict (opsOf o es)) ∧
        ∀ data h b, .sumPkg data h b ∈ es → (h, b) = safeHash goVerdict data :=
  ⟨progArm64, simdMem hasSHA1, C66_read_arm64, arm64_start _ _,
    every_program (arm64_all _ room (asmArm64_run e ok r16) hN hasSHA1) hN hd (simd_inv hasSHA1) ss⟩

/-- Instance: there are machines as the theorems require. -/
example : (∃ e : CallsAmd64, ∀ vs m, (e vs m).env.Ok 80) ∧
    ∃ e : CallsArm64, (∀ vs m, (e vs m).env.Ok 0) ∧ ∀ vs m, ((e vs m).g .r16).toNat + 64 < 2 ^ 64 :=
  ⟨⟨fun _ _ => ⟨exEnv, fun _ => ⟨1, 2, 3, 4⟩, fun _ => 7, 9⟩, fun _ _ => exEnv_ok⟩,
    ⟨fun _ _ => ⟨exEnv0, fun _ => ⟨1, 2, 3, 4⟩, fun _ => 0x10001⟩, fun _ _ => exEnv0_ok, fun _ _ => show (0x10001 : Word64).toNat + 64 < 2 ^ 64 by decide⟩⟩

end Verif.Props
