import Verif.Proofs.GoSimd
import Verif.Proofs.GoClient

/-!
The programs read from the text of the files that are compiled for amd64 and for arm64.
-/

namespace Verif.Source.Go

open Verif Verif.Source Verif.Model

/-- The package variables of the builds with assembly, sha1cdblock_generic.go:18, ubc/const.go:44, sha1cdblock_amd64.go:13, sha1cdblock_arm64.go:13. -/
def simdVars (b : Bool) : List Val := [.slice ⟨1, 0, []⟩ 0 33 33, .bool false, .bool b]

/-- The memory when the program starts. -/
def simdMem (b : Bool) : Mem := ⟨0, simdVars b, fun k => if k = 1 then [table sha1Dvs] else [], 2⟩

theorem simdMem_boot (b : Bool) : Boot (simdVars b) (simdMem b).frame := ⟨rfl, rfl⟩

theorem amd64_globals : progAmd64.env.globals = [(name! "sha1cd", name! "hasSHANI", .null),
    (name! "sha1cd", name! "forceGeneric", .lit .bool .nil), (name! "ubc", name! "sha1_dvs", .lit (.slice dvTy) (rowExprs rows))] := by by_kernel

theorem arm64_globals : progArm64.env.globals = [(name! "sha1cd", name! "hasSHA1", .null),
    (name! "sha1cd", name! "forceGeneric", .lit .bool .nil), (name! "ubc", name! "sha1_dvs", .lit (.slice dvTy) (rowExprs rows))] := by by_kernel

theorem amd64_start (X : World) (b : Bool) : progAmd64.startOn X (name! "hasSHANI") b = .ok (simdMem b) := by
  unfold Prog.startOn Prog.start
  rw [amd64_globals]
  simp only [initVars, bind_run, pure_run, ev_table]
  rfl

theorem arm64_start (X : World) (b : Bool) : progArm64.startOn X (name! "hasSHA1") b = .ok (simdMem b) := by
  unfold Prog.startOn Prog.start
  rw [arm64_globals]
  simp only [initVars, bind_run, pure_run, ev_table]
  rfl

section
variable (asm : Nat → List Val → M (List Val)) (room : Nat → Nat)

theorem amd64_simd (h : ∃ run, (∀ vs, asm (name! "blockAMD64") vs = asmCall run vs) ∧
      ∀ vs m h p m1 cs, p.length = 64 → run vs m h p m1 cs = .ok (rightAsm h p m1 cs)) :
    HasSimd (progAmd64.program asm room) (name! "hasSHANI") (name! "blockAMD64") rightAsm where
  toHasGeneric := ⟨⟨by by_kernel, by by_kernel, by by_kernel⟩, by by_kernel, by by_kernel, by by_kernel, by by_kernel⟩
  toHasRectify := ⟨by by_kernel, by by_kernel, by by_kernel⟩
  toHasAsm := ⟨⟨getFunc progAmd64 (name! "sha1cd") (name! "blockAMD64"), by by_kernel, by by_kernel, by by_kernel⟩, fun _ => by rfl, h⟩
  block := by by_kernel
  force := by by_kernel
  flag := by by_kernel

theorem arm64_simd (h : ∃ run, (∀ vs, asm (name! "blockARM64") vs = asmCall run vs) ∧
      ∀ vs m h p m1 cs, p.length = 64 → run vs m h p m1 cs = .ok (rightAsm h p m1 cs)) :
    HasSimd (progArm64.program asm room) (name! "hasSHA1") (name! "blockARM64") rightAsm where
  toHasGeneric := ⟨⟨by by_kernel, by by_kernel, by by_kernel⟩, by by_kernel, by by_kernel, by by_kernel, by by_kernel⟩
  toHasRectify := ⟨by by_kernel, by by_kernel, by by_kernel⟩
  toHasAsm := ⟨⟨getFunc progArm64 (name! "sha1cd") (name! "blockARM64"), by by_kernel, by by_kernel, by by_kernel⟩, fun _ => by rfl, h⟩
  block := by by_kernel
  force := by by_kernel
  flag := by by_kernel

theorem amd64_sums : HasSums (progAmd64.program asm room) :=
  ⟨⟨⟨by by_kernel, by by_kernel, by by_kernel, by by_kernel, by by_kernel⟩, by by_kernel⟩, by by_kernel, by by_kernel, by by_kernel⟩

theorem arm64_sums : HasSums (progArm64.program asm room) :=
  ⟨⟨⟨by by_kernel, by by_kernel, by by_kernel, by by_kernel, by by_kernel⟩, by by_kernel⟩, by by_kernel, by by_kernel, by by_kernel⟩

theorem amd64_all (h : ∃ run, (∀ vs, asm (name! "blockAMD64") vs = asmCall run vs) ∧
      ∀ vs m h p m1 cs, p.length = 64 → run vs m h p m1 cs = .ok (rightAsm h p m1 cs)) {N : Nat} (hN : 33 < N) (b : Bool) :
    HasAll (progAmd64.program asm room) N (simdVars b) (blockGeneric sha1Dvs) where
  sums := amd64_sums asm room
  marshal := ⟨by by_kernel, by by_kernel, by by_kernel⟩
  unmarshal := ⟨by by_kernel, by by_kernel, by by_kernel⟩
  calls d := simd_calls (amd64_simd asm room h) hN (show HasTable (simdVars b) from rfl) rfl rfl

theorem arm64_all (h : ∃ run, (∀ vs, asm (name! "blockARM64") vs = asmCall run vs) ∧
      ∀ vs m h p m1 cs, p.length = 64 → run vs m h p m1 cs = .ok (rightAsm h p m1 cs)) {N : Nat} (hN : 33 < N) (b : Bool) :
    HasAll (progArm64.program asm room) N (simdVars b) (blockGeneric sha1Dvs) where
  sums := arm64_sums asm room
  marshal := ⟨by by_kernel, by by_kernel, by by_kernel⟩
  unmarshal := ⟨by by_kernel, by by_kernel, by by_kernel⟩
  calls d := simd_calls (arm64_simd asm room h) hN (show HasTable (simdVars b) from rfl) rfl rfl

end

end Verif.Source.Go
