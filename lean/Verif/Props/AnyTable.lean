import Verif.Props.Arch
import Verif.Props.Memory
import Verif.Proofs.AnyTable

/-!
All builds behave alike for every contents of the exported table: C49.
-/

namespace Verif.Props

open Verif Verif.Model Verif.Spec

/-- C49 for a block function: whatever a program wrote into the table of `ubc.SHA1_dvs()` (entries changed,
dropped or added, unknown values of `TestT`, no end mark), the block functions of any two builds map every chaining
value, flag and input to the same chaining value and flag, or both panic in the same way. -/
theorem C49_block (B B' : Build) (dvs : List DvInfo) (c : Core) (p : List Byte) :
    B.blockWith dvs c p = B'.blockWith dvs c p := by
  rw [B.any, B'.any]

/-- C49 for programs: any program of calls of the API, allocations and writes into the table, started in any state,
produces the same results, the same final state or the same panic in every build. -/
theorem C49_program (B B' : Build) (s : Sys) (cs : List Cmd) :
    s.run (fun dvs => B.blockWith dvs) cs = s.run (fun dvs => B'.blockWith dvs) cs := by
  have : (fun dvs => B.blockWith dvs) = fun dvs => B'.blockWith dvs := by
    funext dvs c p
    exact C49_block B B' dvs c p
  rw [this]

theorem zeroAmd64_frame : zeroAmd64.frame.toNat + 80 ≤ 2 ^ 64 := by decide

/-- Instance with a panic: the program that makes the portable build panic makes the amd64 build panic. -/
example : Sys.init.run (fun dvs => (Build.amd64 false true (fun _ => zeroAmd64)
      (fun _ => zeroAmd64_frame)).blockWith dvs)
    [.setDv 0 ⟨1, 0, 0, 1, 0, 27, fun _ => 0⟩, .make (shattered1.drop 256), .sumPkg ⟨0, 0, 64, 64⟩] =
    .error .badTestT := by
  rw [C49_program _ .noasm]
  exact C32_can_panic .noasm 27 (by decide) _ (by decide) (by decide) rfl _ (by decide +kernel) sh_ubc1

/-- Instance with `TestT` = 0, for which the check starts at the chaining value itself: the assembly's copy of that
value serves as well as the portable one. -/
example (B : Build) (m : List Byte) :
    Sys.init.run (fun dvs => B.blockWith dvs)
      [.setDv 0 ⟨1, 0, 0, 0, 0, 27, fun _ => 0⟩, .make m, .sumPkg ⟨0, 0, m.length, m.length⟩] =
    Sys.init.run (fun dvs => blockGeneric dvs)
      [.setDv 0 ⟨1, 0, 0, 0, 0, 27, fun _ => 0⟩, .make m, .sumPkg ⟨0, 0, m.length, m.length⟩] :=
  C49_program B .noasm _ _

end Verif.Props
