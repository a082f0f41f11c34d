import Verif.Proofs.GoDesk
import Verif.Props.GoBuilds

/-!
C66, with nothing left open: what a program sees of the package, and what its slices hold in the end, is what `Spec/Desk` computes from
its steps alone.
-/

namespace Verif.Props

open Verif Verif.Model Verif.Spec
open Verif.Source.Go

theorem go_meets : Meets (blockGeneric sha1Dvs) goVerdict where
  run ops D outs h := by
    obtain ⟨D', h'⟩ := C60_every_history .noasm ops
    exact (Prod.mk.inj (Except.ok.inj (h.symm.trans h'))).2
  pkg data r h := Except.ok.inj (h.symm.trans (sumPkg_call (build_impl .noasm) data))

/-- The program with the package `P`, started with the memory `m0`, sees what is specified, and its slices hold what is specified. -/
def SeesSpec (P : Program) (N d : Nat) (m0 : Source.Go.Mem) (ss : List Step) : Prop :=
  let K := (Desk.new.run goVerdict P.room (min (64 * N) (2 ^ 63)) ss).1
  ∃ c m, (Client.mk [] []).run P N d ss m0 = .ok ((c, (Desk.new.run goVerdict P.room (min (64 * N) (2 ^ 63)) ss).2), m) ∧
    c.held.length = K.held.length ∧ ∀ s : Nat, c.held[s]?.map (fun v => (bytesOf v m).map (·.1)) = K.held[s]?.map fun p => .ok (K.bytes p)

theorem sees_spec {P : Program} {N d : Nat} {G : List Source.Go.Val} {m0 : Source.Go.Mem} (A : HasAll P N G (blockGeneric sha1Dvs)) (hN : 33 < N) (hd : 8 ≤ d)
    (I : Source.Go.Inv G (blockGeneric sha1Dvs) ⟨[], []⟩ m0 []) (ss : List Step) : SeesSpec P N d m0 ss := by
  obtain ⟨d, rfl⟩ : ∃ k, d = k + 8 := ⟨d - 8, by omega⟩
  obtain ⟨c, m, loc, e, S⟩ := desk_run (d := d) (K := Desk.new) (loc := id) A noasm_total go_meets hN ss I
    ⟨by simp [Desk.new], by simp [Desk.new], rfl, by simp [Desk.new]⟩ ⟨rfl, by simp [Desk.new]⟩
  exact ⟨c, m, e, by rw [S.held, List.length_map]; rfl, S.read⟩

/-- C66: everything that a program sees of the package that the text of the Go files describes, and the bytes in each of its slices at the end, as a
function of its steps; the build without assembly. -/
theorem C66_exactly (asm : Nat → List Source.Go.Val → M (List Source.Go.Val)) (room : Nat → Nat) (N d : Nat) (hN : 33 < N) (hd : 8 ≤ d) (ss : List Step) :
    ∃ g m0, readAll Prog.empty goFiles = some g ∧ g.start ((g.program asm room).world N d) = .ok m0 ∧ SeesSpec (g.program asm room) N d m0 ss :=
  ⟨progNoasm, startMem, C66_read, noasm_start _, sees_spec (noasm_all asm room hN) hN hd
    ⟨rfl, Nat.le_refl _, startMem_boot, by simp, by simp, by simp [opsOf, outsOf], by simp, by simp⟩ ss⟩

/-- C66: the same for amd64. -/
theorem C66_amd64_exactly (e : CallsAmd64) (ok : ∀ vs m, (e vs m).env.Ok 80) (hasSHANI : Bool) (room : Nat → Nat) (N d : Nat)
    (hN : 33 < N) (hd : 8 ≤ d) (ss : List Step) :
    ∃ g m0, readAll Prog.empty goFilesAmd64 = some g ∧
      g.startOn ((g.program (asmAmd64 e) room).world N d) (name! "hasSHANI") hasSHANI = .ok m0 ∧ SeesSpec (g.program (asmAmd64 e) room) N d m0 ss :=
  ⟨progAmd64, simdMem hasSHANI, C66_read_amd64, amd64_start _ _, sees_spec (amd64_all _ room (asmAmd64_run e ok) hN hasSHANI) hN hd (simd_inv hasSHANI) ss⟩

/-- C66: the same for arm64. -/
theorem C66_arm64_exactly (e : CallsArm64) (ok : ∀ vs m, (e vs m).env.Ok 0) (r16 : ∀ vs m, ((e vs m).g .r16).toNat + 64 < 2 ^ 64)
    (hasSHA1 : Bool) (room : Nat → Nat) (N d : Nat) (hN : 33 < N) (hd : 8 ≤ d) (ss : List Step) :
    ∃ g m0, readAll Prog.empty goFilesArm64 = some g ∧
      g.startOn ((g.program (asmArm64 e) room).world N d) (name! "hasSHA1") hasSHA1 = .ok m0 ∧ SeesSpec (g.program (asmArm64 e) room) N d m0 ss :=
  ⟨progArm64, simdMem hasSHA1, C66_read_arm64, arm64_start _ _, sees_spec (arm64_all _ room (asmArm64_run e ok r16) hN hasSHA1) hN hd (simd_inv hasSHA1) ss⟩

/-- A program whose slices share an array: the digest is appended to the first two bytes of an array and overwrites what follows; the second time
there is no room. -/
def exShared : List Step :=
  [.new, .make (List.replicate 25 0x61), .reslice 0 0 2, .call1 0 .sum 1, .poke 0 1 0x62, .call1 0 .sum 0, .call0 0 .marshalBinary]

/-- Instance: what its slices hold in the end according to the specification.  The big array has the digest in the middle; the short slice sees the byte
that was poked; the second digest is in an array of its own, with the bytes as they are after the poke. -/
example (det : Regs → Block → Bool) : let K := (Desk.new.run det (fun _ => 3) 2176 exShared).1
    let D := (Held.new.sum det).1
    K.held.map K.bytes = [[0x61, 0x62] ++ D ++ [0x61, 0x61, 0x61], [0x61, 0x62], [0x61, 0x62] ++ D, [0x61, 0x62] ++ D ++ [0x61, 0x61, 0x61] ++ D,
      checkpoint H0 [] 0] ∧ K.arrs.map List.length = [25, 48, 98] := by
  intro K D
  refine ⟨?_, ?_⟩
  · by_kernel
  · by_kernel

end Verif.Props
