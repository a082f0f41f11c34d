import Verif.Model.Amd64
import Verif.Proofs.Rounds
import Verif.Proofs.Steps

/-! The SHA-NI block function computes the SHA-1 compression. -/

namespace Verif.Model.Amd64

open Verif Verif.Model Verif.Spec

/-- A, B, C, D in lanes 3 … 0. -/
def abcd (r : Regs) : Vec := ⟨r.a, r.b, r.c, r.d⟩

/-- Four words, the first in lane 3. -/
def msgv (W : Nat → Word) (t : Nat) : Vec := ⟨W t, W (t + 1), W (t + 2), W (t + 3)⟩

theorem rol_eq (n : Nat) (x : Word) : rol n x = rotl n x := rfl

theorem f_rnds (g i : Nat) (hg : g < 20) (hi : i < 4) : f (4 * g + i) = rnds4F (g / 5) := by
  funext b c d
  have : g / 5 = 0 ∨ g / 5 = 1 ∨ g / 5 = 2 ∨ g / 5 = 3 := by omega
  unfold f rnds4F
  rcases this with h | h | h | h <;> rw [h]
  · rw [if_pos (by omega)]; rfl
  · rw [if_neg (by omega), if_pos (by omega)]; rfl
  · rw [if_neg (by omega), if_neg (by omega), if_pos (by omega)]; rfl
  · rw [if_neg (by omega), if_neg (by omega), if_neg (by omega)]; rfl

theorem K_rnds (g i : Nat) (hg : g < 20) (hi : i < 4) : K (4 * g + i) = rnds4K (g / 5) := by
  have : g / 5 = 0 ∨ g / 5 = 1 ∨ g / 5 = 2 ∨ g / 5 = 3 := by omega
  unfold K rnds4K
  rcases this with h | h | h | h <;> rw [h]
  · rw [if_pos (by omega)]; rfl
  · rw [if_neg (by omega), if_pos (by omega)]; rfl
  · rw [if_neg (by omega), if_neg (by omega), if_pos (by omega)]; rfl
  · rw [if_neg (by omega), if_neg (by omega), if_neg (by omega)]; rfl

theorem steps4 (W : Nat → Word) (t : Nat) (H : Regs) : steps W (t + 4) H =
    step (t + 3) (W (t + 3)) (step (t + 2) (W (t + 2)) (step (t + 1) (W (t + 1)) (step t (W t)
      (steps W t H)))) := rfl

theorem rnds4_eq (g : Nat) (hg : g < 20) (W : Nat → Word) (H : Regs) :
    sha1rnds4 (g / 5) (abcd (steps W (4 * g) H))
      { msgv W (4 * g) with l3 := W (4 * g) + (steps W (4 * g) H).e } = abcd (steps W (4 * g + 4) H) := by
  rw [steps4]
  generalize steps W (4 * g) H = r
  have h0 := f_rnds g 0 hg (by decide)
  have k0 := K_rnds g 0 hg (by decide)
  rw [Nat.add_zero] at h0 k0
  simp only [step, h0, f_rnds g 1 hg (by decide), f_rnds g 2 hg (by decide), f_rnds g 3 hg (by decide),
    k0, K_rnds g 1 hg (by decide), K_rnds g 2 hg (by decide), K_rnds g 3 hg (by decide),
    sha1rnds4, abcd, msgv, rol_eq]
  generalize rnds4K (g / 5) = k
  generalize rnds4F (g / 5) = F
  have e1 : F r.b r.c r.d + rotl 5 r.a + (W (4 * g) + r.e) + k =
      rotl 5 r.a + F r.b r.c r.d + r.e + k + W (4 * g) := by ac_rfl
  rw [e1]
  generalize rotl 5 r.a + F r.b r.c r.d + r.e + k + W (4 * g) = a1
  have e2 : F r.a (rotl 30 r.b) r.c + rotl 5 a1 + W (4 * g + 1) + r.d + k =
      rotl 5 a1 + F r.a (rotl 30 r.b) r.c + r.d + k + W (4 * g + 1) := by ac_rfl
  rw [e2]
  generalize rotl 5 a1 + F r.a (rotl 30 r.b) r.c + r.d + k + W (4 * g + 1) = a2
  have e3 : F a1 (rotl 30 r.a) (rotl 30 r.b) + rotl 5 a2 + W (4 * g + 2) + r.c + k =
      rotl 5 a2 + F a1 (rotl 30 r.a) (rotl 30 r.b) + r.c + k + W (4 * g + 2) := by ac_rfl
  rw [e3]
  generalize rotl 5 a2 + F a1 (rotl 30 r.a) (rotl 30 r.b) + r.c + k + W (4 * g + 2) = a3
  have e4 : F a2 (rotl 30 a1) (rotl 30 r.a) + rotl 5 a3 + W (4 * g + 3) + rotl 30 r.b + k =
      rotl 5 a3 + F a2 (rotl 30 a1) (rotl 30 r.a) + rotl 30 r.b + k + W (4 * g + 3) := by ac_rfl
  rw [e4]

/-- E four steps later. -/
theorem e4 (W : Nat → Word) (t : Nat) (H : Regs) : (steps W (t + 4) H).e = rotl 30 (steps W t H).a := rfl

theorem nexte_eq (g : Nat) (W : Nat → Word) (H : Regs) :
    sha1nexte (abcd (steps W (4 * g) H)) (msgv W (4 * (g + 1))) =
      { msgv W (4 * (g + 1)) with l3 := W (4 * (g + 1)) + (steps W (4 * (g + 1)) H).e } := rfl

theorem msg_eq (M : Block) (t : Nat) :
    sha1msg2 (Vec.map2 (· ^^^ ·) (sha1msg1 (msgv (sched M) t) (msgv (sched M) (t + 4)))
      (msgv (sched M) (t + 8))) (msgv (sched M) (t + 12)) = msgv (sched M) (t + 16) := by
  have h0 := sched_ge M (t + 16) (by omega)
  have h1 := sched_ge M (t + 17) (by omega)
  have h2 := sched_ge M (t + 18) (by omega)
  have h3 := sched_ge M (t + 19) (by omega)
  simp only [Nat.reduceSubDiff, Nat.add_sub_cancel] at h0 h1 h2 h3
  have e0 : rotl 1 (sched M (t + 2) ^^^ sched M t ^^^ sched M (t + 8) ^^^ sched M (t + 13)) =
      sched M (t + 16) := by rw [h0]; congr 1; ac_rfl
  simp only [sha1msg2, sha1msg1, Vec.map2, msgv, rol_eq, Nat.add_assoc, Nat.reduceAdd, e0, Vec.mk.injEq, true_and]
  refine ⟨?_, ?_, ?_⟩
  · rw [h1]; congr 1; ac_rfl
  · rw [h2]; congr 1; ac_rfl
  · rw [h3]; congr 1; ac_rfl

end Verif.Model.Amd64
