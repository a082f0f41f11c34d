import Verif.Model.Arm64
import Verif.Proofs.AsmMem
import Verif.Proofs.Rounds
import Verif.Proofs.Steps

/-! The SHA1 instructions of ARMv8 compute steps of SHA-1. -/

namespace Verif.Model.Arm64

open Verif Verif.Model Verif.Spec

/-- A, B, C, D in lanes 0 … 3. -/
def abcd (r : Regs) : Vec := ⟨r.d, r.c, r.b, r.a⟩

/-- Four words, the first in lane 0. -/
def msgv (W : Nat → Word) (t : Nat) : Vec := ⟨W (t + 3), W (t + 2), W (t + 1), W t⟩

/-- The same word in all lanes. -/
def all4 (w : Word) : Vec := ⟨w, w, w, w⟩

theorem rol_eq (n : Nat) (x : Word) : rol n x = rotl n x := rfl

theorem choose_eq : shaChoose = Ch := by
  funext b c d
  refine BitVec.eq_of_getLsbD_eq fun i hi => ?_
  simp only [shaChoose, Ch, BitVec.getLsbD_xor, BitVec.getLsbD_and, BitVec.getLsbD_not, hi, decide_true]
  cases b.getLsbD i <;> cases c.getLsbD i <;> cases d.getLsbD i <;> rfl

theorem parity_eq : shaParity = Parity := rfl

theorem majority_eq : shaMajority = Maj := by
  funext b c d
  refine BitVec.eq_of_getLsbD_eq fun i hi => ?_
  simp only [shaMajority, Maj, BitVec.getLsbD_xor, BitVec.getLsbD_and, BitVec.getLsbD_or]
  cases b.getLsbD i <;> cases c.getLsbD i <;> cases d.getLsbD i <;> rfl

/-- The function of a group of four steps. -/
def gf (g : Nat) : Word → Word → Word → Word :=
  match g / 5 with
  | 0 => shaChoose
  | 1 => shaParity
  | 2 => shaMajority
  | _ => shaParity

/-- The constant of a group of four steps. -/
def gk (g : Nat) : Word :=
  match g / 5 with
  | 0 => 0x5A827999
  | 1 => 0x6ED9EBA1
  | 2 => 0x8F1BBCDC
  | _ => 0xCA62C1D6

theorem f_gf (g i : Nat) (hg : g < 20) (hi : i < 4) : f (4 * g + i) = gf g := by
  have : g / 5 = 0 ∨ g / 5 = 1 ∨ g / 5 = 2 ∨ g / 5 = 3 := by omega
  funext b c d
  unfold f gf
  rcases this with h | h | h | h <;> rw [h]
  · rw [if_pos (by omega), ← choose_eq]; rfl
  · rw [if_neg (by omega), if_pos (by omega)]; rfl
  · rw [if_neg (by omega), if_neg (by omega), if_pos (by omega), ← majority_eq]; rfl
  · rw [if_neg (by omega), if_neg (by omega), if_neg (by omega)]; rfl

theorem K_gk (g i : Nat) (hg : g < 20) (hi : i < 4) : K (4 * g + i) = gk g := by
  have : g / 5 = 0 ∨ g / 5 = 1 ∨ g / 5 = 2 ∨ g / 5 = 3 := by omega
  unfold K gk
  rcases this with h | h | h | h <;> rw [h]
  · rw [if_pos (by omega)]; rfl
  · rw [if_neg (by omega), if_pos (by omega)]; rfl
  · rw [if_neg (by omega), if_neg (by omega), if_pos (by omega)]; rfl
  · rw [if_neg (by omega), if_neg (by omega), if_neg (by omega)]; rfl

theorem steps4 (W : Nat → Word) (t : Nat) (H : Regs) : steps W (t + 4) H =
    step (t + 3) (W (t + 3)) (step (t + 2) (W (t + 2)) (step (t + 1) (W (t + 1)) (step t (W t)
      (steps W t H)))) := rfl

/-- E four steps later. -/
theorem e4 (W : Nat → Word) (t : Nat) (H : Regs) : (steps W (t + 4) H).e = rotl 30 (steps W t H).a := rfl

theorem step_sha (t : Nat) (F : Word → Word → Word → Word) (k : Word) (hf : f t = F) (hk : K t = k) (w : Word)
    (r : Regs) : shaStep F (w + k) (r.e, abcd r) = ((step t w r).e, abcd (step t w r)) := by
  simp only [shaStep, abcd, step, hf, hk, rol_eq, Prod.mk.injEq, Vec.mk.injEq, true_and]
  ac_rfl

theorem update_eq (g : Nat) (hg : g < 20) (W : Nat → Word) (H : Regs) (n : Vec)
    (hn : n.l0 = (steps W (4 * g) H).e) :
    shaUpdate (gf g) (abcd (steps W (4 * g) H)) n (Vec.map2 (· + ·) (msgv W (4 * g)) (all4 (gk g))) =
      abcd (steps W (4 * g + 4) H) := by
  rw [steps4]
  unfold shaUpdate
  rw [hn]
  generalize steps W (4 * g) H = r
  have h0 := f_gf g 0 hg (by decide)
  have k0 := K_gk g 0 hg (by decide)
  rw [Nat.add_zero] at h0 k0
  simp only [Vec.map2, msgv, all4]
  rw [step_sha (4 * g) _ _ h0 k0, step_sha (4 * g + 1) _ _ (f_gf g 1 hg (by decide)) (K_gk g 1 hg (by decide)),
    step_sha (4 * g + 2) _ _ (f_gf g 2 hg (by decide)) (K_gk g 2 hg (by decide)),
    step_sha (4 * g + 3) _ _ (f_gf g 3 hg (by decide)) (K_gk g 3 hg (by decide))]

theorem rotl11 (x : Word) : rotl 1 (rotl 1 x) = rotl 2 x := by
  refine BitVec.eq_of_getLsbD_eq fun i hi => ?_
  rw [rotl_getLsbD 1 (by decide) _ i hi, rotl_getLsbD 1 (by decide) _ _ (by split <;> omega),
    rotl_getLsbD 2 (by decide) _ i hi]
  congr 1
  repeat' split
  all_goals omega

theorem su_eq (M : Block) (t : Nat) :
    sha1su1 (sha1su0 (msgv (sched M) t) (msgv (sched M) (t + 4)) (msgv (sched M) (t + 8)))
      (msgv (sched M) (t + 12)) = msgv (sched M) (t + 16) := by
  have h0 := sched_ge M (t + 16) (by omega)
  have h1 := sched_ge M (t + 17) (by omega)
  have h2 := sched_ge M (t + 18) (by omega)
  have h3 := sched_ge M (t + 19) (by omega)
  simp only [Nat.reduceSubDiff, Nat.add_sub_cancel] at h0 h1 h2 h3
  have e0 : rotl 1 (sched M (t + 2) ^^^ sched M t ^^^ sched M (t + 8) ^^^ sched M (t + 13)) =
      sched M (t + 16) := by rw [h0]; congr 1; ac_rfl
  simp only [sha1su1, sha1su0, msgv, rol_eq, Nat.add_assoc, Nat.reduceAdd, Vec.mk.injEq, ← rotl11, e0, and_true]
  refine ⟨?_, ?_, ?_⟩
  · rw [h3, ← rotl_xor]
    congr 1
    ac_rfl
  · rw [h2]; congr 1; ac_rfl
  · rw [h1]; congr 1; ac_rfl

end Verif.Model.Arm64
