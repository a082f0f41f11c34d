import Verif.Proofs.Diff
import Verif.Proofs.Recompress
import Verif.Proofs.UbcMask
import Verif.Spec.Detect

/-! `checkCollision` in terms of the declarative verdict. -/

namespace Verif

open Verif.Model Verif.Spec

/-- The per-vector test of the Go code. -/
def GoTest (dv : DV) (H : Regs) (M : Block) : Prop :=
  (dv.T = 65 ∧ Sibling dv H M) ∨ (dv.T = 58 ∧ Misaligned dv H M)

theorem xor_ext80 {dv : DV} (M : Block) (dm : Fin 80 → Word) (hd : IsDiff dv (ext80 dm))
    (i : Nat) (hi : i < 80) :
    sched M i ^^^ dm ⟨i, hi⟩ = sched (xorBlock M (ext80 dm)) i := by
  rw [sched_xor hd M i hi, ext80, dif_pos hi]

/-- Any two differences prescribed by the same vector give the same second block. -/
theorem xorBlock_unique {dv : DV} (hK : dv.K + 16 ≤ 80) {δ δ' : Nat → Word} (h : IsDiff dv δ)
    (h' : IsDiff dv δ') (M : Block) : xorBlock M δ = xorBlock M δ' := by
  funext i
  simp only [xorBlock, h.unique hK h' i.val (by omega)]

theorem compress_split (H : Regs) (M : Block) (T : Nat) (hT : T ≤ 80) :
    compress H M = H.add (runSteps (sched M) T (80 - T) (steps (sched M) T H)) := by
  unfold compress
  rw [← steps_add, show T + (80 - T) = 80 by omega]

theorem rotn7_eq (s : Regs) : rotn 7 s = shift2 s := rfl

theorem test_iff (k : Nat) (dv : DV) (e : DvInfo) (he : EntryOk k dv e)
    (hT : dv.T = 58 ∨ dv.T = 65) (hK : dv.K + 16 ≤ 80) (H : Regs) (M : Block) :
    hasCollided e.TestT (fun i => sched M i) e.Dm (steps (sched M) dv.T H) (compress H M) = true ↔
      GoTest dv H M := by
  have hTn : e.TestT.toNat = dv.T := by
    rw [he.T]; simp; omega
  have key := hasCollided_iff e.TestT (by omega) (by omega) (fun i => sched M i) e.Dm
    (steps (sched M) dv.T H) (compress H M) (sched (xorBlock M (ext80 e.Dm)))
    (fun i hi => xor_ext80 M e.Dm he.diff i hi)
  rw [hTn] at key
  rw [key]
  unfold GoTest
  rcases hT with h | h
  · simp only [h, show ¬ (58 = 65) by decide, false_and, false_or, true_and]
    unfold Misaligned
    rw [h]
    constructor
    · rintro ⟨H', h1, h2⟩
      exact ⟨ext80 e.Dm, H', he.diff, h1, h2⟩
    · rintro ⟨δ, H', hδ, h1, h2⟩
      rw [xorBlock_unique hK hδ he.diff M] at h1 h2
      exact ⟨H', h1, h2⟩
  · simp only [h, true_and, show ¬ (65 = 58) by decide, false_and, or_false]
    unfold Sibling
    rw [h]
    constructor
    · rintro ⟨H', h1, h2⟩
      refine ⟨ext80 e.Dm, H', he.diff, h1, ?_⟩
      rw [compress_split H' _ 65 (by decide), h1]; exact h2
    · rintro ⟨δ, H', hδ, h1, h2⟩
      rw [xorBlock_unique hK hδ he.diff M] at h1 h2
      refine ⟨H', h1, ?_⟩
      rw [compress_split H' _ 65 (by decide), h1] at h2; exact h2

/-- The contents of `cs` after the rounds. -/
def csOf (H : Regs) (M : Block) : Fin 3 → Regs := fun j =>
  if j = 0 then H else if j = 1 then steps (sched M) 58 H else steps (sched M) 65 H

theorem ofNat_inj_small {a b : Nat} (ha : a < 2^32) (hb : b < 2^32)
    (h : BitVec.ofNat 32 a = BitVec.ofNat 32 b) : a = b := by
  have := congrArg BitVec.toNat h
  simp at this; omega

theorem scan_spec (H : Regs) (M : Block) (mask : Word) :
    ∀ (k : Nat) (dvs : List DV) (es : List DvInfo), TableOk k dvs es → k + dvs.length ≤ 32 →
      (∀ dv ∈ dvs, (dv.T = 58 ∨ dv.T = 65) ∧ dv.K + 16 ≤ 80) →
      ∃ b, scanDvs mask (fun i => sched M i) (csOf H M) (compress H M) es = .ok b ∧
        (b = true ↔ ∃ j dv, dvs[j]? = some dv ∧ mask.getLsbD (k + j) = true ∧ GoTest dv H M) := by
  intro k dvs es h
  induction h with
  | nil k e rest he =>
    intro _ _
    refine ⟨false, ?_, by simp⟩
    unfold scanDvs
    rw [if_neg (by simp [he])]; rfl
  | cons k dv e dvs es he _ ih =>
    intro hlen hall
    obtain ⟨b, hb, hiff⟩ := ih (by simp at hlen; omega) (fun d hd => hall d (by simp [hd]))
    have hT := (hall dv (by simp)).1
    have hK := (hall dv (by simp)).2
    have hlen' : k < 32 := by simp at hlen; omega
    have hmb : e.MaskB.toNat = k := by rw [he.maskB]; simp; omega
    have hty : e.DvType ≠ 0 := by
      rw [he.type]; cases dv.type <;> decide
    have hcs : selectCs (csOf H M) e.TestT = .ok (steps (sched M) dv.T H) := by
      rw [he.T]
      rcases hT with h | h <;> rw [h] <;> rfl
    have htest := test_iff k dv e he hT hK H M
    have hbit := Ubc.and_bit_ne_zero mask k hlen'
    have shiftIdx : (∃ j dv', (dv :: dvs)[j]? = some dv' ∧ mask.getLsbD (k + j) = true ∧ GoTest dv' H M)
        ↔ (mask.getLsbD k = true ∧ GoTest dv H M) ∨
          ∃ j dv', dvs[j]? = some dv' ∧ mask.getLsbD (k + 1 + j) = true ∧ GoTest dv' H M := by
      constructor
      · rintro ⟨j, dv', h1, h2, h3⟩
        cases j with
        | zero => simp at h1; subst h1; exact .inl ⟨h2, h3⟩
        | succ j => exact .inr ⟨j, dv', by simpa using h1, by rwa [show k + 1 + j = k + (j + 1) by omega], h3⟩
      · rintro (⟨h1, h2⟩ | ⟨j, dv', h1, h2, h3⟩)
        · exact ⟨0, dv, rfl, h1, h2⟩
        · exact ⟨j + 1, dv', by simpa using h1, by rwa [show k + (j + 1) = k + 1 + j by omega], h3⟩
    rw [shiftIdx]
    unfold scanDvs
    rw [if_pos hty, hmb]
    by_cases hm : mask.getLsbD k = true
    · have : mask &&& 1#32 <<< k ≠ 0 := fun hc => by
        have := hbit.mp hc; rw [hm] at this; exact absurd this (by decide)
      rw [if_pos this, hcs]
      simp only [bind, Except.bind]
      by_cases ht : hasCollided e.TestT (fun i => sched M i) e.Dm (steps (sched M) dv.T H)
          (compress H M) = true
      · rw [if_pos ht]
        exact ⟨true, rfl, by simp [hm, htest.mp ht]⟩
      · rw [if_neg ht]
        refine ⟨b, hb, ?_⟩
        rw [hiff]
        simp only [hm, true_and]
        constructor
        · exact .inr
        · rintro (h | h)
          · exact absurd (htest.mpr h) ht
          · exact h
    · have : ¬ (mask &&& 1#32 <<< k ≠ 0) := fun hc => hc (hbit.mpr (by simpa using hm))
      rw [if_neg this]
      refine ⟨b, hb, ?_⟩
      rw [hiff]
      simp [hm]

theorem dvList_length : dvList.length = 32 := rfl

/-- `checkCollision` on the data of a SHA-1 computation never panics and returns the verdict. -/
theorem checkCollision_spec (H : Regs) (M : Block) :
    ∃ b, checkCollision sha1Dvs (fun i => sched M i) (csOf H M) (compress H M) = .ok b ∧
      (b = true ↔ GoDetected H M) := by
  have hmask := Ubc.mask_bit (fun i => sched M i) (sched M) (fun _ => rfl)
  obtain ⟨b, hb, hiff⟩ := scan_spec H M (Ubc.calculateDvMask (some (fun i => sched M i))) 0 dvList
    sha1Dvs sha1Dvs_ok (by simp [dvList_length]) dvList_T
  have conv : (∃ j dv, dvList[j]? = some dv ∧
      (Ubc.calculateDvMask (some (fun i => sched M i))).getLsbD (0 + j) = true ∧ GoTest dv H M)
      ↔ GoDetected H M := by
    unfold GoDetected
    constructor
    · rintro ⟨j, dv, h1, h2, h3⟩
      have hj : j < 32 := by
        have := (List.getElem?_eq_some_iff.mp h1).1; rwa [dvList_length] at this
      rw [Nat.zero_add, hmask j hj] at h2
      exact ⟨j, dv, h1, h2, h3⟩
    · rintro ⟨j, dv, h1, h2, h3⟩
      have hj : j < 32 := by
        have := (List.getElem?_eq_some_iff.mp h1).1; rwa [dvList_length] at this
      exact ⟨j, dv, h1, by rw [Nat.zero_add, hmask j hj]; exact h2, h3⟩
  unfold checkCollision
  simp only
  split
  · exact ⟨b, hb, hiff.trans conv⟩
  · rename_i hz
    have hz : Ubc.calculateDvMask (some (fun i => sched M i)) = 0 := Decidable.not_not.mp hz
    refine ⟨false, rfl, ?_⟩
    rw [← conv, hz]
    simp

/-- The verdict as a Boolean. -/
def detGo (H : Regs) (M : Block) : Bool :=
  match checkCollision sha1Dvs (fun i => sched M i) (csOf H M) (compress H M) with
  | .ok b => b
  | .error _ => false

theorem detGo_ok (H : Regs) (M : Block) :
    checkCollision sha1Dvs (fun i => sched M i) (csOf H M) (compress H M) = .ok (detGo H M) := by
  obtain ⟨b, hb, _⟩ := checkCollision_spec H M
  unfold detGo; rw [hb]

theorem detGo_iff (H : Regs) (M : Block) : detGo H M = true ↔ GoDetected H M := by
  obtain ⟨b, hb, h⟩ := checkCollision_spec H M
  unfold detGo; rw [hb]; exact h

end Verif
