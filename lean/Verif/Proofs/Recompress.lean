import Verif.Proofs.Steps

namespace Verif

open Verif.Model

/-- The register rotation `a, b, c, d, e = b, c, d, e, a`. -/
def rot1 (s : Regs) : Regs := ⟨s.b, s.c, s.d, s.e, s.a⟩

/-- `n` rotations. -/
def rotn : Nat → Regs → Regs
  | 0, s => s
  | n + 1, s => rot1 (rotn n s)

theorem undo_gt (f : Word → Word → Word → Word) (k step : Word) (i : Nat) (m2 : Word) (s : Regs)
    (h : i < step.toNat) (hf : ∀ b c d, f b c d = Spec.f i b c d) (hk : k = Spec.K i) :
    undo f k step i m2 s = unstep i m2 s := by
  simp only [undo, gt_iff_lt, h, if_true, rot5, rotm30, unstep, hf, hk]

theorem undo_le (f : Word → Word → Word → Word) (k step : Word) (i : Nat) (m2 : Word) (s : Regs)
    (h : ¬ i < step.toNat) : undo f k step i m2 s = rot1 s := by
  simp only [undo, gt_iff_lt, h, if_false, rot1]

theorem redo_le (f : Word → Word → Word → Word) (k step : Word) (i : Nat) (m2 : Word) (s : Regs)
    (h : step.toNat ≤ i) (hf : ∀ b c d, f b c d = Spec.f i b c d) (hk : k = Spec.K i) :
    redo f k step i m2 s = Spec.step i m2 s := by
  simp only [redo, h, if_true, rot5, rot30, Spec.step, hf, hk]

theorem redo_gt (f : Word → Word → Word → Word) (k step : Word) (i : Nat) (m2 : Word) (s : Regs)
    (h : ¬ step.toNat ≤ i) : redo f k step i m2 s = s := by
  simp only [redo, h, if_false]

/-- Invariant of the backward loops: before handling index `i-1`. -/
def BackInv (W : Nat → Word) (T : Nat) (state : Regs) (i : Nat) (s : Regs) : Prop :=
  if T ≤ i then s = rotn (65 - i) state
  else Spec.runSteps W i (T - i) s = rotn (65 - T) state

theorem undo_inv (W : Nat → Word) (T : Word) (state : Regs)
    (f : Word → Word → Word → Word) (k : Word) (i : Nat) (hi : i < 65) (s : Regs)
    (hf : ∀ b c d, f b c d = Spec.f i b c d) (hk : k = Spec.K i)
    (h : BackInv W T.toNat state (i + 1) s) :
    BackInv W T.toNat state i (undo f k T i (W i) s) := by
  unfold BackInv at *
  by_cases hlt : i < T.toNat
  · rw [undo_gt f k T i (W i) s hlt hf hk, if_neg (by omega),
      show T.toNat - i = (T.toNat - (i + 1)) + 1 by omega, runSteps_succ', step_unstep]
    by_cases he : T.toNat ≤ i + 1
    · rw [if_pos he] at h
      have e : T.toNat = i + 1 := by omega
      rw [e, Nat.sub_self, h]; rfl
    · rw [if_neg he] at h; exact h
  · rw [undo_le f k T i (W i) s hlt, if_pos (by omega)]
    rw [if_pos (by omega)] at h
    rw [h, show 65 - i = (65 - (i + 1)) + 1 by omega]
    rfl

/-- Invariant of the forward loops. -/
def FwdInv (W : Nat → Word) (T : Nat) (state : Regs) (i : Nat) (s : Regs) : Prop :=
  s = Spec.runSteps W T (i - T) state

theorem redo_inv (W : Nat → Word) (T : Word) (state : Regs)
    (f : Word → Word → Word → Word) (k : Word) (i : Nat) (s : Regs)
    (hf : ∀ b c d, f b c d = Spec.f i b c d) (hk : k = Spec.K i)
    (h : FwdInv W T.toNat state i s) :
    FwdInv W T.toNat state (i + 1) (redo f k T i (W i) s) := by
  unfold FwdInv at *
  by_cases hle : T.toNat ≤ i
  · rw [redo_le f k T i (W i) s hle hf hk, show i + 1 - T.toNat = (i - T.toNat) + 1 by omega,
      Spec.runSteps, ← h, show T.toNat + (i - T.toNat) = i by omega]
  · rw [redo_gt f k T i (W i) s hle, h, show i + 1 - T.toNat = 0 by omega,
      show i - T.toNat = 0 by omega]

theorem xor_eq_zero (x y : Word) : x ^^^ y = 0 ↔ x = y := BitVec.xor_eq_zero_iff

theorem or_eq_zero (x y : Word) : x ||| y = 0 ↔ x = 0 ∧ y = 0 := BitVec.or_eq_zero_iff

/-- `hasCollided`, for a step number in the range the code supports, in terms of SHA-1 steps: the test
succeeds iff the chaining value found by walking backwards from the *rotated* state, added to the result
of walking forwards from the state, gives `h`.  The rotation is by `65 - step` registers. -/
theorem hasCollided_iff (T : Word) (hT : T.toNat ≤ 65) (hT2 : 40 ≤ T.toNat) (m1 dm : Fin 80 → Word)
    (state h : Regs) (W : Nat → Word) (hW : ∀ i (hi : i < 80), m1 ⟨i, hi⟩ ^^^ dm ⟨i, hi⟩ = W i) :
    hasCollided T m1 dm state h = true ↔
      ∃ H', Spec.steps W T.toNat H' = rotn (65 - T.toNat) state ∧
        H'.add (Spec.runSteps W T.toNat (80 - T.toNat) state) = h := by
  unfold hasCollided
  simp only [hW]
  have b0 : BackInv W T.toNat state (60 + 5) state := by
    unfold BackInv; rw [if_pos (by omega)]; rfl
  have b1 := loopDown_inv (BackInv W T.toNat state) 60 5
    (fun i _ hi s => undo fPar K3 T i (W i) s) _ b0
    (fun i _ h2 s hs => undo_inv W T state _ _ i (by omega) s
      (fun b c d => by
        rw [fPar_eq]; simp [Spec.f, show ¬ i < 20 by omega, show ¬ i < 40 by omega, show ¬ i < 60 by omega])
      (by simp [Spec.K, show ¬ i < 20 by omega, show ¬ i < 40 by omega, show ¬ i < 60 by omega, K3]) hs)
  have b2 := loopDown_inv (BackInv W T.toNat state) 40 20
    (fun i _ hi s => undo fMaj K2 T i (W i) s) _ b1
    (fun i _ h2 s hs => undo_inv W T state _ _ i (by omega) s
      (fun b c d => by
        rw [fMaj_eq]; simp [Spec.f, show ¬ i < 20 by omega, show ¬ i < 40 by omega, show i < 60 by omega])
      (by simp [Spec.K, show ¬ i < 20 by omega, show ¬ i < 40 by omega, show i < 60 by omega, K2]) hs)
  have b3 := loopDown_inv (BackInv W T.toNat state) 20 20
    (fun i _ hi s => undo fPar K1 T i (W i) s) _ b2
    (fun i _ h2 s hs => undo_inv W T state _ _ i (by omega) s
      (fun b c d => by
        rw [fPar_eq]; simp [Spec.f, show ¬ i < 20 by omega, show i < 40 by omega])
      (by simp [Spec.K, show ¬ i < 20 by omega, show i < 40 by omega, K1]) hs)
  have b4 := loopDown_inv (BackInv W T.toNat state) 0 20
    (fun i _ hi s => undo fCh K0 T i (W i) s) _ b3
    (fun i _ h2 s hs => undo_inv W T state _ _ i (by omega) s
      (fun b c d => by rw [fCh_eq]; simp [Spec.f, show i < 20 by omega])
      (by simp [Spec.K, show i < 20 by omega, K0]) hs)
  have f0 : FwdInv W T.toNat state 40 state := by
    unfold FwdInv; rw [show 40 - T.toNat = 0 by omega]; rfl
  have f1 := loopUp_inv (FwdInv W T.toNat state) 40 20
    (fun i _ hi s => redo fMaj K2 T i (W i) s) _ f0
    (fun i _ h2 s hs => redo_inv W T state _ _ i s
      (fun b c d => by
        rw [fMaj_eq]; simp [Spec.f, show ¬ i < 20 by omega, show ¬ i < 40 by omega, show i < 60 by omega])
      (by simp [Spec.K, show ¬ i < 20 by omega, show ¬ i < 40 by omega, show i < 60 by omega, K2]) hs)
  have f2 := loopUp_inv (FwdInv W T.toNat state) 60 20
    (fun i _ hi s => redo fPar K3 T i (W i) s) _ f1
    (fun i _ h2 s hs => redo_inv W T state _ _ i s
      (fun b c d => by
        rw [fPar_eq]; simp [Spec.f, show ¬ i < 20 by omega, show ¬ i < 40 by omega, show ¬ i < 60 by omega])
      (by simp [Spec.K, show ¬ i < 20 by omega, show ¬ i < 40 by omega, show ¬ i < 60 by omega, K3]) hs)
  unfold FwdInv at f2
  rw [f2]
  unfold BackInv at b4
  rw [if_neg (by omega), Nat.sub_zero, ← steps_eq_run] at b4
  generalize loopDown 0 20 _ _ = ihv at *
  simp only [ite_eq_left_iff, Bool.false_eq_true, imp_false, Decidable.not_not]
  rw [or_eq_zero, or_eq_zero, or_eq_zero, or_eq_zero]
  simp only [xor_eq_zero]
  constructor
  · rintro ⟨⟨⟨⟨h1, h2⟩, h3⟩, h4⟩, h5⟩
    exact ⟨ihv, b4, Regs.ext h1 h2 h3 h4 h5⟩
  · rintro ⟨H', hs, rfl⟩
    have : H' = ihv := steps_inj W _ (hs.trans b4.symm)
    subst this
    exact ⟨⟨⟨⟨rfl, rfl⟩, rfl⟩, rfl⟩, rfl⟩

end Verif
