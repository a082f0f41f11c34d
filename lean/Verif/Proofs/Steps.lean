import Verif.Proofs.Rounds

namespace Verif

open Verif.Model

/-- Inverse of one SHA-1 step. -/
def unstep (t : Nat) (w : Word) (s : Regs) : Regs :=
  ⟨s.b, Spec.rotl 2 s.c, s.d, s.e,
    s.a - (Spec.rotl 5 s.b + Spec.f t (Spec.rotl 2 s.c) s.d s.e + Spec.K t + w)⟩

theorem step_unstep (t : Nat) (w : Word) (s : Regs) : Spec.step t w (unstep t w s) = s := by
  obtain ⟨a, b, c, d, e⟩ := s
  simp only [Spec.step, unstep, rotl30_rotl2, Regs.mk.injEq, and_true]
  generalize Spec.rotl 5 b = x, Spec.f t (Spec.rotl 2 c) d e = y, Spec.K t = k
  have : x + y + (a - (x + y + k + w)) + k + w = a - (x + y + k + w) + (x + y + k + w) := by
    ac_rfl
  rw [this, BitVec.sub_add_cancel]

theorem unstep_step (t : Nat) (w : Word) (s : Regs) : unstep t w (Spec.step t w s) = s := by
  obtain ⟨a, b, c, d, e⟩ := s
  simp only [Spec.step, unstep, rotl2_rotl30, Regs.mk.injEq, true_and]
  generalize Spec.rotl 5 a = x, Spec.f t b c d = y, Spec.K t = k
  have : x + y + e + k + w = e + (x + y + k + w) := by ac_rfl
  rw [this, BitVec.add_sub_cancel]

theorem step_inj (t : Nat) (w : Word) {s s' : Regs} (h : Spec.step t w s = Spec.step t w s') :
    s = s' := by
  rw [← unstep_step t w s, h, unstep_step]

theorem runSteps_succ' (W : Nat → Word) (t n : Nat) (s : Regs) :
    Spec.runSteps W t (n + 1) s = Spec.runSteps W (t + 1) n (Spec.step t (W t) s) := by
  induction n with
  | zero => rfl
  | succ n ih =>
    rw [Spec.runSteps, ih, Spec.runSteps]
    congr 1 <;> simp only [Nat.add_assoc, Nat.add_comm 1 n]

theorem steps_eq_run (W : Nat → Word) (t : Nat) (s : Regs) :
    Spec.steps W t s = Spec.runSteps W 0 t s := by
  induction t with
  | zero => rfl
  | succ t ih => rw [Spec.steps, Spec.runSteps, ih, Nat.zero_add]

theorem steps_add (W : Nat → Word) (t n : Nat) (s : Regs) :
    Spec.steps W (t + n) s = Spec.runSteps W t n (Spec.steps W t s) := by
  induction n with
  | zero => rfl
  | succ n ih => rw [← Nat.add_assoc, Spec.steps, ih]; rfl

theorem steps_inj (W : Nat → Word) (t : Nat) {s s' : Regs}
    (h : Spec.steps W t s = Spec.steps W t s') : s = s' := by
  induction t with
  | zero => exact h
  | succ t ih => exact ih (step_inj _ _ h)

theorem steps_congr {W W' : Nat → Word} (t : Nat) (s : Regs) (h : ∀ i, i < t → W i = W' i) :
    Spec.steps W t s = Spec.steps W' t s := by
  induction t with
  | zero => rfl
  | succ t ih =>
    rw [Spec.steps, Spec.steps, ih (fun i hi => h i (by omega)), h t (by omega)]

theorem runSteps_congr {W W' : Nat → Word} (t n : Nat) (s : Regs)
    (h : ∀ i, t ≤ i → i < t + n → W i = W' i) :
    Spec.runSteps W t n s = Spec.runSteps W' t n s := by
  induction n with
  | zero => rfl
  | succ n ih =>
    rw [Spec.runSteps, Spec.runSteps, ih (fun i h1 h2 => h i h1 (by omega)),
      h (t + n) (by omega) (by omega)]

/-- Every state is reached from exactly one starting state. -/
theorem steps_surj (W : Nat → Word) (t : Nat) (s : Regs) : ∃ s', Spec.steps W t s' = s := by
  induction t generalizing s with
  | zero => exact ⟨s, rfl⟩
  | succ t ih =>
    obtain ⟨s', h⟩ := ih (unstep t (W t) s)
    exact ⟨s', by rw [Spec.steps, h, step_unstep]⟩

end Verif
