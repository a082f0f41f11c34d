import Verif.Proofs.Loop
import Verif.Proofs.Bits

namespace Verif

open Verif.Model

theorem sched_lt (M : Spec.Block) (t : Nat) (h : t < 16) : Spec.sched M t = M ⟨t, h⟩ := by
  rw [Spec.sched]; simp [h]

theorem sched_ge (M : Spec.Block) (t : Nat) (h : 16 ≤ t) :
    Spec.sched M t = Spec.rotl 1 (Spec.sched M (t - 3) ^^^ Spec.sched M (t - 8) ^^^
      Spec.sched M (t - 14) ^^^ Spec.sched M (t - 16)) := by
  rw [Spec.sched]; simp [Nat.not_lt.mpr h]

/-- Invariant of the round loops before iteration `i`. -/
structure RInv (M : Spec.Block) (H : Regs) (i : Nat) (s : RoundState) : Prop where
  w : ∀ t, t < i → i ≤ t + 16 → ∀ j : Fin 16, j.val = t % 16 → s.w j = Spec.sched M t
  m1 : ∀ t (h : t < 80), t < i → s.m1 ⟨t, h⟩ = Spec.sched M t
  r : s.r = Spec.steps (Spec.sched M) i H
  cs0 : s.cs 0 = H
  cs1 : 58 < i → s.cs 1 = Spec.steps (Spec.sched M) 58 H
  cs2 : 65 < i → s.cs 2 = Spec.steps (Spec.sched M) 65 H

theorem toBlock_load (p : List Byte) (i : Nat) (hi : i < 16) (h : i * 4 + 3 < p.length) :
    load32 p (i * 4) h = Spec.toBlock p ⟨i, hi⟩ := by
  rw [load32_eq]; simp only [Spec.toBlock, Nat.mul_comm]

theorem add_comm5 (a f e w k : Word) : a + f + e + w + k = a + f + e + k + w := by
  rw [BitVec.add_assoc, BitVec.add_assoc, BitVec.add_comm w k]
  simp only [BitVec.add_assoc]

theorem round1_inv (p : List Byte) (hp : 64 ≤ p.length) (H : Regs) (i : Nat) (hi : i < 16)
    (s : RoundState) (h : RInv (Spec.toBlock p) H i s) :
    RInv (Spec.toBlock p) H (i + 1) (round1 p hp i hi s) := by
  have hw : ∀ t, t < i + 1 → i + 1 ≤ t + 16 → ∀ j : Fin 16, j.val = t % 16 →
      upd s.w ⟨i, hi⟩ (load32 p (i * 4) (by omega)) j = Spec.sched (Spec.toBlock p) t := by
    intro t ht1 ht2 j hj
    by_cases e : t = i
    · subst e
      have : j = ⟨t, hi⟩ := Fin.ext (by simp [hj]; omega)
      rw [this, upd_same, toBlock_load p t hi, sched_lt]
    · rw [upd_ne _ _ (fun hc => e (by have := congrArg Fin.val hc; simp at this; omega))]
      exact h.w t (by omega) (by omega) j hj
  have hwi := hw i (by omega) (by omega) (ix i) (ix_val i)
  refine ⟨hw, ?_, ?_, h.cs0, fun hc => by omega, fun hc => by omega⟩
  · intro t ht hti
    show upd s.m1 ⟨i, _⟩ _ ⟨t, ht⟩ = _
    by_cases e : t = i
    · subst e; rw [upd_same]; exact hwi
    · rw [upd_ne _ _ (fun hc => e (by simpa using congrArg Fin.val hc))]
      exact h.m1 t ht (by omega)
  · show Regs.mk _ _ _ _ _ = _
    rw [hwi, rot5, rot30, fCh_eq, Spec.steps, Spec.step, ← h.r]
    simp only [Spec.f, Spec.K, show i < 20 by omega, if_true, K0]
    rw [add_comm5]

theorem expand_w (M : Spec.Block) (H : Regs) (i : Nat) (h16 : 16 ≤ i) (s : RoundState)
    (h : RInv M H i s) : ∀ t, t < i + 1 → i + 1 ≤ t + 16 → ∀ j : Fin 16, j.val = t % 16 →
      expand s.w i j = Spec.sched M t := by
  intro t ht1 ht2 j hj
  unfold expand
  have g : ∀ k t', t' < i → i ≤ t' + 16 → k % 16 = t' % 16 → s.w (ix k) = Spec.sched M t' :=
    fun k t' h1 h2 h3 => h.w t' h1 h2 _ (by rw [ix_val, h3])
  by_cases e : t = i
  · subst e
    have : j = ix t := Fin.ext (by rw [ix_val, hj])
    rw [this, upd_same, g (t - 3) (t - 3) (by omega) (by omega) rfl,
      g (t - 8) (t - 8) (by omega) (by omega) rfl, g (t - 14) (t - 14) (by omega) (by omega) rfl,
      g t (t - 16) (by omega) (by omega) (by omega), sched_ge M t h16]
    rfl
  · rw [upd_ne _ _ (fun hc => e (by have := congrArg Fin.val hc; rw [ix_val] at this; omega))]
    exact h.w t (by omega) (by omega) j hj

theorem roundN_inv (M : Spec.Block) (H : Regs) (f : Word → Word → Word → Word) (k : Word) (i : Nat)
    (h16 : 16 ≤ i) (hi : i < 80) (s : RoundState) (h : RInv M H i s)
    (hf : ∀ b c d, f b c d = Spec.f i b c d) (hk : k = Spec.K i)
    (hc1 : 58 < i + 1 → s.cs 1 = Spec.steps (Spec.sched M) 58 H)
    (hc2 : 65 < i + 1 → s.cs 2 = Spec.steps (Spec.sched M) 65 H) :
    RInv M H (i + 1) (roundN f k i hi s) := by
  have hw := expand_w M H i h16 s h
  have hwi := hw i (by omega) (by omega) (ix i) (ix_val i)
  refine ⟨hw, ?_, ?_, h.cs0, hc1, hc2⟩
  · intro t ht hti
    show upd s.m1 ⟨i, _⟩ _ ⟨t, ht⟩ = _
    by_cases e : t = i
    · subst e; rw [upd_same]; exact hwi
    · rw [upd_ne _ _ (fun hc => e (by simpa using congrArg Fin.val hc))]
      exact h.m1 t ht (by omega)
  · show Regs.mk _ _ _ _ _ = _
    rw [hwi, rot5, rot30, hf, Spec.steps, Spec.step, ← h.r, hk, add_comm5]

theorem storeCs1_inv (M : Spec.Block) (H : Regs) (i : Nat) (s : RoundState) (h : RInv M H i s) :
    RInv M H i (storeCs 58 1 i s) ∧
      (58 < i + 1 → (storeCs 58 1 i s).cs 1 = Spec.steps (Spec.sched M) 58 H) := by
  unfold storeCs
  split
  · rename_i e; subst e
    exact ⟨⟨h.w, h.m1, h.r, h.cs0, fun hc => by omega, fun hc => by omega⟩,
      fun _ => by simp [upd, h.r]⟩
  · exact ⟨h, fun hc => h.cs1 (by omega)⟩

theorem storeCs2_inv (M : Spec.Block) (H : Regs) (i : Nat) (s : RoundState) (h : RInv M H i s) :
    RInv M H i (storeCs 65 2 i s) ∧
      (65 < i + 1 → (storeCs 65 2 i s).cs 2 = Spec.steps (Spec.sched M) 65 H) := by
  unfold storeCs
  split
  · rename_i e; subst e
    exact ⟨⟨h.w, h.m1, h.r, h.cs0, fun _ => h.cs1 (by omega), fun hc => by omega⟩,
      fun _ => by simp [upd, h.r]⟩
  · exact ⟨h, fun hc => h.cs2 (by omega)⟩

/-- What the eighty rounds leave behind. -/
theorem rounds_spec (p : List Byte) (hp : 64 ≤ p.length) (H : Regs) (s : RoundState) :
    RInv (Spec.toBlock p) H 80 (rounds p hp H s) := by
  unfold rounds
  have h0 : RInv (Spec.toBlock p) H 0 { s with r := H, cs := upd s.cs 0 H } :=
    ⟨fun t h => by omega, fun t _ h => by omega, rfl, by simp, fun h => by omega, fun h => by omega⟩
  have h1 := loopUp_inv (RInv (Spec.toBlock p) H) 0 16
    (fun i _ hi s => round1 p hp i (by omega) s) _ h0
    (fun i _ h2 s hs => round1_inv p hp H i (by omega) s hs)
  have h2 := loopUp_inv (RInv (Spec.toBlock p) H) 16 4
    (fun i _ hi s => roundN fCh K0 i (by omega) s) _ h1
    (fun i h1 h2 s hs => roundN_inv _ H _ _ i h1 (by omega) s hs
      (fun b c d => by rw [fCh_eq]; simp [Spec.f, show i < 20 by omega])
      (by simp [Spec.K, show i < 20 by omega, K0]) (fun h => by omega) (fun h => by omega))
  have h3 := loopUp_inv (RInv (Spec.toBlock p) H) 20 20
    (fun i _ hi s => roundN fPar K1 i (by omega) s) _ h2
    (fun i h1 h2 s hs => roundN_inv _ H _ _ i (by omega) (by omega) s hs
      (fun b c d => by rw [fPar_eq]; simp [Spec.f, show ¬ i < 20 by omega, show i < 40 by omega])
      (by simp [Spec.K, show ¬ i < 20 by omega, show i < 40 by omega, K1])
      (fun h => by omega) (fun h => by omega))
  have h4 := loopUp_inv (RInv (Spec.toBlock p) H) 40 20
    (fun i _ hi s => roundN fMaj K2 i (by omega) (storeCs 58 1 i s)) _ h3
    (fun i h1 h2 s hs => roundN_inv _ H _ _ i (by omega) (by omega) _ (storeCs1_inv _ H i s hs).1
      (fun b c d => by
        rw [fMaj_eq]; simp [Spec.f, show ¬ i < 20 by omega, show ¬ i < 40 by omega, show i < 60 by omega])
      (by simp [Spec.K, show ¬ i < 20 by omega, show ¬ i < 40 by omega, show i < 60 by omega, K2])
      (storeCs1_inv _ H i s hs).2 (fun h => by omega))
  have h5 := loopUp_inv (RInv (Spec.toBlock p) H) 60 20
    (fun i _ hi s => roundN fPar K3 i (by omega) (storeCs 65 2 i s)) _ h4
    (fun i h1 h2 s hs => roundN_inv _ H _ _ i (by omega) (by omega) _ (storeCs2_inv _ H i s hs).1
      (fun b c d => by
        rw [fPar_eq]; simp [Spec.f, show ¬ i < 20 by omega, show ¬ i < 40 by omega, show ¬ i < 60 by omega])
      (by simp [Spec.K, show ¬ i < 20 by omega, show ¬ i < 40 by omega, show ¬ i < 60 by omega, K3])
      (fun h => by
        have := (storeCs2_inv _ H i s hs).1.cs1 (by omega); exact this)
      (storeCs2_inv _ H i s hs).2)
  exact h5

end Verif
