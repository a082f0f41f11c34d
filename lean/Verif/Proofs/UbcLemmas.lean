import Verif.Model.Ubc

namespace Verif.Ubc

open Verif Verif.Model Verif.Model.Ubc

theorem andForm (mask x d : Word) (c : Bool) (k : Nat) (hk : k < 32)
    (h : d.getLsbD k = true → x.getLsbD k = c) :
    (mask &&& (x ||| ~~~d)).getLsbD k = (mask.getLsbD k && (!d.getLsbD k || c)) := by
  simp only [BitVec.getLsbD_and, BitVec.getLsbD_or, BitVec.getLsbD_not, hk, decide_true, Bool.true_and]
  cases hd : d.getLsbD k
  · simp
  · simp [h hd]

theorem and_zero_bit (mask d : Word) (h : mask &&& d = 0#32) (k : Nat) :
    (mask.getLsbD k && d.getLsbD k) = false := by
  have := congrArg (BitVec.getLsbD · k) h
  simpa using this

theorem ifForm (mask x d : Word) (c : Bool) (k : Nat) (hk : k < 32)
    (h : d.getLsbD k = true → x.getLsbD k = c) :
    (if mask &&& d ≠ 0#32 then mask &&& (x ||| ~~~d) else mask).getLsbD k
      = (mask.getLsbD k && (!d.getLsbD k || c)) := by
  split
  · exact andForm mask x d c k hk h
  · rename_i hz
    have := and_zero_bit mask d (Decidable.not_not.mp hz) k
    cases hm : mask.getLsbD k <;> simp_all

theorem ifAnyForm (mask d : Word) (C : Prop) [Decidable C] (c : Bool) (k : Nat) (hk : k < 32)
    (hC : C ↔ c = false) :
    (if mask &&& d ≠ 0#32 then if C then mask &&& ~~~d else mask else mask).getLsbD k
      = (mask.getLsbD k && (!d.getLsbD k || c)) := by
  split
  · split
    · rename_i h
      have := hC.mp h
      simp [this, hk]
    · rename_i h
      have : c = true := by
        cases c
        · exact absurd (hC.mpr rfl) h
        · rfl
      simp [this]
  · rename_i hz
    have := and_zero_bit mask d (Decidable.not_not.mp hz) k
    cases hm : mask.getLsbD k <;> simp_all

theorem and_bit_eq (y : Word) (n : Nat) :
    y &&& (1#32 <<< n) = if y.getLsbD n then 1#32 <<< n else 0#32 := by
  apply BitVec.eq_of_getLsbD_eq
  intro i hi
  split
  · rename_i h
    simp only [BitVec.getLsbD_and, BitVec.getLsbD_shiftLeft, hi, decide_true, Bool.true_and,
      BitVec.getLsbD_one]
    by_cases e : i = n
    · subst e; simp [h]
    · by_cases h1 : i < n
      · simp [h1]
      · simp; omega
  · rename_i h
    simp only [BitVec.getLsbD_and, BitVec.getLsbD_shiftLeft, hi, decide_true, Bool.true_and,
      BitVec.getLsbD_one]
    by_cases e : i = n
    · subst e; simp [h]
    · by_cases h1 : i < n
      · simp [h1]
      · simp; omega

theorem neg_shift_bit : ∀ n, n < 32 → ∀ k, k < 32 → n ≤ k →
    (0#32 - (1#32 <<< n)).getLsbD k = true := by decide +kernel

theorem subn_bit (y : Word) (n k : Nat) (hk : k < 32) (hn : n < 32) (h : n ≤ k) :
    ((y &&& (1#32 <<< n)) - (1#32 <<< n)).getLsbD k = !y.getLsbD n := by
  rw [and_bit_eq]
  cases y.getLsbD n
  · simpa using neg_shift_bit n hn k hk h
  · simp

theorem negn_bit (y : Word) (n k : Nat) (hk : k < 32) (hn : n < 32) (h : n ≤ k) :
    (0#32 - (y &&& (1#32 <<< n))).getLsbD k = y.getLsbD n := by
  rw [and_bit_eq]
  cases y.getLsbD n
  · simp
  · simpa using neg_shift_bit n hn k hk h

theorem sub1_bit (y : Word) (k : Nat) (hk : k < 32) :
    ((y &&& 1#32) - 1#32).getLsbD k = !y.getLsbD 0 :=
  subn_bit y 0 k hk (by decide) (Nat.zero_le _)

theorem neg1_bit (y : Word) (k : Nat) (hk : k < 32) :
    (0#32 - (y &&& 1#32)).getLsbD k = y.getLsbD 0 :=
  negn_bit y 0 k hk (by decide) (Nat.zero_le _)

theorem ge_of_bit (D : Word) (n : Nat) (h : (∀ k, k < 32 → D.getLsbD k = true → n ≤ k)) (k : Nat)
    (hk : k < 32) (hb : D.getLsbD k = true) : n ≤ k := h k hk hb

theorem eq_of_bit (D : Word) (n : Nat) (h : (∀ k, k < 32 → D.getLsbD k = true → k = n)) (k : Nat)
    (hk : k < 32) (hb : D.getLsbD k = true) : k = n := h k hk hb

theorem shift_ne_zero : ∀ n, n < 32 → ¬ (1#32 <<< n = 0#32) := by decide +kernel

theorem and_bit_ne_zero (y : Word) (n : Nat) (hn : n < 32) :
    y &&& (1#32 <<< n) = 0#32 ↔ y.getLsbD n = false := by
  rw [and_bit_eq]
  cases y.getLsbD n
  · simp
  · simp only [if_true, Bool.true_eq_false, iff_false]; exact shift_ne_zero n hn

theorem not_bit (x : Word) : (Model.Ubc.not x ≠ 0#32) ↔ x = 0#32 := by
  unfold Model.Ubc.not; split <;> simp_all

theorem notnot_bit (x : Word) : (Model.Ubc.not (Model.Ubc.not x) ≠ 0#32) ↔ x ≠ 0#32 := by
  unfold Model.Ubc.not; split <;> simp_all

macro "bitsimp" : tactic =>
  `(tactic| first
    | (simp; done)
    | (simp [Bool.xor_comm]; done))

macro "anysimp" : tactic =>
  `(tactic|
    (simp only [notnot_bit]
     simp only [not_bit, ne_eq, and_bit_ne_zero _ _ (show (0:Nat) < 32 by decide),
       and_bit_ne_zero _ _ (show (1:Nat) < 32 by decide),
       and_bit_ne_zero _ _ (show (2:Nat) < 32 by decide),
       and_bit_ne_zero _ _ (show (3:Nat) < 32 by decide),
       and_bit_ne_zero _ _ (show (4:Nat) < 32 by decide),
       and_bit_ne_zero _ _ (show (5:Nat) < 32 by decide),
       and_bit_ne_zero _ _ (show (6:Nat) < 32 by decide),
       and_bit_ne_zero _ _ (show (29:Nat) < 32 by decide),
       and_bit_ne_zero _ _ (show (30:Nat) < 32 by decide)]
     simp
     try grind))

end Verif.Ubc
