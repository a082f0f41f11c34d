import Verif.Spec.Path
import Verif.Proofs.Bits

/-!
Differences between two words that are signed sums of the bits of a vector: which bits of the words can differ, and a pair of
words with the same difference that differ without carries.
-/

namespace Verif.Path

open Verif Verif.Spec

/-! ### Signed sums -/

theorem ofNat_bit (n j : Nat) (hj : j < 32) : (BitVec.ofNat 32 n).getLsbD j = n.testBit j := by
  rw [BitVec.getLsbD_ofNat]; simp [hj]

theorem and_bit (j : Nat) (s : Word) :
    BitVec.ofNat 32 (2 ^ j) &&& s = if s.getLsbD j then BitVec.ofNat 32 (2 ^ j) else 0#32 := by
  apply BitVec.eq_of_getLsbD_eq
  intro i hi
  rw [BitVec.getLsbD_and, ofNat_bit _ _ hi, Nat.testBit_two_pow]
  by_cases h : j = i
  · subst h
    cases hs : s.getLsbD j
    · simp
    · rw [if_pos rfl, ofNat_bit _ _ hi, Nat.testBit_two_pow, Bool.and_true]
  · rw [decide_eq_false h, Bool.false_and]
    split
    · rw [ofNat_bit _ _ hi, Nat.testBit_two_pow, decide_eq_false h]
    · rw [BitVec.getLsbD_zero]

theorem not_bit (s : Word) (j : Nat) (hj : j < 32) : (~~~s).getLsbD j = !s.getLsbD j := by
  rw [BitVec.getLsbD_not, decide_eq_true hj, Bool.true_and]

theorem and_bits (d i j : Nat) (hd : BitVec.ofNat 32 d = BitVec.ofNat 32 (2 ^ i) ||| BitVec.ofNat 32 (2 ^ j)) (s : Word) :
    BitVec.ofNat 32 d &&& s = (if s.getLsbD i then BitVec.ofNat 32 (2 ^ i) else 0#32) |||
      (if s.getLsbD j then BitVec.ofNat 32 (2 ^ j) else 0#32) := by
  rw [hd, ← and_bit, ← and_bit]
  ext k
  simp [Bool.and_or_distrib_right]

theorem signed_one (j : Nat) (hj : j < 32) (x : Word) (h : Signed (BitVec.ofNat 32 (2 ^ j)) x) :
    x = BitVec.ofNat 32 (2 ^ j) ∨ x = - BitVec.ofNat 32 (2 ^ j) := by
  obtain ⟨s, rfl⟩ := h
  rw [and_bit, and_bit, not_bit s j hj]
  cases s.getLsbD j <;> simp

theorem signed_two (d i j : Nat) (hi : i < 32) (hj : j < 32)
    (hd : BitVec.ofNat 32 d = BitVec.ofNat 32 (2 ^ i) ||| BitVec.ofNat 32 (2 ^ j)) (x : Word)
    (h : Signed (BitVec.ofNat 32 d) x) :
    x = BitVec.ofNat 32 d ∨ x = - BitVec.ofNat 32 d ∨ x = BitVec.ofNat 32 (2 ^ i) - BitVec.ofNat 32 (2 ^ j) ∨
      x = BitVec.ofNat 32 (2 ^ j) - BitVec.ofNat 32 (2 ^ i) := by
  obtain ⟨s, rfl⟩ := h
  rw [and_bits d i j hd, and_bits d i j hd, hd, not_bit s i hi, not_bit s j hj]
  cases s.getLsbD i <;> cases s.getLsbD j <;> simp

theorem signed_zero (x : Word) (h : Signed 0#32 x) : x = 0#32 := by
  obtain ⟨s, rfl⟩ := h
  simp

/-! ### Numbers -/

theorem add_lsb (x y : Word) : (x + y).getLsbD 0 = (x.getLsbD 0 ^^ y.getLsbD 0) := by
  rw [BitVec.getLsbD_add (by decide), BitVec.carry_zero, Bool.xor_false]

theorem bit_nat (x : Word) (j : Nat) : x.getLsbD j = decide (x.toNat / 2 ^ j % 2 = 1) := by
  rw [BitVec.getLsbD, Nat.testBit_eq_decide_div_mod_eq]

theorem rotl5_nat (x : Word) : (rotl 5 x).toNat = x.toNat % 2 ^ 27 * 32 + x.toNat / 2 ^ 27 := by
  have hx := x.isLt
  have e : rotl 5 x = (x <<< 5) + (x >>> 27) := by
    unfold rotl
    rw [BitVec.add_eq_or_of_and_eq_zero]
    ext i hi
    simp only [BitVec.getElem_and, BitVec.getElem_shiftLeft, BitVec.getElem_ushiftRight, BitVec.getElem_zero]
    by_cases h : i < 5
    · simp [h]
    · rw [BitVec.getLsbD_of_ge x _ (by omega)]; simp
  rw [e, BitVec.toNat_add, BitVec.toNat_shiftLeft, BitVec.toNat_ushiftRight, Nat.shiftLeft_eq, Nat.shiftRight_eq_div_pow]
  omega

theorem rotl30_nat (x : Word) : (rotl 30 x).toNat = x.toNat % 4 * 2 ^ 30 + x.toNat / 4 := by
  have hx := x.isLt
  have e : rotl 30 x = (x <<< 30) + (x >>> 2) := by
    unfold rotl
    rw [BitVec.add_eq_or_of_and_eq_zero]
    ext i hi
    simp only [BitVec.getElem_and, BitVec.getElem_shiftLeft, BitVec.getElem_ushiftRight, BitVec.getElem_zero]
    by_cases h : i < 30
    · simp [h]
    · rw [BitVec.getLsbD_of_ge x _ (by omega)]; simp
  rw [e, BitVec.toNat_add, BitVec.toNat_shiftLeft, BitVec.toNat_ushiftRight, Nat.shiftLeft_eq, Nat.shiftRight_eq_div_pow]
  omega

theorem high_bits (b : Nat) (x x' : Word) (h : x.toNat / 2 ^ b = x'.toNat / 2 ^ b) (j : Nat) (hj : b ≤ j) :
    x.getLsbD j = x'.getLsbD j := by
  obtain ⟨k, rfl⟩ := Nat.exists_eq_add_of_le hj
  rw [bit_nat, bit_nat, Nat.pow_add, ← Nat.div_div_eq_div_mul, ← Nat.div_div_eq_div_mul, h]

theorem low_bits (b : Nat) (x x' : Word) (h : x.toNat % 2 ^ b = x'.toNat % 2 ^ b) (j : Nat) (hj : j < b) :
    x.getLsbD j = x'.getLsbD j := by
  have e : ∀ y : Word, y.getLsbD j = (y.toNat % 2 ^ b).testBit j := fun y => by
    rw [Nat.testBit_mod_two_pow, BitVec.getLsbD]; simp [hj]
  rw [e, e, h]

/-! ### Kinds of words -/

/-- How much is known about the bits in which two words differ, when their difference is a signed sum of the bits of `d`. -/
inductive Kind
  /-- They are equal. -/
  | zero
  /-- They differ in the bits of `d`. -/
  | exact
  /-- They differ in bit 30 and perhaps bit 31. -/
  | top
  /-- They differ in bit 0 and perhaps bit 1. -/
  | low2
  /-- They do not differ from bit 27 on. -/
  | low27
  /-- Nothing is known about carries. -/
  | free

namespace Kind

/-- The bits in which the canonical pair differs. -/
def cd : Kind → Nat → Nat
  | top, _ => 0xc0000000
  | _, d => d

/-- Bits that differ. -/
def must : Kind → Nat → Nat
  | exact, d => d
  | top, _ => 0x40000000
  | low2, _ => 1
  | zero, _ => 0
  | _, d => d % 2

/-- Bits that may differ. -/
def may : Kind → Nat → Nat
  | zero, _ => 0
  | exact, d => d
  | top, _ => 0xc0000000
  | low2, _ => 3
  | low27, d => if d % 2 = 0 then 0x7fffffe else 0x7ffffff
  | free, d => if d % 2 = 0 then 0xfffffffe else 0xffffffff

/-- The canonical pair can stand for the words rotated by 5. -/
def r5 : Kind → Bool
  | free => false
  | _ => true

/-- The canonical pair can stand for the words rotated by 30. -/
def r30 : Kind → Bool
  | free => false
  | low27 => false
  | _ => true

/-- The canonical pair is the words. -/
def ex : Kind → Bool
  | exact => true
  | _ => false

end Kind

/-- What a kind says about two words; the canonical pair is `v` and `v ^^^ k.cd d`. -/
structure Good (k : Kind) (d : Nat) (x x' v : Word) : Prop where
  add : x' - x = (v ^^^ BitVec.ofNat 32 (k.cd d)) - v
  rot5 : k.r5 = true → rotl 5 x' - rotl 5 x = rotl 5 (v ^^^ BitVec.ofNat 32 (k.cd d)) - rotl 5 v
  rot30 : k.r30 = true → rotl 30 x' - rotl 30 x = rotl 30 (v ^^^ BitVec.ofNat 32 (k.cd d)) - rotl 30 v
  may : ∀ j, j < 32 → (k.may d).testBit j = false → x'.getLsbD j = x.getLsbD j
  must : ∀ j, j < 32 → (k.must d).testBit j = true → x'.getLsbD j = !x.getLsbD j
  ex : k.ex = true → v = x

theorem good_zero (x x' : Word) (h : x' = x) : Good .zero 0 x x' 0#32 := by
  subst h
  refine ⟨by simp [Kind.cd], fun _ => by simp [Kind.cd], fun _ => by simp [Kind.cd], fun _ _ _ => rfl, ?_, ?_⟩
  · intro j _ h; simp [Kind.must] at h
  · intro h; simp [Kind.ex] at h

theorem good_exact (d : Nat) (x x' : Word) (h : x' = x ^^^ BitVec.ofNat 32 d) : Good .exact d x x' x := by
  subst h
  refine ⟨rfl, fun _ => rfl, fun _ => rfl, ?_, ?_, fun _ => rfl⟩
  · intro j hj h
    simp only [Kind.may] at h
    rw [BitVec.getLsbD_xor, ofNat_bit _ _ hj, h, Bool.xor_false]
  · intro j hj h
    simp only [Kind.must] at h
    rw [BitVec.getLsbD_xor, ofNat_bit _ _ hj, h, Bool.xor_true]

theorem odd_bit (d j : Nat) (h : (d % 2).testBit j = true) : j = 0 ∧ d % 2 = 1 := by
  rcases Nat.mod_two_eq_zero_or_one d with e | e
  · rw [e] at h; simp at h
  · rw [e] at h; exact ⟨Nat.testBit_one_eq_true_iff_self_eq_zero.mp h, e⟩

theorem good_free (d : Nat) (x x' : Word) (h : Signed (BitVec.ofNat 32 d) (x' - x)) : ∃ v, Good .free d x x' v := by
  obtain ⟨s, hs⟩ := h
  have e3 : (x'.getLsbD 0 ^^ ((BitVec.ofNat 32 d).getLsbD 0 && !s.getLsbD 0)) =
      (x.getLsbD 0 ^^ ((BitVec.ofNat 32 d).getLsbD 0 && s.getLsbD 0)) := by
    have e : x' = x + ((BitVec.ofNat 32 d &&& s) - (BitVec.ofNat 32 d &&& ~~~s)) := by
      rw [← hs, BitVec.add_comm, BitVec.sub_add_cancel]
    have e2 : x' + (BitVec.ofNat 32 d &&& ~~~s) = x + (BitVec.ofNat 32 d &&& s) := by
      rw [e, BitVec.add_assoc, BitVec.sub_add_cancel]
    have e3 := congrArg (fun y => BitVec.getLsbD y 0) e2
    simpa only [add_lsb, BitVec.getLsbD_and, not_bit s 0 (by decide)] using e3
  refine ⟨BitVec.ofNat 32 d &&& ~~~s, ?_, ?_, ?_, ?_, ?_, ?_⟩
  · rw [hs]
    congr 1
    ext i
    simp only [Kind.cd, BitVec.getElem_xor, BitVec.getElem_and, BitVec.getElem_not]
    cases s[i] <;> simp
  · intro h; simp [Kind.r5] at h
  · intro h; simp [Kind.r30] at h
  · intro j hj h
    simp only [Kind.may] at h
    split at h
    · rename_i he
      have h0 : j = 0 := by
        revert h
        revert j
        decide
      subst h0
      have hd : (BitVec.ofNat 32 d).getLsbD 0 = false := by
        rw [ofNat_bit _ _ (by decide), Nat.testBit_zero]; simp [he]
      simpa only [hd, Bool.false_and, Bool.xor_false] using e3
    · exfalso
      revert h
      revert j
      decide
  · intro j hj h
    obtain ⟨rfl, h1⟩ := odd_bit d j h
    have hd : (BitVec.ofNat 32 d).getLsbD 0 = true := by
      rw [ofNat_bit _ _ (by decide), Nat.testBit_zero]; simp [h1]
    rw [hd] at e3
    revert e3
    cases x'.getLsbD 0 <;> cases x.getLsbD 0 <;> cases s.getLsbD 0 <;> decide
  · intro h; simp [Kind.ex] at h

/-- Flipping a bit that is not set adds it. -/
theorem xor_bit (j : Nat) (x : Word) (h : x.getLsbD j = false) :
    x ^^^ BitVec.ofNat 32 (2 ^ j) = x + BitVec.ofNat 32 (2 ^ j) := by
  have h0 : x &&& BitVec.ofNat 32 (2 ^ j) = 0#32 := by
    rw [BitVec.and_comm, and_bit, h]; simp
  rw [BitVec.add_eq_or_of_and_eq_zero _ _ h0]
  apply BitVec.eq_of_getLsbD_eq
  intro i hi
  rw [BitVec.getLsbD_xor, BitVec.getLsbD_or, ofNat_bit _ _ hi, Nat.testBit_two_pow]
  by_cases e : j = i
  · subst e; rw [h, Bool.false_xor, Bool.false_or]
  · rw [decide_eq_false e, Bool.xor_false, Bool.or_false]

/-- Flipping a bit that is set subtracts it. -/
theorem xor_bit' (j : Nat) (hj : j < 32) (x : Word) (h : x.getLsbD j = true) :
    x ^^^ BitVec.ofNat 32 (2 ^ j) = x - BitVec.ofNat 32 (2 ^ j) := by
  have h1 := xor_bit j (x ^^^ BitVec.ofNat 32 (2 ^ j)) (by
    rw [BitVec.getLsbD_xor, h, ofNat_bit _ _ hj, Nat.testBit_two_pow]; simp)
  rw [BitVec.xor_assoc, BitVec.xor_self, BitVec.xor_zero] at h1
  exact (BitVec.sub_eq_iff_eq_add.mpr h1).symm

theorem good_top31 (x x' : Word) (h : Signed (BitVec.ofNat 32 0x80000000) (x' - x)) : ∃ v, Good .exact 0x80000000 x x' v := by
  refine ⟨x, good_exact _ _ _ ?_⟩
  have h1 : x' - x = 0x80000000#32 := by
    rcases signed_one 31 (by decide) (x' - x) h with h1 | h1
    · rw [h1]
    · rw [h1]; decide
  have e : x' = x + 0x80000000#32 := by
    rw [BitVec.add_comm]; exact BitVec.sub_eq_iff_eq_add.mp h1
  rw [e]
  cases hb : x.getLsbD 31
  · exact (xor_bit 31 x hb).symm
  · have := xor_bit' 31 (by decide) x hb
    rw [BitVec.sub_eq_add_neg, show - BitVec.ofNat 32 (2 ^ 31) = 0x80000000#32 by decide] at this
    exact this.symm

theorem diff_nat (x x' c : Word) (h : x' - x = c) : x'.toNat = (x.toNat + c.toNat) % 2 ^ 32 := by
  have := BitVec.sub_eq_iff_eq_add.mp h
  rw [this, BitVec.toNat_add, Nat.add_comm]

theorem sub_eq_of_nat (x x' v v' : Word) (h : x'.toNat + v.toNat = v'.toNat + x.toNat) : x' - x = v' - v := by
  have e : x' + v = v' + x := BitVec.eq_of_toNat_eq (by rw [BitVec.toNat_add, BitVec.toNat_add, h])
  rw [BitVec.sub_eq_iff_eq_add, BitVec.sub_add_comm, ← e, BitVec.add_sub_cancel]

theorem bit1_exact (x x' : Word) (h : Signed (BitVec.ofNat 32 2) (x' - x)) (hb : x'.getLsbD 2 = x.getLsbD 2) :
    ∃ v, Good .exact 2 x x' v := by
  refine ⟨x, good_exact _ _ _ ?_⟩
  have hx := x.isLt
  rw [bit_nat, bit_nat, decide_eq_decide] at hb
  rcases signed_one 1 (by decide) _ h with h1 | h1
  · have hn := diff_nat _ _ _ h1
    rw [show (BitVec.ofNat 32 (2 ^ 1)).toNat = 2 from rfl] at hn
    have h0 : x.getLsbD 1 = false := by
      rw [bit_nat, decide_eq_false]
      omega
    have := xor_bit 1 x h0
    rw [show BitVec.ofNat 32 2 = BitVec.ofNat 32 (2 ^ 1) from rfl, this, BitVec.add_comm]
    exact BitVec.sub_eq_iff_eq_add.mp h1
  · have hn := diff_nat _ _ _ h1
    rw [show (- BitVec.ofNat 32 (2 ^ 1)).toNat = 4294967294 from rfl] at hn
    have h0 : x.getLsbD 1 = true := by
      rw [bit_nat, decide_eq_true]
      omega
    have := xor_bit' 1 (by decide) x h0
    rw [show BitVec.ofNat 32 2 = BitVec.ofNat 32 (2 ^ 1) from rfl, this]
    have := BitVec.sub_eq_iff_eq_add.mp h1
    rw [this, BitVec.add_comm, ← BitVec.sub_eq_add_neg]

/-- Two words with a canonical pair, from numbers. -/
theorem good_nat (k : Kind) (d : Nat) (x x' v v' : Word) (hv : v ^^^ BitVec.ofNat 32 (k.cd d) = v')
    (h : x'.toNat + v.toNat = v'.toNat + x.toNat)
    (h5 : k.r5 = true → (rotl 5 x').toNat + (rotl 5 v).toNat = (rotl 5 v').toNat + (rotl 5 x).toNat)
    (h30 : k.r30 = true → (rotl 30 x').toNat + (rotl 30 v).toNat = (rotl 30 v').toNat + (rotl 30 x).toNat)
    (hmay : ∀ j, j < 32 → (k.may d).testBit j = false → x'.getLsbD j = x.getLsbD j)
    (hmust : ∀ j, j < 32 → (k.must d).testBit j = true → x'.getLsbD j = !x.getLsbD j)
    (hex : k.ex = false) : Good k d x x' v := by
  subst hv
  exact ⟨sub_eq_of_nat _ _ _ _ h, fun e => sub_eq_of_nat _ _ _ _ (h5 e), fun e => sub_eq_of_nat _ _ _ _ (h30 e), hmay, hmust,
    fun e => by rw [hex] at e; cases e⟩

theorem top_bits (j : Nat) (hj : j < 32) (h : Nat.testBit 0xc0000000 j = false) : j < 30 := by
  revert h; revert j; decide

theorem top_bit (j : Nat) (hj : j < 32) (h : Nat.testBit 0x40000000 j = true) : j = 30 := by
  revert h; revert j; decide

theorem top_case (d u : Nat) (hu : u < 4) (x x' : Word) (h : x'.toNat + u * 2 ^ 30 = (3 - u) * 2 ^ 30 + x.toNat) :
    ∃ v, Good .top d x x' v := by
  have hx := x.isLt
  have hx' := x'.isLt
  have hv : (BitVec.ofNat 32 (u * 2 ^ 30)).toNat = u * 2 ^ 30 := by
    rw [BitVec.toNat_ofNat]; omega
  have hv' : (BitVec.ofNat 32 ((3 - u) * 2 ^ 30)).toNat = (3 - u) * 2 ^ 30 := by
    rw [BitVec.toNat_ofNat]; omega
  refine ⟨BitVec.ofNat 32 (u * 2 ^ 30), good_nat .top d x x' _ (BitVec.ofNat 32 ((3 - u) * 2 ^ 30)) ?_ ?_ ?_ ?_ ?_ ?_ rfl⟩
  · have : ∀ u, u < 4 → BitVec.ofNat 32 (u * 2 ^ 30) ^^^ 0xc0000000#32 = BitVec.ofNat 32 ((3 - u) * 2 ^ 30) := by decide
    exact this u hu
  · rw [hv, hv', h]
  · intro _
    rw [rotl5_nat, rotl5_nat, rotl5_nat, rotl5_nat, hv, hv']
    omega
  · intro _
    rw [rotl30_nat, rotl30_nat, rotl30_nat, rotl30_nat, hv, hv']
    omega
  · intro j hj hm
    exact low_bits 30 _ _ (by omega) j (top_bits j hj hm)
  · intro j hj hm
    obtain rfl := top_bit j hj hm
    rw [bit_nat, bit_nat, ← decide_not, decide_eq_decide]
    omega

theorem good_top (d : Nat) (hd : d = 0x40000000 ∨ d = 0xc0000000) (x x' : Word) (h : Signed (BitVec.ofNat 32 d) (x' - x)) :
    ∃ v, Good .top d x x' v := by
  have h1 : x' - x = 0x40000000#32 ∨ x' - x = 0xc0000000#32 := by
    rcases hd with rfl | rfl
    · rcases signed_one 30 (by decide) (x' - x) h with h1 | h1
      · left; rw [h1]
      · right; rw [h1]; decide
    · rcases signed_two 0xc0000000 30 31 (by decide) (by decide) (by decide) (x' - x) h with h1 | h1 | h1 | h1
      · right; rw [h1]
      · left; rw [h1]; decide
      · right; rw [h1]; decide
      · left; rw [h1]; decide
  have hx := x.isLt
  rcases h1 with h1 | h1
  · have hn := diff_nat _ _ _ h1
    rw [show (0x40000000#32).toNat = 0x40000000 from rfl] at hn
    by_cases hc : x.toNat < 0xc0000000
    · exact top_case d 1 (by decide) x x' (by omega)
    · exact top_case d 3 (by decide) x x' (by omega)
  · have hn := diff_nat _ _ _ h1
    rw [show (0xc0000000#32).toNat = 0xc0000000 from rfl] at hn
    by_cases hc : x.toNat < 0x40000000
    · exact top_case d 0 (by decide) x x' (by omega)
    · exact top_case d 2 (by decide) x x' (by omega)

theorem low2_bits (j : Nat) (hj : j < 32) (h : Nat.testBit 3 j = false) : 2 ≤ j := by
  revert h; revert j; decide

theorem low2_bit (j : Nat) (hj : j < 32) (h : Nat.testBit 1 j = true) : j = 0 := by
  revert h; revert j; decide

theorem low2_case (d u : Nat) (hd : d = 1 ∨ d = 3) (hu : u ≤ d) (x x' : Word) (hb : x.toNat / 4 = x'.toNat / 4)
    (h : x'.toNat + u = (d - u) + x.toNat) : ∃ v, Good .low2 d x x' v := by
  have hx := x.isLt
  have hx' := x'.isLt
  have hv : (BitVec.ofNat 32 u).toNat = u := by
    rw [BitVec.toNat_ofNat]; omega
  have hv' : (BitVec.ofNat 32 (d - u)).toNat = d - u := by
    rw [BitVec.toNat_ofNat]; omega
  refine ⟨BitVec.ofNat 32 u, good_nat .low2 d x x' _ (BitVec.ofNat 32 (d - u)) ?_ ?_ ?_ ?_ ?_ ?_ rfl⟩
  · have : ∀ u, u < 4 → (u ≤ 1 → BitVec.ofNat 32 u ^^^ 1#32 = BitVec.ofNat 32 (1 - u)) ∧
      BitVec.ofNat 32 u ^^^ 3#32 = BitVec.ofNat 32 (3 - u) := by decide
    rcases hd with rfl | rfl
    · exact (this u (by omega)).1 hu
    · exact (this u (by omega)).2
  · rw [hv, hv', h]
  · intro _
    rw [rotl5_nat, rotl5_nat, rotl5_nat, rotl5_nat, hv, hv']
    omega
  · intro _
    rw [rotl30_nat, rotl30_nat, rotl30_nat, rotl30_nat, hv, hv']
    omega
  · intro j hj hm
    exact high_bits 2 _ _ (by omega) j (low2_bits j hj hm)
  · intro j hj hm
    obtain rfl := low2_bit j hj hm
    rw [bit_nat, bit_nat, ← decide_not, decide_eq_decide]
    omega

theorem good_low2 (d : Nat) (hd : d = 1 ∨ d = 3) (x x' : Word) (h : Signed (BitVec.ofNat 32 d) (x' - x))
    (hb : x'.getLsbD 2 = x.getLsbD 2) : ∃ v, Good .low2 d x x' v := by
  have hx := x.isLt
  rw [bit_nat, bit_nat, decide_eq_decide] at hb
  rcases hd with rfl | rfl
  · rcases signed_one 0 (by decide) (x' - x) h with h1 | h1
    · have hn := diff_nat _ _ _ h1
      rw [show (BitVec.ofNat 32 (2 ^ 0)).toNat = 1 from rfl] at hn
      exact low2_case 1 0 (by decide) (by decide) x x' (by omega) (by omega)
    · have hn := diff_nat _ _ _ h1
      rw [show (- BitVec.ofNat 32 (2 ^ 0)).toNat = 4294967295 by decide] at hn
      exact low2_case 1 1 (by decide) (by decide) x x' (by omega) (by omega)
  · rcases signed_two 3 0 1 (by decide) (by decide) (by decide) (x' - x) h with h1 | h1 | h1 | h1
    · have hn := diff_nat _ _ _ h1
      rw [show (BitVec.ofNat 32 3).toNat = 3 from rfl] at hn
      exact low2_case 3 0 (by decide) (by decide) x x' (by omega) (by omega)
    · have hn := diff_nat _ _ _ h1
      rw [show (- BitVec.ofNat 32 3).toNat = 4294967293 by decide] at hn
      exact low2_case 3 3 (by decide) (by decide) x x' (by omega) (by omega)
    · have hn := diff_nat _ _ _ h1
      rw [show (BitVec.ofNat 32 (2 ^ 0) - BitVec.ofNat 32 (2 ^ 1)).toNat = 4294967295 by decide] at hn
      exact low2_case 3 2 (by decide) (by decide) x x' (by omega) (by omega)
    · have hn := diff_nat _ _ _ h1
      rw [show (BitVec.ofNat 32 (2 ^ 1) - BitVec.ofNat 32 (2 ^ 0)).toNat = 1 by decide] at hn
      exact low2_case 3 1 (by decide) (by decide) x x' (by omega) (by omega)

theorem low27_bits (j : Nat) (hj : j < 32) (h : Nat.testBit 0x7ffffff j = false) : 27 ≤ j := by
  revert h; revert j; decide

theorem low27_bits' (j : Nat) (hj : j < 32) (h : Nat.testBit 0x7fffffe j = false) : 27 ≤ j ∨ j = 0 := by
  revert h; revert j; decide

theorem low27_case (d : Nat) (hd : d < 2 ^ 27) (u : Nat) (hu : u = 0 ∨ u = d) (x x' : Word)
    (hb : x.toNat / 2 ^ 27 = x'.toNat / 2 ^ 27)
    (h : x'.toNat + u = (d - u) + x.toNat) : ∃ v, Good .low27 d x x' v := by
  have hx := x.isLt
  have hx' := x'.isLt
  have hv : (BitVec.ofNat 32 u).toNat = u := by
    rw [BitVec.toNat_ofNat]; omega
  have hv' : (BitVec.ofNat 32 (d - u)).toNat = d - u := by
    rw [BitVec.toNat_ofNat]; omega
  refine ⟨BitVec.ofNat 32 u, good_nat .low27 d x x' _ (BitVec.ofNat 32 (d - u)) ?_ ?_ ?_ ?_ ?_ ?_ rfl⟩
  · rcases hu with rfl | rfl
    · rw [Kind.cd, Nat.sub_zero]
      · exact BitVec.zero_xor
      · intro h; cases h
    · rw [Kind.cd, Nat.sub_self]
      · exact BitVec.xor_self
      · intro h; cases h
  · rw [hv, hv', h]
  · intro _
    rw [rotl5_nat, rotl5_nat, rotl5_nat, rotl5_nat, hv, hv']
    omega
  · intro h; cases h
  · intro j hj hm
    simp only [Kind.may] at hm
    split at hm
    · rcases low27_bits' j hj hm with h27 | rfl
      · exact high_bits 27 _ _ hb.symm j h27
      · exact low_bits 1 _ _ (by omega) 0 (by decide)
    · exact high_bits 27 _ _ hb.symm j (low27_bits j hj hm)
  · intro j hj hm
    obtain ⟨rfl, h1⟩ := odd_bit d j hm
    rw [bit_nat, bit_nat, ← decide_not, decide_eq_decide]
    omega

theorem good_low27 (j : Nat) (hj : j < 4) (x x' : Word) (h : Signed (BitVec.ofNat 32 (2 ^ j)) (x' - x))
    (hb : x'.getLsbD 27 = x.getLsbD 27) : ∃ v, Good .low27 (2 ^ j) x x' v := by
  have hx := x.isLt
  rw [bit_nat, bit_nat, decide_eq_decide] at hb
  have hp : ∀ j, j < 4 → 2 ^ j ≤ 8 ∧ (BitVec.ofNat 32 (2 ^ j)).toNat = 2 ^ j ∧
    (- BitVec.ofNat 32 (2 ^ j)).toNat = 4294967296 - 2 ^ j := by decide
  obtain ⟨p1, p2, p3⟩ := hp j hj
  have p4 := Nat.two_pow_pos j
  rcases signed_one j (by omega) (x' - x) h with h1 | h1
  · have hn := diff_nat _ _ _ h1
    rw [p2] at hn
    exact low27_case (2 ^ j) (by omega) 0 (Or.inl rfl) x x' (by omega) (by omega)
  · have hn := diff_nat _ _ _ h1
    rw [p3] at hn
    exact low27_case (2 ^ j) (by omega) (2 ^ j) (Or.inr rfl) x x' (by omega) (by omega)

/-- The kind of a word whose disturbances are the bits of `d`; `r` is a bit above them known not to differ. -/
def kindOf (d : Nat) (r : Option Nat) : Kind :=
  if d = 0 then .zero
  else if d = 0x80000000 then .exact
  else if d = 0x40000000 ∨ d = 0xc0000000 then .top
  else match r with
    | none => .free
    | some b => if b = 2 then (if d = 2 then .exact else .low2) else .low27

/-- A bit from which to conclude that no carry passed. -/
def stops (d b : Nat) : Bool :=
  (b == 2 && (d == 1 || d == 2 || d == 3)) || (b == 27 && (d == 1 || d == 2 || d == 4 || d == 8))

theorem good_none (d : Nat) (x x' : Word) (h : Signed (BitVec.ofNat 32 d) (x' - x)) : ∃ v, Good (kindOf d none) d x x' v := by
  unfold kindOf
  split
  · rename_i e
    subst e
    exact ⟨_, good_zero _ _ (by
      have := BitVec.sub_eq_iff_eq_add.mp (signed_zero _ h)
      rw [this, BitVec.zero_add])⟩
  · split
    · rename_i e
      subst e
      exact good_top31 _ _ h
    · split
      · rename_i e
        exact good_top _ e _ _ h
      · exact good_free _ _ _ h

theorem good_some (d b : Nat) (hs : stops d b = true) (x x' : Word) (h : Signed (BitVec.ofNat 32 d) (x' - x))
    (hb : x'.getLsbD b = x.getLsbD b) : ∃ v, Good (kindOf d (some b)) d x x' v := by
  simp only [stops, Bool.or_eq_true, Bool.and_eq_true, beq_iff_eq] at hs
  rcases hs with ⟨rfl, (rfl | rfl) | rfl⟩ | ⟨rfl, ((rfl | rfl) | rfl) | rfl⟩
  · exact good_low2 1 (Or.inl rfl) _ _ h hb
  · exact bit1_exact _ _ h hb
  · exact good_low2 3 (Or.inr rfl) _ _ h hb
  · exact good_low27 0 (by decide) _ _ h hb
  · exact good_low27 1 (by decide) _ _ h hb
  · exact good_low27 2 (by decide) _ _ h hb
  · exact good_low27 3 (by decide) _ _ h hb

end Verif.Path
