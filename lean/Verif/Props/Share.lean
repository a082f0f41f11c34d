import Verif.Proofs.UbcCount
import Verif.Props.CWork
import Mathlib.SetTheory.Cardinal.Finite
import Mathlib.Data.Fintype.BigOperators
import Mathlib.Algebra.BigOperators.Ring.Finset
import Mathlib.Algebra.Order.BigOperators.Group.Finset

/-!
How much the unavoidable bit conditions let through (C58).

The mask of a block has a bit for each vector whose second message is then reconstructed.  How many blocks there are for
each bit, how many bits one mask can have, and what this means for the number of steps.
-/

namespace Verif.Props

open Verif Verif.Model Verif.Spec

/-- The mask that the Go package computes for a block. -/
def goMask (M : Block) : Word := Ubc.calculateDvMask (some fun i => sched M i)

/-- The mask that the C library computes for a block. -/
def cMask (M : Block) : Word := C.Ubc.ubcCheck fun i => sched M i

/-- For the vector with each number, `s` such that one block in `2 ^ s` passes. -/
def shares : List Nat :=
  [11, 12, 12, 11, 7, 12, 7, 14, 7, 13, 8, 14, 8, 15, 10, 14, 11, 11, 7, 14, 15, 14, 9, 14, 9, 14, 9, 15, 14, 14, 14, 14]

set_option exponentiation.threshold 512 in
private theorem finite_block : Finite Block :=
  Nat.finite_of_card_ne_zero (by rw [Ubc.card_block]; decide)

attribute [local instance] finite_block

/-- The number of bits set in a mask. -/
def bitsSet (m : Word) : Nat := (List.range 32).countP fun k => m.getLsbD k

private theorem goMask_bit (M : Block) (k : Nat) (hk : k < 32) : (goMask M).getLsbD k = ubcHolds k (sched M) :=
  Ubc.mask_bit _ (sched M) (fun _ => rfl) k hk

private theorem cMask_eq (M : Block) : cMask M = goMask M := C.ubcCheck_eq _

set_option exponentiation.threshold 512 in
/-- C58: of all `2 ^ 512` blocks exactly one in `2 ^ s` has the bit of a vector set in its mask, with `s` from 7 to 15. -/
theorem C58_share (k s : Nat) (hs : shares[k]? = some s) :
    Nat.card {M : Block // (goMask M).getLsbD k = true} = 2 ^ (512 - s) ∧
    Nat.card {M : Block // (cMask M).getLsbD k = true} = 2 ^ (512 - s) := by
  have hk : k < 32 := (List.getElem?_eq_some_iff.mp hs).1
  have hl : ∀ k, k < 32 → shares[k]? = some (ubcTable.getD k []).length := by decide +kernel
  have hle : ∀ k, k < 32 → (ubcTable.getD k []).length ≤ 512 := by decide +kernel
  have e : s = (ubcTable.getD k []).length := Option.some.inj (hs.symm.trans (hl k hk))
  have h := Ubc.card_meets k hk
  have hs' := hle k hk
  rw [← e] at h hs'
  have h2 : Nat.card {M : Block // ubcHolds k (sched M) = true} = 2 ^ (512 - s) := by
    rw [show 2 ^ 512 = 2 ^ (512 - s) * 2 ^ s by rw [← Nat.pow_add, Nat.sub_add_cancel hs']] at h
    exact Nat.eq_of_mul_eq_mul_right (Nat.two_pow_pos s) h
  simp only [cMask_eq, goMask_bit _ k hk]
  exact ⟨h2, h2⟩

set_option exponentiation.threshold 512 in
/-- Instance: one block in 2048 has the bit of I(43,0). -/
example : Nat.card {M : Block // (goMask M).getLsbD 0 = true} = 2 ^ 501 := (C58_share 0 11 rfl).1

set_option exponentiation.threshold 512 in
/-- C58: over all blocks, the masks have `1621 * 2 ^ 497` bits set: 1621 for every 32768 blocks. -/
theorem C58_total : Nat.card {x : Block × Fin 32 // (goMask x.1).getLsbD x.2 = true} = 1621 * 2 ^ 497 := by
  classical
  have e : {x : Block × Fin 32 // (goMask x.1).getLsbD x.2 = true} ≃
      (Σ k : Fin 32, {M : Block // (goMask M).getLsbD k = true}) :=
    { toFun := fun x => ⟨x.1.2, x.1.1, x.2⟩
      invFun := fun y => ⟨(y.2.1, y.1), y.2.2⟩
      left_inv := fun _ => rfl
      right_inv := fun _ => rfl }
  rw [Nat.card_congr e, Nat.card_sigma]
  have hs : ∀ k : Fin 32, shares[k.val]? = some (shares.getD k 0) := by decide +kernel
  rw [Finset.sum_congr rfl fun k _ => (C58_share k.val _ (hs k)).1]
  have hc : (∑ k : Fin 32, 2 ^ (15 - shares.getD k.val 0)) = 1621 := by decide +kernel
  rw [← hc, Finset.sum_mul]
  have hle : ∀ k : Fin 32, shares.getD k.val 0 ≤ 15 := by decide +kernel
  refine Finset.sum_congr rfl fun k _ => ?_
  rw [← Nat.pow_add]
  congr 1
  have := hle k
  omega

/-- C58: no 80 words, expanded from a block or not, give a mask with more than twelve bits set. -/
theorem C58_most (W : Fin 80 → Word) :
    bitsSet (Ubc.calculateDvMask (some W)) ≤ 12 ∧ bitsSet (C.Ubc.ubcCheck W) ≤ 12 := by
  have h : bitsSet (Ubc.calculateDvMask (some W)) ≤ 12 := by
    have := Ubc.most (fun t => if h : t < 80 then W ⟨t, h⟩ else 0)
    unfold bitsSet
    rw [List.countP_congr fun k hk => by rw [C20_mask_is_ubc W k (List.mem_range.mp hk)]]
    exact this
  exact ⟨h, by rw [C.ubcCheck_eq]; exact h⟩

/-- A block with as many bits as possible. -/
def twelve : Block := fun i =>
  [0x22011007#32, 0xa2454008#32, 0xc8a42007#32, 0x10000007#32, 0x10000010#32, 0x3#32].getD i.val 0

/-- Instance: the bits of I(44,0), I(46,2), I(47,2), I(48,2), I(51,2), II(46,0), II(50,2), II(51,0), II(51,2), II(54,0),
II(55,0), II(56,0). -/
theorem twelve_bits : bitsSet (goMask twelve) = 12 := by
  unfold bitsSet
  rw [List.countP_congr fun k hk => by
    rw [goMask_bit twelve k (List.mem_range.mp hk),
      ← ubcHolds_congr k (schedL_spec twelve _ (wordsL_spec twelve).1 (wordsL_spec twelve).2).2]]
  decide +kernel

private theorem card_bits (m : Word) : Nat.card {k : Fin 32 // m.getLsbD k = true} = bitsSet m := by
  classical
  rw [Nat.card_eq_fintype_card, Fintype.card_subtype, bitsSet, ← List.map_coe_finRange_eq_range, List.countP_map,
    Finset.card_def, Finset.filter_val, ← Multiset.countP_eq_card_filter]
  show Multiset.countP _ (↑(List.finRange 32) : Multiset (Fin 32)) = _
  rw [Multiset.coe_countP]
  refine List.countP_congr fun k _ => ?_
  simp

/-- A mask with no bit set is 0. -/
private theorem bits_pos (m : Word) (h : m ≠ 0) : 0 < bitsSet m := by
  refine Nat.pos_of_ne_zero fun h0 => h ?_
  refine BitVec.eq_of_getLsbD_eq fun k hk => ?_
  have := List.countP_eq_zero.mp h0 k (List.mem_range.mpr hk)
  simpa using this

set_option exponentiation.threshold 512 in
/-- C58: the blocks for which any vector is looked at are at most `1621 * 2 ^ 497`, fewer than one in twenty, and at least a
twelfth of that, more than one in 243. -/
theorem C58_rare : Nat.card {M : Block // goMask M ≠ 0} ≤ 1621 * 2 ^ 497 ∧
    1621 * 2 ^ 497 ≤ 12 * Nat.card {M : Block // goMask M ≠ 0} ∧
    20 * Nat.card {M : Block // goMask M ≠ 0} < 2 ^ 512 ∧ 2 ^ 512 < 243 * Nat.card {M : Block // goMask M ≠ 0} := by
  classical
  have e : {x : Block × Fin 32 // (goMask x.1).getLsbD x.2 = true} ≃
      (Σ M : {M : Block // goMask M ≠ 0}, {k : Fin 32 // (goMask M.1).getLsbD k = true}) :=
    { toFun := fun x => ⟨⟨x.1.1, fun h => by have := x.2; rw [h] at this; simp at this⟩, x.1.2, x.2⟩
      invFun := fun y => ⟨(y.1.1, y.2.1), y.2.2⟩
      left_inv := fun _ => rfl
      right_inv := fun _ => rfl }
  have : Fintype {M : Block // goMask M ≠ 0} := Fintype.ofFinite _
  have ht := C58_total
  rw [Nat.card_congr e, Nat.card_sigma] at ht
  simp only [card_bits] at ht
  have lo : Nat.card {M : Block // goMask M ≠ 0} ≤ 1621 * 2 ^ 497 := by
    rw [← ht, Nat.card_eq_fintype_card, Fintype.card, Finset.card_eq_sum_ones]
    exact Finset.sum_le_sum fun M _ => bits_pos _ M.2
  have hi : 1621 * 2 ^ 497 ≤ 12 * Nat.card {M : Block // goMask M ≠ 0} := by
    rw [← ht, Nat.card_eq_fintype_card, Fintype.card, Nat.mul_comm, ← Nat.nsmul_eq_mul]
    exact Finset.sum_le_card_nsmul _ _ _ fun M _ => (C58_most _).1
  refine ⟨lo, hi, ?_, ?_⟩ <;> omega

/-! ### Steps -/

private theorem meets_count (p : Nat → Prop) [DecidablePred p] (M : Block) (h : ∀ k, k < 32 → p k → ubcHolds k (sched M) = true) :
    (List.range 32).countP (fun k => decide (p k)) ≤ 12 :=
  Nat.le_trans (List.countP_mono_left fun k hk hp => h k (List.mem_range.mp hk) (of_decide_eq_true hp)) (Ubc.most (sched M))

private theorem countP_range (p : Nat → Bool) : (List.range 32).countP p ≤ 32 := by
  have := List.countP_le_length (p := p) (l := List.range 32)
  rwa [List.length_range] at this

private theorem blockWork_le (c : Nat) (H : Regs) (M : Block) :
    blockWork c H M ≤ 3 * c + 1294 ∧ (¬ GoDetected H M → blockWork c H M ≤ c + 1294) := by
  classical
  have h1 : lookedAt H M ≤ 32 := by
    unfold lookedAt
    split
    · exact countP_range _
    · omega
  have h2 : reconstructed H M ≤ 12 := meets_count _ M fun k _ h => h.1.2
  unfold blockWork
  constructor
  · split <;> omega
  · intro h
    rw [if_neg h]
    omega

/-- Blocks take at most `3c + 1294` steps each, and `c + 1294` if none is flagged. -/
private theorem work_le (c : Nat) (H : Regs) (Ms : List Block) :
    work c H Ms ≤ (3 * c + 1294) * Ms.length ∧
    ((safeChain (verdict GoDetected) H Ms).2 = false → work c H Ms ≤ (c + 1294) * Ms.length) := by
  induction Ms generalizing H with
  | nil => simp [LoopProofs.work_nil]
  | cons M Ms ih =>
    obtain ⟨i1, i2⟩ := ih (safeCompress detGo H M)
    obtain ⟨o1, o2⟩ := blockWork_le c H M
    rw [LoopProofs.work_cons, List.length_cons, Nat.mul_succ, Nat.mul_succ]
    refine ⟨by omega, fun h => ?_⟩
    have h' : (verdict GoDetected H M || (safeChain (verdict GoDetected) (safeCompress (verdict GoDetected) H M) Ms).2) =
        false := h
    rw [Bool.or_eq_false_iff] at h'
    have hd : ¬ GoDetected H M := fun q => by rw [(verdict_iff _ _ _).mpr q] at h'; cases h'.1
    rw [← detGo_eq] at h'
    rw [← detGo_eq] at i2
    have := i2 h'.2
    have := o2 hd
    omega

/-- C58: `Sum` never takes more than `c + 1294` steps for each block of the padded message if nothing is flagged, and
`3c + 1294` otherwise, where one compression takes `c`. -/
theorem C58_steps (n : Nat) (hn : n = 32 ∨ n = 64) (B : Loops.Mach) (order : EvalOrder) (data : List Byte) :
    ∃ r k, sumPkg B.build.block order data = .ok r ∧
      (∀ budget, Loops.sumPkg n B order data (budget + k) = .ok (r, budget)) ∧
      k ≤ (3 * compressionSteps B + 1294) * ((data.length + 72) / 64) ∧
      ((safeHash (verdict GoDetected) data).2 = false →
        k ≤ (compressionSteps B + 1294) * ((data.length + 72) / 64)) := by
  obtain ⟨r, hr, h⟩ := C47_sum_exact n hn B order data
  refine ⟨r, _, hr, h, ?_⟩
  rw [← pad_blocks_length]
  exact work_le _ _ _

private theorem cBlockWork_le (H : Regs) (M : Block) :
    Options.default.blockWork H M ≤ 1008 ∧ (¬ Detected H M → Options.default.blockWork H M ≤ 1006) := by
  classical
  have ed : Options.default.detect = true := rfl
  have eu : Options.default.ubc = true := rfl
  have h1 : Options.default.lookedAt H M ≤ 32 := by
    unfold Options.lookedAt
    split
    · exact countP_range _
    · omega
  have h2 : Options.default.reconstructed H M ≤ 12 := meets_count _ M fun k _ h => h.1.2 rfl
  unfold Options.blockWork
  rw [if_pos ed, if_pos eu]
  constructor
  · split <;> omega
  · intro h
    rw [if_neg (fun q => h (by rw [← C.flags_default]; exact q.2))]
    omega

private theorem cWork_le (H : Regs) (Ms : List Block) :
    Options.default.work H Ms ≤ 1008 * Ms.length ∧
    ((safeChain (verdict Detected) H Ms).2 = false → Options.default.work H Ms ≤ 1006 * Ms.length) := by
  induction Ms generalizing H with
  | nil => simp [Options.work]
  | cons M Ms ih =>
    obtain ⟨i1, i2⟩ := ih (Options.default.next H M)
    obtain ⟨o1, o2⟩ := cBlockWork_le H M
    rw [Options.work, List.length_cons, Nat.mul_succ, Nat.mul_succ]
    refine ⟨by omega, fun h => ?_⟩
    have h' : (verdict Detected H M || (safeChain (verdict Detected) (safeCompress (verdict Detected) H M) Ms).2) =
        false := h
    rw [Bool.or_eq_false_iff] at h'
    have hd : ¬ Detected H M := fun q => by rw [(verdict_iff _ _ _).mpr q] at h'; cases h'.1
    rw [C.next_default] at i2
    have := i2 h'.2
    rw [← C.next_default] at this
    have := o2 hd
    omega

/-- C58: package cgo's `Sum` never takes more than 1006 steps for each block of the padded message if nothing is flagged, and
1008 otherwise, and one more for each complete block of the data. -/
theorem C58_cgo_steps (n : Nat) (hn : n = 32 ∨ n = 64) (w : CLoops.Where) (cfg : C.Cfg)
    (hw : w.strict = true → w.ctx % 4 = 0 ∧ cfg.unaligned = false) (data : List Byte) (hd : data.length < 2 ^ n) :
    ∃ k, (∀ budget, CLoops.sumPkg n w cfg data (budget + k) = .ok (safeHash (verdict Detected) data, budget)) ∧
      k ≤ 1008 * ((data.length + 72) / 64) + data.length / 64 ∧
      ((safeHash (verdict Detected) data).2 = false →
        k ≤ 1006 * ((data.length + 72) / 64) + data.length / 64) := by
  refine ⟨_, C50_sum_exact n hn w cfg hw data hd, ?_⟩
  have h := cWork_le H0 (blocks (pad data))
  rw [pad_blocks_length] at h
  exact ⟨Nat.add_le_add_right h.1 _, fun q => Nat.add_le_add_right (h.2 q) _⟩

/-- The bytes of `twelve`. -/
def twelveBytes : List Byte :=
  [0x22, 0x01, 0x10, 0x07, 0xa2, 0x45, 0x40, 0x08, 0xc8, 0xa4, 0x20, 0x07, 0x10, 0x00, 0x00, 0x07,
   0x10, 0x00, 0x00, 0x10, 0x00, 0x00, 0x00, 0x03] ++ List.replicate 40 0

/-- C58: the bounds for blocks that are not flagged are reached: the steps of a message of 64 bytes, unflagged, that are not
due to the 83 (2) for the block of padding. -/
theorem C58_reached (cfg : C.Cfg) : twelveBytes.length = 64 ∧
    Loops.sumPkg 64 .portable .callFirst twelveBytes ((81 + 1294) + 83) =
      .ok (((safeHash (verdict GoDetected) twelveBytes).1, false), 0) ∧
    CLoops.sumPkg 64 ⟨false, 8, 7, 3⟩ cfg twelveBytes (1006 + 2 + 1) =
      .ok (((safeHash (verdict Detected) twelveBytes).1, false), 0) := by
  have hl : twelveBytes.length = 64 := by decide +kernel
  have hp : (pad twelveBytes).length / 64 = 2 := by decide +kernel
  have w1 : work 81 H0 (blocks (pad twelveBytes)) = 1458 := by
    rw [LoopProofs.work_eval 81 2 _ hp]
    decide +kernel
  have w2 : Options.default.work H0 (blocks (pad twelveBytes)) = 1008 := by
    rw [CLoopProofs.cWork_eval 2 _ hp]
    decide +kernel
  have d1 : (safeHash (verdict GoDetected) twelveBytes).2 = false := by
    rw [go_eval 2 _ hp]
    decide +kernel
  have d2 : (safeHash (verdict Detected) twelveBytes).2 = false := by
    rw [detected_eval 2 _ hp]
    decide +kernel
  revert hl w1 w2 d1 d2
  generalize twelveBytes = m
  intro hl w1 w2 d1 d2
  refine ⟨hl, ?_, ?_⟩
  · obtain ⟨r, hr, h⟩ := C47_sum_exact 64 (.inr rfl) .portable .callFirst m
    have := (sumPkg_call (build_impl .noasm) m).symm.trans hr
    cases this
    have h := h 0
    rw [show work (compressionSteps .portable) H0 (blocks (pad m)) = 1458 from w1, Nat.zero_add] at h
    rw [h, ← d1]
  · have h := C50_sum_exact 64 (.inr rfl) ⟨false, 8, 7, 3⟩ cfg (fun h => nomatch h) m (by rw [hl]; decide) 0
    rw [w2, hl, Nat.zero_add] at h
    exact h.trans (congrArg (fun x => Except.ok (x, 0)) (Prod.ext rfl d2))

end Verif.Props
