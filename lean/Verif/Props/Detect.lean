import Verif.Props.Stream
import Verif.Proofs.Pair

/-!
The detector: C11, C12, C20–C23.

For the fourteen vectors with test step 65 the code does what the properties say.  For the eighteen with test
step 58 it does not: the backward half of the recompression starts from the working variables moved by two
places (sha1cdblock_generic.go:189-199 rotates the five variables once for each of the seven skipped steps
64 … 58, and 7 mod 5 = 2).
-/

namespace Verif.Props

open Verif Verif.Model Verif.Spec

/-! ### C20, C21: conditions and table -/

/-- C20: bit `k` of `CalculateDvMask` is set iff all conditions of the `k`-th vector hold. -/
theorem C20_mask_is_ubc (W : Fin 80 → Word) (k : Nat) (hk : k < 32) :
    (Ubc.calculateDvMask (some W)).getLsbD k = ubcHolds k (fun t => if h : t < 80 then W ⟨t, h⟩ else 0) :=
  Ubc.mask_bit W _ (fun i => by rw [dif_pos i.isLt]) k hk

/-- C20: a nil argument gives 0. -/
theorem C20_mask_nil : Ubc.calculateDvMask none = 0 := rfl

/-- C21: the table has 32 entries and a terminator. -/
theorem C21_table_length : sha1Dvs.length = 33 ∧ (sha1Dvs.map DvInfo.DvType)[32]? = some 0 := by decide

/-- C21: the `k`-th entry names the `k`-th published vector, carries mask bit `k` and its test step, its
`Dm` is the message difference of that vector (disturbances plus corrections), lies in the SHA-1 expansion
code, and no disturbance of the last five steps before the test step is pending, so that the working
variables before the test step carry no difference. -/
theorem C21_table_is_published (k : Nat) (dv : DV) (h : dvList[k]? = some dv) :
    ∃ e, sha1Dvs[k]? = some e ∧
      e.DvType = (match dv.type with | .I => 1#32 | .II => 2#32) ∧
      e.DvK.toNat = dv.K ∧ e.DvB.toNat = dv.b ∧ e.TestT.toNat = dv.T ∧ e.MaskI = 0 ∧ e.MaskB.toNat = k ∧
      IsDiff dv (fun t => if h : t < 80 then e.Dm ⟨t, h⟩ else 0) ∧
      (∀ t (h1 : 16 ≤ t) (h2 : t < 80), e.Dm ⟨t, h2⟩ =
        rotl 1 (e.Dm ⟨t - 3, by omega⟩ ^^^ e.Dm ⟨t - 8, by omega⟩ ^^^ e.Dm ⟨t - 14, by omega⟩ ^^^
          e.Dm ⟨t - 16, by omega⟩)) ∧
      ∃ D, IsDW dv D ∧ ∀ i, i < 5 → D (dv.T + i) = 0 := by
  obtain ⟨e, he, hok⟩ := entry_of h
  have hb : ∀ dv ∈ dvList, dv.K < 100 ∧ dv.b < 100 ∧ dv.T < 100 := by decide
  obtain ⟨h1, h2, h3⟩ := hb dv (List.mem_of_getElem? h)
  have hk := dv_lt h
  refine ⟨e, he, hok.type, ?_, ?_, ?_, hok.maskI, ?_, hok.diff, ?_, hok.quiet⟩
  · rw [hok.K]; simp; omega
  · rw [hok.b]; simp; omega
  · rw [hok.T]; simp; omega
  · rw [hok.maskB]; simp; omega
  · intro t h1 h2
    have := hok.diff.expand t h1 h2
    simpa only [ext80, dif_pos h2, dif_pos (show t - 3 < 80 by omega), dif_pos (show t - 8 < 80 by omega),
      dif_pos (show t - 14 < 80 by omega), dif_pos (show t - 16 < 80 by omega)] using this

/-- Instance: II(52,0), the vector of the SHAttered collision, is number 27. -/
example : dvList[27]? = some ⟨.II, 52, 0, 65⟩ := by decide

/-- C21: the vectors are pairwise different and there are 32. -/
theorem C21_vectors_distinct : dvList.Nodup ∧ dvList.length = 32 := by decide

/-! ### C23: the recompression test -/

/-- C23 for test step 65: the test says yes iff the (unique) chaining value from which the second message
reaches `state` compresses the second message to `h`.  Missing: test step 58 (`C23_T58_actual`,
`C23_T58_refuted`). -/
theorem C23_recompression_exact_partial (m1 dm : Fin 80 → Word) (state h : Regs) (W : Nat → Word)
    (hW : ∀ i : Fin 80, W i = m1 i ^^^ dm i) :
    ∃ H', steps W 65 H' = state ∧ (∀ H'', steps W 65 H'' = state → H'' = H') ∧
      (hasCollided 65 m1 dm state h = true ↔ H'.add (steps W 80 H') = h) := by
  obtain ⟨H', hs⟩ := steps_surj W 65 state
  refine ⟨H', hs, fun H'' h2 => steps_inj W 65 (h2.trans hs.symm), ?_⟩
  have key := hasCollided_iff 65 (by decide) (by decide) m1 dm state h W (fun i hi => (hW ⟨i, hi⟩).symm)
  have e : (65 : Word).toNat = 65 := rfl
  rw [e] at key
  have h80 : steps W 80 H' = runSteps W 65 15 state := by rw [← hs, ← steps_add]
  rw [key, h80]
  constructor
  · rintro ⟨H'', h1, h2⟩
    have : H'' = H' := steps_inj W 65 (h1.trans hs.symm)
    rw [← this]; exact h2
  · intro h2; exact ⟨H', hs, h2⟩

/-- What the test computes at step 58: the chaining value is reconstructed from the wrong state. -/
theorem C23_T58_actual (m1 dm : Fin 80 → Word) (state h : Regs) (W : Nat → Word)
    (hW : ∀ i : Fin 80, W i = m1 i ^^^ dm i) :
    hasCollided 58 m1 dm state h = true ↔
      ∃ H', steps W 58 H' = shift2 state ∧ H'.add (runSteps W 58 22 state) = h :=
  hasCollided_iff 58 (by decide) (by decide) m1 dm state h W (fun i hi => (hW ⟨i, hi⟩).symm)

/-- C23 fails at test step 58, on all data: if the second message, from chaining value `H'`, reaches `state`
and compresses to `h` — so that the answer should be yes — the test says yes only if the five working
variables before step 58 are all equal. -/
theorem C23_T58_refuted (m1 dm : Fin 80 → Word) (H' : Regs) (W : Nat → Word)
    (hW : ∀ i : Fin 80, W i = m1 i ^^^ dm i) :
    hasCollided 58 m1 dm (steps W 58 H') (H'.add (steps W 80 H')) = true ↔
      (steps W 58 H').a = (steps W 58 H').b ∧ (steps W 58 H').b = (steps W 58 H').c ∧
      (steps W 58 H').c = (steps W 58 H').d ∧ (steps W 58 H').d = (steps W 58 H').e := by
  rw [C23_T58_actual m1 dm _ _ W hW, ← shift2_fix]
  have h80 : steps W 80 H' = runSteps W 58 22 (steps W 58 H') := by rw [← steps_add]
  rw [h80]
  constructor
  · rintro ⟨H'', h1, h2⟩
    rw [← h1, regs_add_cancel h2]
  · intro h; exact ⟨H', h.symm, rfl⟩

/-! #### Every step number

The table only names steps 58 and 65.  `hasCollided` takes any step; from 40 to 65 its loops cover both directions. -/

theorem rotn_five (n : Nat) (s : Regs) : rotn (n + 5) s = rotn n s := by
  show rot1 (rot1 (rot1 (rot1 (rot1 (rotn n s))))) = _
  rfl

theorem rotn_mod (n : Nat) (s : Regs) : rotn n s = rotn (n % 5) s := by
  induction n using Nat.strongRecOn with
  | _ n ih =>
    by_cases h : n < 5
    · rw [Nat.mod_eq_of_lt h]
    · rw [show n = n - 5 + 5 by omega, rotn_five, ih (n - 5) (by omega), Nat.add_mod_right]

/-- The right answer of the recompression test at step `T`: the chaining value from which the second message
reaches `state` before step `T` compresses the second message to `h`. -/
def Reaches (W : Nat → Word) (T : Nat) (state h : Regs) : Prop :=
  ∃ H', steps W T H' = state ∧ H'.add (steps W 80 H') = h

/-- C23 for every step from 40 to 65: the test is right on all data iff the step is a multiple of five. -/
theorem C23_exact_iff (T : Word) (h40 : 40 ≤ T.toNat) (h65 : T.toNat ≤ 65) :
    (∀ (m1 dm : Fin 80 → Word) (state h : Regs) (W : Nat → Word), (∀ i : Fin 80, W i = m1 i ^^^ dm i) →
      (hasCollided T m1 dm state h = true ↔ Reaches W T.toNat state h)) ↔ T.toNat % 5 = 0 := by
  have h80 : ∀ (W : Nat → Word) (H' : Regs),
      steps W 80 H' = runSteps W T.toNat (80 - T.toNat) (steps W T.toNat H') := fun W H' => by
    rw [← steps_add, show T.toNat + (80 - T.toNat) = 80 by omega]
  constructor
  · intro h
    obtain ⟨H', hs⟩ := steps_surj (fun _ => 0) T.toNat ⟨0, 1, 2, 3, 4⟩
    have key := (h (fun _ => 0) (fun _ => 0) ⟨0, 1, 2, 3, 4⟩ (H'.add (steps (fun _ => 0) 80 H')) (fun _ => 0)
      (by simp)).mpr ⟨H', hs, rfl⟩
    rw [hasCollided_iff T h65 h40 _ _ _ _ (fun _ => 0) (by simp), h80, hs] at key
    obtain ⟨H'', h1, h2⟩ := key
    rw [regs_add_cancel h2, hs, rotn_mod] at h1
    have h5 : (65 - T.toNat) % 5 = 0 ∨ (65 - T.toNat) % 5 = 1 ∨ (65 - T.toNat) % 5 = 2 ∨
      (65 - T.toNat) % 5 = 3 ∨ (65 - T.toNat) % 5 = 4 := by omega
    rcases h5 with e | e | e | e | e
    · omega
    all_goals
      rw [e] at h1
      exact absurd (congrArg Regs.a h1) (by decide)
  · intro h5 m1 dm state h W hW
    rw [hasCollided_iff T h65 h40 m1 dm state h W (fun i hi => (hW ⟨i, hi⟩).symm), rotn_mod,
      show (65 - T.toNat) % 5 = 0 by omega]
    constructor
    · rintro ⟨H', h1, h2⟩
      exact ⟨H', h1, by rw [h80, h1]; exact h2⟩
    · rintro ⟨H', h1, h2⟩
      exact ⟨H', h1, by rw [h80, h1] at h2; exact h2⟩

/-- Instance: of the two steps in the table one is a multiple of five. -/
example : (65 : Word).toNat % 5 = 0 ∧ (58 : Word).toNat % 5 ≠ 0 ∧ ∀ dv ∈ sha1Dvs, dv.DvType ≠ 0 →
    40 ≤ dv.TestT.toNat ∧ dv.TestT.toNat ≤ 65 := by decide +kernel

/-! ### C11: no false positives -/

/-- Instance: on the all-zero message and the chaining value of SHA-1 the test at step 58 says no although
the correct answer is yes; at step 65, on the same data, it says yes. -/
theorem C23_T58_wrong_answer :
    hasCollided 58 (fun _ => 0) (fun _ => 0) (steps (fun _ => 0) 58 H0) (H0.add (steps (fun _ => 0) 80 H0))
      = false ∧
    hasCollided 65 (fun _ => 0) (fun _ => 0) (steps (fun _ => 0) 65 H0) (H0.add (steps (fun _ => 0) 80 H0))
      = true := by
  constructor
  · refine Bool.eq_false_iff.mpr fun h => ?_
    have := ((C23_T58_refuted (fun _ => 0) (fun _ => 0) H0 (fun _ => 0) (by simp)).mp h).1
    revert this
    decide +kernel
  · obtain ⟨H', h1, h2, h3⟩ := C23_recompression_exact_partial (fun _ => 0) (fun _ => 0)
      (steps (fun _ => 0) 65 H0) (H0.add (steps (fun _ => 0) 80 H0)) (fun _ => 0) (by simp)
    rw [h3, ← h2 H0 rfl]

/-- C11 for flags raised by a vector with test step 65: the block has a sibling — a different block and a
chaining value with the same SHA-1 compression output.  Missing: for test step 58 the code tests
`Misaligned` instead, which gives no collision. -/
theorem C11_flag_genuine_partial (B : Build) (m D : List Byte)
    (h : sumPkg B.block .callFirst m = .ok (D, true)) :
    ∃ pre M post, blocks (pad m) = pre ++ M :: post ∧
      ((∃ M' H', M' ≠ M ∧ compress H' M' = compress (safeChain goVerdict H0 pre).1 M) ∨
       ∃ dv ∈ dvList, dv.T = 58 ∧ Misaligned dv (safeChain goVerdict H0 pre).1 M) := by
  obtain ⟨pre, M, post, e, k, dv, hk, _, hd⟩ := (C13_flag_is_blockwise B m D true h).mp rfl
  refine ⟨pre, M, post, e, ?_⟩
  rcases hd with ⟨_, δ, H', hδ, _, h2⟩ | ⟨hT, hm⟩
  · exact .inl ⟨xorBlock M δ, H', xorBlock_ne hk hδ M, h2⟩
  · exact .inr ⟨dv, List.mem_of_getElem? hk, hT, hm⟩

/-! ### C12: no false negatives -/

/-- Instance. -/
example (B : Build) : sumPkg B.block .callFirst shattered1 = .ok (shatteredDigest1, true) := by
  rw [C14_safe_hash, shattered1_hash]

/-- C12 for the fourteen vectors with test step 65: a block of the padded message that satisfies the bit
conditions of such a vector and has a sibling for it is flagged.  Missing: test step 58
(`C12_T58_missed`). -/
theorem C12_detects_partial (B : Build) (m : List Byte) (pre post : List Block) (M : Block)
    (hb : blocks (pad m) = pre ++ M :: post) (k : Nat) (dv : DV) (hk : dvList[k]? = some dv)
    (hT : dv.T = 65) (hu : ubcHolds k (sched M) = true)
    (hs : Sibling dv (safeChain goVerdict H0 pre).1 M) :
    ∃ D, sumPkg B.block .callFirst m = .ok (D, true) := by
  obtain ⟨D, c, h⟩ := C06_sum_no_panic B .callFirst m
  have : c = true := (C13_flag_is_blockwise B m D c h).mpr ⟨pre, M, post, hb, k, dv, hk, hu, .inl ⟨hT, hs⟩⟩
  exact ⟨D, this ▸ h⟩

/-- Instance: the hypotheses hold for the fifth block of shattered-1.pdf. -/
example : blocks (pad shattered1) = shPre1 ++ shM1 :: shPost1 ∧ dvList[27]? = some sh_dv ∧ sh_dv.T = 65 ∧
    ubcHolds 27 (sched shM1) = true ∧ Sibling sh_dv (safeChain goVerdict H0 shPre1).1 shM1 := by
  rw [sh_chain1]; exact ⟨sh_pad1, sh_dv_get, rfl, sh_ubc1, sh_sibling1⟩

/-- C12 fails for the other eighteen: a message none of whose blocks satisfies the conditions of a vector
with test step 65, and none of whose working states before step 58 is five equal words, is not flagged,
however many genuine sibling collisions with test step 58 it contains (a genuine sibling passes the code's
test only if those five words are equal). -/
theorem C12_T58_missed (B : Build) (m : List Byte)
    (h65 : ∀ M ∈ blocks (pad m), ∀ k dv, dvList[k]? = some dv → dv.T = 65 → ubcHolds k (sched M) = false)
    (hgen : ∀ pre M post, blocks (pad m) = pre ++ M :: post → ∀ k dv, dvList[k]? = some dv → dv.T = 58 →
      ubcHolds k (sched M) = true → Sibling dv (safeChain goVerdict H0 pre).1 M)
    (hne : ∀ pre M post, blocks (pad m) = pre ++ M :: post →
      ¬ ((steps (sched M) 58 (safeChain goVerdict H0 pre).1).a =
          (steps (sched M) 58 (safeChain goVerdict H0 pre).1).b)) :
    sumPkg B.block .callFirst m = .ok (sha1 m, false) := by
  obtain ⟨D, c, h⟩ := C06_sum_no_panic B .callFirst m
  have hc : c = false := by
    refine Bool.eq_false_iff.mpr fun hc => ?_
    obtain ⟨pre, M, post, e, k, dv, hk, hu, hd⟩ := (C13_flag_is_blockwise B m D c h).mp hc
    rcases hd with ⟨hT, _⟩ | ⟨hT, δ, H'', hδ, hm1, hm2⟩
    · rw [h65 M (by rw [e]; simp) k dv hk hT] at hu; exact absurd hu (by decide)
    · obtain ⟨δ', H', hδ', hs1, hs2⟩ := hgen pre M post e k dv hk hT hu
      rw [xorBlock_unique (dv_facts hk).2 hδ' hδ M] at hs1 hs2
      rw [hT] at hm1 hm2 hs1
      rw [compress_split H' _ 58 (by decide), hs1] at hs2
      have : H'' = H' := regs_add_cancel (hm2.trans hs2.symm)
      rw [this, hs1] at hm1
      exact hne pre M post e ((shift2_fix _).mp hm1.symm).1
  subst hc
  rw [h]
  rw [C01_sum_unflagged_is_sha1 B m D h]

/-- The per-vector form of the previous theorem: on the data of a genuine sibling for any vector with test
step 58, the code's test answers yes only if the five working variables before step 58 are equal. -/
theorem C12_T58_test (k : Nat) (dv : DV) (hk : dvList[k]? = some dv) (hT : dv.T = 58) (H : Regs) (M : Block)
    (hs : Sibling dv H M) :
    ∃ e, sha1Dvs[k]? = some e ∧
      (hasCollided e.TestT (fun i => sched M i) e.Dm (steps (sched M) 58 H) (compress H M) = true ↔
        (steps (sched M) 58 H).a = (steps (sched M) 58 H).b ∧
        (steps (sched M) 58 H).b = (steps (sched M) 58 H).c ∧
        (steps (sched M) 58 H).c = (steps (sched M) 58 H).d ∧
        (steps (sched M) 58 H).d = (steps (sched M) 58 H).e) := by
  obtain ⟨e, he, hok⟩ := entry_of hk
  refine ⟨e, he, ?_⟩
  have := test_iff k dv e hok (.inl hT) (dv_facts hk).2 H M
  rw [hT] at this
  rw [this, ← shift2_fix]
  obtain ⟨δ', H', hδ', hs1, hs2⟩ := hs
  rw [hT] at hs1
  rw [compress_split H' _ 58 (by decide), hs1] at hs2
  constructor
  · rintro (⟨h, _⟩ | ⟨_, δ, H'', hδ, hm1, hm2⟩)
    · rw [hT] at h; exact absurd h (by decide)
    · rw [xorBlock_unique (dv_facts hk).2 hδ hδ' M] at hm1 hm2
      rw [hT] at hm1 hm2
      have : H'' = H' := regs_add_cancel (hm2.trans hs2.symm)
      rw [this, hs1] at hm1
      exact hm1.symm
  · intro h
    refine .inr ⟨hT, δ', H', hδ', ?_, ?_⟩
    · rw [hT, hs1, h]
    · rw [hT]; exact hs2

/-! ### C22: both halves -/

/-- C22 for test step 65: if two messages contain blocks that differ by the vector's difference, meet in the
state before the test step and compress to the same value, and one of them satisfies the bit conditions, then
both messages are flagged.  Missing: test step 58. -/
theorem C22_both_halves_partial (B : Build) (m1 m2 : List Byte) (pre1 post1 pre2 post2 : List Block)
    (M1 M2 : Block) (hb1 : blocks (pad m1) = pre1 ++ M1 :: post1)
    (hb2 : blocks (pad m2) = pre2 ++ M2 :: post2) (k : Nat) (dv : DV) (hk : dvList[k]? = some dv)
    (hT : dv.T = 65) (δ : Nat → Word) (hδ : IsDiff dv δ) (hM : ∀ i : Fin 16, M2 i = M1 i ^^^ δ i)
    (hst : steps (sched M2) 65 (safeChain goVerdict H0 pre2).1 =
      steps (sched M1) 65 (safeChain goVerdict H0 pre1).1)
    (hout : compress (safeChain goVerdict H0 pre2).1 M2 = compress (safeChain goVerdict H0 pre1).1 M1)
    (hu : ubcHolds k (sched M1) = true) :
    (∃ D1, sumPkg B.block .callFirst m1 = .ok (D1, true)) ∧
      ∃ D2, sumPkg B.block .callFirst m2 = .ok (D2, true) := by
  have hM2 : M2 = xorBlock M1 δ := by funext i; exact hM i
  rw [hM2] at hst hout
  rw [← hT] at hst
  refine ⟨C12_detects_partial B m1 pre1 post1 M1 hb1 k dv hk hT hu ⟨δ, _, hδ, hst, hout⟩,
    C12_detects_partial B m2 pre2 post2 M2 hb2 k dv hk hT ?_ ?_⟩
  · rw [hM2, ubc_symm hk hδ]; exact hu
  · rw [hM2]; exact sibling_symm hδ hst hout

/-- Instance: the hypotheses hold for the two SHAttered files. -/
example : blocks (pad shattered1) = shPre1 ++ shM1 :: shPost1 ∧
    blocks (pad shattered2) = shPre2 ++ shM2 :: shPost2 ∧ dvList[27]? = some sh_dv ∧ sh_dv.T = 65 ∧
    (∃ δ, IsDiff sh_dv δ ∧ ∀ i : Fin 16, shM2 i = shM1 i ^^^ δ i) ∧
    steps (sched shM2) 65 (safeChain goVerdict H0 shPre2).1 =
      steps (sched shM1) 65 (safeChain goVerdict H0 shPre1).1 ∧
    compress (safeChain goVerdict H0 shPre2).1 shM2 = compress (safeChain goVerdict H0 shPre1).1 shM1 ∧
    ubcHolds 27 (sched shM1) = true := by
  rw [sh_chain1, sh_chain2]
  exact ⟨sh_pad1, sh_pad2, sh_dv_get, rfl, sh_diff, sh_state, sh_out, sh_ubc1⟩

/-- The bit conditions themselves are symmetric, for all 32 vectors. -/
theorem C22_conditions_symmetric (k : Nat) (dv : DV) (hk : dvList[k]? = some dv) (δ : Nat → Word)
    (hδ : IsDiff dv δ) (M : Block) : ubcHolds k (sched (xorBlock M δ)) = ubcHolds k (sched M) :=
  ubc_symm hk hδ M

end Verif.Props
