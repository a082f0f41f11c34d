import Verif.Props.Reduction
import Verif.Props.Path
import Verif.Props.Share
import Verif.Props.Held
import Mathlib.Tactic.IntervalCases

/-!
C62: what a pair of messages with the same digest must look like.  C31 finds two blocks on which the computations meet;
C59 says that these, if neither is flagged, follow none of the vectors.
-/

namespace Verif.Props

open Verif Verif.Model Verif.Spec Verif.Path

theorem be32_inj {a b c d a' b' c' d' : Byte} (h : be32 a b c d = be32 a' b' c' d') :
    a = a' ∧ b = b' ∧ c = c' ∧ d = d' := by
  unfold be32 at h
  have e : ∀ (x y z w : Byte), (x ++ y ++ z ++ w : Word).extractLsb' 24 8 = x ∧ (x ++ y ++ z ++ w : Word).extractLsb' 16 8 = y ∧
      (x ++ y ++ z ++ w : Word).extractLsb' 8 8 = z ∧ (x ++ y ++ z ++ w : Word).extractLsb' 0 8 = w := by
    intro x y z w
    refine ⟨?_, ?_, ?_, ?_⟩ <;>
    · apply BitVec.eq_of_getLsbD_eq
      intro i hi
      simp only [BitVec.getLsbD_extractLsb', BitVec.getLsbD_append]
      have : i < 8 := hi
      simp [this, show ¬ 24 + i < 8 by omega, show ¬ 24 + i - 8 < 8 by omega, show ¬ 24 + i - 8 - 8 < 8 by omega,
        show ¬ 16 + i < 8 by omega, show ¬ 16 + i - 8 < 8 by omega, show 16 + i - 8 - 8 < 8 by omega,
        show ¬ 8 + i < 8 by omega]
      try congr 1
      try (change _ = i; omega)
  obtain ⟨p1, p2, p3, p4⟩ := e a b c d
  obtain ⟨q1, q2, q3, q4⟩ := e a' b' c' d'
  rw [h] at p1 p2 p3 p4
  exact ⟨p1.symm.trans q1, p2.symm.trans q2, p3.symm.trans q3, p4.symm.trans q4⟩

theorem toBlock_inj {x y : List Byte} (hx : x.length = 64) (hy : y.length = 64) (h : toBlock x = toBlock y) : x = y := by
  apply List.ext_getElem (by omega)
  intro i h1 h2
  obtain ⟨a, b, c, d⟩ := be32_inj (congrFun h ⟨i / 4, by omega⟩)
  simp only at a b c d
  have key : x.getD i 0 = y.getD i 0 := by
    rcases (by omega : i = 4 * (i / 4) ∨ i = 4 * (i / 4) + 1 ∨ i = 4 * (i / 4) + 2 ∨ i = 4 * (i / 4) + 3) with e | e | e | e
    · rw [e]; exact a
    · rw [e]; exact b
    · rw [e]; exact c
    · rw [e]; exact d
  rwa [List.getD_eq_getElem?_getD, List.getD_eq_getElem?_getD, List.getElem?_eq_getElem h1, List.getElem?_eq_getElem h2] at key

/-- The reduction of C31 in terms of blocks. -/
theorem meet (det : Regs → Block → Bool) (m m' : List Byte) (hm : m.length < 2 ^ 61) (hm' : m'.length < 2 ^ 61)
    (hne : m ≠ m') (h : (safeHash det m).1 = (safeHash det m').1) :
    ∃ pre M pre' M' post, blocks (pad m) = pre ++ M :: post ∧ blocks (pad m') = pre' ++ M' :: post ∧
      ((safeChain det H0 pre).1, M) ≠ ((safeChain det H0 pre').1, M') ∧
      safeCompress det (safeChain det H0 pre).1 M = safeCompress det (safeChain det H0 pre').1 M' := by
  obtain ⟨p, x, p', x', q, h1, h2, h3, h4, h5, h6, h7, h8⟩ := safeHash_reduce det m m' hm hm' hne h
  refine ⟨blocks p, toBlock x, blocks p', toBlock x', blocks q, ?_, ?_, ?_, h8⟩
  · rw [h1, List.append_assoc, blocks_append _ _ h3, blocks_append _ _ (by omega), blocks_one x h5]; rfl
  · rw [h2, List.append_assoc, blocks_append _ _ h4, blocks_append _ _ (by omega), blocks_one x' h6]; rfl
  · intro e
    apply h7
    rw [Prod.mk.injEq] at e ⊢
    exact ⟨e.1, toBlock_inj h5 h6 e.2⟩

theorem unflagged_parts {det : Regs → Block → Bool} {Ms pre post : List Block} {M : Block} {H : Regs}
    (h : (safeChain det H Ms).2 = false) (e : Ms = pre ++ M :: post) :
    (safeChain det H pre).1 = pre.foldl compress H ∧ det (safeChain det H pre).1 M = false := by
  rw [e, safeChain_append] at h
  simp only [safeChain, Bool.or_eq_false_iff] at h
  exact ⟨safeChain_unflagged det H pre h.1, h.2.1⟩

theorem new_kind (det : Regs → Block → Bool) (m m' : List Byte) (hm : m.length < 2 ^ 61) (hm' : m'.length < 2 ^ 61)
    (hne : m ≠ m') (h : (safeHash det m).1 = (safeHash det m').1) (hf : (safeHash det m).2 = false)
    (hf' : (safeHash det m').2 = false) :
    ∃ pre M pre' M' post, blocks (pad m) = pre ++ M :: post ∧ blocks (pad m') = pre' ++ M' :: post ∧
      (pre.foldl compress H0, M) ≠ (pre'.foldl compress H0, M') ∧
      compress (pre.foldl compress H0) M = compress (pre'.foldl compress H0) M' ∧
      det (pre.foldl compress H0) M = false ∧ det (pre'.foldl compress H0) M' = false := by
  obtain ⟨pre, M, pre', M', post, h1, h2, h3, h4⟩ := meet det m m' hm hm' hne h
  obtain ⟨e1, d1⟩ := unflagged_parts (det := det) (H := H0) hf h1
  obtain ⟨e2, d2⟩ := unflagged_parts (det := det) (H := H0) hf' h2
  unfold safeCompress at h4
  rw [d1, d2] at h4
  rw [e1] at h3 h4 d1
  rw [e2] at h3 h4 d2
  exact ⟨pre, M, pre', M', post, h1, h2, h3, h4, d1, d2⟩

/-- C62, package cgo: two different messages that get the same digest and are not flagged are a SHA-1 collision of a new kind.
Somewhere in the two messages SHA-1's compression function is applied to different arguments with equal results, and these
two computations follow none of the 32 vectors. -/
theorem C62_cgo_new_kind (cfg : C.Cfg) (m m' : List Byte) (hm : m.length < 2 ^ 61) (hm' : m'.length < 2 ^ 61)
    (hne : m ≠ m') (D : List Byte) (h : Cgo.sumPkg cfg m = .ok (D, false)) (h' : Cgo.sumPkg cfg m' = .ok (D, false)) :
    sha1 m = D ∧ sha1 m' = D ∧
    ∃ pre M pre' M' post, blocks (pad m) = pre ++ M :: post ∧ blocks (pad m') = pre' ++ M' :: post ∧
      (pre.foldl compress H0, M) ≠ (pre'.foldl compress H0, M') ∧
      compress (pre.foldl compress H0) M = compress (pre'.foldl compress H0) M' ∧
      ∀ dv ∈ dvList, ¬ Follows dv (pre.foldl compress H0) M (pre'.foldl compress H0) M' := by
  rw [cgo_sumPkg] at h h'
  have h := Except.ok.inj h
  have h' := Except.ok.inj h'
  have f := congrArg Prod.snd h
  have f' := congrArg Prod.snd h'
  have g := congrArg Prod.fst h
  have g' := congrArg Prod.fst h'
  obtain ⟨pre, M, pre', M', post, h1, h2, h3, h4, d, _⟩ := new_kind _ m m' hm hm' hne (g.trans g'.symm) f f'
  refine ⟨(safeHash_unflagged _ m f).symm.trans g, (safeHash_unflagged _ m' f').symm.trans g', pre, M, pre', M', post,
    h1, h2, h3, h4, fun dv hdv hF => ?_⟩
  obtain ⟨k, hk⟩ := List.getElem?_of_mem hdv
  have hd : C.cVerdict (pre.foldl compress H0) M = true :=
    (verdict_iff _ _ _).mpr (follows_detected hk hF h4.symm)
  rw [hd] at d
  cases d

/-- C62, package sha1cd, in every build: the same for the fourteen vectors with test step 65. -/
theorem C62_go_new_kind (B : Build) (m m' : List Byte) (hm : m.length < 2 ^ 61) (hm' : m'.length < 2 ^ 61)
    (hne : m ≠ m') (D : List Byte) (h : sumPkg B.block .callFirst m = .ok (D, false))
    (h' : sumPkg B.block .callFirst m' = .ok (D, false)) :
    sha1 m = D ∧ sha1 m' = D ∧
    ∃ pre M pre' M' post, blocks (pad m) = pre ++ M :: post ∧ blocks (pad m') = pre' ++ M' :: post ∧
      (pre.foldl compress H0, M) ≠ (pre'.foldl compress H0, M') ∧
      compress (pre.foldl compress H0) M = compress (pre'.foldl compress H0) M' ∧
      ∀ dv ∈ dvList, dv.T = 65 → ¬ Follows dv (pre.foldl compress H0) M (pre'.foldl compress H0) M' := by
  rw [C14_safe_hash] at h h'
  have h := Except.ok.inj h
  have h' := Except.ok.inj h'
  have f := congrArg Prod.snd h
  have f' := congrArg Prod.snd h'
  have g := congrArg Prod.fst h
  have g' := congrArg Prod.fst h'
  obtain ⟨pre, M, pre', M', post, h1, h2, h3, h4, d, _⟩ := new_kind _ m m' hm hm' hne (g.trans g'.symm) f f'
  refine ⟨(safeHash_unflagged _ m f).symm.trans g, (safeHash_unflagged _ m' f').symm.trans g', pre, M, pre', M', post,
    h1, h2, h3, h4, fun dv hdv hT hF => ?_⟩
  obtain ⟨k, hk⟩ := List.getElem?_of_mem hdv
  have hd : goVerdict (pre.foldl compress H0) M = true :=
    (verdict_iff _ _ _).mpr ⟨k, dv, hk, follows_conds hk hF, .inl ⟨hT, follows_sibling hk hF h4.symm⟩⟩
  rw [hd] at d
  cases d

/-! ### Both messages flagged, or one of them -/

/-- The chaining value after the block was compressed `i` times. -/
def again (M : Block) : Nat → Regs → Regs
  | 0, H => H
  | i + 1, H => compress (again M i H) M

theorem safe_meet (det : Regs → Block → Bool) (H H' : Regs) (M M' : Block) (hne : (H, M) ≠ (H', M'))
    (h : safeCompress det H M = safeCompress det H' M') :
    (∃ i j, i ≤ 2 ∧ j ≤ 2 ∧ (again M i H, M) ≠ (again M' j H', M') ∧
      compress (again M i H) M = compress (again M' j H') M') ∨
    M = M' ∧ (det H M = false ∧ det H' M' = true ∧ H = compress (compress H' M') M' ∨
      det H M = true ∧ det H' M' = false ∧ H' = compress (compress H M) M) := by
  unfold safeCompress at h
  cases d : det H M <;> cases d' : det H' M' <;> simp only [d, d', Bool.false_eq_true, if_true, if_false] at h
  · exact .inl ⟨0, 0, by omega, by omega, hne, h⟩
  · by_cases e : (H, M) = (compress (compress H' M') M', M')
    · rw [Prod.mk.injEq] at e
      exact .inr ⟨e.2, .inl ⟨rfl, rfl, e.1⟩⟩
    · exact .inl ⟨0, 2, by omega, by omega, e, h⟩
  · by_cases e : (compress (compress H M) M, M) = (H', M')
    · rw [Prod.mk.injEq] at e
      exact .inr ⟨e.2, .inr ⟨rfl, rfl, e.1.symm⟩⟩
    · exact .inl ⟨2, 0, by omega, by omega, e, h⟩
  · by_cases e2 : (compress (compress H M) M, M) = (compress (compress H' M') M', M')
    · rw [Prod.mk.injEq] at e2
      by_cases e1 : (compress H M, M) = (compress H' M', M')
      · rw [Prod.mk.injEq] at e1
        exact .inl ⟨0, 0, by omega, by omega, hne, e1.1⟩
      · exact .inl ⟨1, 1, by omega, by omega, e1, e2.1⟩
    · exact .inl ⟨2, 2, by omega, by omega, e2, h⟩

/-- What two computations of a digest with equal results contain: two applications of SHA-1's compression function to different
arguments with equal results, or a chaining value that one of them reaches by applying it twice to a flagged block and the
other one otherwise, followed by the same block, not flagged there. -/
def Meets (det : Regs → Block → Bool) (m m' : List Byte) : Prop :=
  ∃ pre M pre' M' post, blocks (pad m) = pre ++ M :: post ∧ blocks (pad m') = pre' ++ M' :: post ∧
    let H := (safeChain det H0 pre).1
    let H' := (safeChain det H0 pre').1
    (H, M) ≠ (H', M') ∧
    ((∃ i j, i ≤ 2 ∧ j ≤ 2 ∧ (again M i H, M) ≠ (again M' j H', M') ∧
      compress (again M i H) M = compress (again M' j H') M') ∨
    M = M' ∧ (det H M = false ∧ det H' M' = true ∧ H = compress (compress H' M') M' ∨
      det H M = true ∧ det H' M' = false ∧ H' = compress (compress H M) M))

/-- C62: whatever the flags.  Compressing flagged blocks three times opens no way to collisions that is not a
collision of SHA-1's compression function, apart from one coincidence of chaining values. -/
theorem C62_any_collision (B : Build) (m m' : List Byte) (hm : m.length < 2 ^ 61) (hm' : m'.length < 2 ^ 61)
    (hne : m ≠ m') (D : List Byte) (c c' : Bool) (h : sumPkg B.block .callFirst m = .ok (D, c))
    (h' : sumPkg B.block .callFirst m' = .ok (D, c')) : Meets (verdict GoDetected) m m' := by
  rw [C14_safe_hash] at h h'
  obtain ⟨pre, M, pre', M', post, h1, h2, h3, h4⟩ := meet goVerdict m m' hm hm' hne
    ((congrArg Prod.fst (Except.ok.inj h)).trans (congrArg Prod.fst (Except.ok.inj h')).symm)
  exact ⟨pre, M, pre', M', post, h1, h2, h3, safe_meet _ _ _ _ _ h3 h4⟩

/-- C62: the same for package cgo. -/
theorem C62_cgo_any_collision (cfg : C.Cfg) (m m' : List Byte) (hm : m.length < 2 ^ 61) (hm' : m'.length < 2 ^ 61)
    (hne : m ≠ m') (D : List Byte) (c c' : Bool) (h : Cgo.sumPkg cfg m = .ok (D, c))
    (h' : Cgo.sumPkg cfg m' = .ok (D, c')) : Meets (verdict Detected) m m' := by
  rw [cgo_sumPkg] at h h'
  obtain ⟨pre, M, pre', M', post, h1, h2, h3, h4⟩ := meet C.cVerdict m m' hm hm' hne
    ((congrArg Prod.fst (Except.ok.inj h)).trans (congrArg Prod.fst (Except.ok.inj h')).symm)
  exact ⟨pre, M, pre', M', post, h1, h2, h3, safe_meet _ _ _ _ _ h3 h4⟩

/-! ### The hypotheses are met -/

/-- The bytes of a block. -/
def blockBytes (M : Block) : List Byte := (List.finRange 16).flatMap fun i => word32Bytes (M i)

/-- The block of padding behind a message of 64 bytes. -/
def padBlock : Block := toBlock (0x80 :: List.replicate 55 0 ++ word64Bytes 512)

theorem blockBytes_length (M : Block) : (blockBytes M).length = 64 := by
  simp [blockBytes, List.finRange, List.ofFn, word32Bytes, Fin.foldr, Fin.foldr.loop]

theorem be32_word32Bytes (w : Word) :
    be32 (w.extractLsb' 24 8) (w.extractLsb' 16 8) (w.extractLsb' 8 8) (w.extractLsb' 0 8) = w := by
  have := word32At_word32Bytes [] [] w
  simpa [word32At, word32Bytes] using this

theorem toBlock_blockBytes (M : Block) : toBlock (blockBytes M) = M := by
  funext i
  have : ∀ i : Fin 16, toBlock (blockBytes M) i = be32 ((M i).extractLsb' 24 8) ((M i).extractLsb' 16 8)
      ((M i).extractLsb' 8 8) ((M i).extractLsb' 0 8) := by
    rintro ⟨i, hi⟩
    interval_cases i <;> rfl
  rw [this, be32_word32Bytes]

theorem blocks_blockBytes (M : Block) : blocks (pad (blockBytes M)) = [M, padBlock] := by
  have hl := blockBytes_length M
  have : pad (blockBytes M) = blockBytes M ++ (0x80 :: List.replicate 55 0 ++ word64Bytes 512) := by
    unfold pad
    rw [hl, List.append_assoc]
    rfl
  rw [this, blocks_append _ _ (by omega), blocks_one _ hl, toBlock_blockBytes, blocks_one _ (by rfl)]
  rfl

theorem mask_zero {M : Block} (h : goMask M = 0) (k : Nat) (hk : k < 32) : ubcHolds k (sched M) = false := by
  have := Ubc.mask_bit (fun i => sched M i) (sched M) (fun _ => rfl) k hk
  rw [← this]
  change (goMask M).getLsbD k = false
  rw [h]
  simp

theorem padBlock_mask (k : Nat) (hk : k < 32) : ubcHolds k (sched padBlock) = false := by
  have h : ∀ k, k < 32 → evalUbc k (schedL (wordsL padBlock)) = false := by decide +kernel
  have hs := schedL_spec padBlock _ (wordsL_spec padBlock).1 (wordsL_spec padBlock).2
  rw [← h k hk]
  exact (ubcHolds_congr k fun t ht => hs.2 t ht).symm

theorem unflagged_of_mask {M : Block} (h : ∀ k, k < 32 → ubcHolds k (sched M) = false) (H : Regs) :
    verdict GoDetected H M = false ∧ verdict Detected H M = false := by
  constructor
  · rw [Bool.eq_false_iff]
    intro hv
    obtain ⟨k, dv, hk, hu, _⟩ := (verdict_iff _ _ _).mp hv
    rw [h k (List.getElem?_eq_some_iff.mp hk).1] at hu
    cases hu
  · rw [Bool.eq_false_iff]
    intro hv
    obtain ⟨k, dv, hk, hu, _⟩ := (verdict_iff _ _ _).mp hv
    rw [h k (List.getElem?_eq_some_iff.mp hk).1] at hu
    cases hu

/-- The words of a chaining value. -/
def regsFn (s : Regs) : Fin 5 → Word := fun i => [s.a, s.b, s.c, s.d, s.e].getD i 0

theorem regsFn_inj {s t : Regs} (h : regsFn s = regsFn t) : s = t := by
  cases s; cases t
  have h0 := congrFun h 0
  have h1 := congrFun h 1
  have h2 := congrFun h 2
  have h3 := congrFun h 3
  have h4 := congrFun h 4
  simp only [regsFn] at h0 h1 h2 h3 h4
  simp_all

set_option exponentiation.threshold 512 in
/-- The hypotheses of C62 are met: there are messages of 64 bytes that no package flags and that have the same digest. -/
theorem C62_unflagged_collisions_exist : ∃ m m' : List Byte, m.length = 64 ∧ m'.length = 64 ∧ m ≠ m' ∧
    sha1 m = sha1 m' ∧
    safeHash (verdict GoDetected) m = (sha1 m, false) ∧ safeHash (verdict GoDetected) m' = (sha1 m', false) ∧
    safeHash (verdict Detected) m = (sha1 m, false) ∧ safeHash (verdict Detected) m' = (sha1 m', false) := by
  classical
  have hfin : Finite Block := Nat.finite_of_card_ne_zero (by rw [Ubc.card_block]; decide)
  let f : {M : Block // goMask M = 0} → (Fin 5 → Word) := fun M => regsFn (compress (compress H0 M.1) padBlock)
  have hex : ∃ M M', M ≠ M' ∧ f M = f M' := by
    by_contra hn
    have hinj : Function.Injective f := fun M M' h => by
      by_contra hne
      exact hn ⟨M, M', hne, h⟩
    have h1 : Nat.card (Fin 5 → Word) = 2 ^ 160 := by
      have h : Nat.card Word = 2 ^ 32 := by
        rw [Nat.card_congr (BitVec.equivFin (m := 32)).toEquiv, Nat.card_eq_fintype_card, Fintype.card_fin]
      rw [Nat.card_fun, h, Nat.card_eq_fintype_card, Fintype.card_fin, ← Nat.pow_mul]
    have hfin' : Finite (Fin 5 → Word) := Nat.finite_of_card_ne_zero (by rw [h1]; decide)
    have hc := Nat.card_le_card_of_injective f hinj
    have h2 : Nat.card {M : Block // goMask M = 0} + Nat.card {M : Block // goMask M ≠ 0} = 2 ^ 512 := by
      rw [← Ubc.card_block, ← Nat.card_sum]
      exact Nat.card_congr (Equiv.sumCompl fun M : Block => goMask M = 0)
    have h3 := C58_rare.2.2.1
    rw [h1] at hc
    omega
  obtain ⟨M, M', hne, hf⟩ := hex
  have hH := regsFn_inj hf
  have ev : ∀ (M : {M : Block // goMask M = 0}) (det : Regs → Block → Bool),
      (∀ H, det H M.1 = false) → (∀ H, det H padBlock = false) →
      safeHash det (blockBytes M.1) = (sha1 (blockBytes M.1), false) := by
    intro M det h1 h2
    simp only [safeHash, sha1, blocks_blockBytes, safeChain, safeCompress, h1, h2, Bool.false_eq_true, if_false,
      List.foldl_cons, List.foldl_nil, Bool.or_false]
  have hM := fun (M : {M : Block // goMask M = 0}) H => unflagged_of_mask (mask_zero M.2) H
  have hP := fun H => unflagged_of_mask padBlock_mask H
  refine ⟨blockBytes M.1, blockBytes M'.1, blockBytes_length _, blockBytes_length _, ?_, ?_,
    ev M _ (fun H => (hM M H).1) fun H => (hP H).1, ev M' _ (fun H => (hM M' H).1) fun H => (hP H).1,
    ev M _ (fun H => (hM M H).2) fun H => (hP H).2, ev M' _ (fun H => (hM M' H).2) fun H => (hP H).2⟩
  · intro e
    apply hne
    apply Subtype.ext
    rw [← toBlock_blockBytes M.1, ← toBlock_blockBytes M'.1, e]
  · simp only [sha1, blocks_blockBytes, List.foldl_cons, List.foldl_nil, hH]

/-- Instance: for both packages at once. -/
example (B : Build) (cfg : C.Cfg) : ∃ m m' D, m.length < 2 ^ 61 ∧ m'.length < 2 ^ 61 ∧ m ≠ m' ∧
    sumPkg B.block .callFirst m = .ok (D, false) ∧ sumPkg B.block .callFirst m' = .ok (D, false) ∧
    Cgo.sumPkg cfg m = .ok (D, false) ∧ Cgo.sumPkg cfg m' = .ok (D, false) := by
  obtain ⟨m, m', h1, h2, h3, h4, g, g', c, c'⟩ := C62_unflagged_collisions_exist
  refine ⟨m, m', sha1 m, by omega, by omega, h3, ?_, ?_, ?_, ?_⟩
  · rw [C14_safe_hash]; exact congrArg _ g
  · rw [C14_safe_hash, h4]; exact congrArg _ g'
  · rw [cgo_sumPkg]; exact congrArg _ c
  · rw [cgo_sumPkg, h4]; exact congrArg _ c'

end Verif.Props
