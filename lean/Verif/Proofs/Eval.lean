import Verif.Proofs.Pair
import Verif.Proofs.Object

/-!
An evaluator for the verdicts and the safe hash that the kernel can run, proved equal to the specification.
It is used for concrete instances only.
-/

namespace Verif

open Verif.Model Verif.Spec

/-- Message expansion, newest word first. -/
def expandR : Nat → List Word → List Word
  | 0, l => l
  | n + 1, l => expandR n (rotl 1 (l.getD 2 0 ^^^ l.getD 7 0 ^^^ l.getD 13 0 ^^^ l.getD 15 0) :: l)

/-- The eighty words of a block. -/
def schedL (m : List Word) : List Word := (expandR 64 m.reverse).reverse

/-- A list as a function. -/
def fnL (l : List Word) : Nat → Word := fun t => l.getD t 0

theorem expandR_inv (M : Block) : ∀ (n : Nat) (l : List Word), 16 ≤ l.length →
    (∀ i, i < l.length → l.getD i 0 = sched M (l.length - 1 - i)) →
    (expandR n l).length = l.length + n ∧
      ∀ i, i < l.length + n → (expandR n l).getD i 0 = sched M (l.length + n - 1 - i) := by
  intro n
  induction n with
  | zero => intro l _ h; exact ⟨rfl, h⟩
  | succ n ih =>
    intro l hl h
    obtain ⟨h1, h2⟩ := ih (rotl 1 (l.getD 2 0 ^^^ l.getD 7 0 ^^^ l.getD 13 0 ^^^ l.getD 15 0) :: l)
      (by simp; omega) (by
        intro i hi
        cases i with
        | zero =>
          rw [List.getD_cons_zero, List.length_cons, sched_ge M _ (by omega), h 2 (by omega), h 7 (by omega),
            h 13 (by omega), h 15 (by omega)]
          simp only [Nat.add_sub_cancel, Nat.sub_zero, Nat.sub_sub, Nat.reduceAdd]
        | succ i =>
          rw [List.getD_cons_succ, h i (by simp at hi; omega)]
          congr 1
          simp; omega)
    unfold expandR
    rw [List.length_cons] at h1 h2
    refine ⟨by omega, fun i hi => ?_⟩
    rw [h2 i (by omega)]
    congr 1
    omega

theorem schedL_spec (M : Block) (m : List Word) (hm : m.length = 16)
    (h : ∀ i : Fin 16, m.getD i 0 = M i) :
    (schedL m).length = 80 ∧ ∀ t, t < 80 → fnL (schedL m) t = sched M t := by
  have hrev : ∀ (l : List Word) (i : Nat), i < l.length → l.reverse.getD i 0 = l.getD (l.length - 1 - i) 0 := by
    intro l i hi
    rw [List.getD_eq_getElem?_getD, List.getD_eq_getElem?_getD, List.getElem?_reverse hi]
  obtain ⟨h1, h2⟩ := expandR_inv M 64 m.reverse (by simp [hm]) (by
    intro i hi
    rw [List.length_reverse] at hi ⊢
    rw [hrev m i hi, hm]
    have h16 : 16 - 1 - i < 16 := by omega
    rw [sched_lt M _ h16]
    exact h ⟨16 - 1 - i, h16⟩)
  rw [List.length_reverse, hm] at h1 h2
  refine ⟨by simp [schedL, h1], fun t ht => ?_⟩
  unfold fnL schedL
  rw [hrev _ t (by omega), h1, h2 _ (by omega)]
  congr 1
  omega

/-- Steps `t`, `t+1`, … on a list of words. -/
def runL : Nat → List Word → Regs → Regs
  | _, [], s => s
  | t, w :: ws, s => runL (t + 1) ws (step t w s)

/-- Undo steps: the list is given newest first and its first word belongs to step `t + length - 1`. -/
def unrunL (t : Nat) : List Word → Regs → Regs
  | [], s => s
  | w :: ws, s => unrunL t ws (unstep (t + ws.length) w s)

theorem runL_spec (W : Nat → Word) : ∀ (ws : List Word) (t : Nat) (s : Regs),
    (∀ i, i < ws.length → ws.getD i 0 = W (t + i)) → runL t ws s = runSteps W t ws.length s
  | [], _, _, _ => rfl
  | w :: ws, t, s, h => by
    have h0 : w = W t := h 0 (by simp)
    rw [runL, List.length_cons, runSteps_succ', runL_spec W ws (t + 1) _ (fun i hi => by
      have := h (i + 1) (by simp; omega)
      rw [List.getD_cons_succ] at this
      rw [this]; congr 1; omega), h0]

theorem unrunL_spec (W : Nat → Word) : ∀ (ws : List Word) (s : Regs),
    (∀ i, i < ws.length → ws.getD i 0 = W (ws.length - 1 - i)) → steps W ws.length (unrunL 0 ws s) = s
  | [], _, _ => rfl
  | w :: ws, s, h => by
    have h0 : w = W ws.length := by simpa using h 0 (by simp)
    rw [unrunL, List.length_cons, steps, unrunL_spec W ws _ (fun i hi => by
      have := h (i + 1) (by simp; omega)
      rw [List.getD_cons_succ] at this
      rw [this]; congr 1; simp; omega), Nat.zero_add, ← h0, step_unstep]

theorem getD_take_lt (l : List Word) (n i : Nat) (h : i < n) : (l.take n).getD i 0 = l.getD i 0 := by
  rw [List.getD_eq_getElem?_getD, List.getD_eq_getElem?_getD, List.getElem?_take, if_pos h]

theorem getD_drop (l : List Word) (n i : Nat) : (l.drop n).getD i 0 = l.getD (n + i) 0 := by
  rw [List.getD_eq_getElem?_getD, List.getD_eq_getElem?_getD, List.getElem?_drop]

/-- `steps` evaluated. -/
theorem steps_eval (W : Nat → Word) (l : List Word) (hl : l.length = 80) (h : ∀ t, t < 80 → fnL l t = W t)
    (n : Nat) (hn : n ≤ 80) (s : Regs) : steps W n s = runL 0 (l.take n) s := by
  rw [steps_eq_run, runL_spec W (l.take n) 0 s (fun i hi => by
    rw [List.length_take] at hi
    rw [getD_take_lt _ _ _ (by omega), Nat.zero_add]; exact h i (by omega)), List.length_take, hl,
    Nat.min_eq_left hn]

theorem run_eval (W : Nat → Word) (l : List Word) (hl : l.length = 80) (h : ∀ t, t < 80 → fnL l t = W t)
    (n : Nat) (hn : n ≤ 80) (s : Regs) : runSteps W n (80 - n) s = runL n (l.drop n) s := by
  rw [runL_spec W (l.drop n) n s (fun i hi => by
    rw [List.length_drop] at hi
    rw [getD_drop]; exact h _ (by omega)), List.length_drop, hl]

theorem unrun_eval (W : Nat → Word) (l : List Word) (hl : l.length = 80) (h : ∀ t, t < 80 → fnL l t = W t)
    (n : Nat) (hn : n ≤ 80) (s : Regs) : steps W n (unrunL 0 (l.take n).reverse s) = s := by
  have hlen : (l.take n).reverse.length = n := by simp [hl, hn]
  have := unrunL_spec W (l.take n).reverse s (fun i hi => by
    rw [hlen] at hi ⊢
    rw [List.getD_eq_getElem?_getD, List.getElem?_reverse (by simp [hl]; omega), List.length_take, hl,
      Nat.min_eq_left hn, ← List.getD_eq_getElem?_getD, getD_take_lt _ _ _ (by omega)]
    exact h _ (by omega))
  rwa [hlen] at this

/-! ### One block -/

/-- The words of a block as a list. -/
def wordsL (M : Block) : List Word := (List.range 16).map fun i => if h : i < 16 then M ⟨i, h⟩ else 0

theorem wordsL_spec (M : Block) : (wordsL M).length = 16 ∧ ∀ i : Fin 16, (wordsL M).getD i 0 = M i := by
  refine ⟨by simp [wordsL], fun i => ?_⟩
  rw [List.getD_eq_getElem?_getD, wordsL, List.getElem?_map, List.getElem?_range i.isLt]
  simp

def evalCompress (W : List Word) (H : Regs) : Regs := H.add (runL 0 W H)

/-- The test for one table entry; `rot` is applied to the state before walking back. -/
def evalTest (rot : Regs → Regs) (T : Nat) (dm : Fin 80 → Word) (W : List Word) (H : Regs) : Bool :=
  let s := runL 0 (W.take T) H
  let W' := List.zipWith (· ^^^ ·) W ((List.range 80).map (ext80 dm))
  let H' := unrunL 0 (W'.take T).reverse (rot s)
  H'.add (runL T (W'.drop T) s) == evalCompress W H

def evalUbc (k : Nat) (W : List Word) : Bool := ubcHolds k (fnL W)

def rotGo (T : Nat) : Regs → Regs := if T = 58 then shift2 else id

/-- The verdict, scanning the table. -/
def evalScan (rot : Nat → Regs → Regs) (W : List Word) (H : Regs) : Nat → List DV → List DvInfo → Bool
  | k, dv :: dvs, e :: es =>
    (evalUbc k W && evalTest (rot dv.T) dv.T e.Dm W H) || evalScan rot W H (k + 1) dvs es
  | _, _, _ => false

def evalDet (rot : Nat → Regs → Regs) (H : Regs) (M : Block) : Bool :=
  evalScan rot (schedL (wordsL M)) H 0 dvList sha1Dvs

theorem evalCompress_eq (H : Regs) (M : Block) : evalCompress (schedL (wordsL M)) H = compress H M := by
  obtain ⟨hl, hs⟩ := schedL_spec M (wordsL M) (wordsL_spec M).1 (wordsL_spec M).2
  unfold evalCompress compress
  rw [steps_eval (sched M) _ hl hs 80 (by decide), List.take_of_length_le (by omega)]

theorem ubc_words_lt (k : Nat) (q : BitCond) (hq : q ∈ ubcTable.getD k []) : q.w < 80 ∧ q.v < 80 := by
  have hk : k < 32 := by
    refine Decidable.byContradiction fun h => ?_
    rw [List.getD_eq_getElem?_getD, List.getElem?_eq_none (by
      have : ubcTable.length = 32 := rfl
      omega)] at hq
    simp at hq
  obtain ⟨dv, hdv⟩ : ∃ dv, dvList[k]? = some dv :=
    ⟨_, List.getElem?_eq_getElem (by rw [dvList_length]; exact hk)⟩
  obtain ⟨e, he, _⟩ := entry_of hdv
  exact (checkSymm_get _ _ checkSymm_ok k e q he hq).2

theorem ubcHolds_congr (k : Nat) {W W' : Nat → Word} (h : ∀ t, t < 80 → W t = W' t) :
    ubcHolds k W = ubcHolds k W' := by
  unfold ubcHolds
  rw [List.all_eq, List.all_eq]
  congr 1
  apply propext
  have : ∀ q ∈ ubcTable.getD k [], q.holds W = q.holds W' := by
    intro q hq
    obtain ⟨h1, h2⟩ := ubc_words_lt k q hq
    unfold BitCond.holds; rw [h _ h1, h _ h2]
  constructor
  · intro h x hx; rw [← this x hx]; exact h x hx
  · intro h x hx; rw [this x hx]; exact h x hx

theorem getD_zipWith_xor (a b : List Word) (h : a.length = b.length) (i : Nat) (hi : i < a.length) :
    (List.zipWith (· ^^^ ·) a b).getD i 0 = a.getD i 0 ^^^ b.getD i 0 := by
  simp [List.getD_eq_getElem?_getD, List.getElem?_zipWith, List.getElem?_eq_getElem hi,
    List.getElem?_eq_getElem (h ▸ hi)]

/-- The general form of the two per-vector tests. -/
def RotTest (rot : Regs → Regs) (dv : DV) (H : Regs) (M : Block) : Prop :=
  ∃ δ H', IsDiff dv δ ∧
    steps (sched (xorBlock M δ)) dv.T H' = rot (steps (sched M) dv.T H) ∧
    H'.add (runSteps (sched (xorBlock M δ)) dv.T (80 - dv.T) (steps (sched M) dv.T H)) = compress H M

theorem sibling_iff_rot (dv : DV) (hT : dv.T ≤ 80) (H : Regs) (M : Block) :
    Sibling dv H M ↔ RotTest id dv H M := by
  unfold Sibling RotTest
  constructor
  · rintro ⟨δ, H', hδ, h1, h2⟩
    refine ⟨δ, H', hδ, h1, ?_⟩
    rw [compress_split H' _ _ hT, h1] at h2; exact h2
  · rintro ⟨δ, H', hδ, h1, h2⟩
    refine ⟨δ, H', hδ, h1, ?_⟩
    rw [compress_split H' _ _ hT, h1]; exact h2

theorem evalTest_iff (rot : Regs → Regs) (k : Nat) (dv : DV) (e : DvInfo) (hk : dvList[k]? = some dv)
    (he : EntryOk k dv e) (H : Regs) (M : Block) :
    evalTest rot dv.T e.Dm (schedL (wordsL M)) H = true ↔ RotTest rot dv H M := by
  obtain ⟨hl, hs⟩ := schedL_spec M (wordsL M) (wordsL_spec M).1 (wordsL_spec M).2
  have hT : dv.T ≤ 80 := by rcases (dv_facts hk).1 with h | h <;> omega
  have hK := (dv_facts hk).2
  unfold evalTest
  simp only
  generalize hWg : schedL (wordsL M) = l at hl hs
  have hc : evalCompress l H = compress H M := by rw [← hWg]; exact evalCompress_eq H M
  generalize hW' : List.zipWith (· ^^^ ·) l ((List.range 80).map (ext80 e.Dm)) = l'
  have hl' : l'.length = 80 := by rw [← hW']; simp [hl]
  have hs' : ∀ t, t < 80 → fnL l' t = sched (xorBlock M (ext80 e.Dm)) t := by
    intro t ht
    rw [sched_xor he.diff M t ht, ← hs t ht, ← hW']
    unfold fnL
    rw [getD_zipWith_xor _ _ (by simp [hl]) _ (by omega)]
    congr 1
    rw [List.getD_eq_getElem?_getD, List.getElem?_map, List.getElem?_range ht]; rfl
  rw [beq_iff_eq, hc, ← steps_eval (sched M) l hl hs dv.T hT H, ← run_eval _ l' hl' hs' dv.T hT]
  have hun := unrun_eval _ l' hl' hs' dv.T hT (rot (steps (sched M) dv.T H))
  unfold RotTest
  constructor
  · intro h; exact ⟨ext80 e.Dm, _, he.diff, hun, h⟩
  · rintro ⟨δ, H', hδ, h1, h2⟩
    rw [xorBlock_unique hK hδ he.diff M] at h1 h2
    rw [steps_inj _ _ (hun.trans h1.symm)]
    exact h2

theorem evalScan_iff (rot : Nat → Regs → Regs) (H : Regs) (M : Block) :
    ∀ (k : Nat) (dvs : List DV) (es : List DvInfo), TableOk k dvs es →
      (∀ j dv, dvs[j]? = some dv → dvList[k + j]? = some dv) →
      (evalScan rot (schedL (wordsL M)) H k dvs es = true ↔
        ∃ j dv, dvs[j]? = some dv ∧ ubcHolds (k + j) (sched M) = true ∧ RotTest (rot dv.T) dv H M) := by
  intro k dvs es h
  induction h with
  | nil k e rest he => intro _; simp [evalScan]
  | cons k dv e dvs es he _ ih =>
    intro hsub
    have ih' := ih (fun j d hd => by
      have := hsub (j + 1) d (by simpa using hd)
      rwa [show k + (j + 1) = k + 1 + j by omega] at this)
    have hk : dvList[k]? = some dv := by simpa using hsub 0 dv (by simp)
    have hu : evalUbc k (schedL (wordsL M)) = ubcHolds k (sched M) :=
      ubcHolds_congr k (schedL_spec M (wordsL M) (wordsL_spec M).1 (wordsL_spec M).2).2
    unfold evalScan
    rw [Bool.or_eq_true, Bool.and_eq_true, hu, evalTest_iff (rot dv.T) k dv e hk he, ih']
    constructor
    · rintro (⟨h1, h2⟩ | ⟨j, dv', h1, h2, h3⟩)
      · exact ⟨0, dv, rfl, h1, h2⟩
      · exact ⟨j + 1, dv', by simpa using h1, by rwa [show k + (j + 1) = k + 1 + j by omega], h3⟩
    · rintro ⟨j, dv', h1, h2, h3⟩
      cases j with
      | zero => simp at h1; subst h1; exact .inl ⟨h2, h3⟩
      | succ j => exact .inr ⟨j, dv', by simpa using h1, by rwa [show k + 1 + j = k + (j + 1) by omega], h3⟩

theorem evalDet_iff (rot : Nat → Regs → Regs) (H : Regs) (M : Block) :
    evalDet rot H M = true ↔ ∃ k dv, dvList[k]? = some dv ∧ ubcHolds k (sched M) = true ∧
      RotTest (rot dv.T) dv H M := by
  have := evalScan_iff rot H M 0 dvList sha1Dvs sha1Dvs_ok (fun j dv h => by rwa [Nat.zero_add])
  simp only [Nat.zero_add] at this
  exact this

theorem evalDet_go (H : Regs) (M : Block) : evalDet rotGo H M = verdict GoDetected H M := by
  rw [Bool.eq_iff_iff, evalDet_iff, verdict_iff]
  unfold GoDetected
  constructor
  · rintro ⟨k, dv, hk, hu, ht⟩
    refine ⟨k, dv, hk, hu, ?_⟩
    rcases (dv_facts hk).1 with h | h
    · right
      refine ⟨h, ?_⟩
      rw [h] at ht; exact ht
    · left
      refine ⟨h, (sibling_iff_rot dv (by omega) H M).mpr ?_⟩
      rw [h] at ht; exact ht
  · rintro ⟨k, dv, hk, hu, ht⟩
    refine ⟨k, dv, hk, hu, ?_⟩
    rcases ht with ⟨h, ht⟩ | ⟨h, ht⟩
    · rw [h]; exact (sibling_iff_rot dv (by omega) H M).mp ht
    · rw [h]; exact ht

theorem evalDet_detected (H : Regs) (M : Block) : evalDet (fun _ => id) H M = verdict Detected H M := by
  rw [Bool.eq_iff_iff, evalDet_iff, verdict_iff]
  unfold Detected
  constructor
  · rintro ⟨k, dv, hk, hu, ht⟩
    exact ⟨k, dv, hk, hu, (sibling_iff_rot dv (by rcases (dv_facts hk).1 with h | h <;> omega) H M).mpr ht⟩
  · rintro ⟨k, dv, hk, hu, ht⟩
    exact ⟨k, dv, hk, hu, (sibling_iff_rot dv (by rcases (dv_facts hk).1 with h | h <;> omega) H M).mp ht⟩

/-! ### Messages -/

/-- `blocks` by counting. -/
def blocksN : Nat → List Byte → List Block
  | 0, _ => []
  | n + 1, p => toBlock p :: blocksN n (p.drop 64)

theorem blocksN_spec : ∀ (n : Nat) (p : List Byte), p.length / 64 = n → blocks p = blocksN n p
  | 0, p, h => by rw [blocks_lt p (by omega)]; rfl
  | n + 1, p, h => by
    rw [blocks_ge p (by omega), blocksN, blocksN_spec n (p.drop 64) (by simp; omega)]

/-- `safeChain` evaluated; the chaining value is passed along. -/
def evalChain (rot : Nat → Regs → Regs) : Regs → Bool → List Block → Regs × Bool
  | H, c, [] => (H, c)
  | H, c, M :: Ms =>
    let W := schedL (wordsL M)
    bif evalScan rot W H 0 dvList sha1Dvs then
      evalChain rot (evalCompress W (evalCompress W (evalCompress W H))) true Ms
    else evalChain rot (evalCompress W H) c Ms

theorem evalChain_spec (rot : Nat → Regs → Regs) (det : Regs → Block → Bool)
    (hdet : ∀ H M, evalDet rot H M = det H M) (Ms : List Block) (H : Regs) (c : Bool) :
    evalChain rot H c Ms = ((safeChain det H Ms).1, c || (safeChain det H Ms).2) := by
  induction Ms generalizing H c with
  | nil => simp [evalChain, safeChain]
  | cons M Ms ih =>
    have hd : evalScan rot (schedL (wordsL M)) H 0 dvList sha1Dvs = det H M := hdet H M
    unfold evalChain
    simp only [evalCompress_eq, hd, safeChain, safeCompress, ih]
    cases det H M <;> simp

/-- The safe hash evaluated; `n` is the number of blocks of the padded message. -/
def evalHash (rot : Nat → Regs → Regs) (n : Nat) (m : List Byte) : List Byte × Bool :=
  let r := evalChain rot H0 false (blocksN n (pad m))
  (digestBytes r.1, r.2)

theorem evalHash_spec (rot : Nat → Regs → Regs) (det : Regs → Block → Bool)
    (hdet : ∀ H M, evalDet rot H M = det H M) (n : Nat) (m : List Byte) (hn : (pad m).length / 64 = n) :
    evalHash rot n m = safeHash det m := by
  unfold evalHash safeHash
  simp only
  rw [evalChain_spec rot det hdet, ← blocksN_spec n (pad m) hn, Bool.false_or]

end Verif
