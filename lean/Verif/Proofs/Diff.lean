import Verif.Proofs.DvCheck
import Verif.Proofs.Steps

/-! Facts about the differences prescribed by a disturbance vector. -/

namespace Verif

open Verif.Model Verif.Spec

theorem xor_shuffle (a b c d a' b' c' d' : Word) :
    (a ^^^ a') ^^^ (b ^^^ b') ^^^ (c ^^^ c') ^^^ (d ^^^ d') =
      (a ^^^ b ^^^ c ^^^ d) ^^^ (a' ^^^ b' ^^^ c' ^^^ d') := by ac_rfl

theorem rotl_rotl_comm1 (n : Nat) (hn : n < 32) (x : Word) : rotl n (rotl 1 x) = rotl 1 (rotl n x) := by
  apply BitVec.eq_of_getLsbD_eq
  intro i hi
  rw [rotl_getLsbD _ hn _ _ hi, rotl_getLsbD _ (by decide) _ _ (by split <;> omega),
    rotl_getLsbD _ (by decide) _ _ hi, rotl_getLsbD _ hn _ _ (by split <;> omega)]
  congr 1
  split <;> split <;> split <;> split <;> omega

theorem localDiff_lin (A B C D E : Nat → Word) (t : Nat)
    (h : ∀ i, t ≤ i → i ≤ t + 5 → E i = rotl 1 (A i ^^^ B i ^^^ C i ^^^ D i)) :
    localDiff E t = rotl 1 (localDiff A t ^^^ localDiff B t ^^^ localDiff C t ^^^ localDiff D t) := by
  unfold localDiff
  rw [h (t+5) (by omega) (by omega), h (t+4) (by omega) (by omega), h (t+3) (by omega) (by omega),
    h (t+2) (by omega) (by omega), h (t+1) (by omega) (by omega), h t (by omega) (by omega)]
  rw [rotl_rotl_comm1 5 (by decide), rotl_rotl_comm1 30 (by decide), rotl_rotl_comm1 30 (by decide),
    rotl_rotl_comm1 30 (by decide)]
  simp only [← rotl_xor]
  congr 1
  simp only [rotl_xor]
  ac_rfl

/-- A prescribed difference obeys the message expansion. -/
theorem Spec.IsDiff.expand {dv : DV} {δ : Nat → Word} (h : IsDiff dv δ) (t : Nat) (h1 : 16 ≤ t) (h2 : t < 80) :
    δ t = rotl 1 (δ (t - 3) ^^^ δ (t - 8) ^^^ δ (t - 14) ^^^ δ (t - 16)) := by
  obtain ⟨D, hD, hδ⟩ := h
  rw [hδ t h2, hδ (t-3) (by omega), hδ (t-8) (by omega), hδ (t-14) (by omega), hδ (t-16) (by omega)]
  have key := localDiff_lin (fun i => D (i - 3)) (fun i => D (i - 8)) (fun i => D (i - 14))
    (fun i => D (i - 16)) D t (fun i hi1 hi2 => hD.exp i (by omega) (by omega))
  rw [key]
  have sh : ∀ k, k ≤ 16 → localDiff (fun i => D (i - k)) t = localDiff D (t - k) := by
    intro k hk
    unfold localDiff
    simp only [show t + 5 - k = t - k + 5 by omega, show t + 4 - k = t - k + 4 by omega,
      show t + 3 - k = t - k + 3 by omega, show t + 2 - k = t - k + 2 by omega,
      show t + 1 - k = t - k + 1 by omega]
  rw [sh 3 (by omega), sh 8 (by omega), sh 14 (by omega), sh 16 (by omega)]

/-- Message expansion is linear: the expanded words of a block XOR a difference. -/
theorem sched_xor {dv : DV} {δ : Nat → Word} (h : IsDiff dv δ) (M : Block) (t : Nat) (ht : t < 80) :
    sched (xorBlock M δ) t = sched M t ^^^ δ t := by
  induction t using Nat.strongRecOn with
  | _ t ih =>
    by_cases h16 : t < 16
    · rw [sched_lt _ _ h16, sched_lt _ _ h16]; rfl
    · rw [sched_ge _ _ (by omega), sched_ge M _ (by omega), h.expand t (by omega) ht, ← rotl_xor,
        ih _ (by omega) (by omega), ih _ (by omega) (by omega), ih _ (by omega) (by omega),
        ih _ (by omega) (by omega), xor_shuffle]

theorem rotl1_inj {x y : Word} (h : rotl 1 x = rotl 1 y) : x = y := by
  rw [← rotl_rotl_inv 1 (by decide) (by decide) x, h, rotl_rotl_inv 1 (by decide) (by decide)]

/-- The window determines the vector on all positions. -/
theorem Spec.IsDW.unique {dv : DV} {D D' : Nat → Word} (h : IsDW dv D) (h' : IsDW dv D')
    (hK : dv.K + 16 ≤ 80) : ∀ n, n < 85 → D n = D' n := by
  have mid : ∀ j, j < 16 → D (dv.K + 5 + j) = D' (dv.K + 5 + j) := fun j hj => by
    rw [show dv.K + 5 + j = dv.K + j + 5 by omega, h.win j hj (by omega), h'.win j hj (by omega)]
  have up : ∀ n, dv.K + 5 ≤ n → n < 85 → D n = D' n := by
    intro n
    induction n using Nat.strongRecOn with
    | _ n ih =>
      intro h1 h2
      by_cases hn : n < dv.K + 5 + 16
      · have := mid (n - (dv.K + 5)) (by omega)
        rwa [show dv.K + 5 + (n - (dv.K + 5)) = n by omega] at this
      · rw [h.exp n (by omega) h2, h'.exp n (by omega) h2, ih _ (by omega) (by omega) (by omega),
          ih _ (by omega) (by omega) (by omega), ih _ (by omega) (by omega) (by omega),
          ih _ (by omega) (by omega) (by omega)]
  have down : ∀ j, ∀ n, dv.K + 5 ≤ n + j → n < 85 → D n = D' n := by
    intro j
    induction j with
    | zero => exact fun n h1 h2 => up n h1 h2
    | succ j ih =>
      intro n h1 h2
      by_cases hn : dv.K + 5 ≤ n + j
      · exact ih n hn h2
      · have e := h.exp (n + 16) (by omega) (by omega)
        have e' := h'.exp (n + 16) (by omega) (by omega)
        rw [ih (n + 16) (by omega) (by omega), e'] at e
        have e2 := rotl1_inj e
        simp only [Nat.add_sub_cancel] at e2
        rw [ih (n + 16 - 3) (by omega) (by omega), ih (n + 16 - 8) (by omega) (by omega),
          ih (n + 16 - 14) (by omega) (by omega)] at e2
        generalize D' (n + 16 - 3) ^^^ D' (n + 16 - 8) ^^^ D' (n + 16 - 14) = x at e2
        have := congrArg (x ^^^ ·) e2
        simp only [← BitVec.xor_assoc, BitVec.xor_self, BitVec.zero_xor] at this
        exact this.symm
  exact fun n hn => down (dv.K + 5) n (by omega) hn

theorem Spec.IsDiff.unique {dv : DV} {δ δ' : Nat → Word} (hK : dv.K + 16 ≤ 80) (h : IsDiff dv δ)
    (h' : IsDiff dv δ') (t : Nat) (ht : t < 80) : δ t = δ' t := by
  obtain ⟨D, hD, e⟩ := h
  obtain ⟨D', hD', e'⟩ := h'
  have u := hD.unique hD' hK
  rw [e t ht, e' t ht]
  unfold localDiff
  rw [u _ (by omega), u _ (by omega), u _ (by omega), u _ (by omega), u _ (by omega), u _ (by omega)]

/-- An array of 80 words as a function. -/
def ext80 (dm : Fin 80 → Word) (t : Nat) : Word := if h : t < 80 then dm ⟨t, h⟩ else 0

/-- What the table check says about one entry. -/
structure EntryOk (k : Nat) (dv : DV) (e : DvInfo) : Prop where
  type : e.DvType = (match dv.type with | .I => 1#32 | .II => 2#32)
  K : e.DvK = BitVec.ofNat 32 dv.K
  b : e.DvB = BitVec.ofNat 32 dv.b
  T : e.TestT = BitVec.ofNat 32 dv.T
  maskI : e.MaskI = 0
  maskB : e.MaskB = BitVec.ofNat 32 k
  diff : IsDiff dv (ext80 e.Dm)
  quiet : ∃ D, IsDW dv D ∧ ∀ i, i < 5 → D (dv.T + i) = 0

/-- Entry by entry agreement of a table (with its terminator) with a list of vectors. -/
inductive TableOk : Nat → List DV → List DvInfo → Prop
  | nil (k : Nat) (e : DvInfo) (rest : List DvInfo) : e.DvType = 0 → TableOk k [] (e :: rest)
  | cons (k : Nat) (dv : DV) (e : DvInfo) (dvs : List DV) (es : List DvInfo) : EntryOk k dv e →
      TableOk (k + 1) dvs es → TableOk k (dv :: dvs) (e :: es)

theorem isDW_of_check (dv : DV) (l : List Nat) (h : checkDW dv l = true) : IsDW dv (dwFn l) := by
  unfold checkDW at h
  simp only [Bool.and_eq_true, List.all_eq_true, List.mem_range, beq_iff_eq] at h
  refine ⟨fun j hj _ => h.1 j hj, fun n h1 h2 => ?_⟩
  have := h.2 (n - 16) (by omega)
  rw [show n - 16 + 16 = n by omega, show n - 16 + 13 = n - 3 by omega,
    show n - 16 + 8 = n - 8 by omega, show n - 16 + 2 = n - 14 by omega] at this
  exact this

theorem entryOk_of_check (k : Nat) (dv : DV) (l : List Nat) (e : DvInfo)
    (h1 : checkHead k dv e = true) (h2 : checkDW dv l = true) (h3 : checkDm e.Dm l = true)
    (h4 : checkQuiet dv l = true) : EntryOk k dv e := by
  have hw := isDW_of_check dv l h2
  unfold checkHead at h1
  simp only [Bool.and_eq_true, beq_iff_eq] at h1
  obtain ⟨⟨⟨⟨⟨a, b⟩, c⟩, d⟩, f⟩, g⟩ := h1
  unfold checkDm at h3
  simp only [List.all_eq_true, List.mem_range] at h3
  unfold checkQuiet at h4
  simp only [List.all_eq_true, List.mem_range, beq_iff_eq] at h4
  refine ⟨a, b, c, d, f, g, ⟨dwFn l, hw, fun t ht => ?_⟩, ⟨dwFn l, hw, h4⟩⟩
  have := h3 t ht
  rw [dif_pos ht, beq_iff_eq] at this
  rw [ext80, dif_pos ht, this]

theorem tableOk_of_check : ∀ (k : Nat) (dvs : List DV) (ls : List (List Nat)) (es : List DvInfo),
    checkAll k dvs ls es = true → TableOk k dvs es
  | k, dv :: dvs, l :: ls, e :: es, h => by
    unfold checkAll at h
    simp only [Bool.and_eq_true] at h
    obtain ⟨⟨⟨⟨h1, h2⟩, h3⟩, h4⟩, h5⟩ := h
    exact .cons k dv e dvs es (entryOk_of_check k dv l e h1 h2 h3 h4)
      (tableOk_of_check (k + 1) dvs ls es h5)
  | k, [], [], [e], h => by
    unfold checkAll at h
    exact .nil k e [] (by simpa using h)
  | _, [], [], [], h => by simp [checkAll] at h
  | _, [], [], _ :: _ :: _, h => by simp [checkAll] at h
  | _, [], _ :: _, _, h => by simp [checkAll] at h
  | _, _ :: _, [], _, h => by simp [checkAll] at h
  | _, _ :: _, _ :: _, [], h => by simp [checkAll] at h

theorem sha1Dvs_ok : TableOk 0 dvList sha1Dvs := tableOk_of_check _ _ _ _ checkAll_ok

theorem dvList_T : ∀ dv ∈ dvList, (dv.T = 58 ∨ dv.T = 65) ∧ dv.K + 16 ≤ 80 := by decide

end Verif
