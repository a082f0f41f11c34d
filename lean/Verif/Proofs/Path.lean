import Verif.Proofs.PathData
import Verif.Proofs.Witness

/-!
The unavoidable conditions are unavoidable.
-/

namespace Verif.Path

open Verif Verif.Spec Verif.Ubc

/-- What is known after some carries have been seen to stop. -/
def ctx (l : List Nat) (res : List (Nat × Nat)) : Ctx where
  kind i := kindOf (l.getD (i + 4) 0) (res.lookup i)
  d i := l.getD (i + 4) 0
  w t := (localDiff (dwFn l) t).toNat

def checkStops (l : List Nat) : List (Nat × Nat) → List (Nat × Nat × Nat) → Bool
  | _, [] => true
  | res, (t, i, b) :: r => (ctx l res).stop t i b && checkStops l ((i, b) :: res) r

/-- What is known in the end. -/
def final : List (Nat × Nat) → List (Nat × Nat × Nat) → List (Nat × Nat)
  | res, [] => res
  | res, (_, i, b) :: r => final ((i, b) :: res) r

/-- The relations used add up to the conditions. -/
def checkConds (rels : List Rel) : List BitCond → List (List Nat) → Bool
  | [], [] => true
  | q :: cs, u :: us => u.all (· < rels.length) && adds q (u.map fun n => rels.getD n ⟨0, [], false⟩) && checkConds rels cs us
  | _, _ => false

/-- The data of a vector are right. -/
def Cert.ok (l : List Nat) (cs : List BitCond) (c : Cert) : Bool :=
  checkStops l [] c.stops && c.rels.all (ctx l (final [] c.stops)).forced && checkConds c.rels cs c.use

def allOk : List (List Nat) → List (List BitCond) → List Cert → Bool
  | l :: ls, cs :: css, c :: r => c.ok l cs && allOk ls css r
  | [], [], [] => true
  | _, _, _ => false

theorem allOk_ok : allOk dwTable ubcTable certs = true := by decide +kernel

theorem allOk_get : ∀ (k : Nat) (ls : List (List Nat)) (css : List (List BitCond)) (r : List Cert) (l : List Nat),
    allOk ls css r = true → ls[k]? = some l → ∃ c : Cert, c.ok l (css.getD k []) = true
  | 0, l' :: ls, cs :: css, c :: r, l, h, hl => by
    rw [allOk, Bool.and_eq_true] at h
    obtain rfl : l' = l := by simpa using hl
    exact ⟨c, h.1⟩
  | k + 1, _ :: ls, _ :: css, _ :: r, l, h, hl => by
    rw [allOk, Bool.and_eq_true] at h
    exact allOk_get k ls css r l h.2 (by simpa using hl)
  | _, [], [], [], l, _, hl => by simp at hl
  | _, [], [], _ :: _, _, h, _ => by simp [allOk] at h
  | _, [], _ :: _, _, _, h, _ => by simp [allOk] at h
  | _, _ :: _, [], _, _, h, _ => by simp [allOk] at h
  | _, _ :: _, _ :: _, [], _, h, _ => by simp [allOk] at h

/-! ### Two computations -/

theorem steps_var (W : Nat → Word) (H : Regs) (t : Nat) (h : 4 ≤ t) :
    steps W t H = ⟨(steps W t H).a, (steps W (t - 1) H).a, rotl 30 (steps W (t - 2) H).a, rotl 30 (steps W (t - 3) H).a,
      rotl 30 (steps W (t - 4) H).a⟩ := by
  obtain ⟨n, rfl⟩ := Nat.exists_eq_add_of_le h
  rw [show 4 + n = n + 1 + 1 + 1 + 1 by omega]
  rfl

theorem var_step (H : Regs) (M : Block) (t : Nat) (h : 4 ≤ t) :
    var H M (t + 1) = rotl 5 (var H M t) + f t (var H M (t - 1)) (rotl 30 (var H M (t - 2))) (rotl 30 (var H M (t - 3))) +
      rotl 30 (var H M (t - 4)) + K t + sched M t := by
  unfold var
  rw [steps, steps_var _ _ t h]
  rfl

/-- Everything about the words that does not depend on what is known of carries. -/
structure Pair (l : List Nat) (W A A' : Nat → Word) : Prop where
  sgn : ∀ i, 31 ≤ i → i ≤ 66 → Signed (dwFn l (i + 4)) (A' i - A i)
  step : ∀ t, 35 ≤ t → t ≤ 65 → A (t + 1) = rotl 5 (A t) + f t (A (t - 1)) (rotl 30 (A (t - 2))) (rotl 30 (A (t - 3))) +
    rotl 30 (A (t - 4)) + K t + W t
  step' : ∀ t, 35 ≤ t → t ≤ 65 → A' (t + 1) = rotl 5 (A' t) + f t (A' (t - 1)) (rotl 30 (A' (t - 2))) (rotl 30 (A' (t - 3))) +
    rotl 30 (A' (t - 4)) + K t + (W t ^^^ localDiff (dwFn l) t)

/-- The known carries really stop. -/
def Known (l : List Nat) (A A' : Nat → Word) (res : List (Nat × Nat)) : Prop :=
  ∀ i, 31 ≤ i → i ≤ 66 → ∃ v, Good ((ctx l res).kind i) ((ctx l res).d i) (A i) (A' i) v

theorem Known.run {l : List Nat} {W A A' : Nat → Word} {res : List (Nat × Nat)} (P : Pair l W A A') (h : Known l A A' res) :
    ∃ v, Run (ctx l res) W A A' v := by
  have h' : ∀ i, ∃ v, 31 ≤ i → i ≤ 66 → Good ((ctx l res).kind i) ((ctx l res).d i) (A i) (A' i) v := fun i => by
    by_cases h1 : 31 ≤ i ∧ i ≤ 66
    · obtain ⟨v, hv⟩ := h i h1.1 h1.2
      exact ⟨v, fun _ _ => hv⟩
    · exact ⟨0#32, fun a b => absurd ⟨a, b⟩ h1⟩
  choose v hv using h'
  refine ⟨v, hv, P.step, fun t h1 h2 => ?_⟩
  rw [P.step' t h1 h2]
  congr 2
  simp [ctx]

theorem known_nil {l : List Nat} {W A A' : Nat → Word} (P : Pair l W A A') : Known l A A' [] := fun i h1 h2 =>
  good_none _ _ _ (P.sgn i h1 h2)

theorem known_stops {l : List Nat} {W A A' : Nat → Word} (P : Pair l W A A') :
    ∀ (r : List (Nat × Nat × Nat)) (res : List (Nat × Nat)), Known l A A' res → checkStops l res r = true →
      Known l A A' (final res r)
  | [], _, h, _ => h
  | (t, i, b) :: r, res, h, hc => by
    rw [checkStops, Bool.and_eq_true] at hc
    refine known_stops P r ((i, b) :: res) (fun j h1 h2 => ?_) hc.2
    obtain ⟨v, R⟩ := h.run P
    obtain ⟨hs, hb⟩ := R.stop t i b hc.1
    by_cases hj : j = i
    · subst hj
      have e : ((j, b) :: res).lookup j = some b := by simp
      simp only [ctx, e]
      exact good_some _ _ hs _ _ (P.sgn j h1 h2) hb
    · have e : ((i, b) :: res).lookup j = res.lookup j := by
        rw [List.lookup_cons, beq_false_of_ne hj]
      simp only [ctx, e]
      exact h j h1 h2

theorem checkConds_holds (W v : Nat → Word) (rels : List Rel)
    (hr : ∀ r ∈ rels, evalBits (both W v) (List.range top) (maskOf r.bits) = r.c) :
    ∀ (cs : List BitCond) (us : List (List Nat)), checkConds rels cs us = true → cs.all (·.holds W) = true
  | [], _, _ => rfl
  | q :: cs, u :: us, h => by
    rw [checkConds, Bool.and_eq_true, Bool.and_eq_true] at h
    rw [List.all_cons, Bool.and_eq_true]
    refine ⟨adds_holds W v q _ (fun r hm => ?_) h.1.2, checkConds_holds W v rels hr cs us h.2⟩
    obtain ⟨n, hn, rfl⟩ := List.mem_map.mp hm
    have hlt : n < rels.length := by
      have := List.all_eq_true.mp h.1.1 n hn
      simpa using this
    rw [List.getD_eq_getElem?_getD, List.getElem?_eq_getElem hlt]
    exact hr _ (List.getElem_mem hlt)
  | _ :: _, [], h => by simp [checkConds] at h

theorem Pair.conds {l : List Nat} {W A A' : Nat → Word} (P : Pair l W A A') (cs : List BitCond) (c : Cert)
    (h : c.ok l cs = true) : cs.all (·.holds W) = true := by
  rw [Cert.ok, Bool.and_eq_true, Bool.and_eq_true] at h
  obtain ⟨v, R⟩ := (known_stops P c.stops [] (known_nil P) h.1.1).run P
  exact checkConds_holds W v c.rels (fun r hr => R.forced r (List.all_eq_true.mp h.1.2 r hr)) cs c.use h.2

/-! ### The vectors -/

theorem checkAll_get : ∀ (k n : Nat) (dvs : List DV) (ls : List (List Nat)) (es : List Model.DvInfo) (dv : DV),
    checkAll n dvs ls es = true → dvs[k]? = some dv →
      ∃ l, ls[k]? = some l ∧ checkDW dv l = true ∧ checkQuiet dv l = true
  | 0, n, dv' :: dvs, l :: ls, e :: es, dv, h, hk => by
    unfold checkAll at h
    simp only [Bool.and_eq_true] at h
    obtain rfl : dv' = dv := by simpa using hk
    exact ⟨l, rfl, h.1.1.1.2, h.1.2⟩
  | k + 1, n, _ :: dvs, l :: ls, e :: es, dv, h, hk => by
    unfold checkAll at h
    simp only [Bool.and_eq_true] at h
    obtain ⟨l', h1, h2⟩ := checkAll_get k (n + 1) dvs ls es dv h.2 (by simpa using hk)
    exact ⟨l', by simpa using h1, h2⟩
  | _, _, [], _, _, _, _, hk => by simp at hk
  | _, _, _ :: _, [], _, _, h, _ => by simp [checkAll] at h
  | _, _, _ :: _, _ :: _, [], _, h, _ => by simp [checkAll] at h

theorem vector {k : Nat} {dv : DV} (hk : dvList[k]? = some dv) :
    ∃ l, dwTable[k]? = some l ∧ IsDW dv (dwFn l) ∧ ∀ i, i < 5 → dwFn l (dv.T + i) = 0#32 := by
  obtain ⟨l, h1, h2, h3⟩ := checkAll_get k 0 _ _ _ dv checkAll_ok hk
  refine ⟨l, h1, isDW_of_check dv l h2, fun i hi => ?_⟩
  unfold checkQuiet at h3
  simp only [List.all_eq_true, List.mem_range, beq_iff_eq] at h3
  exact h3 i hi

theorem signed_neg (d x y : Word) (h : Signed d (x - y)) : Signed d (y - x) := by
  obtain ⟨s, hs⟩ := h
  refine ⟨~~~s, ?_⟩
  have e : y - x = -(x - y) := by ring
  rw [BitVec.not_not, e, hs]
  ring

theorem follows_symm {dv : DV} {H H' : Regs} {M M' : Block} (h : Follows dv H M H' M') : Follows dv H' M' H M := by
  obtain ⟨D, hD, hM, hs⟩ := h
  refine ⟨D, hD, ?_, fun i h1 h2 => signed_neg _ _ _ (hs i h1 h2)⟩
  funext i
  rw [hM]
  simp [xorBlock, BitVec.xor_assoc]

/-- What following a vector means, in terms of its data. -/
theorem follows_data {k : Nat} {dv : DV} (hk : dvList[k]? = some dv) {H H' : Regs} {M M' : Block}
    (h : Follows dv H M H' M') :
    ∃ l, dwTable[k]? = some l ∧ IsDW dv (dwFn l) ∧ (∀ i, i < 5 → dwFn l (dv.T + i) = 0#32) ∧
      M' = xorBlock M (localDiff (dwFn l)) ∧
      ∀ i, 31 ≤ i → i ≤ 66 → Signed (dwFn l (i + 4)) (var H' M' i - var H M i) := by
  obtain ⟨l, h1, h2, h3⟩ := vector hk
  obtain ⟨D, hD, hM, hs⟩ := h
  have hK := (dv_facts hk).2
  have u := hD.unique h2 hK
  refine ⟨l, h1, h2, h3, ?_, fun i a b => by rw [← u (i + 4) (by omega)]; exact hs i a b⟩
  rw [hM]
  exact xorBlock_unique hK ⟨D, hD, fun _ _ => rfl⟩ ⟨_, h2, fun _ _ => rfl⟩ M

/-- The conditions hold. -/
theorem follows_conds {k : Nat} {dv : DV} (hk : dvList[k]? = some dv) {H H' : Regs} {M M' : Block}
    (h : Follows dv H M H' M') : ubcHolds k (sched M) = true := by
  obtain ⟨l, h1, h2, _, hM, hs⟩ := follows_data hk h
  obtain ⟨c, hc⟩ := allOk_get k dwTable ubcTable certs l allOk_ok h1
  have P : Pair l (sched M) (var H M) (var H' M') := by
    refine ⟨hs, fun t h1 _ => var_step H M t (by omega), fun t h1 h3 => ?_⟩
    rw [var_step H' M' t (by omega), hM]
    congr 1
    exact sched_xor ⟨_, h2, fun _ _ => rfl⟩ M t (by omega)
  exact P.conds _ c hc

/-- The computations agree before the test step. -/
theorem follows_state {k : Nat} {dv : DV} (hk : dvList[k]? = some dv) {H H' : Regs} {M M' : Block}
    (h : Follows dv H M H' M') : steps (sched M') dv.T H' = steps (sched M) dv.T H := by
  obtain ⟨l, _, _, hq, _, hs⟩ := follows_data hk h
  have hT := (dv_facts hk).1
  have e : ∀ j, j < 5 → (steps (sched M') (dv.T - j) H').a = (steps (sched M) (dv.T - j) H).a := fun j hj => by
    have := hs (dv.T - j) (by omega) (by omega)
    rw [show dv.T - j + 4 = dv.T + (4 - j) by omega, hq (4 - j) (by omega)] at this
    have := BitVec.sub_eq_iff_eq_add.mp (signed_zero _ this)
    rw [BitVec.zero_add] at this
    exact this
  rw [steps_var _ _ _ (by omega), steps_var (sched M) _ _ (by omega), e 1 (by omega), e 2 (by omega), e 3 (by omega),
    e 4 (by omega)]
  congr 1
  exact e 0 (by omega)

theorem follows_sibling {k : Nat} {dv : DV} (hk : dvList[k]? = some dv) {H H' : Regs} {M M' : Block}
    (h : Follows dv H M H' M') (ho : compress H' M' = compress H M) : Sibling dv H M := by
  have hst := follows_state hk h
  obtain ⟨D, hD, hM, _⟩ := h
  rw [hM] at hst ho
  exact ⟨localDiff D, H', ⟨D, hD, fun _ _ => rfl⟩, hst, ho⟩

/-- A collision that follows a vector is one the detector looks for. -/
theorem follows_detected {k : Nat} {dv : DV} (hk : dvList[k]? = some dv) {H H' : Regs} {M M' : Block}
    (h : Follows dv H M H' M') (ho : compress H' M' = compress H M) : Detected H M :=
  ⟨k, dv, hk, follows_conds hk h, follows_sibling hk h ho⟩

end Verif.Path
