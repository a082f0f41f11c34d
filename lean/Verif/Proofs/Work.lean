import Verif.Spec.Work
import Verif.Proofs.Loops
import Verif.Proofs.Eval

/-! The exact number of steps. -/

namespace Verif.LoopProofs

open Verif Verif.Model Verif.Model.Loops Verif.Spec

/-! ### The table -/

/-- Steps of the loop over the table. -/
def scanWork (mask : Word) (m1 : Fin 80 → Word) (cs : Fin 3 → Regs) (h : Regs) : List DvInfo → Nat
  | [] => 0
  | e :: es =>
    if e.DvType ≠ 0 then
      if mask &&& ((1#32) <<< e.MaskB.toNat) ≠ 0 then
        match selectCs cs e.TestT with
        | .ok c => if Model.hasCollided e.TestT m1 e.Dm c h = true then 106 else 106 + scanWork mask m1 cs h es
        | .error _ => 0
      else 1 + scanWork mask m1 cs h es
    else 0

theorem scan_exact {n : Nat} (hn : IntBits n) (dvs : List DvInfo) (hd : dvs.length < 1000) (mask : Word)
    (m1 : Fin 80 → Word) (cs : Fin 3 → Regs) (h : Regs) (b : Bool) :
    ∀ (rest : List DvInfo) (e : DvInfo) (j : Nat), dvs.drop j = e :: rest → scanDvs mask m1 cs h (e :: rest) = .ok b →
      ∃ s', s'.found = b ∧
        CostsW (fun s : Scan n => !s.found && decide (s.entry.DvType ≠ 0)) (scanBody dvs mask m1 cs h)
          ⟨BitVec.ofNat n j, e, false⟩ s' (scanWork mask m1 cs h (e :: rest)) := by
  intro rest
  induction rest with
  | nil =>
    intro e j hj hs
    rw [scanDvs] at hs
    unfold scanWork
    by_cases ht : e.DvType ≠ 0
    · rw [if_pos ht] at hs ⊢
      by_cases hm : mask &&& ((1#32) <<< e.MaskB.toNat) ≠ 0
      · rw [if_pos hm] at hs ⊢
        cases hc : selectCs cs e.TestT with
        | error _ => simp [hc, bind, Except.bind] at hs
        | ok c =>
          simp only [hc, bind, Except.bind] at hs ⊢
          by_cases hcol : Model.hasCollided e.TestT m1 e.Dm c h = true
          · rw [if_pos hcol] at hs ⊢
            cases hs
            refine ⟨⟨BitVec.ofNat n j, e, true⟩, rfl, CostsW.step (k := 105) (l := 0) (cond_true ht) ?_ (CostsW.done rfl)⟩
            unfold scanBody
            rw [if_pos hm]
            refine (Costs.lift hc).bind0 (Costs.bind (l := 0) (hasCollided_costs _ _ _ _ _) ?_)
            rw [if_pos hcol]
            exact Costs.pure _
          · rw [if_neg hcol] at hs
            cases hs
      · rw [if_neg hm] at hs
        cases hs
    · rw [if_neg ht] at hs ⊢
      cases hs
      exact ⟨_, rfl, CostsW.done (cond_false ht)⟩
  | cons e' rest ih =>
    intro e j hj hs
    have hlen : j + 1 < dvs.length := by
      have := congrArg List.length hj
      simp at this
      omega
    have hj' : dvs.drop (j + 1) = e' :: rest := by
      rw [← List.drop_drop, hj]; rfl
    have hget : dvs[j + 1]'hlen = e' := by
      rw [List.drop_eq_getElem_cons hlen] at hj'
      exact (List.cons.inj hj').1
    have hnext : Costs (do
        let e ← ldSlice dvs (BitVec.ofNat n j + 1)
        pure { (⟨BitVec.ofNat n j, e, false⟩ : Scan n) with i := BitVec.ofNat n j + 1, entry := e })
        (⟨BitVec.ofNat n (j + 1), e', false⟩ : Scan n) 0 := by
      have et : (BitVec.ofNat n (j + 1)).toNat = j + 1 := nat_lt hn (by omega)
      rw [ofNat_succ]
      refine ((ldSlice_costs dvs (BitVec.ofNat n (j + 1)) (by rw [et]; exact hlen)).cast ?_ rfl).bind0 (Costs.pure _)
      simp only [et]
      exact hget
    rw [scanDvs] at hs
    unfold scanWork
    by_cases ht : e.DvType ≠ 0
    · rw [if_pos ht] at hs ⊢
      by_cases hm : mask &&& ((1#32) <<< e.MaskB.toNat) ≠ 0
      · rw [if_pos hm] at hs ⊢
        cases hc : selectCs cs e.TestT with
        | error _ => simp [hc, bind, Except.bind] at hs
        | ok c =>
          simp only [hc, bind, Except.bind] at hs ⊢
          by_cases hcol : Model.hasCollided e.TestT m1 e.Dm c h = true
          · rw [if_pos hcol] at hs ⊢
            cases hs
            refine ⟨⟨BitVec.ofNat n j, e, true⟩, rfl, CostsW.step (k := 105) (l := 0) (cond_true ht) ?_ (CostsW.done rfl)⟩
            unfold scanBody
            rw [if_pos hm]
            refine (Costs.lift hc).bind0 (Costs.bind (l := 0) (hasCollided_costs _ _ _ _ _) ?_)
            rw [if_pos hcol]
            exact Costs.pure _
          · rw [if_neg hcol] at hs ⊢
            obtain ⟨s', h1, h3⟩ := ih e' (j + 1) hj' hs
            refine ⟨s', h1, CostsW.step (k := 105) (cond_true ht) ?_ h3⟩
            unfold scanBody
            rw [if_pos hm]
            refine (Costs.lift hc).bind0 (Costs.bind (l := 0) (hasCollided_costs _ _ _ _ _) ?_)
            rw [if_neg hcol]
            exact hnext
      · rw [if_neg hm] at hs ⊢
        obtain ⟨s', h1, h3⟩ := ih e' (j + 1) hj' hs
        refine ⟨s', h1, CostsW.step (k := 0) (cond_true ht) ?_ h3⟩
        unfold scanBody
        rw [if_neg hm]
        exact hnext
    · rw [if_neg ht] at hs ⊢
      cases hs
      exact ⟨_, rfl, CostsW.done (cond_false ht)⟩

/-- Steps of `checkCollision`. -/
def checkWork (dvs : List DvInfo) (m1 : Fin 80 → Word) (cs : Fin 3 → Regs) (h : Regs) : Nat :=
  1 + if Ubc.calculateDvMask (some m1) ≠ 0 then scanWork (Ubc.calculateDvMask (some m1)) m1 cs h dvs else 0

theorem checkCollision_exact {n : Nat} (hn : IntBits n) (dvs : List DvInfo) (hd : dvs.length < 1000)
    (m1 : Fin 80 → Word) (cs : Fin 3 → Regs) (h : Regs) (b : Bool) (hc : Model.checkCollision dvs m1 cs h = .ok b) :
    Costs (Loops.checkCollision n dvs m1 cs h) b (checkWork dvs m1 cs h) := by
  unfold Model.checkCollision at hc
  unfold Loops.checkCollision checkWork
  by_cases hm : Ubc.calculateDvMask (some m1) ≠ 0
  · rw [if_pos hm] at hc
    cases dvs with
    | nil => cases hc
    | cons e rest =>
      obtain ⟨s', h1, h3⟩ := scan_exact hn (e :: rest) hd _ m1 cs h b rest e 0 rfl hc
      have h0 : Costs (ldSlice (e :: rest) (0 : BitVec n)) e 0 := by
        have et : (0 : BitVec n).toNat = 0 := by simp
        refine (ldSlice_costs (e :: rest) (0 : BitVec n) (by simp)).cast ?_ rfl
        simp
      refine Costs.tick.bind ?_
      dsimp only
      rw [if_pos hm, if_pos hm]
      refine h0.bind0 (Costs.bind (l := 0) h3.loop ?_)
      rw [← h1]
      exact Costs.pure _
  · rw [if_neg hm] at hc
    cases hc
    refine Costs.tick.bind ?_
    dsimp only
    rw [if_neg hm, if_neg hm]
    exact Costs.pure _

/-- The loop over the table from entry `k` on, said with the vectors. -/
theorem scanWork_spec (H : Regs) (M : Block) (mask : Word) :
    ∀ (k : Nat) (dvs : List DV) (es : List DvInfo), TableOk k dvs es → k + dvs.length ≤ 32 →
      (∀ dv ∈ dvs, (dv.T = 58 ∨ dv.T = 65) ∧ dv.K + 16 ≤ 80) →
      ∀ hit : Nat → Prop, (∀ j, hit j ↔ ∃ dv, dvs[j]? = some dv ∧ mask.getLsbD (k + j) = true ∧ GoTest dv H M) →
      open Classical in
      scanWork mask (fun i => sched M i) (csOf H M) (compress H M) es =
        ((List.range dvs.length).countP fun j => decide (∀ i < j, ¬ hit i)) +
        105 * ((List.range dvs.length).countP fun j => decide (mask.getLsbD (k + j) = true ∧ ∀ i < j, ¬ hit i)) := by
  intro k dvs es h
  induction h with
  | nil k e rest he =>
    intro _ _ _ _
    unfold scanWork
    rw [if_neg (by simp [he])]
    simp
  | cons k dv e dvs es he _ ih =>
    intro hlen hall hit hh
    have hT := (hall dv (by simp)).1
    have hK := (hall dv (by simp)).2
    have hlen' : k < 32 := by simp at hlen; omega
    have hmb : e.MaskB.toNat = k := by rw [he.maskB]; simp; omega
    have hty : e.DvType ≠ 0 := by
      rw [he.type]; cases dv.type <;> decide
    have hcs : selectCs (csOf H M) e.TestT = .ok (steps (sched M) dv.T H) := by
      rw [he.T]
      rcases hT with h | h <;> rw [h] <;> rfl
    have htest := test_iff k dv e he hT hK H M
    have hbit := Ubc.and_bit_ne_zero mask k hlen'
    have h0 : hit 0 ↔ mask.getLsbD k = true ∧ GoTest dv H M := by rw [hh]; simp
    have hs : ∀ j, hit (j + 1) ↔ ∃ dv, dvs[j]? = some dv ∧ mask.getLsbD (k + 1 + j) = true ∧ GoTest dv H M := by
      intro j
      rw [hh, show k + (j + 1) = k + 1 + j by omega]
      simp
    have ih := ih (by simp at hlen; omega) (fun d hd => hall d (by simp [hd])) (fun j => hit (j + 1)) hs
    have shift : ∀ j, (∀ i < j + 1, ¬ hit i) ↔ ¬ hit 0 ∧ ∀ i < j, ¬ hit (i + 1) := by
      intro j
      constructor
      · exact fun h => ⟨h 0 (by omega), fun i hi => h (i + 1) (by omega)⟩
      · rintro ⟨a, b⟩ i hi
        cases i with
        | zero => exact a
        | succ i => exact b i (by omega)
    classical
    rw [List.length_cons, List.range_succ_eq_map, List.countP_cons, List.countP_cons, List.countP_map, List.countP_map]
    have e1 : ((fun j => decide (∀ i < j, ¬ hit i)) ∘ Nat.succ) = fun j => decide (¬ hit 0 ∧ ∀ i < j, ¬ hit (i + 1)) := by
      funext j
      exact decide_eq_decide.mpr (shift j)
    have e2 : ((fun j => decide (mask.getLsbD (k + j) = true ∧ ∀ i < j, ¬ hit i)) ∘ Nat.succ) =
        fun j => decide (mask.getLsbD (k + 1 + j) = true ∧ ¬ hit 0 ∧ ∀ i < j, ¬ hit (i + 1)) := by
      funext j
      refine decide_eq_decide.mpr ?_
      rw [Nat.succ_eq_add_one, shift, show k + (j + 1) = k + 1 + j by omega]
    rw [e1, e2]
    simp only [Nat.add_zero, Nat.not_lt_zero, false_implies, implies_true, decide_true, and_true, if_true,
      decide_eq_true_eq]
    unfold scanWork
    rw [if_pos hty, hmb]
    by_cases hm : mask.getLsbD k = true
    · have : mask &&& 1#32 <<< k ≠ 0 := fun hc => by
        have := hbit.mp hc; rw [hm] at this; exact absurd this (by decide)
      rw [if_pos this, hcs]
      simp only [hm, if_true]
      by_cases ht : Model.hasCollided e.TestT (fun i => sched M i) e.Dm (steps (sched M) dv.T H)
          (compress H M) = true
      · have : hit 0 := h0.mpr ⟨hm, htest.mp ht⟩
        rw [if_pos ht]
        simp [this]
      · have : ¬ hit 0 := fun hc => ht (htest.mpr (h0.mp hc).2)
        rw [if_neg ht]
        simp only [this, not_false_eq_true, true_and]
        rw [ih]
        omega
    · have : ¬ (mask &&& 1#32 <<< k ≠ 0) := fun hc => hc (hbit.mpr (by simpa using hm))
      have h0' : ¬ hit 0 := fun hc => hm (h0.mp hc).1
      rw [if_neg this]
      simp only [h0', hm, not_false_eq_true, true_and, Bool.false_eq_true, if_false]
      rw [ih]
      omega

theorem checkWork_eq (H : Regs) (M : Block) :
    checkWork sha1Dvs (fun i => sched M i) (csOf H M) (compress H M) = 1 + lookedAt H M + 105 * reconstructed H M := by
  classical
  have hmask := Ubc.mask_bit (fun i => sched M i) (sched M) (fun _ => rfl)
  unfold checkWork
  generalize Ubc.calculateDvMask (some fun i : Fin 80 => sched M i) = mask at hmask ⊢
  have hmeets : ∀ k, k < 32 → (mask.getLsbD k = true ↔ Meets M k) := fun k hk => by
    rw [hmask k hk]
    exact ⟨fun h => ⟨hk, h⟩, fun h => h.2⟩
  have hex : (∃ k, Meets M k) ↔ mask ≠ 0 := by
    constructor
    · rintro ⟨k, hk⟩ h0
      have := (hmeets k hk.1).mpr hk
      rw [h0] at this
      simp at this
    · intro h0
      refine Decidable.byContradiction fun hn => h0 ?_
      apply BitVec.eq_of_getLsbD_eq
      intro k hk
      rw [Bool.eq_false_iff.mpr (fun h => hn ⟨k, (hmeets k hk).mp h⟩)]
      simp
  unfold lookedAt reconstructed
  by_cases h0 : mask ≠ 0
  · rw [if_pos h0, if_pos (hex.mpr h0)]
    have := scanWork_spec H M mask 0 dvList sha1Dvs sha1Dvs_ok (by simp [dvList_length]) dvList_T (Hit H M) (fun j => by
      unfold Hit GoTest
      constructor
      · rintro ⟨dv, h1, h2, h3⟩
        have hj : j < 32 := by
          have := (List.getElem?_eq_some_iff.mp h1).1; rwa [dvList_length] at this
        exact ⟨dv, h1, by rw [Nat.zero_add, hmask j hj]; exact h2, h3⟩
      · rintro ⟨dv, h1, h2, h3⟩
        have hj : j < 32 := by
          have := (List.getElem?_eq_some_iff.mp h1).1; rwa [dvList_length] at this
        exact ⟨dv, h1, by rw [Nat.zero_add, hmask j hj] at h2; exact h2, h3⟩)
    rw [this, dvList_length]
    have e : (List.range 32).countP (fun j => decide (mask.getLsbD (0 + j) = true ∧ ∀ i < j, ¬ Hit H M i)) =
        (List.range 32).countP (fun k => decide (Meets M k ∧ ∀ j < k, ¬ Hit H M j)) := by
      apply List.countP_congr
      intro k hk
      rw [decide_eq_true_eq, decide_eq_true_eq, Nat.zero_add, hmeets k (List.mem_range.mp hk)]
    rw [e]
    omega
  · rw [if_neg h0, if_neg (fun h => h0 (hex.mp h))]
    rw [List.countP_eq_zero.mpr (fun k _ h => h0 (hex.mp ⟨k, (of_decide_eq_true h).1⟩))]

theorem CostsW.cast {S : Type} {cond : S → Bool} {body : S → M S} {s r : S} {k k' : Nat} (h : CostsW cond body s r k)
    (hk : k = k') : CostsW cond body s r k' := hk ▸ h

theorem work_cons (c : Nat) (H : Regs) (M : Block) (Ms : List Block) :
    work c H (M :: Ms) = blockWork c H M + work c (safeCompress detGo H M) Ms := by
  rw [work, safeCompress]
  by_cases h : GoDetected H M
  · rw [if_pos h, if_pos ((detGo_iff H M).mpr h)]
  · rw [if_neg h, if_neg (fun q => h ((detGo_iff H M).mp q))]

theorem work_append (c : Nat) (H : Regs) (xs ys : List Block) :
    work c H (xs ++ ys) = work c H xs + work c (safeChain detGo H xs).1 ys := by
  induction xs generalizing H with
  | nil => simp [work, safeChain]
  | cons x xs ih => rw [List.cons_append, work_cons, work_cons, ih]; simp [safeChain, Nat.add_assoc]

theorem blockWork_eq (c : Nat) (H : Regs) (M : Block) : blockWork c H M =
    1 + c + checkWork sha1Dvs (fun i => sched M i) (csOf H M) (compress H M) + if detGo H M = true then 2 * c else 0 := by
  rw [checkWork_eq]
  unfold blockWork
  by_cases h : GoDetected H M
  · rw [if_pos h, if_pos ((detGo_iff H M).mpr h)]; omega
  · rw [if_neg h, if_neg (fun q => h ((detGo_iff H M).mp q))]; omega

/-! ### The block functions -/

theorem rehash1_exact {n : Nat} (hn : IntBits n) (p : List Byte) (hp : 64 ≤ p.length) (m1 : Fin 80 → Word)
    (st st' : BlockState) (h : rehash sha1Dvs p hp 1 m1 st = .ok st') :
    ∃ c k, CostsW Chunk.again (rehashBody n sha1Dvs p) (chunkOf st m1 1) c k ∧
      (⟨c.w, c.cs, c.h, c.col⟩ : BlockState) = st' ∧ 1 + k = blockWork 81 st.h (toBlock p) := by
  rw [rehash] at h
  simp only [show ¬ (1 = 2) by decide, if_false, if_true] at h
  have hr := rounds_costs hn p hp st.h { w := st.w, m1 := m1, r := st.h, cs := st.cs }
  obtain ⟨o1, o2, o3⟩ := rounds_out p hp st.h { w := st.w, m1 := m1, r := st.h, cs := st.cs }
  generalize Model.rounds p hp st.h { w := st.w, m1 := m1, r := st.h, cs := st.cs } = r at h hr o1 o2 o3
  have hc : Model.checkCollision sha1Dvs r.m1 r.cs (st.h.add r.r) = .ok (detGo st.h (toBlock p)) := by
    rw [o1, o2, o3]
    exact detGo_ok st.h (toBlock p)
  have k2 := checkCollision_exact hn sha1Dvs (by decide) _ _ _ _ hc
  rw [o1, o2, o3] at k2
  rw [blockWork_eq]
  generalize checkWork sha1Dvs (fun i => sched (toBlock p) i) (csOf st.h (toBlock p)) (compress st.h (toBlock p)) = k at k2 ⊢
  rw [← o1, ← o2, ← o3] at k2
  generalize detGo st.h (toBlock p) = b at hc k2 ⊢
  simp only [hc, bind, Except.bind] at h
  cases b with
  | false =>
    have hb : Costs (rehashBody n sha1Dvs p (chunkOf st m1 1))
        { w := r.w, cs := r.cs, m1 := r.m1, h := st.h.add r.r, col := st.col, hi := 1, again := false } (80 + k) :=
      Costs.bind hr (Costs.bind (l := 0) k2 (Costs.pure _))
    refine ⟨_, 1 + (80 + k) + 0, CostsW.step (l := 0) rfl hb (CostsW.done rfl), ?_, by simp; omega⟩
    cases h
    rfl
  | true =>
    have hb : Costs (rehashBody n sha1Dvs p (chunkOf st m1 1))
        (chunkOf { w := r.w, cs := r.cs, h := st.h.add r.r, col := true } r.m1 2) (80 + k) :=
      Costs.bind hr (Costs.bind (l := 0) k2 (Costs.pure _))
    obtain ⟨c, h1, h2⟩ := rehash2_costs hn sha1Dvs p hp _ _ _ h
    exact ⟨c, 1 + (80 + k) + 162, CostsW.step rfl hb h1, h2, by simp; omega⟩

theorem blockLoop_exact {n : Nat} (hn : IntBits n) :
    ∀ (b : Nat) (p : List Byte) (st st' : BlockState), p.length / 64 = b → blockLoop sha1Dvs st p = .ok st' →
    ∃ q, CostsW (fun s : BlockState × List Byte => decide (s.2.length ≥ 64)) (chunkBody n sha1Dvs) (st, p) (st', q)
      (work 81 st.h (blocks p)) := by
  intro b
  induction b with
  | zero =>
    intro p st st' hb h
    rw [blockLoop, dif_neg (by omega)] at h
    cases h
    rw [blocks_lt p (by omega)]
    exact ⟨p, CostsW.done (by simp; omega)⟩
  | succ b ih =>
    intro p st st' hb h
    have hp : 64 ≤ p.length := by omega
    rw [blockLoop, dif_pos hp] at h
    obtain ⟨w, cs, hr⟩ := rehash1_table sha1Dvs_impl p hp (fun _ => 0) st
    simp only [hr, bind, Except.bind] at h
    obtain ⟨q, h1⟩ := ih (p.drop 64) _ st' (by simp; omega) h
    obtain ⟨c, l, c1, c2, c3⟩ := rehash1_exact hn p hp _ _ _ hr
    have hb : Costs (chunkBody n sha1Dvs (st, p)) (_, p.drop 64) l :=
      Costs.bind (l := 0) c1.loop ((Costs.pure _).cast (by rw [c2]) rfl)
    rw [blocks_ge p hp, work_cons, ← c3]
    exact ⟨q, CostsW.step (by simp; omega) hb h1⟩

theorem simdLoop_exact {n : Nat} (hn : IntBits n) (N : Nat)
    (asm : Nat → Regs → List Byte → (Fin 80 → Word) → (Fin 3 → Regs) → GoM AsmOut)
    (asmM : Nat → Regs → List Byte → (Fin 80 → Word) → (Fin 3 → Regs) → M AsmOut) (hok : AsmOk asm)
    (ha : ∀ k h p m1 cs o, asm k h p m1 cs = .ok o → Costs (asmM k h p m1 cs) o N) :
    ∀ (b : Nat) (p : List Byte) (k : Nat) (m1 : Fin 80 → Word) (cs : Fin 3 → Regs) (dig c : Core), p.length / 64 = b →
      simdLoop asm sha1Dvs k m1 cs dig p = .ok c →
    ∃ s, CostsW (fun s : Simd => decide (s.p.length ≥ 64)) (simdBody n asmM sha1Dvs) ⟨k, m1, cs, dig, p⟩ s
        (work N dig.h (blocks p)) ∧ s.dig = c := by
  intro b
  induction b with
  | zero =>
    intro p k m1 cs dig c hb h
    rw [simdLoop, if_neg (by omega)] at h
    cases h
    rw [blocks_lt p (by omega)]
    exact ⟨_, CostsW.done (by simp; omega), rfl⟩
  | succ b ih =>
    intro p k m1 cs dig c hb h
    have hp : 64 ≤ p.length := by omega
    have hl : (p.take 64).length = 64 := by simp; omega
    rw [simdLoop, if_pos hp] at h
    obtain ⟨o, h1, h⟩ := bind_inv h
    have e1 := h1
    rw [hok _ _ _ _ _ hl, toBlock_take] at e1
    cases e1
    rw [rectify_eq] at h
    obtain ⟨col, h2, h⟩ := bind_inv h
    have e2 : col = detGo dig.h (toBlock p) := by
      have := detGo_ok dig.h (toBlock p)
      rw [h2] at this
      cases this
      rfl
    have hl' := checkCollision_exact hn sha1Dvs (by decide) _ _ _ _ h2
    rw [← rectify_eq] at hl'
    rw [blocks_ge p hp, work_cons, blockWork_eq, ← rectify_eq, ← e2]
    generalize checkWork sha1Dvs (fun i => sched (toBlock p) i)
      (rectifyCompressionState (fun i => sched (toBlock p) i) (rawCs dig.h (toBlock p))) (compress dig.h (toBlock p)) = l
      at hl' ⊢
    have hsc : safeCompress detGo dig.h (toBlock p) = if col = true then
        compress (compress (compress dig.h (toBlock p)) (toBlock p)) (toBlock p) else compress dig.h (toBlock p) := by
      rw [e2]; rfl
    rw [hsc]
    clear e2 hsc
    cases col with
    | false =>
      obtain ⟨s, g1, g2⟩ := ih (p.drop 64) _ _ _ _ _ (by simp; omega) h
      refine ⟨s, ?_, g2⟩
      have hb : Costs (simdBody n asmM sha1Dvs ⟨k, m1, cs, dig, p⟩)
          ⟨k + 1, _, rectifyCompressionState (fun i => sched (toBlock p) i) (rawCs dig.h (toBlock p)),
            ⟨compress dig.h (toBlock p), dig.col⟩, p.drop 64⟩ (N + l) :=
        Costs.bind (ha _ _ _ _ _ _ h1) (Costs.bind (l := 0) hl' (Costs.pure _))
      rw [rectify_eq] at hb
      exact CostsW.cast (CostsW.step (by simp; omega) hb g1) (by simp; omega)
    | true =>
      obtain ⟨o2, h3, h⟩ := bind_inv h
      have e3 := h3
      rw [hok _ _ _ _ _ hl, toBlock_take] at e3
      cases e3
      obtain ⟨o3, h4, h⟩ := bind_inv h
      have e4 := h4
      rw [hok _ _ _ _ _ hl, toBlock_take] at e4
      cases e4
      obtain ⟨s, g1, g2⟩ := ih (p.drop 64) _ _ _ _ _ (by simp; omega) h
      refine ⟨s, ?_, g2⟩
      rw [← rectify_eq] at h3
      have hb : Costs (simdBody n asmM sha1Dvs ⟨k, m1, cs, dig, p⟩)
          ⟨k + 3, _, _, ⟨_, true⟩, p.drop 64⟩ (N + (l + (N + N))) :=
        Costs.bind (ha _ _ _ _ _ _ h1) (Costs.bind hl' (Costs.bind (ha _ _ _ _ _ _ h3)
          (Costs.bind (l := 0) (ha _ _ _ _ _ _ h4) (Costs.pure _))))
      exact CostsW.cast (CostsW.step (by simp; omega) hb g1) (by simp; omega)

/-- The steps of one compression: 80 and the label `rehash`, or the instructions of the assembly. -/
def compression : Mach → Nat
  | .portable => 81
  | .amd64 _ _ => 195
  | .arm64 _ _ _ => 169

theorem machBlock_exact {n : Nat} (hn : IntBits n) (B : Mach) (c c' : Core) (p : List Byte)
    (h : B.build.block c p = .ok c') : Costs (Loops.block n B c p) c' (work (compression B) c.h (blocks p)) := by
  cases B with
  | portable =>
    obtain ⟨st, hr, h⟩ := bind_inv h
    cases h
    obtain ⟨q, h1⟩ := blockLoop_exact hn _ p _ _ rfl hr
    exact Costs.bind (l := 0) h1.loop (Costs.pure _)
  | amd64 e ok =>
    obtain ⟨s, h1, h2⟩ := simdLoop_exact hn 195 _ (fun k => Loops.callAmd64 (e k))
      (fun k H p m1 cs hp => Flat.Amd64.call_ok (e k).env (ok k) (e k).x (e k).g (e k).r12 H p hp m1 cs)
      (fun k h p m1 cs o ho => callAmd64_costs (e k) (ok k) h p m1 cs o ho) _ p 0 _ _ _ _ rfl h
    subst h2
    exact Costs.bind (l := 0) h1.loop (Costs.pure _)
  | arm64 e ok r16 =>
    obtain ⟨s, h1, h2⟩ := simdLoop_exact hn 169 _ (fun k => Loops.callArm64 (e k))
      (fun k H p m1 cs hp => Flat.Arm64.call_ok (e k).env (ok k) (e k).v (e k).g (r16 k) H p hp m1 cs)
      (fun k h p m1 cs o ho => callArm64_costs (e k) (ok k) (r16 k) h p m1 cs o ho) _ p 0 _ _ _ _ rfl h
    subst h2
    exact Costs.bind (l := 0) h1.loop (Costs.pure _)

theorem callBlock_exact {n : Nat} (hn : IntBits n) (B : Mach) (d d' : Digest) (p : List Byte)
    (h : d.callBlock B.build.block p = .ok d') :
    Costs (Loops.callBlock n B d p) d' (work (compression B) d.h (blocks p)) := by
  obtain ⟨c, hr, h⟩ := bind_inv h
  cases h
  exact Costs.bind (l := 0) (machBlock_exact hn B _ _ _ hr) (Costs.pure _)

/-! ### The object -/

theorem work_nil (c : Nat) (H : Regs) : work c H [] = 0 := by rw [work]

theorem writeFill_exact {n : Nat} (hn : IntBits n) (B : Mach) (d d' : Digest) (hd : d.nx < 64) (p0 q : List Byte)
    (h : d.writeFill B.build.block (p0 ++ q) = .ok (d', q)) :
    Costs (Loops.writeFill n B d (p0 ++ q)) (d', q) (work (compression B) d.h (blocks ((absD d).buf ++ p0))) := by
  have hbl := absD_buf_length d (by omega)
  generalize hp : p0 ++ q = p at h ⊢
  unfold Digest.writeFill at h
  unfold Loops.writeFill
  by_cases h0 : d.nx > 0
  · rw [if_pos h0, dif_pos (by omega)] at h
    rw [if_pos h0, dif_pos (by omega)]
    have hct := copyAt_take d.x d.nx (by omega) p
    by_cases h1 : d.nx + min (64 - d.nx) p.length = Model.Chunk
    · rw [if_pos h1] at h
      have h64 : d.nx + min (64 - d.nx) p.length = 64 := h1
      dsimp only at h ⊢
      rw [if_pos h1]
      obtain ⟨d1, hr, h⟩ := bind_inv h
      cases h
      have hx : (copyAt d.x d.nx (by omega) p).1 = (absD d).buf ++ p.take (64 - d.nx) := by
        rw [← List.take_of_length_le (l := (copyAt d.x d.nx (by omega) p).1) (i := 64)
          (by rw [(copyAt d.x d.nx (by omega) p).2]; exact Nat.le_refl _)]
        rw [h64] at hct
        exact hct
      have e0 : p0 = p.take (64 - d.nx) := by
        have := congrArg List.length hp
        simp only [List.length_append, List.length_drop] at this
        have e : p.take (min (64 - d.nx) p.length) ++ p.drop (min (64 - d.nx) p.length) = p := List.take_append_drop _ _
        have := List.append_cancel_right (hp.trans e.symm)
        rw [this, show min (64 - d.nx) p.length = 64 - d.nx by omega]
      have k1 := callBlock_exact hn B _ _ _ hr
      rw [e0, ← hx]
      exact Costs.bind (l := 0) k1 (Costs.pure _)
    · rw [if_neg h1] at h
      dsimp only
      rw [if_neg h1]
      have h64 : ¬ d.nx + min (64 - d.nx) p.length = 64 := h1
      cases h
      have e0 := congrArg List.length hp
      simp only [List.length_append, List.length_drop] at e0
      rw [blocks_lt _ (by rw [List.length_append, hbl]; omega), work_nil]
      exact Costs.pure _
  · rw [if_neg h0] at h
    rw [if_neg h0]
    cases h
    have e0 : p0.length = 0 := by
      have := congrArg List.length hp
      simp only [List.length_append] at this
      omega
    rw [blocks_lt _ (by rw [List.length_append, hbl]; omega), work_nil]
    exact Costs.pure _

theorem writeBulk_exact {n : Nat} (hn : IntBits n) (B : Mach) (d d' : Digest) (hd : d.nx < 64) (p0 q : List Byte)
    (hz : d.nx = 0 ∨ p0 ++ q = []) (h : d.writeBulk B.build.block (p0 ++ q) = .ok (d', q)) :
    Costs (Loops.writeBulk n B d (p0 ++ q)) (d', q) (work (compression B) d.h (blocks ((absD d).buf ++ p0))) := by
  have hbl := absD_buf_length d (by omega)
  generalize hp : p0 ++ q = p at h hz ⊢
  unfold Digest.writeBulk at h
  unfold Loops.writeBulk
  by_cases h0 : p.length ≥ Model.Chunk
  · have h64 : p.length ≥ 64 := h0
    rw [if_pos h0] at h ⊢
    obtain ⟨d1, hr, h⟩ := bind_inv h
    cases h
    have e0 : p0 = p.take (p.length - (p.length &&& (Model.Chunk - 1))) :=
      List.append_cancel_right (hp.trans (List.take_append_drop _ _).symm)
    have hb : (absD d).buf = [] := by
      rcases hz with h | h
      · exact List.eq_nil_of_length_eq_zero (hbl.trans h)
      · rw [h] at h64; simp at h64
    rw [hb, List.nil_append, e0]
    exact Costs.bind (l := 0) (callBlock_exact hn B _ _ _ hr) (Costs.pure _)
  · have h64 : ¬ p.length ≥ 64 := h0
    rw [if_neg h0] at h ⊢
    cases h
    have e0 : p0.length = 0 := by
      have := congrArg List.length hp
      simp only [List.length_append] at this
      omega
    rw [blocks_lt _ (by rw [List.length_append, hbl]; omega), work_nil]
    exact Costs.pure _

/-- The work for pending bytes and two more pieces, one after the other. -/
theorem work_absorb (c : Nat) (s : Sp) (p q : List Byte) :
    work c s.h (blocks (s.buf ++ p)) + work c (s.absorb detGo p).h (blocks ((s.absorb detGo p).buf ++ q)) =
      work c s.h (blocks (s.buf ++ (p ++ q))) := by
  unfold Sp.absorb
  rw [← List.append_assoc, blocks_append_rem (s.buf ++ p) q, work_append]

theorem write_exact {n : Nat} (hn : IntBits n) (B : Mach) (d d' : Digest) (hd : d.nx < 64) (p : List Byte)
    (r : Nat × Option Err) (h : d.write B.build.block p = .ok (d', r)) :
    Costs (Loops.write n B d p) (d', r) (work (compression B) d.h (blocks ((absD d).buf ++ p))) := by
  have hbl := absD_buf_length d (by omega)
  unfold Digest.write at h
  unfold Loops.write
  by_cases h0 : p.length = 0
  · rw [if_pos h0] at h ⊢
    cases h
    rw [blocks_lt _ (by rw [List.length_append, hbl]; omega), work_nil]
    exact Costs.pure _
  · rw [if_neg h0] at h ⊢
    dsimp only at h ⊢
    obtain ⟨d1, q1, e1, n1, c1, _, p1, s1, a1⟩ := fill_spec B.build.block detGo (Build.impl B.build)
      { d with len := d.len + BitVec.ofNat 64 p.length } hd p
    obtain ⟨d2, q2, e2, c2, m2, n2, _, p2, s2, a2⟩ := bulk_spec B.build.block detGo (Build.impl B.build) d1 q1 c1 n1
    obtain ⟨⟨d1', q1'⟩, hf, h⟩ := bind_inv h
    rw [e1] at hf
    cases hf
    obtain ⟨⟨d2', q2'⟩, hg, h⟩ := bind_inv h
    have hg : d1.writeBulk B.build.block q1 = .ok (d2', q2') := hg
    rw [e2] at hg
    cases hg
    cases h
    rw [s1] at e1
    rw [s2] at e2 c1
    have k1 := writeFill_exact hn B _ _ (by exact hd) _ _ e1
    have k2 := writeBulk_exact hn B _ _ n1 _ _ c1 e2
    rw [← s1] at k1
    rw [← s2] at k2
    refine Costs.cast (Costs.bind k1 (Costs.bind (l := 0) k2 (Costs.pure _))) rfl ?_
    have e3 : (absD d1).h = d1.h := rfl
    rw [← e3, a1]
    have e4 : (absD { d with len := d.len + BitVec.ofNat 64 p.length }) = absD d := rfl
    have e5 : ({ d with len := d.len + BitVec.ofNat 64 p.length } : Digest).h = (absD d).h := rfl
    rw [e4, e5, Nat.add_zero, work_absorb]
    conv => rhs; rw [s1, s2, ← List.append_assoc, ← List.append_assoc, blocks_append_rem]
    have hlt : (rem64 ((absD d).buf ++ p1 ++ p2) ++ q2).length < 64 := by
      have t1 : (absD d2).buf.length = d2.nx := absD_buf_length d2 (by omega)
      rw [a2, a1, Sp.absorb_append] at t1
      have t2 : (rem64 ((absD d).buf ++ p1 ++ p2)).length = d2.nx := by
        rw [← t1, List.append_assoc]
        rfl
      rw [List.length_append, t2]
      rcases c2 with c | c
      · omega
      · rw [c]; simp; omega
    rw [blocks_lt _ hlt, List.append_nil, List.append_assoc]

theorem checkSum_exact {n : Nat} (hn : IntBits n) (B : Mach) (d d' : Digest) (hd : d.nx < 64) (r : List Byte)
    (h : d.checkSum B.build.block = .ok (d', r)) :
    Costs (Loops.checkSum n B d) (d', r) (work (compression B) d.h (blocks ((absD d).buf ++ padTail d.len))) := by
  unfold Digest.checkSum at h
  unfold Loops.checkSum
  obtain ⟨pad, hp, h⟩ := bind_inv h
  have hp' := hp
  rw [padding_spec] at hp'
  cases hp'
  obtain ⟨⟨d1, o⟩, hw, h⟩ := bind_inv h
  have c := write_exact hn B _ _ hd _ _ hw
  by_cases h0 : d1.nx ≠ 0
  · dsimp only at h
    rw [if_pos h0] at h
    cases h
  · dsimp only at h
    rw [if_neg h0] at h
    obtain ⟨_, g1, h⟩ := bind_inv h
    obtain ⟨_, g2, h⟩ := bind_inv h
    obtain ⟨_, g3, h⟩ := bind_inv h
    obtain ⟨_, g4, h⟩ := bind_inv h
    obtain ⟨_, g5, h⟩ := bind_inv h
    cases h
    refine Costs.bind0 (Costs.lift hp) (Costs.bind (l := 0) c ?_)
    dsimp only
    rw [if_neg h0]
    exact Costs.bind0 (Costs.lift g1) (Costs.bind0 (Costs.lift g2) (Costs.bind0 (Costs.lift g3)
      (Costs.bind0 (Costs.lift g4) (Costs.bind0 (Costs.lift g5) (Costs.pure _)))))

theorem work_more (c : Nat) (m q : List Byte) :
    work c ((⟨H0, [], false⟩ : Sp).absorb detGo m).h (blocks (((⟨H0, [], false⟩ : Sp).absorb detGo m).buf ++ q)) =
      work c H0 (blocks (m ++ q)) - work c H0 (blocks m) := by
  have := work_absorb c ⟨H0, [], false⟩ m q
  simp only [List.nil_append] at this
  omega

theorem call_exact {n : Nat} (hn : IntBits n) (B : Mach) (d d' : Digest) (m : List Byte) (hd : Holds detGo d m) (op : Op)
    (hop : isRestore op = false) (o : Out) (h : d.call B.build.block op = .ok (d', o)) :
    Costs (Loops.call n B d op) (d', o) (callWork (compression B) m op) := by
  have hlt := hd.1.lt
  have he : d.h = (absD d).h := rfl
  cases op with
  | write p =>
    obtain ⟨⟨_, _, _⟩, h1, h⟩ := bind_inv h
    cases h
    have c := write_exact hn B _ _ hlt _ _ h1
    rw [he, hd.2.2, work_more] at c
    exact Costs.bind (l := 0) c (Costs.pure _)
  | sum inp =>
    obtain ⟨⟨_, _⟩, h1, h⟩ := bind_inv h
    cases h
    obtain ⟨⟨_, _⟩, h2, h⟩ := bind_inv h1
    cases h
    have c := checkSum_exact hn B _ _ hlt _ h2
    rw [he, hd.2.2, work_more, hd.2.1, ← pad_eq] at c
    exact Costs.bind (l := 0) (Costs.bind (l := 0) c (Costs.pure _)) (Costs.pure _)
  | collisionResistantSum inp =>
    obtain ⟨⟨_, _, _⟩, h1, h⟩ := bind_inv h
    cases h
    obtain ⟨⟨_, _⟩, h2, h⟩ := bind_inv h1
    cases h
    have c := checkSum_exact hn B _ _ hlt _ h2
    rw [he, hd.2.2, work_more, hd.2.1, ← pad_eq] at c
    exact Costs.bind (l := 0) (Costs.bind (l := 0) c (Costs.pure _)) (Costs.pure _)
  | reset => cases h; exact Costs.pure _
  | size => cases h; exact Costs.pure _
  | blockSize => cases h; exact Costs.pure _
  | marshalBinary =>
    obtain ⟨⟨_, _⟩, h1, h⟩ := bind_inv h
    cases h
    exact Costs.bind0 (Costs.lift h1) (Costs.pure _)
  | unmarshalBinary b => cases hop

theorem run_exact {n : Nat} (hn : IntBits n) (B : Mach) (ops : List Op) (hops : ∀ op ∈ ops, isRestore op = false) :
    ∀ (d d' : Digest) (m : List Byte), Holds detGo d m → ∀ (os : List Out), d.run B.build.block ops = .ok (d', os) →
    Costs (Loops.run n B d ops) (d', os) (runWork (compression B) m ops) := by
  induction ops with
  | nil =>
    intro d d' m _ os h
    cases h
    exact Costs.pure _
  | cons op ops ih =>
    intro d d' m hd os h
    obtain ⟨⟨d1, o⟩, h1, h⟩ := bind_inv h
    obtain ⟨⟨d2, os'⟩, h2, h⟩ := bind_inv h
    cases h
    obtain ⟨e, r, hh⟩ := hd.call (Build.impl B.build) op (hops op (by simp))
    rw [r] at h1
    cases h1
    have c1 := call_exact hn B _ _ _ hd _ (hops op (by simp)) _ r
    have c2 := ih (fun o ho => hops o (by simp [ho])) _ _ _ hh _ h2
    exact Costs.bind c1 (Costs.bind (l := 0) c2 (Costs.pure _))

theorem sumPkg_exact {n : Nat} (hn : IntBits n) (B : Mach) (order : EvalOrder) (data : List Byte) (r : List Byte × Bool)
    (h : Model.sumPkg B.build.block order data = .ok r) :
    Costs (Loops.sumPkg n B order data) r (work (compression B) H0 (blocks (pad data))) := by
  obtain ⟨⟨d1, o1⟩, h1, h⟩ := bind_inv h
  obtain ⟨⟨d2, o2⟩, h2, h⟩ := bind_inv h
  cases h
  have h2 : d1.checkSum B.build.block = .ok (d2, o2) := h2
  have h0 : Holds detGo (Digest.zero.reset) [] := holds_reset detGo _
  obtain ⟨e, w, hh⟩ := h0.write (Build.impl B.build) data
  rw [w] at h1
  cases h1
  have c := write_exact hn B _ _ h0.1.lt _ _ w
  have c2 := checkSum_exact hn B _ _ hh.1.lt _ h2
  rw [show (Digest.zero.reset).h = (absD Digest.zero.reset).h from rfl, h0.2.2, work_more] at c
  rw [show d1.h = (absD d1).h from rfl, hh.2.2, work_more, hh.2.1, ← pad_eq] at c2
  refine Costs.cast (Costs.bind c (Costs.bind (l := 0) c2 (Costs.pure _))) rfl ?_
  have t1 := work_absorb (compression B) ⟨H0, [], false⟩ data (padTail (BitVec.ofNat 64 data.length))
  simp only [List.nil_append, ← pad_eq] at t1 ⊢
  rw [blocks_lt [] (by simp), work_nil]
  omega

/-! ### Evaluation, for concrete instances -/

/-- The loop over the table. -/
def evalLook (W : List Word) (H : Regs) : Nat → List DV → List DvInfo → Nat
  | k, dv :: dvs, e :: es =>
    if evalUbc k W then
      if evalTest (rotGo dv.T) dv.T e.Dm W H then 106 else 106 + evalLook W H (k + 1) dvs es
    else 1 + evalLook W H (k + 1) dvs es
  | _, _, _ => 0

theorem goTest_rot (k : Nat) (dv : DV) (hk : dvList[k]? = some dv) (H : Regs) (M : Block) :
    GoTest dv H M ↔ RotTest (rotGo dv.T) dv H M := by
  unfold GoTest
  rcases (dv_facts hk).1 with h | h
  · simp only [h, show ¬ (58 = 65) by decide, false_and, false_or, true_and]
    exact Iff.rfl
  · simp only [h, show ¬ (65 = 58) by decide, false_and, or_false, true_and]
    exact sibling_iff_rot dv (by omega) H M

theorem evalLook_spec (H : Regs) (M : Block) (mask : Word) :
    ∀ (k : Nat) (dvs : List DV) (es : List DvInfo), TableOk k dvs es → k + dvs.length ≤ 32 →
      (∀ j dv, dvs[j]? = some dv → dvList[k + j]? = some dv) →
      (∀ j, j < 32 → mask.getLsbD j = ubcHolds j (sched M)) →
      scanWork mask (fun i => sched M i) (csOf H M) (compress H M) es = evalLook (schedL (wordsL M)) H k dvs es := by
  intro k dvs es h
  induction h with
  | nil k e rest he =>
    intro _ _ _
    unfold scanWork
    rw [if_neg (by simp [he])]
    simp [evalLook]
  | cons k dv e dvs es he _ ih =>
    intro hlen hsub hmask
    have hk : dvList[k]? = some dv := by simpa using hsub 0 dv (by simp)
    have ih := ih (by simp at hlen; omega) (fun j d hd => by
      have := hsub (j + 1) d (by simpa using hd)
      rwa [show k + (j + 1) = k + 1 + j by omega] at this) hmask
    have hT := (dv_facts hk).1
    have hK := (dv_facts hk).2
    have hlen' : k < 32 := by simp at hlen; omega
    have hmb : e.MaskB.toNat = k := by rw [he.maskB]; simp; omega
    have hty : e.DvType ≠ 0 := by
      rw [he.type]; cases dv.type <;> decide
    have hcs : selectCs (csOf H M) e.TestT = .ok (steps (sched M) dv.T H) := by
      rw [he.T]
      rcases hT with h | h <;> rw [h] <;> rfl
    have htest := (test_iff k dv e he hT hK H M).trans
      ((goTest_rot k dv hk H M).trans (evalTest_iff (rotGo dv.T) k dv e hk he H M).symm)
    have hu : evalUbc k (schedL (wordsL M)) = ubcHolds k (sched M) :=
      ubcHolds_congr k (schedL_spec M (wordsL M) (wordsL_spec M).1 (wordsL_spec M).2).2
    have hbit := Ubc.and_bit_ne_zero mask k hlen'
    rw [hmask k hlen', ← hu] at hbit
    unfold scanWork evalLook
    rw [if_pos hty, hmb]
    cases hm : evalUbc k (schedL (wordsL M)) with
    | true =>
      have : mask &&& 1#32 <<< k ≠ 0 := fun hc => by
        have := hbit.mp hc; rw [hm] at this; exact absurd this (by decide)
      rw [if_pos this, hcs, if_pos rfl]
      simp only
      by_cases ht : Model.hasCollided e.TestT (fun i => sched M i) e.Dm (steps (sched M) dv.T H) (compress H M) = true
      · rw [if_pos ht, if_pos (htest.mp ht)]
      · rw [if_neg ht, if_neg (fun q => ht (htest.mpr q)), ih]
    | false =>
      rw [if_neg (fun hc => hc (hbit.mpr hm)), if_neg (by decide), ih]

/-- One block. -/
def evalBlockWork (c : Nat) (W : List Word) (H : Regs) : Nat :=
  c + 2 + (if (List.range 32).any (fun k => evalUbc k W) then evalLook W H 0 dvList sha1Dvs else 0) +
    if evalScan rotGo W H 0 dvList sha1Dvs then 2 * c else 0

theorem evalBlockWork_spec (c : Nat) (H : Regs) (M : Block) :
    evalBlockWork c (schedL (wordsL M)) H = blockWork c H M := by
  have hd : evalScan rotGo (schedL (wordsL M)) H 0 dvList sha1Dvs = detGo H M := by
    rw [detGo_eq]
    exact evalDet_go H M
  have hmask := Ubc.mask_bit (fun i => sched M i) (sched M) (fun _ => rfl)
  have hu : ∀ k, evalUbc k (schedL (wordsL M)) = ubcHolds k (sched M) := fun k =>
    ubcHolds_congr k (schedL_spec M (wordsL M) (wordsL_spec M).1 (wordsL_spec M).2).2
  have hany : (List.range 32).any (fun k => evalUbc k (schedL (wordsL M))) = true ↔
      Ubc.calculateDvMask (some fun i => sched M i) ≠ 0 := by
    rw [List.any_eq_true]
    constructor
    · rintro ⟨k, hk, h⟩ h0
      rw [List.mem_range] at hk
      rw [hu, ← hmask k hk, h0] at h
      simp at h
    · intro h0
      refine Decidable.byContradiction fun hn => h0 ?_
      apply BitVec.eq_of_getLsbD_eq
      intro k hk
      rw [hmask k hk, ← hu, Bool.eq_false_iff.mpr (fun h => hn ⟨k, List.mem_range.mpr hk, h⟩)]
      simp
  rw [blockWork_eq, checkWork, evalBlockWork, hd,
    evalLook_spec H M _ 0 dvList sha1Dvs sha1Dvs_ok (by simp [dvList_length]) (fun j dv h => by rwa [Nat.zero_add]) hmask]
  by_cases h : Ubc.calculateDvMask (some fun i => sched M i) ≠ 0
  · rw [if_pos (hany.mpr h), if_pos h]; omega
  · rw [if_neg (fun q => h (hany.mp q)), if_neg h]; omega

/-- The blocks of a message. -/
def evalWork (c : Nat) : Nat → Regs → List Block → Nat
  | a, _, [] => a
  | a, H, M :: Ms =>
    let W := schedL (wordsL M)
    bif evalScan rotGo W H 0 dvList sha1Dvs then
      evalWork c (a + evalBlockWork c W H) (evalCompress W (evalCompress W (evalCompress W H))) Ms
    else evalWork c (a + evalBlockWork c W H) (evalCompress W H) Ms

theorem evalWork_spec (c : Nat) (Ms : List Block) : ∀ (a : Nat) (H : Regs), evalWork c a H Ms = a + work c H Ms := by
  induction Ms with
  | nil => intro a H; rw [evalWork, work_nil]; omega
  | cons M Ms ih =>
    intro a H
    have hd : evalScan rotGo (schedL (wordsL M)) H 0 dvList sha1Dvs = detGo H M := by
      rw [detGo_eq]
      exact evalDet_go H M
    unfold evalWork
    simp only [evalCompress_eq, hd, ih, evalBlockWork_spec, work_cons, safeCompress]
    cases detGo H M <;> simp <;> omega

/-- The work for a message whose padded form has `b` blocks. -/
theorem work_eval (c b : Nat) (m : List Byte) (hb : (pad m).length / 64 = b) :
    work c H0 (blocks (pad m)) = evalWork c 0 H0 (blocksN b (pad m)) := by
  rw [evalWork_spec, ← blocksN_spec b (pad m) hb, Nat.zero_add]

end Verif.LoopProofs
