import Verif.Spec.CWork
import Verif.Proofs.CLoops
import Verif.Proofs.Work
import Verif.Proofs.Witness

/-! The exact number of steps of the C code. -/

namespace Verif.CLoopProofs

open Verif Verif.Model Verif.Model.C Verif.Model.Loops Verif.Model.CLoops Verif.LoopProofs Verif.Spec Verif.C

/-- Steps of the loop over the table. -/
def scanWork (mask : Word) : List DvInfoT → Ctx → Nat
  | [], _ => 0
  | e :: es, c =>
    if e.dvType ≠ 0 then
      if mask &&& (1#32 <<< e.maskb) ≠ 0 then
        if hT : e.testt < 80 then
          match sha1_recompression_step e.testt (fun j => c.m1 j ^^^ e.dm j) (c.states ⟨e.testt, hT⟩) with
          | .ok (i2, it) =>
            if (sameIhv it c.ihv || (c.reduced_round_coll != 0 && sameIhv c.ihv1 i2)) = true then
              if c.safe_hash ≠ 0 then 84 else 82
            else 82 + scanWork mask es { c with m2 := fun j => c.m1 j ^^^ e.dm j, ihv2 := i2 }
          | .error _ => 0
        else 0
      else 1 + scanWork mask es c
    else 0

theorem scan_exact (dvs : List DvInfoT) (hd : dvs.length < 1000) (mask : Word) (c' : Ctx) :
    ∀ (rest : List DvInfoT) (e : DvInfoT) (j : Nat) (c : Ctx), dvs.drop j = e :: rest →
      C.dvLoop mask (e :: rest) c = .ok c' →
      ∃ s', s'.ctx = c' ∧
        CostsW (fun s : CLoops.Scan => !s.brk && decide (s.entry.dvType ≠ 0)) (CLoops.scanBody dvs mask)
          ⟨BitVec.ofNat 32 j, e, c, false⟩ s' (scanWork mask (e :: rest) c) := by
  have hit : ∀ (e : DvInfoT) (j : Nat) (c : Ctx) (i2 it : Regs) (hT : e.testt < 80), e.dvType ≠ 0 → e.maskb < 32 →
      mask &&& (1#32 <<< e.maskb) ≠ 0 →
      sha1_recompression_step e.testt (fun j => c.m1 j ^^^ e.dm j) (c.states ⟨e.testt, hT⟩) = .ok (i2, it) →
      (sameIhv it c.ihv || (c.reduced_round_coll != 0 && sameIhv c.ihv1 i2)) = true →
      (if c.safe_hash ≠ 0 then do
          let ihv ← sha1_compression_W c.ihv c.m1
          let ihv ← sha1_compression_W ihv c.m1
          pure { c with m2 := fun j => c.m1 j ^^^ e.dm j, ihv2 := i2, found_collision := 1, ihv := ihv }
        else pure { c with m2 := fun j => c.m1 j ^^^ e.dm j, ihv2 := i2, found_collision := 1 } : GoM Ctx) = .ok c' →
      ∃ s', s'.ctx = c' ∧
        CostsW (fun s : CLoops.Scan => !s.brk && decide (s.entry.dvType ≠ 0)) (CLoops.scanBody dvs mask)
          ⟨BitVec.ofNat 32 j, e, c, false⟩ s' (if c.safe_hash ≠ 0 then 84 else 82) := by
    intro e j c i2 it hT ht hb hm hr hcol hs
    have hrec : Costs (recompress e.testt (fun j => c.m1 j ^^^ e.dm j) (c.states ⟨e.testt, hT⟩)) (i2, it) 1 :=
      Costs.bind (l := 0) Costs.tick (Costs.lift hr)
    by_cases hsafe : c.safe_hash ≠ 0
    · rw [if_pos hsafe] at hs ⊢
      obtain ⟨ia, ha, hs⟩ := bind_inv hs
      obtain ⟨ib, hb2, hs⟩ := bind_inv hs
      cases hs
      refine ⟨⟨BitVec.ofNat 32 j, e, _, true⟩, rfl, CostsW.step (k := 80 + (1 + (1 + (1 + 0)))) (l := 0) (cond_true ht) ?_
        (CostsW.done ?_)⟩
      · unfold CLoops.scanBody
        simp only [if_pos hb, if_pos hm]
        refine Costs.bind (m2_costs _ _) (Costs.bind0 (ldA_costs _ _ hT) (Costs.bind hrec ?_))
        rw [if_pos hcol, if_pos hsafe]
        exact Costs.bind (compressW_costs _ _ ha) (Costs.bind (compressW_costs _ _ hb2) (Costs.pure _))
      · rfl
    · rw [if_neg hsafe] at hs ⊢
      cases hs
      refine ⟨⟨BitVec.ofNat 32 j, e, _, true⟩, rfl, CostsW.step (k := 80 + (1 + 0)) (l := 0) (cond_true ht) ?_
        (CostsW.done ?_)⟩
      · unfold CLoops.scanBody
        simp only [if_pos hb, if_pos hm]
        refine Costs.bind (m2_costs _ _) (Costs.bind0 (ldA_costs _ _ hT) (Costs.bind hrec ?_))
        rw [if_pos hcol, if_neg hsafe]
        exact Costs.pure _
      · rfl
  intro rest
  induction rest with
  | nil =>
    intro e j c hj hs
    rw [C.dvLoop] at hs
    unfold scanWork
    by_cases ht : e.dvType ≠ 0
    · rw [if_pos ht] at hs ⊢
      by_cases hb : e.maskb < 32
      · rw [if_pos hb] at hs
        by_cases hm : mask &&& (1#32 <<< e.maskb) ≠ 0
        · rw [if_pos hm] at hs ⊢
          dsimp only at hs
          by_cases hT : e.testt < 80
          · rw [dif_pos hT] at hs ⊢
            obtain ⟨⟨i2, it⟩, hr, hs⟩ := bind_inv hs
            dsimp only at hs
            simp only [hr]
            by_cases hcol : (sameIhv it c.ihv || (c.reduced_round_coll != 0 && sameIhv c.ihv1 i2)) = true
            · rw [if_pos hcol] at hs ⊢
              exact hit e j c i2 it hT ht hb hm hr hcol hs
            · rw [if_neg hcol] at hs
              cases hs
          · rw [dif_neg hT] at hs
            cases hs
        · rw [if_neg hm] at hs
          cases hs
      · rw [if_neg hb] at hs
        cases hs
    · rw [if_neg ht] at hs ⊢
      cases hs
      exact ⟨_, rfl, CostsW.done (cond_false ht)⟩
  | cons e' rest ih =>
    intro e j c hj hs
    have hlen : j + 1 < dvs.length := by
      have := congrArg List.length hj
      simp at this
      omega
    have hj' : dvs.drop (j + 1) = e' :: rest := by
      rw [← List.drop_drop, hj]; rfl
    have hget : dvs[j + 1]'hlen = e' := by
      rw [List.drop_eq_getElem_cons hlen] at hj'
      exact (List.cons.inj hj').1
    have hnext : ∀ c : Ctx, Costs (do
        let e ← ldDv dvs (BitVec.ofNat 32 j + 1)
        pure (⟨BitVec.ofNat 32 j + 1, e, c, false⟩ : CLoops.Scan))
        (⟨BitVec.ofNat 32 (j + 1), e', c, false⟩ : CLoops.Scan) 0 := by
      intro c
      have et : (BitVec.ofNat 32 (j + 1)).toNat = j + 1 := nat_lt word_bits (by omega)
      rw [ofNat_succ]
      refine ((ldDv_costs dvs (BitVec.ofNat 32 (j + 1)) (by rw [et]; exact hlen)).cast ?_ rfl).bind0 (Costs.pure _)
      simp only [et]
      exact hget
    rw [C.dvLoop] at hs
    unfold scanWork
    by_cases ht : e.dvType ≠ 0
    · rw [if_pos ht] at hs ⊢
      by_cases hb : e.maskb < 32
      · rw [if_pos hb] at hs
        by_cases hm : mask &&& (1#32 <<< e.maskb) ≠ 0
        · rw [if_pos hm] at hs ⊢
          dsimp only at hs
          by_cases hT : e.testt < 80
          · rw [dif_pos hT] at hs ⊢
            obtain ⟨⟨i2, it⟩, hr, hs⟩ := bind_inv hs
            dsimp only at hs
            have hrec : Costs (recompress e.testt (fun j => c.m1 j ^^^ e.dm j) (c.states ⟨e.testt, hT⟩)) (i2, it) 1 :=
              Costs.bind (l := 0) Costs.tick (Costs.lift hr)
            by_cases hcol : (sameIhv it c.ihv || (c.reduced_round_coll != 0 && sameIhv c.ihv1 i2)) = true
            · simp only [hr]
              rw [if_pos hcol] at hs ⊢
              exact hit e j c i2 it hT ht hb hm hr hcol hs
            · simp only [hr]
              rw [if_neg hcol] at hs ⊢
              obtain ⟨s', h1, h3⟩ := ih e' (j + 1) _ hj' hs
              refine ⟨s', h1, CostsW.step (k := 80 + (1 + 0)) (cond_true ht) ?_ h3⟩
              unfold CLoops.scanBody
              simp only [if_pos hb, if_pos hm]
              refine Costs.bind (m2_costs _ _) (Costs.bind0 (ldA_costs _ _ hT) (Costs.bind hrec ?_))
              rw [if_neg hcol]
              exact hnext _
          · rw [dif_neg hT] at hs
            cases hs
        · rw [if_neg hm] at hs ⊢
          obtain ⟨s', h1, h3⟩ := ih e' (j + 1) _ hj' hs
          refine ⟨s', h1, CostsW.step (k := 0) (cond_true ht) ?_ h3⟩
          unfold CLoops.scanBody
          simp only [if_pos hb, if_neg hm]
          exact hnext _
      · rw [if_neg hb] at hs
        cases hs
    · rw [if_neg ht] at hs ⊢
      cases hs
      exact ⟨_, rfl, CostsW.done (cond_false ht)⟩

theorem dvLoop_exact (dvs : List DvInfoT) (hd : dvs.length < 1000) (mask : Word) (c c' : Ctx)
    (h : C.dvLoop mask dvs c = .ok c') : Costs (CLoops.dvLoop dvs mask c) c' (scanWork mask dvs c) := by
  cases dvs with
  | nil => cases h
  | cons e rest =>
    obtain ⟨s', h1, h3⟩ := scan_exact (e :: rest) hd mask c' rest e 0 c rfl h
    have h0 : Costs (ldDv (e :: rest) 0) e 0 := by
      exact (ldDv_costs (e :: rest) 0 (by simp)).cast (by simp) rfl
    unfold CLoops.dvLoop
    refine h0.bind0 (Costs.bind (l := 0) h3.loop ?_)
    rw [← h1]
    exact Costs.pure _

/-- The loop over the table from entry `k` on, said with the vectors. -/
theorem scanWork_spec (H : Regs) (M : Block) (mask : Word) (o : Options) :
    ∀ (k : Nat) (dvs : List DV) (gs : List DvInfo), TableOk k dvs gs → k + dvs.length ≤ 32 →
      (∀ dv ∈ dvs, (dv.T = 58 ∨ dv.T = 65) ∧ dv.K + 16 ≤ 80) →
      ∀ es : List DvInfoT, es.map toGo = gs → (∀ e ∈ es, Small e) →
      ∀ hit : Nat → Prop, (∀ j, hit j ↔ ∃ dv, dvs[j]? = some dv ∧ mask.getLsbD (k + j) = true ∧ C.Hit o dv H M) →
      ∀ c : Ctx, LoopInv H M c → optOf c = o →
      open Classical in
      scanWork mask es c =
        ((List.range dvs.length).countP fun j => decide (∀ i < j, ¬ hit i)) +
        81 * ((List.range dvs.length).countP fun j => decide (mask.getLsbD (k + j) = true ∧ ∀ i < j, ¬ hit i)) +
        if o.safe = true ∧ ∃ j, hit j then 2 else 0 := by
  intro k dvs gs h
  induction h with
  | nil k g rest hg =>
    intro _ _ es hes hsm hit hh c hc ho
    match es, hes with
    | e :: es', hes =>
      simp only [List.map_cons, List.cons.injEq] at hes
      have h0 : e.dvType = 0 := by
        have : (toGo e).DvType = 0 := by rw [hes.1]; exact hg
        exact ofNat_inj_small (by have := (hsm e (by simp)).1; omega) (by decide) this
      unfold scanWork
      rw [if_neg (by simp [h0])]
      have : ¬ ∃ j, hit j := fun ⟨j, hj⟩ => by
        obtain ⟨dv, h1, _⟩ := (hh j).mp hj
        simp at h1
      simp [this]
  | cons k dv g dvs gs hg _ ih =>
    intro hlen hall es hes hsm hit hh c hc ho
    match es, hes with
    | e :: es', hes =>
      simp only [List.map_cons, List.cons.injEq] at hes
      have hs := hsm e (by simp)
      have hT := (hall dv (by simp)).1
      have hK := (hall dv (by simp)).2
      have hlen' : k < 32 := by simp at hlen; omega
      have he : EntryOk k dv (toGo e) := by rw [hes.1]; exact hg
      have hmb : e.maskb = k := ofNat_inj_small (by have := hs.2.2.2.2.2; omega) (by omega) he.maskB
      have hTt : e.testt = dv.T := ofNat_inj_small (by have := hs.2.2.2.1; omega) (by omega) he.T
      have hty : e.dvType ≠ 0 := by
        intro h0
        have := he.type
        simp only [toGo, h0] at this
        cases hd : dv.type <;> rw [hd] at this <;> exact absurd this (by decide)
      have hbit := _root_.Verif.Ubc.and_bit_ne_zero mask k hlen'
      have h0 : hit 0 ↔ mask.getLsbD k = true ∧ C.Hit o dv H M := by rw [hh]; simp
      have hsucc : ∀ j, hit (j + 1) ↔ ∃ dv, dvs[j]? = some dv ∧ mask.getLsbD (k + 1 + j) = true ∧ C.Hit o dv H M := by
        intro j
        rw [hh, show k + (j + 1) = k + 1 + j by omega]
        simp
      have ih := ih (by simp at hlen; omega) (fun d hd => hall d (by simp [hd])) es' hes.2
        (fun e he => hsm e (by simp [he])) (fun j => hit (j + 1)) hsucc
      have shift : ∀ j, (∀ i < j + 1, ¬ hit i) ↔ ¬ hit 0 ∧ ∀ i < j, ¬ hit (i + 1) := by
        intro j
        constructor
        · exact fun h => ⟨h 0 (by omega), fun i hi => h (i + 1) (by omega)⟩
        · rintro ⟨a, b⟩ i hi
          cases i with
          | zero => exact a
          | succ i => exact b i (by omega)
      have hex : (∃ j, hit j) ↔ hit 0 ∨ ∃ j, hit (j + 1) := by
        constructor
        · rintro ⟨j, hj⟩
          cases j with
          | zero => exact .inl hj
          | succ j => exact .inr ⟨j, hj⟩
        · rintro (h | ⟨j, h⟩)
          · exact ⟨0, h⟩
          · exact ⟨j + 1, h⟩
      classical
      rw [List.length_cons, List.range_succ_eq_map, List.countP_cons, List.countP_cons, List.countP_map, List.countP_map]
      have e1 : ((fun j => decide (∀ i < j, ¬ hit i)) ∘ Nat.succ) = fun j => decide (¬ hit 0 ∧ ∀ i < j, ¬ hit (i + 1)) := by
        funext j
        exact decide_eq_decide.mpr (shift j)
      have e2 : ((fun j => decide (mask.getLsbD (k + j) = true ∧ ∀ i < j, ¬ hit i)) ∘ Nat.succ) =
          fun j => decide (mask.getLsbD (k + 1 + j) = true ∧ ¬ hit 0 ∧ ∀ i < j, ¬ hit (i + 1)) := by
        funext j
        refine decide_eq_decide.mpr ?_
        rw [Nat.succ_eq_add_one, shift, show k + (j + 1) = k + 1 + j by omega]
      rw [e1, e2]
      simp only [hex, Nat.add_zero, Nat.not_lt_zero, false_implies, implies_true, decide_true, and_true, if_true,
        decide_eq_true_eq]
      unfold scanWork
      rw [if_pos hty, hmb]
      by_cases hm : mask.getLsbD k = true
      · have hne : mask &&& 1#32 <<< k ≠ 0 := fun hc => by
          have := hbit.mp hc; rw [hm] at this; exact absurd this (by decide)
        rw [if_pos hne, dif_pos hs.2.2.2.1]
        have hW : ∀ i : Fin 80, sched (xorBlock M (ext80 e.dm)) i = c.m1 i ^^^ e.dm i := by
          intro i
          rw [hc.m1 i]
          exact (xor_ext80 M e.dm he.diff i i.isLt).symm
        obtain ⟨H', hr, hst⟩ := recomp_step_spec e.testt (by omega) (fun j => c.m1 j ^^^ e.dm j) _ hW
          (c.states ⟨e.testt, hs.2.2.2.1⟩)
        rw [hr]
        rw [view_state hc e.testt (by omega)] at hst ⊢
        rw [hTt] at hst ⊢
        have htest := ctest_iff hK (by omega) e.dm he.diff H H' M hst
        have hrtest := rtest_iff hK e.dm he.diff H H' M hst
        have hcond : (sameIhv (H'.add (runSteps (sched (xorBlock M (ext80 e.dm))) dv.T (80 - dv.T)
              (steps (sched M) dv.T H))) c.ihv || (c.reduced_round_coll != 0 && sameIhv c.ihv1 H')) = true ↔
            C.Hit o dv H M := by
          rw [Bool.or_eq_true, Bool.and_eq_true, sameIhv_iff, sameIhv_iff, hc.ihv, hc.ihv1, htest, hrtest, ← ho]
          rfl
        simp only [hm, if_true]
        by_cases ht : (sameIhv (H'.add (runSteps (sched (xorBlock M (ext80 e.dm))) dv.T (80 - dv.T)
              (steps (sched M) dv.T H))) c.ihv || (c.reduced_round_coll != 0 && sameIhv c.ihv1 H')) = true
        · rw [if_pos ht]
          have : hit 0 := h0.mpr ⟨hm, hcond.mp ht⟩
          have hsf : c.safe_hash ≠ 0 ↔ o.safe = true := by rw [← ho]; simp [optOf]
          simp only [this, not_true_eq_false, false_and, and_false, decide_false, true_or, and_true, hsf]
          by_cases hq : o.safe = true <;> simp [hq]
        · rw [if_neg ht]
          have : ¬ hit 0 := fun hc => ht (hcond.mpr (h0.mp hc).2)
          simp only [this, not_false_eq_true, true_and, false_or]
          rw [ih { c with m2 := fun j => c.m1 j ^^^ e.dm j, ihv2 := H' } ⟨hc.ihv, hc.m1, hc.s58, hc.s65, hc.ihv1⟩ ho]
          omega
      · have hne : ¬ (mask &&& 1#32 <<< k ≠ 0) := fun hc => hc (hbit.mpr (by simpa using hm))
        have h0' : ¬ hit 0 := fun hc => hm (h0.mp hc).1
        rw [if_neg hne]
        simp only [h0', hm, not_false_eq_true, true_and, Bool.false_eq_true, if_false, false_or]
        rw [ih c hc ho]
        omega

/-- Steps of `sha1_process`. -/
theorem process_exact (w : Where) (addr : Nat) (ha : w.strict = true → addr % 4 = 0) (cfg : Cfg) (c c' : Ctx)
    (p : List Byte) (hp : 64 ≤ p.length) (h : sha1_process cfg c p = .ok c') :
    Costs (CLoops.process w cfg c addr p) c' ((optOf c).blockWork c.ihv (toBlock p)) := by
  classical
  obtain ⟨st58, st65, hs, h58, h65⟩ := states_spec cfg p hp c.ihv c.m1 c.states
  rw [blockOf_cfg] at hs h58 h65
  generalize toBlock p = M at *
  unfold sha1_process at h
  simp only [hs, bind, Except.bind] at h
  have hinv : LoopInv c.ihv M
      { c with ihv1 := c.ihv, ihv := compress c.ihv M, m1 := fun i => sched M i,
               states := upd (upd c.states 58 st58) 65 st65 } :=
    ⟨rfl, fun _ => rfl, by simpa [upd] using h58, by simpa [upd] using h65, rfl⟩
  have hf : Frame c
      { c with ihv1 := c.ihv, ihv := compress c.ihv M, m1 := fun i => sched M i,
               states := upd (upd c.states 58 st58) 65 st65 } := ⟨rfl, rfl, rfl, rfl, rfl, rfl⟩
  have hspec := fun mask hit hh => scanWork_spec c.ihv M mask (optOf c) 0 dvList sha1Dvs sha1Dvs_ok (by simp [dvList_length])
    dvList_T C.sha1_dvs table_eq table_small hit hh _ hinv hf.opt
  have hfl := fun hd => flags_iff_mask (optOf c) hd c.ihv M
  have hmask := _root_.Verif.Ubc.mask_bit (fun i => sched M i) (sched M) (fun _ => rfl)
  rw [ubcCheck_eq] at hfl
  have key : ∀ j, j < 32 → ((if (optOf c).ubc = true then Model.Ubc.calculateDvMask (some fun i => sched M i)
      else 0xFFFFFFFF).getLsbD j = true ↔ (optOf c).Tested M j) := by
    intro j hj
    unfold Options.Tested
    by_cases hu : (optOf c).ubc = true
    · rw [if_pos hu, hmask j hj]; simp [hu, hj]
    · rw [if_neg hu]
      have : ∀ j : Fin 32, (0xFFFFFFFF : Word).getLsbD j = true := by decide
      exact ⟨fun _ => ⟨hj, fun h => absurd h hu⟩, fun _ => this ⟨j, hj⟩⟩
  unfold CLoops.process Options.blockWork
  refine Costs.bind Costs.tick (Costs.bind0 (words_costs ha) (Costs.bind0 (Costs.lift hs) ?_))
  dsimp only
  by_cases hd : c.detect_coll ≠ 0
  · have hdt : (optOf c).detect = true := by simpa [optOf] using hd
    rw [if_pos hd] at h ⊢
    rw [if_pos hdt]
    have hfl := hfl hdt
    have hm : (if c.ubc_check ≠ 0 then C.Ubc.ubcCheck (fun i => sched M i) else 0xFFFFFFFF) =
        (if (optOf c).ubc = true then Model.Ubc.calculateDvMask (some fun i => sched M i) else 0xFFFFFFFF) := by
      rw [ubcCheck_eq]
      by_cases h : c.ubc_check = 0 <;> simp [optOf, h]
    have hu : c.ubc_check ≠ 0 ↔ (optOf c).ubc = true := by simp [optOf]
    rw [hm] at h
    have split : ∀ (x : Ctx) (k : Nat), Costs (
          if (if (optOf c).ubc = true then Model.Ubc.calculateDvMask (some fun i => sched M i) else 0xFFFFFFFF) ≠ 0 then
            CLoops.dvLoop C.sha1_dvs (if (optOf c).ubc = true then Model.Ubc.calculateDvMask (some fun i => sched M i)
              else 0xFFFFFFFF) x else pure x) c' k →
        Costs (do
          let mask ← if c.ubc_check ≠ 0 then do tick; pure (C.Ubc.ubcCheck fun i => sched M i) else pure 0xFFFFFFFF
          if mask ≠ 0 then CLoops.dvLoop C.sha1_dvs mask x else pure x) c' ((if (optOf c).ubc = true then 1 else 0) + k) := by
      intro x k hk
      rw [← hm] at hk
      by_cases hu' : c.ubc_check ≠ 0
      · rw [if_pos (hu.mp hu'), if_pos hu']
        simp only [if_pos hu'] at hk
        exact Costs.bind Costs.tick (Costs.bind0 (Costs.pure _) hk)
      · rw [if_neg (fun q => hu' (hu.mpr q)), if_neg hu']
        simp only [if_neg hu'] at hk
        exact Costs.bind0 (Costs.pure _) hk |>.cast rfl (Nat.zero_add _).symm
    rw [Nat.add_assoc, Nat.add_assoc]
    refine split _ _ ?_
    clear split
    clear hm
    generalize (if (optOf c).ubc = true then Model.Ubc.calculateDvMask (some fun i => sched M i) else 0xFFFFFFFF) = mask
      at h hfl key ⊢
    have hhit : ∀ j, (optOf c).Hit c.ihv M j ↔ ∃ dv, dvList[j]? = some dv ∧ mask.getLsbD (0 + j) = true ∧
        C.Hit (optOf c) dv c.ihv M := by
      intro j
      unfold Options.Hit C.Hit
      constructor
      · rintro ⟨dv, h1, h2, h3⟩
        have hj : j < 32 := by
          have := (List.getElem?_eq_some_iff.mp h1).1; rwa [dvList_length] at this
        exact ⟨dv, h1, by rw [Nat.zero_add]; exact (key j hj).mpr ⟨hj, h2⟩, h3⟩
      · rintro ⟨dv, h1, h2, h3⟩
        have hj : j < 32 := by
          have := (List.getElem?_eq_some_iff.mp h1).1; rwa [dvList_length] at this
        rw [Nat.zero_add] at h2
        exact ⟨dv, h1, ((key j hj).mp h2).2, h3⟩
    have hex : (∃ k, (optOf c).Tested M k) ↔ mask ≠ 0 := by
      constructor
      · rintro ⟨k, hk⟩ h0
        have := (key k hk.1).mpr hk
        rw [h0] at this
        simp at this
      · intro h0
        refine Decidable.byContradiction fun hn => h0 ?_
        apply BitVec.eq_of_getLsbD_eq
        intro k hk
        rw [Bool.eq_false_iff.mpr (fun h => hn ⟨k, (key k hk).mp h⟩)]
        simp
    have hsome : (∃ j, (optOf c).Hit c.ihv M j) ↔ (optOf c).Flags c.ihv M := by
      rw [← hfl]
      exact exists_congr fun j => hhit j
    unfold Options.lookedAt Options.reconstructed
    by_cases hz : mask ≠ 0
    · rw [if_pos hz] at h ⊢
      rw [if_pos (hex.mpr hz)]
      refine (dvLoop_exact _ (by decide) _ _ _ h).cast rfl ?_
      rw [hspec mask ((optOf c).Hit c.ihv M) hhit, dvList_length, hsome, Nat.add_assoc]
      have e : (List.range 32).countP (fun j => decide (mask.getLsbD (0 + j) = true ∧ ∀ i < j, ¬ (optOf c).Hit c.ihv M i)) =
          (List.range 32).countP (fun k => decide ((optOf c).Tested M k ∧ ∀ j < k, ¬ (optOf c).Hit c.ihv M j)) := by
        apply List.countP_congr
        intro k hk
        rw [decide_eq_true_eq, decide_eq_true_eq, Nat.zero_add, key k (List.mem_range.mp hk)]
      rw [e]
    · rw [if_neg hz] at h ⊢
      cases h
      have hn : ¬ ∃ k, (optOf c).Tested M k := fun q => hz (hex.mp q)
      have hnf : ¬ (optOf c).Flags c.ihv M := by
        rw [← hfl]
        rintro ⟨j, dv, _, h2, _⟩
        rw [Decidable.not_not.mp hz] at h2
        simp at h2
      rw [if_neg hn, if_neg (fun q => hnf q.2),
        List.countP_eq_zero.mpr (fun k _ q => hn ⟨k, (of_decide_eq_true q).1⟩)]
      exact Costs.pure _
  · have hdt : ¬ (optOf c).detect = true := by simpa [optOf] using hd
    rw [if_neg hd] at h ⊢
    rw [if_neg hdt]
    cases h
    exact Costs.pure _

theorem work_append (o : Options) (H : Regs) (xs ys : List Block) :
    o.work H (xs ++ ys) = o.work H xs + o.work (o.chain H xs).1 ys := by
  induction xs generalizing H with
  | nil => simp [Options.work, Options.chain]
  | cons x xs ih => rw [List.cons_append, Options.work, Options.work, ih, Options.chain, Nat.add_assoc]

theorem work_one (o : Options) (H : Regs) (b : List Byte) (h : b.length = 64) :
    o.work H (blocks b) = o.blockWork H (toBlock b) := by
  rw [blocks_ge b (by omega), blocks_lt _ (by simp [h])]
  rfl

/-- Steps of the loop over whole blocks. -/
theorem updBulk_exact {n : Nat} (hn : IntBits n) (w : Where) (cfg : Cfg) (hw : Aligned w cfg) (l : Word) :
    ∀ (b addr : Nat) (c c' : Ctx)
    (buf p q : List Byte) (len : BitVec n), p.length / 64 = b → Holds buf len p → C.updBulk cfg c p = .ok (c', q) →
    ∃ s, CostsW (fun s : Upd n => decide (s.len ≥ 64)) (bulkBody w cfg) ⟨c, addr, buf, len, l⟩ s
        ((optOf c).work c.ihv (blocks p) + b) ∧ s.ctx = c' ∧ Holds s.buf s.len q ∧ s.left = l := by
  have e64 : (64 : BitVec n).toNat = 64 := nat_lt hn (by decide)
  have hcond : ∀ s : Upd n, decide (s.len ≥ 64) = decide (64 ≤ s.len.toNat) := by
    intro s
    simp only [ge_iff_le, BitVec.le_def, e64]
  intro b
  induction b with
  | zero =>
    intro addr c c' buf p q len hb hp h
    have hlen := hp.length
    unfold C.updBulk at h
    rw [if_neg (by omega)] at h
    cases h
    rw [blocks_lt p (by omega)]
    refine ⟨_, CostsW.done ?_, rfl, hp, rfl⟩
    rw [hcond]
    exact decide_eq_false (by show ¬ 64 ≤ len.toNat; omega)
  | succ b ih =>
    intro addr c c' buf p q len hb hp h
    have hlen := hp.length
    have hbuf := hp.1
    unfold C.updBulk at h
    rw [if_pos (by omega)] at h
    dsimp only at h
    have hd := hp.drop (w := 64) (by omega)
    rw [e64] at hd
    have hc : decide ((⟨c, addr, buf, len, l⟩ : Upd n).len ≥ 64) = true := by
      rw [hcond]
      exact decide_eq_true (by show 64 ≤ len.toNat; omega)
    have hl : (p.drop 64).length / 64 = b := by rw [List.length_drop]; omega
    have htb : toBlock buf = toBlock p := by
      rw [← toBlock_take buf, ← hp.take (by omega), toBlock_take]
    rw [blocks_ge p (by omega), Options.work]
    by_cases hu : cfg.plat.unaligned = true
    · rw [if_pos hu] at h
      obtain ⟨c1, h1, h2⟩ := bind_inv h
      rw [← hp.2, process_take _ _ (by omega)] at h1
      have k3 := process_exact w addr (fun hs => by rw [(hw hs).2] at hu; cases hu) _ _ _ _ (by omega) h1
      obtain ⟨c2, r, f, i, _⟩ := process_spec cfg { c with total := c.total + 64 } buf (by omega)
      rw [h1] at r
      cases r
      have f' : optOf c1 = optOf c := f.opt
      have i' : c1.ihv = (optOf c).next c.ihv (toBlock p) := by rw [i, htb]; rfl
      obtain ⟨s, x, s1, s2, s3⟩ := ih (addr + 64) c1 c' (buf.drop 64) (p.drop 64) q (len - 64) hl hd h2
      rw [f', i'] at x
      refine ⟨s, CostsW.cast (CostsW.step (k := (optOf c).blockWork c.ihv (toBlock p)) hc ?_ x) (by omega), s1, s2, s3⟩
      unfold bulkBody
      dsimp only
      rw [if_pos hu, ← htb]
      exact Costs.bind (l := 0) k3 (Costs.pure _)
    · rw [if_neg hu] at h
      obtain ⟨y, hy, h⟩ := bind_inv h
      obtain ⟨c1, h1, h2⟩ := bind_inv h
      rw [hp.take (by omega)] at hy
      obtain ⟨y', hy1, hy2⟩ := memcpyBuf_full c.buffer 0 (buf.take 64) (by simp; omega)
      have hy : memcpyBuf c.buffer 0 (buf.take 64) = .ok y := hy
      rw [hy] at hy1
      cases hy1
      rw [List.take_zero, List.nil_append] at hy2
      have hty : toBlock y.1 = toBlock p := by rw [hy2, toBlock_take, htb]
      have k3 := process_exact w _ hw.buffer _ _ _ _ (by rw [y.2]; exact Nat.le_refl _) h1
      obtain ⟨c2, r, f, i, _⟩ := process_spec cfg { c with total := c.total + 64, buffer := y } y.1
        (by rw [y.2]; exact Nat.le_refl _)
      have h1' := h1
      rw [r] at h1'
      cases h1'
      have f' : optOf c1 = optOf c := f.opt
      have i' : c1.ihv = (optOf c).next c.ihv (toBlock p) := by rw [i, hty]; rfl
      obtain ⟨s, x, s1, s2, s3⟩ := ih (addr + 64) c1 c' (buf.drop 64) (p.drop 64) q (len - 64) hl hd h2
      rw [f', i'] at x
      refine ⟨s, CostsW.cast (CostsW.step (k := (optOf c).blockWork c.ihv (toBlock p)) hc ?_ x) (by omega), s1, s2, s3⟩
      unfold bulkBody
      dsimp only
      rw [if_neg hu, ← hty]
      refine Costs.bind0 (memcpy_costs { c with total := c.total + 64 } _ _ _ (by omega) _ hy) ?_
      exact Costs.bind (l := 0) k3 (Costs.pure _)

theorem updFill_exact {n : Nat} (hn : IntBits n) (w : Where) (cfg : Cfg) (hw : Aligned w cfg) (addr : Nat) (c c' : Ctx)
    (buf p q : List Byte) (len : BitVec n)
    (l : Nat) (hp : Holds buf len p) (h : C.updFill cfg c p = .ok (c', q, l)) :
    ∃ s k, Costs (CLoops.updFill w cfg c addr buf len) s k ∧ s.ctx = c' ∧ Holds s.buf s.len q ∧ s.left.toNat = l ∧
      optOf c' = optOf c ∧
      k + (optOf c).work c'.ihv (blocks q) = (optOf c).work c.ihv (blocks ((absC c).buf ++ p)) ∧
      q.length / 64 = bulkBlocks (c.total.toNat % 64) p.length := by
  have hl := left_toNat c.total
  have hf := fill_toNat c.total
  have hfw : ((64 - (c.total &&& 63).setWidth 32 : Word).setWidth n).toNat = 64 - c.total.toNat % 64 := by
    rw [width_toNat hn, hf]
  have hz : ((c.total &&& 63).setWidth 32 : Word) ≠ 0 ↔ c.total.toNat % 64 ≠ 0 := by
    rw [Ne, Ne, BitVec.toNat_eq, hl]; rfl
  have hab := absC_buf_length c
  unfold C.updFill at h
  unfold CLoops.updFill bulkBlocks
  simp only [C.and63] at h
  have hlen := hp.length
  by_cases h0 : c.total.toNat % 64 ≠ 0 ∧ p.length ≥ 64 - c.total.toNat % 64
  · rw [if_pos h0] at h
    rw [if_pos ⟨hz.mpr h0.1, by rw [ge_iff_le, BitVec.le_def, hfw]; omega⟩]
    obtain ⟨b, hb, h⟩ := bind_inv h
    obtain ⟨c1, hc, h⟩ := bind_inv h
    cases h
    obtain ⟨y', hy1, hy2⟩ := memcpyBuf_full c.buffer (c.total.toNat % 64) (p.take (64 - c.total.toNat % 64))
      (by simp; omega)
    have hb : memcpyBuf c.buffer (c.total.toNat % 64) (p.take (64 - c.total.toNat % 64)) = .ok b := hb
    rw [hb] at hy1
    cases hy1
    rw [hp.take (by omega)] at hb
    have k3 := process_exact w _ hw.buffer _ _ _ _ (by rw [b.2]; exact Nat.le_refl _) hc
    obtain ⟨c2, r, f, i, _⟩ := process_spec cfg
      { c with total := c.total + BitVec.ofNat 64 (64 - c.total.toNat % 64), buffer := b } b.1
      (by rw [b.2]; exact Nat.le_refl _)
    have hc' := hc
    rw [r] at hc'
    cases hc'
    have et : c.total + (64 - (c.total &&& 63).setWidth 32 : Word).setWidth 64 =
        c.total + BitVec.ofNat 64 (64 - c.total.toNat % 64) := by
      rw [width64, hf]
    refine ⟨_, _, Costs.bind0 ?_ (Costs.bind (l := 0) k3 (Costs.pure _)), rfl, ?_, rfl, f.opt, ?_, ?_⟩
    · rw [hl, hf, et]
      exact memcpy_costs { c with total := c.total + BitVec.ofNat 64 (64 - c.total.toNat % 64) } _ _ _
        (by have := hp.1; omega) _ hb
    · show Holds (buf.drop _) (len - _) _
      rw [hf, ← hfw]
      exact hp.drop (by omega)
    · have e : (absC c).buf ++ p = b.1 ++ p.drop (64 - c.total.toNat % 64) := by
        rw [hy2, List.append_assoc, List.take_append_drop]; rfl
      have hb64 := b.2
      rw [e, blocks_ge (b.1 ++ p.drop (64 - c.total.toNat % 64)) (by rw [List.length_append]; omega), Options.work]
      have e1 : toBlock (b.1 ++ p.drop (64 - c.total.toNat % 64)) = toBlock b.1 := by
        rw [← toBlock_take (b.1 ++ _), List.take_left' hb64]
      have e2 : (b.1 ++ p.drop (64 - c.total.toNat % 64)).drop 64 = p.drop (64 - c.total.toNat % 64) := by
        rw [List.drop_left' hb64]
      rw [e1, e2, i]
      rfl
    · rw [List.length_drop]
      omega
  · rw [if_neg h0] at h
    cases h
    rw [if_neg (fun h => h0 ⟨hz.mp h.1, by
      have := h.2
      rw [ge_iff_le, BitVec.le_def, hfw] at this
      omega⟩)]
    refine ⟨_, 0, Costs.pure _, rfl, hp, hl, rfl, ?_, by omega⟩
    rw [Nat.zero_add]
    by_cases hz0 : c.total.toNat % 64 = 0
    · have : (absC c).buf = [] := List.eq_nil_of_length_eq_zero (by omega)
      rw [this, List.nil_append]
    · rw [blocks_lt p (by omega), blocks_lt _ (by simp; omega)]

/-- Steps of `SHA1DCUpdate`. -/
theorem update_exact {n : Nat} (hn : IntBits n) (wh : Where) (cfg : Cfg) (hw : Aligned wh cfg) (addr : Nat) (c c' : Ctx)
    (buf : List Byte) (len : BitVec n)
    (hlen : len.toNat ≤ buf.length) (h : SHA1DCUpdate cfg c (buf.take len.toNat) = .ok c') :
    Costs (CLoops.update wh cfg c addr buf len) c'
      ((optOf c).work c.ihv (blocks ((absC c).buf ++ buf.take len.toNat)) + bulkBlocks (c.total.toNat % 64) len.toNat) := by
  have hp : Holds buf len (buf.take len.toNat) := ⟨hlen, rfl⟩
  have hl := hp.length
  have hz : len = 0 ↔ len.toNat = 0 := by
    rw [BitVec.toNat_eq]; simp
  unfold SHA1DCUpdate at h
  unfold CLoops.update
  by_cases h0 : len.toNat = 0
  · rw [if_pos (by omega)] at h
    cases h
    rw [if_pos (hz.mpr h0)]
    have := absC_buf_length c
    rw [blocks_lt _ (by simp; omega), h0]
    exact (Costs.pure _).cast rfl (by simp [bulkBlocks, Options.work])
  · rw [if_neg (by omega)] at h
    rw [if_neg (fun h => h0 (hz.mp h))]
    obtain ⟨⟨c1, q1, l⟩, r1, h⟩ := bind_inv h
    obtain ⟨⟨c2, q2⟩, r2, h⟩ := bind_inv h
    have r2 : C.updBulk cfg c1 q1 = .ok (c2, q2) := r2
    have h : updTail c2 q2 l = .ok c' := h
    obtain ⟨s, k, w, s1, s2, s3, ho, e, z⟩ := updFill_exact hn wh cfg hw addr c c1 buf _ q1 len l hp r1
    obtain ⟨sc, sa, sb, sl, sf⟩ := s
    dsimp only at s1 s2 s3
    subst s1
    obtain ⟨t, w', t1, t2, t3⟩ := updBulk_exact hn wh cfg hw sf _ sa _ c2 sb q1 q2 sl rfl s2 r2
    subst t1
    have hq := t2.length
    rw [ho] at w'
    rw [hl] at z
    refine Costs.cast (Costs.bind (l := _ + 0) w (Costs.bind w'.loop ?_)) rfl (by rw [← z]; omega)
    unfold updTail at h
    have hgt : t.len > 0 ↔ t.len.toNat > 0 := by
      rw [gt_iff_lt, BitVec.lt_def]; simp
    by_cases hg : q2.length > 0
    · rw [if_pos hg] at h
      rw [if_pos (hgt.mpr (by omega))]
      obtain ⟨y, hy, h⟩ := bind_inv h
      cases h
      rw [t3, s3, width64, ← hq]
      refine memcpy_costs { t.ctx with total := t.ctx.total + BitVec.ofNat 64 q2.length } l t.buf q2.length ?_ y ?_
      · rw [hq]; exact t2.1
      · rw [hq, t2.2]; exact hy
    · rw [if_neg hg] at h
      cases h
      rw [if_neg (fun h => hg (by have := hgt.mp h; omega))]
      exact Costs.pure _

/-- A call with a whole slice. -/
theorem update_all_exact {n : Nat} (hn : IntBits n) (wh : Where) (cfg : Cfg) (hw : Aligned wh cfg) (addr : Nat) (c c' : Ctx)
    (p : List Byte) (hp : p.length < 2 ^ n) (h : SHA1DCUpdate cfg c p = .ok c') :
    Costs (CLoops.update wh cfg c addr p (BitVec.ofNat n p.length)) c'
      ((optOf c).work c.ihv (blocks ((absC c).buf ++ p)) + bulkBlocks (c.total.toNat % 64) p.length) := by
  have e : (BitVec.ofNat n p.length).toNat = p.length := by
    rw [BitVec.toNat_ofNat, Nat.mod_eq_of_lt hp]
  have w := update_exact hn wh cfg hw addr c c' p (BitVec.ofNat n p.length) (by rw [e]; exact Nat.le_refl _)
    (by rw [e, List.take_length]; exact h)
  rwa [e, List.take_length] at w

/-- Steps of `SHA1DCFinal`. -/
theorem final_exact {n : Nat} (hn : IntBits n) (wh : Where) (cfg : Cfg) (hw : Aligned wh cfg) (c c' : Ctx) (D : List Byte)
    (v : Word) (h : SHA1DCFinal cfg c = .ok (c', D, v)) :
    Costs (CLoops.final n wh cfg c) (c', D, v)
      ((optOf c).work c.ihv (blocks ((absC c).buf ++ padTail c.total))) := by
  have hl := left_toNat c.total
  unfold SHA1DCFinal at h
  unfold CLoops.final
  have hpad : (if ((c.total &&& 63).setWidth 32 : Word) < 56 then
      56 - ((c.total &&& 63).setWidth 32 : Word) else 120 - ((c.total &&& 63).setWidth 32 : Word)).toNat =
      zeroPad c.total.toNat + 1 := by
    have h56 : (56 : Word).toNat = 56 := rfl
    have h120 : (120 : Word).toNat = 120 := rfl
    unfold zeroPad
    by_cases hlt : c.total.toNat % 64 < 56
    · rw [if_pos (by rw [BitVec.lt_def, hl, h56]; exact hlt), BitVec.toNat_sub, hl, h56]
      omega
    · rw [if_neg (by rw [BitVec.lt_def, hl, h56]; exact hlt), BitVec.toNat_sub, hl, h120]
      omega
  dsimp only at h ⊢
  generalize (if ((c.total &&& 63).setWidth 32 : Word) < 56 then 56 - ((c.total &&& 63).setWidth 32 : Word)
    else 120 - ((c.total &&& 63).setWidth 32 : Word)) = padn at h hpad ⊢
  have hzp : zeroPad c.total.toNat < 64 := Nat.mod_lt _ (by decide)
  have hpn : padn.toNat ≤ 64 := by omega
  rw [if_pos hpn] at h
  have htake : sha1_padding.take padn.toNat = 0x80 :: List.replicate (zeroPad c.total.toNat) 0 := by
    rw [hpad]
    unfold sha1_padding
    rw [List.take_succ_cons, List.take_replicate, Nat.min_eq_left (by omega)]
  obtain ⟨c1, h1, h⟩ := bind_inv h
  obtain ⟨y, h2, h⟩ := bind_inv h
  obtain ⟨c2, h3, h⟩ := bind_inv h
  cases h
  have ew := width_toNat hn padn
  have w := update_exact hn wh cfg hw wh.pad c c1 sha1_padding (padn.setWidth n)
    (by rw [ew]; exact hpn) (by rw [ew]; exact h1)
  have w' := process_exact wh _ hw.buffer _ _ _ _ (by rw [y.2]; exact Nat.le_refl _) h3
  rw [htake] at h1
  obtain ⟨c3, r1, d1, t1, a1⟩ := C.update_spec cfg c (0x80 :: List.replicate (zeroPad c.total.toNat) 0)
  have h1 : SHA1DCUpdate cfg c (0x80 :: List.replicate (zeroPad c.total.toNat) 0) = .ok c1 := h1
  rw [h1] at r1
  cases r1
  simp only [List.length_cons, List.length_replicate] at t1
  have hm : c1.total.toNat % 64 = 56 := by
    rw [t1, BitVec.toNat_add, BitVec.toNat_ofNat]
    unfold zeroPad
    omega
  have htot : c1.total - padn.setWidth 64 = c.total := by
    rw [width64, hpad, t1, BitVec.add_sub_cancel]
  have hb := bytes64_eq (c.total <<< 3)
  unfold bytes64 at hb
  have h2' := h2
  rw [htot, hb] at h2'
  obtain ⟨y', hy1, hy2⟩ := memcpyBuf_full c1.buffer 56 (word64Bytes (c.total <<< 3)) (by simp [word64Bytes_length])
  have h2' : memcpyBuf c1.buffer 56 (word64Bytes (c.total <<< 3)) = .ok y := h2'
  rw [h2'] at hy1
  cases hy1
  have hpend : (absC c1).buf ++ word64Bytes (c.total <<< 3) = y.1 := by
    rw [hy2]; simp only [absC, hm]
  refine Costs.cast (Costs.bind w (Costs.bind0 (memcpy_costs _ _ _ _ (Nat.le_refl _) _ h2)
      (Costs.bind (l := 0) w' (Costs.pure _)))) rfl ?_
  have hz : bulkBlocks (c.total.toNat % 64) (zeroPad c.total.toNat + 1) = 0 := by
    unfold bulkBlocks zeroPad
    omega
  rw [ew, htake, hpad, hz]
  unfold padTail
  rw [← List.append_assoc, blocks_append_rem _ (word64Bytes _), work_append]
  have i1 : c1.ihv = ((optOf c).chain c.ihv (blocks ((absC c).buf ++ 0x80 :: List.replicate (zeroPad c.total.toNat) 0))).1 :=
    congrArg Sp.h a1
  have i2 : (absC c1).buf = rem64 ((absC c).buf ++ 0x80 :: List.replicate (zeroPad c.total.toNat) 0) := congrArg Sp.buf a1
  rw [← i1, ← i2, hpend, work_one _ _ _ y.2]
  show _ + 0 + (optOf c1).blockWork c1.ihv (toBlock y.1) = _
  rw [d1, Nat.add_zero]

/-- Steps of the C code's part of a sum. -/
theorem sum0_exact {n : Nat} (hn : IntBits n) (wh : Where) (cfg : Cfg) (hw : Aligned wh cfg) (d : Cgo.Digest)
    (r : Cgo.Digest × List Byte × Bool) (h : d.sum0 cfg = .ok r) :
    Costs (CLoops.sum0 n wh cfg d) r
      ((optOf d.ctx).work d.ctx.ihv (blocks ((absC d.ctx).buf ++ padTail d.ctx.total))) := by
  obtain ⟨⟨c1, D, v⟩, h1, h⟩ := bind_inv h
  have w := final_exact hn wh cfg hw _ _ _ _ h1
  refine Costs.bind (l := 0) w ?_
  dsimp only at h ⊢
  by_cases hv : v ≠ 0
  · rw [if_pos hv] at h ⊢
    cases h
    exact Costs.pure _
  · rw [if_neg hv] at h ⊢
    cases h
    exact Costs.pure _

theorem write_exact {n : Nat} (hn : IntBits n) (wh : Where) (cfg : Cfg) (hw : Aligned wh cfg) (d d' : Cgo.Digest)
    (p : List Byte) (hp : p.length < 2 ^ n) (r : Nat × Option Err) (h : d.write cfg p = .ok (d', r)) :
    Costs (CLoops.write n wh cfg d p) (d', r)
      ((optOf d.ctx).work d.ctx.ihv (blocks ((absC d.ctx).buf ++ p)) +
        bulkBlocks (d.ctx.total.toNat % 64) p.length) := by
  unfold Cgo.Digest.write at h
  unfold CLoops.write
  by_cases h0 : p.length = 0
  · rw [if_pos h0] at h ⊢
    cases h
    have := absC_buf_length d.ctx
    rw [blocks_lt _ (by rw [List.length_append]; omega), h0]
    exact (Costs.pure _).cast rfl (by simp [bulkBlocks, Options.work])
  · rw [if_neg h0] at h ⊢
    obtain ⟨c1, h1, h⟩ := bind_inv h
    cases h
    exact Costs.bind (l := 0) (update_all_exact hn wh cfg hw wh.buf _ _ p hp h1) (Costs.pure _)

/-- Bytes added to a message whose pending bytes are in the context. -/
theorem holdsC_work {c : Ctx} {m : List Byte} (h : HoldsC c m) (q : List Byte) :
    (optOf c).work c.ihv (blocks ((absC c).buf ++ q)) =
      Options.default.work H0 (blocks (m ++ q)) - Options.default.work H0 (blocks m) := by
  obtain ⟨h1, _, h3⟩ := h
  have i1 : c.ihv = (Options.default.chain H0 (blocks m)).1 := by
    rw [chain_default]
    exact congrArg Sp.h h3
  have i2 : (absC c).buf = rem64 m := congrArg Sp.buf h3
  rw [h1, i1, i2, blocks_append_rem m q, work_append]
  omega

theorem call_exact {n : Nat} (hn : IntBits n) (wh : Where) (cfg : Cfg) (hw : Aligned wh cfg) (d d' : Cgo.Digest)
    (m : List Byte) (hm : HoldsCgo d m) (op : Cgo.Op) (hf : Fits n op) (o : Out)
    (h : d.call cfg op = .ok (d', o)) :
    Costs (CLoops.call n wh cfg d op) (d', o) (cgoCallWork m op.toGo) := by
  have ht : d.ctx.total.toNat % 64 = m.length % 64 := by
    have : d.ctx.total = BitVec.ofNat 64 m.length := hm.2.1
    rw [this, BitVec.toNat_ofNat]
    omega
  have hs : ∀ r, d.sum0 cfg = .ok r → Costs (CLoops.sum0 n wh cfg d) r
      (Options.default.work H0 (blocks (pad m)) - Options.default.work H0 (blocks m)) := by
    intro r hr
    have := sum0_exact hn wh cfg hw d r hr
    rwa [holdsC_work hm, show d.ctx.total = BitVec.ofNat 64 m.length from hm.2.1, ← pad_eq] at this
  cases op with
  | write p =>
    obtain ⟨⟨_, _, _⟩, h1, h⟩ := bind_inv h
    cases h
    have w := write_exact hn wh cfg hw _ _ p hf _ h1
    rw [holdsC_work hm, ht] at w
    exact Costs.bind (l := 0) w (Costs.pure _)
  | sum inp =>
    obtain ⟨⟨_, _⟩, h1, h⟩ := bind_inv h
    cases h
    obtain ⟨⟨_, _, _⟩, h2, h⟩ := bind_inv h1
    cases h
    obtain ⟨⟨_, _, _⟩, h3, h⟩ := bind_inv h2
    cases h
    exact Costs.bind (l := 0) (Costs.bind (l := 0) (Costs.bind (l := 0) (hs _ h3) (Costs.pure _)) (Costs.pure _))
      (Costs.pure _)
  | collisionResistantSum inp =>
    obtain ⟨⟨_, _, _⟩, h1, h⟩ := bind_inv h
    cases h
    obtain ⟨⟨_, _, _⟩, h2, h⟩ := bind_inv h1
    cases h
    exact Costs.bind (l := 0) (Costs.bind (l := 0) (hs _ h2) (Costs.pure _)) (Costs.pure _)
  | reset => cases h; exact Costs.pure _
  | size => cases h; exact Costs.pure _
  | blockSize => cases h; exact Costs.pure _

theorem run_exact {n : Nat} (hn : IntBits n) (cfg : Cfg) (ops : List (Where × Cgo.Op)) :
    ∀ (d d' : Cgo.Digest) (m : List Byte) (os : List Out), HoldsCgo d m →
    (∀ x ∈ ops, Fits n x.2 ∧ Aligned x.1 cfg) → d.run cfg (ops.map Prod.snd) = .ok (d', os) →
    Costs (CLoops.run n cfg d ops) (d', os) (cgoRunWork m ((ops.map Prod.snd).map Cgo.Op.toGo)) := by
  induction ops with
  | nil =>
    intro d d' m os _ _ h
    cases h
    exact Costs.pure _
  | cons op ops ih =>
    intro d d' m os hm hf h
    obtain ⟨wh, op⟩ := op
    obtain ⟨hf1, hw⟩ := hf (wh, op) (by simp)
    obtain ⟨⟨d1, o⟩, h1, h⟩ := bind_inv h
    obtain ⟨⟨d2, os'⟩, h2, h⟩ := bind_inv h
    cases h
    obtain ⟨d1', r1, m1⟩ := hm.call cfg op
    have h1' := h1
    dsimp only at h1'
    rw [r1] at h1'
    cases h1'
    have c1 := call_exact hn wh cfg hw _ _ m hm op hf1 _ h1
    have c2 := ih _ _ _ _ m1 (fun op ho => hf op (by simp [ho])) h2
    refine Costs.bind (l := cgoRunWork (msgAfter m op.toGo) ((ops.map Prod.snd).map Cgo.Op.toGo)) c1 ?_
    exact Costs.bind (l := 0) c2 (Costs.pure _)

theorem sumPkg_exact {n : Nat} (hn : IntBits n) (wh : Where) (cfg : Cfg) (hw : Aligned wh cfg) (data : List Byte)
    (hp : data.length < 2 ^ n) (r : List Byte × Bool) (h : Cgo.sumPkg cfg data = .ok r) :
    Costs (CLoops.sumPkg n wh cfg data) r (Options.default.work H0 (blocks (pad data)) + data.length / 64) := by
  obtain ⟨⟨d1, o⟩, h1, h⟩ := bind_inv h
  obtain ⟨⟨d2, D, v⟩, h2, h⟩ := bind_inv h
  cases h
  have h2 : d1.sum0 cfg = .ok (d2, D, v) := h2
  obtain ⟨d1', r1, m1⟩ := (holdsCgo_reset Cgo.Digest.zero).write cfg data
  have h1' := h1
  rw [r1] at h1'
  cases h1'
  have w1 := write_exact hn wh cfg hw _ _ data hp _ h1
  have w2 := sum0_exact hn wh cfg hw _ _ h2
  rw [holdsC_work (holdsCgo_reset Cgo.Digest.zero)] at w1
  rw [holdsC_work m1, show d1.ctx.total = BitVec.ofNat 64 (([] : List Byte) ++ data).length from m1.2.1, ← pad_eq] at w2
  have w3 : Costs (CLoops.sumPkg n wh cfg data) (D, v) _ := Costs.bind w1 (by exact Costs.bind (l := 0) w2 (Costs.pure _))
  refine w3.cast rfl ?_
  rw [List.nil_append, blocks_lt [] (by simp)]
  have e : bulkBlocks (Cgo.Digest.zero.reset.ctx.total.toNat % 64) data.length = data.length / 64 := rfl
  rw [e]
  have : Options.default.work H0 (blocks data) ≤ Options.default.work H0 (blocks (pad data)) := by
    rw [pad_eq, blocks_append_rem, work_append]
    omega
  have z : Options.default.work H0 [] = 0 := rfl
  rw [z]
  omega

/-! ### Evaluation, for concrete instances -/

/-- The loop over the table with the default settings. -/
def evalCLook (W : List Word) (H : Regs) : Nat → List DV → List DvInfo → Nat
  | k, dv :: dvs, e :: es =>
    if evalUbc k W then
      if evalTest id dv.T e.Dm W H then 82 else 82 + evalCLook W H (k + 1) dvs es
    else 1 + evalCLook W H (k + 1) dvs es
  | _, _, _ => 0

open Classical in
theorem evalCLook_spec (H : Regs) (M : Block) :
    ∀ (k : Nat) (dvs : List DV) (es : List DvInfo), TableOk k dvs es → k + dvs.length ≤ 32 →
      (∀ j dv, dvs[j]? = some dv → dvList[k + j]? = some dv) →
      evalCLook (schedL (wordsL M)) H k dvs es =
        (List.range' k dvs.length).countP (fun j => decide (∀ i, k ≤ i → i < j → ¬ Options.default.Hit H M i)) +
        81 * (List.range' k dvs.length).countP (fun j => decide (Options.default.Tested M j ∧
          ∀ i, k ≤ i → i < j → ¬ Options.default.Hit H M i)) := by
  intro k dvs es h
  induction h with
  | nil k e rest he => intro _ _; simp [evalCLook]
  | cons k dv e dvs es he _ ih =>
    intro hlen hsub
    have hk : dvList[k]? = some dv := by simpa using hsub 0 dv (by simp)
    rw [List.length_cons] at hlen
    have ih := ih (by omega) (fun j d hd => by
      have := hsub (j + 1) d (by simpa using hd)
      rwa [show k + (j + 1) = k + 1 + j by omega] at this)
    have hu : evalUbc k (schedL (wordsL M)) = ubcHolds k (sched M) :=
      ubcHolds_congr k (schedL_spec M (wordsL M) (wordsL_spec M).1 (wordsL_spec M).2).2
    have ht : evalTest id dv.T e.Dm (schedL (wordsL M)) H = true ↔ Sibling dv H M :=
      (evalTest_iff id k dv e hk he H M).trans
        (sibling_iff_rot dv (by rcases (dv_facts hk).1 with h | h <;> omega) H M).symm
    have hT : Options.default.Tested M k ↔ evalUbc k (schedL (wordsL M)) = true := by
      unfold Options.Tested
      rw [hu]
      exact ⟨fun h => h.2 rfl, fun h => ⟨by omega, fun _ => h⟩⟩
    have hH : Options.default.Hit H M k ↔ evalUbc k (schedL (wordsL M)) = true ∧
        evalTest id dv.T e.Dm (schedL (wordsL M)) H = true := by
      unfold Options.Hit
      rw [hu, ht]
      constructor
      · rintro ⟨dv', h1, h2, h3⟩
        rw [hk] at h1
        cases h1
        rcases h3 with h3 | ⟨h3, _⟩
        · exact ⟨h2 rfl, h3⟩
        · cases h3
      · rintro ⟨h1, h2⟩
        exact ⟨dv, hk, fun _ => h1, .inl h2⟩
    have first : ∀ i, k ≤ i → i < k → ¬ Options.default.Hit H M i := fun i h1 h2 => by omega
    rw [List.length_cons, List.range'_succ, List.countP_cons, List.countP_cons]
    have hpos : decide (∀ i, k ≤ i → i < k → ¬ Options.default.Hit H M i) = true := decide_eq_true first
    rw [if_pos hpos]
    by_cases hh : Options.default.Hit H M k
    · obtain ⟨a, b⟩ := hH.mp hh
      have z1 : (List.range' (k + 1) dvs.length).countP (fun j => decide (∀ i, k ≤ i → i < j → ¬ Options.default.Hit H M i)) = 0 := by
        refine List.countP_eq_zero.mpr fun j hj q => ?_
        have := List.mem_range'_1.mp hj
        exact of_decide_eq_true q k (Nat.le_refl _) (by omega) hh
      have z2 : (List.range' (k + 1) dvs.length).countP (fun j => decide (Options.default.Tested M j ∧
          ∀ i, k ≤ i → i < j → ¬ Options.default.Hit H M i)) = 0 := by
        refine List.countP_eq_zero.mpr fun j hj q => ?_
        have := List.mem_range'_1.mp hj
        exact (of_decide_eq_true q).2 k (Nat.le_refl _) (by omega) hh
      rw [z1, z2, if_pos (decide_eq_true ⟨hT.mpr a, first⟩), evalCLook, if_pos a, if_pos b]
    · have e0 : ∀ j, (∀ i, k ≤ i → i < j → ¬ Options.default.Hit H M i) ↔
          ∀ i, k + 1 ≤ i → i < j → ¬ Options.default.Hit H M i := by
        intro j
        constructor
        · intro h i h1 h2
          exact h i (by omega) h2
        · intro h i h1 h2
          rcases Nat.lt_or_ge k i with h3 | h3
          · exact h i h3 h2
          · rw [show i = k by omega]; exact hh
      simp only [e0]
      rw [evalCLook]
      have f' : ∀ i, k + 1 ≤ i → i < k → ¬ Options.default.Hit H M i := fun i h1 h2 => by omega
      by_cases hv : evalUbc k (schedL (wordsL M)) = true
      · rw [if_pos hv, if_neg (fun h => hh (hH.mpr ⟨hv, h⟩)), ih, if_pos (decide_eq_true ⟨hT.mpr hv, f'⟩)]
        omega
      · rw [if_neg hv, ih, if_neg (fun h => hv (hT.mp (of_decide_eq_true h).1))]
        omega

/-- One block. -/
def evalCBlock (W : List Word) (H : Regs) : Nat :=
  2 + (if (List.range 32).any (fun k => evalUbc k W) then evalCLook W H 0 dvList sha1Dvs else 0) +
    if evalScan (fun _ => id) W H 0 dvList sha1Dvs then 2 else 0

open Classical in
theorem evalCBlock_spec (H : Regs) (M : Block) :
    evalCBlock (schedL (wordsL M)) H = Options.default.blockWork H M := by
  have hd : evalScan (fun _ => id) (schedL (wordsL M)) H 0 dvList sha1Dvs = true ↔ Options.default.Flags H M := by
    rw [flags_default, ← verdict_iff Detected]
    exact iff_of_eq (congrArg (· = true) (evalDet_detected H M))
  have hu : ∀ k, evalUbc k (schedL (wordsL M)) = ubcHolds k (sched M) := fun k =>
    ubcHolds_congr k (schedL_spec M (wordsL M) (wordsL_spec M).1 (wordsL_spec M).2).2
  have hany : (List.range 32).any (fun k => evalUbc k (schedL (wordsL M))) = true ↔
      ∃ k, Options.default.Tested M k := by
    rw [List.any_eq_true]
    constructor
    · rintro ⟨k, hk, h⟩
      exact ⟨k, List.mem_range.mp hk, fun _ => by rw [← hu]; exact h⟩
    · rintro ⟨k, hk, h⟩
      exact ⟨k, List.mem_range.mpr hk, by rw [hu]; exact h rfl⟩
  have hl := evalCLook_spec H M 0 dvList sha1Dvs sha1Dvs_ok (by simp [dvList_length]) (fun j dv h => by rwa [Nat.zero_add])
  simp only [Nat.zero_le, forall_const, dvList_length, ← List.range_eq_range'] at hl
  have ed : Options.default.detect = true := rfl
  have eu : Options.default.ubc = true := rfl
  have es : Options.default.safe = true := rfl
  unfold evalCBlock Options.blockWork
  rw [if_pos ed, if_pos eu, hl]
  have hf : (if evalScan (fun _ => id) (schedL (wordsL M)) H 0 dvList sha1Dvs = true then 2 else 0) =
      if Options.default.safe = true ∧ Options.default.Flags H M then 2 else 0 := by
    by_cases h : Options.default.Flags H M
    · rw [if_pos (hd.mpr h), if_pos ⟨es, h⟩]
    · rw [if_neg (fun q => h (hd.mp q)), if_neg (fun q => h q.2)]
  rw [hf]
  unfold Options.lookedAt Options.reconstructed
  by_cases h : ∃ k, Options.default.Tested M k
  · rw [if_pos (hany.mpr h), if_pos h]
    omega
  · rw [if_neg (fun q => h (hany.mp q)), if_neg h,
      List.countP_eq_zero.mpr (fun k _ q => h ⟨k, (of_decide_eq_true q).1⟩)]
    omega

/-- The blocks of a message. -/
def evalCWork : Nat → Regs → List Block → Nat
  | a, _, [] => a
  | a, H, M :: Ms =>
    let W := schedL (wordsL M)
    bif evalScan (fun _ => id) W H 0 dvList sha1Dvs then
      evalCWork (a + evalCBlock W H) (evalCompress W (evalCompress W (evalCompress W H))) Ms
    else evalCWork (a + evalCBlock W H) (evalCompress W H) Ms

theorem evalCWork_spec (Ms : List Block) : ∀ (a : Nat) (H : Regs), evalCWork a H Ms = a + Options.default.work H Ms := by
  induction Ms with
  | nil => intro a H; rw [evalCWork, Options.work]; omega
  | cons M Ms ih =>
    intro a H
    have hd : evalScan (fun _ => id) (schedL (wordsL M)) H 0 dvList sha1Dvs = cVerdict H M := evalDet_detected H M
    unfold evalCWork
    simp only [evalCompress_eq, hd, ih, evalCBlock_spec, Options.work, next_default, safeCompress]
    cases cVerdict H M <;> simp <;> omega

/-- The work for a message whose padded form has `b` blocks. -/
theorem cWork_eval (b : Nat) (m : List Byte) (hb : (pad m).length / 64 = b) :
    Options.default.work H0 (blocks (pad m)) = evalCWork 0 H0 (blocksN b (pad m)) := by
  rw [evalCWork_spec, ← blocksN_spec b (pad m) hb, Nat.zero_add]

end Verif.CLoopProofs
