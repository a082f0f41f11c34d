import Verif.Proofs.CRounds
import Verif.Proofs.Check
import Verif.Proofs.Object
import Verif.Spec.Options

/-! `sha1_process` in terms of the declarative verdict. -/

namespace Verif.C

open Verif Verif.Model Verif.Model.C Verif.Spec

/-- The same entry in the Go type. -/
def toGo (d : DvInfoT) : DvInfo where
  DvType := BitVec.ofNat 32 d.dvType
  DvK := BitVec.ofNat 32 d.dvK
  DvB := BitVec.ofNat 32 d.dvB
  TestT := BitVec.ofNat 32 d.testt
  MaskI := BitVec.ofNat 32 d.maski
  MaskB := BitVec.ofNat 32 d.maskb
  Dm := d.dm

theorem table_eq : C.sha1_dvs.map toGo = sha1Dvs := rfl

/-- The `int` fields are small. -/
def Small (d : DvInfoT) : Prop :=
  d.dvType < 100 ∧ d.dvK < 100 ∧ d.dvB < 100 ∧ d.testt < 80 ∧ d.maski < 100 ∧ d.maskb < 32

instance (d : DvInfoT) : Decidable (Small d) := by unfold Small; infer_instance

theorem table_small : ∀ d ∈ C.sha1_dvs, Small d := by decide

theorem ubcCheck_eq (W : Fin 80 → Word) : C.Ubc.ubcCheck W = Model.Ubc.calculateDvMask (some W) := rfl

theorem sameIhv_iff (x y : Regs) : sameIhv x y = true ↔ x = y := by
  unfold sameIhv
  rw [beq_iff_eq]
  simp only [or_eq_zero, xor_eq_zero]
  constructor
  · rintro ⟨⟨⟨⟨h1, h2⟩, h3⟩, h4⟩, h5⟩
    ext1 <;> assumption
  · rintro rfl; simp

/-- Everything that `sha1_process` leaves alone. -/
structure Frame (c c' : Ctx) : Prop where
  total : c'.total = c.total
  buffer : c'.buffer = c.buffer
  safe : c'.safe_hash = c.safe_hash
  detect : c'.detect_coll = c.detect_coll
  ubc : c'.ubc_check = c.ubc_check
  reduced : c'.reduced_round_coll = c.reduced_round_coll

theorem Frame.trans {a b c : Ctx} (h : Frame a b) (h' : Frame b c) : Frame a c :=
  ⟨h'.1.trans h.1, h'.2.trans h.2, h'.3.trans h.3, h'.4.trans h.4, h'.5.trans h.5, h'.6.trans h.6⟩

/-- The settings of a context. -/
def optOf (c : Ctx) : Options := ⟨c.safe_hash != 0, c.detect_coll != 0, c.ubc_check != 0, c.reduced_round_coll != 0⟩

theorem Frame.opt {c c' : Ctx} (f : Frame c c') : optOf c' = optOf c := by
  unfold optOf; rw [f.safe, f.detect, f.ubc, f.reduced]

/-- The context during the loop over the vectors. -/
structure LoopInv (H : Regs) (M : Block) (c : Ctx) : Prop where
  ihv : c.ihv = compress H M
  m1 : ∀ i : Fin 80, c.m1 i = sched M i
  s58 : view 58 (Env.of (c.states 58)) = steps (sched M) 58 H
  s65 : view 65 (Env.of (c.states 65)) = steps (sched M) 65 H
  ihv1 : c.ihv1 = H

theorem recomp_step_spec (T : Nat) (hT : T = 58 ∨ T = 65) (me2 : Fin 80 → Word) (W : Nat → Word)
    (hW : ∀ i : Fin 80, W i = me2 i) (state : Regs) :
    ∃ H', sha1_recompression_step T me2 state =
        .ok (H', H'.add (runSteps W T (80 - T) (view T (Env.of state)))) ∧
      steps W T H' = view T (Env.of state) := by
  unfold sha1_recompression_step
  rcases hT with rfl | rfl
  · exact recompress_spec 58 (by decide) me2 W hW state
  · exact recompress_spec 65 (by decide) me2 W hW state

theorem view_state {H : Regs} {M : Block} {c : Ctx} (h : LoopInv H M c) (T : Nat) (hT : T = 58 ∨ T = 65)
    (h80 : T < 80) : view T (Env.of (c.states ⟨T, h80⟩)) = steps (sched M) T H := by
  rcases hT with rfl | rfl
  · exact h.s58
  · exact h.s65

/-- The test of one vector. -/
theorem ctest_iff {dv : DV} (hK : dv.K + 16 ≤ 80) (hT : dv.T ≤ 80) (dm : Fin 80 → Word) (hd : IsDiff dv (ext80 dm))
    (H H' : Regs) (M : Block)
    (h : steps (sched (xorBlock M (ext80 dm))) dv.T H' = steps (sched M) dv.T H) :
    H'.add (runSteps (sched (xorBlock M (ext80 dm))) dv.T (80 - dv.T) (steps (sched M) dv.T H)) = compress H M ↔
      Sibling dv H M := by
  constructor
  · intro h2
    refine ⟨ext80 dm, H', hd, h, ?_⟩
    rw [compress_split H' _ dv.T hT, h]; exact h2
  · rintro ⟨δ, H'', hδ, h1, h2⟩
    rw [xorBlock_unique hK hδ hd M] at h1 h2
    rw [← steps_inj _ _ (h1.trans h.symm)]
    rw [compress_split H'' _ dv.T hT, h1] at h2
    exact h2

/-- The other test: the reconstructed chaining value is the one the block was processed from. -/
theorem rtest_iff {dv : DV} (hK : dv.K + 16 ≤ 80) (dm : Fin 80 → Word) (hd : IsDiff dv (ext80 dm))
    (H H' : Regs) (M : Block)
    (h : steps (sched (xorBlock M (ext80 dm))) dv.T H' = steps (sched M) dv.T H) :
    H = H' ↔ ReducedSibling dv H M := by
  constructor
  · rintro rfl
    exact ⟨ext80 dm, hd, h⟩
  · rintro ⟨δ, hδ, h1⟩
    rw [xorBlock_unique hK hδ hd M] at h1
    exact steps_inj _ _ (h1.trans h.symm)

/-- The test of one vector under the given settings. -/
def Hit (o : Options) (dv : DV) (H : Regs) (M : Block) : Prop :=
  Sibling dv H M ∨ (o.reduced = true ∧ ReducedSibling dv H M)

theorem dvLoop_spec (H : Regs) (M : Block) (mask : Word) :
    ∀ (k : Nat) (dvs : List DV) (gs : List DvInfo), TableOk k dvs gs → k + dvs.length ≤ 32 →
      (∀ dv ∈ dvs, (dv.T = 58 ∨ dv.T = 65) ∧ dv.K + 16 ≤ 80) →
      ∀ es : List DvInfoT, es.map toGo = gs → (∀ e ∈ es, Small e) →
      ∀ c : Ctx, LoopInv H M c →
      ∃ c' b, dvLoop mask es c = .ok c' ∧ Frame c c' ∧
        (b = true ↔ ∃ j dv, dvs[j]? = some dv ∧ mask.getLsbD (k + j) = true ∧ Hit (optOf c) dv H M) ∧
        c'.ihv = (if (optOf c).safe && b then compress (compress (compress H M) M) M else compress H M) ∧
        c'.found_collision = if b then 1 else c.found_collision := by
  intro k dvs gs h
  induction h with
  | nil k g rest hg =>
    intro _ _ es hes hsm c hc
    match es, hes with
    | e :: es', hes =>
      simp only [List.map_cons, List.cons.injEq] at hes
      have h0 : e.dvType = 0 := by
        have : (toGo e).DvType = 0 := by rw [hes.1]; exact hg
        exact ofNat_inj_small (by have := (hsm e (by simp)).1; omega) (by decide) this
      refine ⟨c, false, ?_, ⟨rfl, rfl, rfl, rfl, rfl, rfl⟩, by simp, by simp [hc.ihv], rfl⟩
      unfold dvLoop
      rw [if_neg (by simp [h0])]; rfl
  | cons k dv g dvs gs hg _ ih =>
    intro hlen hall es hes hsm c hc
    match es, hes with
    | e :: es', hes =>
      simp only [List.map_cons, List.cons.injEq] at hes
      have hs := hsm e (by simp)
      have hT := (hall dv (by simp)).1
      have hK := (hall dv (by simp)).2
      have hlen' : k < 32 := by simp at hlen; omega
      have he : EntryOk k dv (toGo e) := by rw [hes.1]; exact hg
      have hmb : e.maskb = k := ofNat_inj_small (by have := hs.2.2.2.2.2; omega) (by omega) he.maskB
      have hTt : e.testt = dv.T := ofNat_inj_small (by have := hs.2.2.2.1; omega) (by omega) he.T
      have hty : e.dvType ≠ 0 := by
        intro h0
        have := he.type
        simp only [toGo, h0] at this
        cases hd : dv.type <;> rw [hd] at this <;> exact absurd this (by decide)
      have hbit := _root_.Verif.Ubc.and_bit_ne_zero mask k hlen'
      have hrec := ih (by simp at hlen; omega) (fun d hd => hall d (by simp [hd])) es' hes.2
        (fun e he => hsm e (by simp [he]))
      have shiftIdx : (∃ j dv', (dv :: dvs)[j]? = some dv' ∧ mask.getLsbD (k + j) = true ∧ Hit (optOf c) dv' H M)
          ↔ (mask.getLsbD k = true ∧ Hit (optOf c) dv H M) ∨
            ∃ j dv', dvs[j]? = some dv' ∧ mask.getLsbD (k + 1 + j) = true ∧ Hit (optOf c) dv' H M := by
        constructor
        · rintro ⟨j, dv', h1, h2, h3⟩
          cases j with
          | zero => simp at h1; subst h1; exact .inl ⟨h2, h3⟩
          | succ j => exact .inr ⟨j, dv', by simpa using h1, by rwa [show k + 1 + j = k + (j + 1) by omega], h3⟩
        · rintro (⟨h1, h2⟩ | ⟨j, dv', h1, h2, h3⟩)
          · exact ⟨0, dv, rfl, h1, h2⟩
          · exact ⟨j + 1, dv', by simpa using h1, by rwa [show k + (j + 1) = k + 1 + j by omega], h3⟩
      rw [shiftIdx]
      unfold dvLoop
      rw [if_pos hty, if_pos hs.2.2.2.2.2, hmb]
      by_cases hm : mask.getLsbD k = true
      · have hne : mask &&& 1#32 <<< k ≠ 0 := fun hc => by
          have := hbit.mp hc; rw [hm] at this; exact absurd this (by decide)
        rw [if_pos hne]
        simp only
        rw [dif_pos hs.2.2.2.1]
        have hW : ∀ i : Fin 80, sched (xorBlock M (ext80 e.dm)) i = c.m1 i ^^^ e.dm i := by
          intro i
          rw [hc.m1 i]
          exact (xor_ext80 M e.dm he.diff i i.isLt).symm
        obtain ⟨H', hr, hst⟩ := recomp_step_spec e.testt (by omega) (fun j => c.m1 j ^^^ e.dm j) _ hW
          (c.states ⟨e.testt, hs.2.2.2.1⟩)
        rw [hr]
        simp only [bind, Except.bind]
        rw [view_state hc e.testt (by omega)] at hst ⊢
        rw [hTt] at hst ⊢
        have htest := ctest_iff hK (by omega) e.dm he.diff H H' M hst
        have hrtest := rtest_iff hK e.dm he.diff H H' M hst
        have hcond : (sameIhv (H'.add (runSteps (sched (xorBlock M (ext80 e.dm))) dv.T (80 - dv.T)
              (steps (sched M) dv.T H))) c.ihv || (c.reduced_round_coll != 0 && sameIhv c.ihv1 H')) = true ↔
            Hit (optOf c) dv H M := by
          rw [Bool.or_eq_true, Bool.and_eq_true, sameIhv_iff, sameIhv_iff, hc.ihv, hc.ihv1, htest, hrtest]
          rfl
        by_cases ht : (sameIhv (H'.add (runSteps (sched (xorBlock M (ext80 e.dm))) dv.T (80 - dv.T)
              (steps (sched M) dv.T H))) c.ihv || (c.reduced_round_coll != 0 && sameIhv c.ihv1 H')) = true
        · rw [if_pos ht]
          have hsib := hcond.mp ht
          have hw : ∀ X : Regs, sha1_compression_W X c.m1 = .ok (compress X M) := fun X =>
            compression_W_spec X c.m1 (sched M) (fun i => (hc.m1 i).symm)
          by_cases hsf : c.safe_hash ≠ 0
          · rw [if_pos hsf]
            simp only [hw, pure, Except.pure]
            exact ⟨_, true, rfl, ⟨rfl, rfl, rfl, rfl, rfl, rfl⟩, by simp [hm, hsib],
              by simp only [hc.ihv, optOf, show (c.safe_hash != 0) = true by simpa using hsf]; rfl, rfl⟩
          · rw [if_neg hsf]
            exact ⟨_, true, rfl, ⟨rfl, rfl, rfl, rfl, rfl, rfl⟩, by simp [hm, hsib],
              by simp [hc.ihv, optOf, Decidable.not_not.mp hsf], rfl⟩
        · rw [if_neg ht]
          have hsib : ¬ Hit (optOf c) dv H M := fun hs' => ht (hcond.mpr hs')
          obtain ⟨c', b, r1, r2, r3, r4, r5⟩ := hrec { c with m2 := fun j => c.m1 j ^^^ e.dm j, ihv2 := H' }
            ⟨hc.ihv, hc.m1, hc.s58, hc.s65, hc.ihv1⟩
          refine ⟨c', b, r1, ⟨r2.1, r2.2, r2.3, r2.4, r2.5, r2.6⟩, ?_, r4, r5⟩
          rw [r3]
          simp only [hsib, and_false, false_or]
          rfl
      · have hne : ¬ (mask &&& 1#32 <<< k ≠ 0) := fun hc => hc (hbit.mpr (by simpa using hm))
        rw [if_neg hne]
        obtain ⟨c', b, r1, r2, r3, r4, r5⟩ := hrec c hc
        refine ⟨c', b, r1, r2, ?_, r4, r5⟩
        rw [r3]
        simp [hm]

/-- The mask tested by the loop. -/
theorem flags_iff_mask (o : Options) (hd : o.detect = true) (H : Regs) (M : Block) :
    (∃ j dv, dvList[j]? = some dv ∧
      (if o.ubc = true then C.Ubc.ubcCheck (fun i => sched M i) else 0xFFFFFFFF).getLsbD (0 + j) = true ∧
      Hit o dv H M) ↔ o.Flags H M := by
  have hmask := _root_.Verif.Ubc.mask_bit (fun i => sched M i) (sched M) (fun _ => rfl)
  unfold Options.Flags Hit
  rw [ubcCheck_eq]
  have key : ∀ j, j < 32 →
      ((if o.ubc = true then Model.Ubc.calculateDvMask (some fun i => sched M i) else 0xFFFFFFFF).getLsbD (0 + j) = true
        ↔ (o.ubc = true → ubcHolds j (sched M) = true)) := by
    intro j hj
    rw [Nat.zero_add]
    by_cases hu : o.ubc = true
    · rw [if_pos hu, hmask j hj]; simp [hu]
    · rw [if_neg hu]
      have : ∀ j : Fin 32, (0xFFFFFFFF : Word).getLsbD j = true := by decide
      exact ⟨fun _ h => absurd h hu, fun _ => this ⟨j, hj⟩⟩
  constructor
  · rintro ⟨j, dv, h1, h2, h3⟩
    have hj : j < 32 := by
      have := (List.getElem?_eq_some_iff.mp h1).1; rwa [dvList_length] at this
    exact ⟨hd, j, dv, h1, (key j hj).mp h2, h3⟩
  · rintro ⟨_, j, dv, h1, h2, h3⟩
    have hj : j < 32 := by
      have := (List.getElem?_eq_some_iff.mp h1).1; rwa [dvList_length] at this
    exact ⟨j, dv, h1, (key j hj).mpr h2, h3⟩

/-- What `sha1_process` does after the compression. -/
theorem after_spec (c c1 : Ctx) (hf : Frame c c1) (hfc : c1.found_collision = c.found_collision) (H : Regs) (M : Block)
    (mask : Word) (hinv : LoopInv H M c1) (F : Bool)
    (hF : (∃ j dv, dvList[j]? = some dv ∧ mask.getLsbD (0 + j) = true ∧ Hit (optOf c) dv H M) ↔ F = true) :
    ∃ c', (if mask ≠ 0 then dvLoop mask C.sha1_dvs c1 else pure c1) = .ok c' ∧ Frame c c' ∧
      c'.ihv = (if (optOf c).safe && F then compress (compress (compress H M) M) M else compress H M) ∧
      c'.found_collision = if F then 1 else c.found_collision := by
  by_cases hz : mask = 0
  · rw [if_neg (by simp [hz])]
    have hF' : F = false := by
      refine Bool.eq_false_iff.mpr fun hv => ?_
      rw [← hF, hz] at hv
      simp at hv
    subst hF'
    refine ⟨c1, rfl, hf, ?_, hfc⟩
    rw [Bool.and_false, hinv.ihv]
    exact (if_neg (by decide)).symm
  · rw [if_pos hz]
    obtain ⟨c', b, r1, r2, r3, r4, r5⟩ := dvLoop_spec H M mask
      0 dvList sha1Dvs sha1Dvs_ok (by simp [dvList_length]) dvList_T C.sha1_dvs table_eq table_small c1 hinv
    rw [hf.opt] at r3 r4
    have hb : b = F := by rw [Bool.eq_iff_iff, r3, hF]
    rw [← hb]
    exact ⟨c', r1, hf.trans r2, r4, by rw [r5, hfc]⟩

/-- `sha1_process`, whatever the contents of the context: the next chaining value and the flag prescribed for its
settings. -/
theorem process_plat (cfg : Plat) (c : Ctx) (p : List Byte) (hp : 64 ≤ p.length) :
    ∃ c', sha1_process cfg c p = .ok c' ∧ Frame c c' ∧
      c'.ihv = (optOf c).next c.ihv (blockOf cfg p) ∧
      c'.found_collision = if verdict (optOf c).Flags c.ihv (blockOf cfg p) then 1 else c.found_collision := by
  obtain ⟨st58, st65, hs, h58, h65⟩ := states_spec cfg p hp c.ihv c.m1 c.states
  unfold sha1_process
  simp only [hs, bind, Except.bind]
  unfold Options.next
  have hfl := fun hd => flags_iff_mask (optOf c) hd c.ihv (blockOf cfg p)
  have hvf := verdict_iff (optOf c).Flags c.ihv (blockOf cfg p)
  generalize verdict (optOf c).Flags c.ihv (blockOf cfg p) = F at hvf ⊢
  generalize blockOf cfg p = M at *
  generalize hH1 : compress c.ihv M = H1 at hs ⊢
  have hinv : LoopInv c.ihv M
      { c with ihv1 := c.ihv, ihv := H1, m1 := fun i => sched M i,
               states := upd (upd c.states 58 st58) 65 st65 } :=
    ⟨hH1.symm, fun _ => rfl, by simpa [upd] using h58, by simpa [upd] using h65, rfl⟩
  have hf : Frame c
      { c with ihv1 := c.ihv, ihv := H1, m1 := fun i => sched M i,
               states := upd (upd c.states 58 st58) 65 st65 } := ⟨rfl, rfl, rfl, rfl, rfl, rfl⟩
  by_cases hdc : c.detect_coll ≠ 0
  · rw [if_pos hdc]
    have hdt : (optOf c).detect = true := by simpa [optOf] using hdc
    have hmask : (if c.ubc_check ≠ 0 then C.Ubc.ubcCheck (fun i => sched M i) else 0xFFFFFFFF) =
        (if (optOf c).ubc = true then C.Ubc.ubcCheck (fun i => sched M i) else 0xFFFFFFFF) := by
      by_cases h : c.ubc_check = 0 <;> simp [optOf, h]
    have hfl := hfl hdt
    rw [← hmask, ← hvf] at hfl
    generalize (if c.ubc_check ≠ 0 then C.Ubc.ubcCheck (fun i => sched M i) else 0xFFFFFFFF) = mask at hfl ⊢
    rw [← hH1]
    rw [← hH1] at hinv hf
    exact after_spec c _ hf rfl c.ihv M mask hinv F hfl
  · rw [if_neg hdc]
    have hdt : (optOf c).detect = false := by simpa [optOf] using hdc
    have hv : F = false := by
      refine Bool.eq_false_iff.mpr fun hv => ?_
      rw [hvf] at hv
      rw [hv.1] at hdt
      cases hdt
    subst hv
    rw [Bool.and_false, if_neg (by decide), if_neg (by decide)]
    exact ⟨_, rfl, hf, rfl, rfl⟩

/-- The same where the macro tells the byte order of the machine. -/
theorem process_spec (cfg : Cfg) (c : Ctx) (p : List Byte) (hp : 64 ≤ p.length) :
    ∃ c', sha1_process cfg c p = .ok c' ∧ Frame c c' ∧
      c'.ihv = (optOf c).next c.ihv (toBlock p) ∧
      c'.found_collision = if verdict (optOf c).Flags c.ihv (toBlock p) then 1 else c.found_collision := by
  have h := process_plat cfg c p hp
  rwa [blockOf_cfg] at h

end Verif.C
