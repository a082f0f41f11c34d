import Verif.Proofs.CSponge
import Verif.Proofs.Pair
import Verif.Spec.Shown

/-! What the context tells about the block processed last. -/

namespace Verif.C

open Verif Verif.Model Verif.Model.C Verif.Spec

/-- The members that tell it. -/
def ShownC (o : Options) (H : Regs) (M : Block) (c : Ctx) : Prop := Shown o H M c.ihv1 c.ihv2 c.m1 c.m2

/-- The other half, for a vector with the difference `δ`. -/
def Other (o : Options) (H : Regs) (M : Block) (dv : DV) (c : Ctx) : Prop :=
  ∃ δ, IsDiff dv δ ∧ (∀ i, c.m2 i = sched (xorBlock M δ) i) ∧
    steps (sched (xorBlock M δ)) dv.T c.ihv2 = steps (sched M) dv.T H ∧
    (compress c.ihv2 (xorBlock M δ) = compress H M ∨ (o.reduced = true ∧ c.ihv2 = H))

theorem dvLoop_shown (H : Regs) (M : Block) (mask : Word) :
    ∀ (k : Nat) (dvs : List DV) (gs : List DvInfo), TableOk k dvs gs → k + dvs.length ≤ 32 →
      (∀ dv ∈ dvs, (dv.T = 58 ∨ dv.T = 65) ∧ dv.K + 16 ≤ 80) →
      ∀ es : List DvInfoT, es.map toGo = gs → (∀ e ∈ es, Small e) →
      ∀ c c' : Ctx, LoopInv H M c → dvLoop mask es c = .ok c' →
      c'.ihv1 = H ∧ (∀ i : Fin 80, c'.m1 i = sched M i) ∧
      ((∀ j dv, dvs[j]? = some dv → mask.getLsbD (k + j) = true → ¬ Hit (optOf c) dv H M) ∨
       ∃ j dv, dvs[j]? = some dv ∧ mask.getLsbD (k + j) = true ∧ Hit (optOf c) dv H M ∧
        (∀ i dv', i < j → dvs[i]? = some dv' → mask.getLsbD (k + i) = true → ¬ Hit (optOf c) dv' H M) ∧
        Other (optOf c) H M dv c') := by
  intro k dvs gs h
  induction h with
  | nil k g rest hg =>
    intro _ _ es hes hsm c c' hc hrun
    match es, hes with
    | e :: es', hes =>
      simp only [List.map_cons, List.cons.injEq] at hes
      have h0 : e.dvType = 0 := by
        have : (toGo e).DvType = 0 := by rw [hes.1]; exact hg
        exact ofNat_inj_small (by have := (hsm e (by simp)).1; omega) (by decide) this
      unfold dvLoop at hrun
      rw [if_neg (by simp [h0])] at hrun
      cases hrun
      exact ⟨hc.ihv1, hc.m1, .inl (by simp)⟩
  | cons k dv g dvs gs hg _ ih =>
    intro hlen hall es hes hsm c c' hc hrun
    match es, hes with
    | e :: es', hes =>
      simp only [List.map_cons, List.cons.injEq] at hes
      have hs := hsm e (by simp)
      have hT := (hall dv (by simp)).1
      have hK := (hall dv (by simp)).2
      have hlen' : k < 32 := by simp at hlen; omega
      have he : EntryOk k dv (toGo e) := by rw [hes.1]; exact hg
      have hmb : e.maskb = k := ofNat_inj_small (by have := hs.2.2.2.2.2; omega) (by omega) he.maskB
      have hTt : e.testt = dv.T := ofNat_inj_small (by have := hs.2.2.2.1; omega) (by omega) he.T
      have hty : e.dvType ≠ 0 := by
        intro h0
        have := he.type
        simp only [toGo, h0] at this
        cases hd : dv.type <;> rw [hd] at this <;> exact absurd this (by decide)
      have hbit := _root_.Verif.Ubc.and_bit_ne_zero mask k hlen'
      have hrec := ih (by simp at hlen; omega) (fun d hd => hall d (by simp [hd])) es' hes.2
        (fun e he => hsm e (by simp [he]))
      -- what the rest of the loop says, with the first vector known not to hit
      have lift : ∀ (o : Options) (c' : Ctx), ¬ (mask.getLsbD k = true ∧ Hit o dv H M) →
          ((∀ j dv, dvs[j]? = some dv → mask.getLsbD (k + 1 + j) = true → ¬ Hit o dv H M) ∨
           ∃ j dv, dvs[j]? = some dv ∧ mask.getLsbD (k + 1 + j) = true ∧ Hit o dv H M ∧
            (∀ i dv', i < j → dvs[i]? = some dv' → mask.getLsbD (k + 1 + i) = true → ¬ Hit o dv' H M) ∧
            Other o H M dv c') →
          ((∀ j dv', (dv :: dvs)[j]? = some dv' → mask.getLsbD (k + j) = true → ¬ Hit o dv' H M) ∨
           ∃ j dv', (dv :: dvs)[j]? = some dv' ∧ mask.getLsbD (k + j) = true ∧ Hit o dv' H M ∧
            (∀ i dv'', i < j → (dv :: dvs)[i]? = some dv'' → mask.getLsbD (k + i) = true → ¬ Hit o dv'' H M) ∧
            Other o H M dv' c') := by
        intro o c' hn h
        rcases h with h | ⟨j, dv', h1, h2, h3, h4, h5⟩
        · left
          intro j dv' hj hm hh
          cases j with
          | zero => simp at hj; subst hj; exact hn ⟨hm, hh⟩
          | succ j => exact h j dv' (by simpa using hj) (by rwa [show k + 1 + j = k + (j + 1) by omega]) hh
        · right
          refine ⟨j + 1, dv', by simpa using h1, by rwa [show k + (j + 1) = k + 1 + j by omega], h3, ?_, h5⟩
          intro i dv'' hi hget hm hh
          cases i with
          | zero => simp at hget; subst hget; exact hn ⟨hm, hh⟩
          | succ i =>
            exact h4 i dv'' (by omega) (by simpa using hget) (by rwa [show k + 1 + i = k + (i + 1) by omega]) hh
      unfold dvLoop at hrun
      rw [if_pos hty, if_pos hs.2.2.2.2.2, hmb] at hrun
      by_cases hm : mask.getLsbD k = true
      · have hne : mask &&& 1#32 <<< k ≠ 0 := fun hc => by
          have := hbit.mp hc; rw [hm] at this; exact absurd this (by decide)
        rw [if_pos hne] at hrun
        simp only at hrun
        rw [dif_pos hs.2.2.2.1] at hrun
        have hW : ∀ i : Fin 80, sched (xorBlock M (ext80 e.dm)) i = c.m1 i ^^^ e.dm i := by
          intro i
          rw [hc.m1 i]
          exact (xor_ext80 M e.dm he.diff i i.isLt).symm
        obtain ⟨H', hr, hst⟩ := recomp_step_spec e.testt (by omega) (fun j => c.m1 j ^^^ e.dm j) _ hW
          (c.states ⟨e.testt, hs.2.2.2.1⟩)
        rw [hr] at hrun
        simp only [bind, Except.bind] at hrun
        rw [view_state hc e.testt (by omega)] at hst hrun
        rw [hTt] at hst hrun
        have htest := ctest_iff hK (by omega) e.dm he.diff H H' M hst
        have hrtest := rtest_iff hK e.dm he.diff H H' M hst
        have hsplit := compress_split H' (xorBlock M (ext80 e.dm)) dv.T (by omega)
        rw [hst] at hsplit
        have hcond : (sameIhv (H'.add (runSteps (sched (xorBlock M (ext80 e.dm))) dv.T (80 - dv.T)
              (steps (sched M) dv.T H))) c.ihv || (c.reduced_round_coll != 0 && sameIhv c.ihv1 H')) = true ↔
            Hit (optOf c) dv H M := by
          rw [Bool.or_eq_true, Bool.and_eq_true, sameIhv_iff, sameIhv_iff, hc.ihv, hc.ihv1, htest, hrtest]
          rfl
        by_cases ht : (sameIhv (H'.add (runSteps (sched (xorBlock M (ext80 e.dm))) dv.T (80 - dv.T)
              (steps (sched M) dv.T H))) c.ihv || (c.reduced_round_coll != 0 && sameIhv c.ihv1 H')) = true
        · rw [if_pos ht] at hrun
          have hsib := hcond.mp ht
          have hw : ∀ X : Regs, sha1_compression_W X c.m1 = .ok (compress X M) := fun X =>
            compression_W_spec X c.m1 (sched M) (fun i => (hc.m1 i).symm)
          have hone : compress H' (xorBlock M (ext80 e.dm)) = compress H M ∨ ((optOf c).reduced = true ∧ H' = H) := by
            rw [Bool.or_eq_true, Bool.and_eq_true, sameIhv_iff, sameIhv_iff, hc.ihv, hc.ihv1] at ht
            exact ht.imp (fun h => hsplit.trans h) fun h => ⟨h.1, h.2.symm⟩
          have done : ∀ c' : Ctx, c'.m2 = (fun j => c.m1 j ^^^ e.dm j) → c'.ihv2 = H' →
              Other (optOf c) H M dv c' := by
            intro c' h1 h2
            unfold Other
            rw [h1, h2]
            exact ⟨ext80 e.dm, he.diff, fun i => (hW i).symm, hst, hone⟩
          have key : ∀ c' : Ctx, c'.m2 = (fun j => c.m1 j ^^^ e.dm j) → c'.ihv2 = H' → c'.ihv1 = c.ihv1 → c'.m1 = c.m1 →
              c'.ihv1 = H ∧ (∀ i : Fin 80, c'.m1 i = sched M i) ∧
              ((∀ j dv', (dv :: dvs)[j]? = some dv' → mask.getLsbD (k + j) = true → ¬ Hit (optOf c) dv' H M) ∨
               ∃ j dv', (dv :: dvs)[j]? = some dv' ∧ mask.getLsbD (k + j) = true ∧ Hit (optOf c) dv' H M ∧
                (∀ i dv'', i < j → (dv :: dvs)[i]? = some dv'' → mask.getLsbD (k + i) = true →
                  ¬ Hit (optOf c) dv'' H M) ∧ Other (optOf c) H M dv' c') := by
            intro c' h1 h2 h3 h4
            exact ⟨h3.trans hc.ihv1, fun i => by rw [h4]; exact hc.m1 i,
              .inr ⟨0, dv, rfl, hm, hsib, fun i _ hi => absurd hi (by omega), done c' h1 h2⟩⟩
          by_cases hsf : c.safe_hash ≠ 0
          · rw [if_pos hsf] at hrun
            simp only [hw, pure, Except.pure, Except.ok.injEq] at hrun
            rw [← hrun]
            exact key _ rfl rfl rfl rfl
          · rw [if_neg hsf] at hrun
            simp only [pure, Except.pure, Except.ok.injEq] at hrun
            rw [← hrun]
            exact key _ rfl rfl rfl rfl
        · rw [if_neg ht] at hrun
          have hsib : ¬ Hit (optOf c) dv H M := fun hs' => ht (hcond.mpr hs')
          obtain ⟨r1, r2, r3⟩ := hrec { c with m2 := fun j => c.m1 j ^^^ e.dm j, ihv2 := H' } c'
            ⟨hc.ihv, hc.m1, hc.s58, hc.s65, hc.ihv1⟩ hrun
          exact ⟨r1, r2, lift _ c' (fun h => hsib h.2) r3⟩
      · have hne : ¬ (mask &&& 1#32 <<< k ≠ 0) := fun hc => hc (hbit.mpr (by simpa using hm))
        rw [if_neg hne] at hrun
        obtain ⟨r1, r2, r3⟩ := hrec c c' hc hrun
        exact ⟨r1, r2, lift _ c' (fun h => hm h.1) r3⟩

/-- The bits of the mask tested by the loop. -/
theorem mask_hits (o : Options) (H : Regs) (M : Block) (j : Nat) (dv : DV) (hj : dvList[j]? = some dv) :
    ((if o.ubc = true then C.Ubc.ubcCheck (fun i => sched M i) else 0xFFFFFFFF).getLsbD (0 + j) = true ∧ Hit o dv H M)
      ↔ o.Hits H M j dv := by
  have hlt : j < 32 := by
    have := (List.getElem?_eq_some_iff.mp hj).1; rwa [dvList_length] at this
  have hmask := _root_.Verif.Ubc.mask_bit (fun i => sched M i) (sched M) (fun _ => rfl)
  unfold Options.Hits Hit
  rw [ubcCheck_eq, Nat.zero_add]
  by_cases hu : o.ubc = true
  · rw [if_pos hu, hmask j hlt]; simp [hu, hj]
  · rw [if_neg hu]
    have : ∀ j : Fin 32, (0xFFFFFFFF : Word).getLsbD j = true := by decide
    exact ⟨fun h => ⟨hj, fun h => absurd h hu, h.2⟩, fun h => ⟨this ⟨j, hlt⟩, h.2.2⟩⟩

/-- What `sha1_process` leaves behind after the compression. -/
theorem after_shown (c c1 c' : Ctx) (hf : Frame c c1) (H : Regs) (M : Block) (mask : Word) (hinv : LoopInv H M c1)
    (hh : ∀ j dv, dvList[j]? = some dv →
      ((mask.getLsbD (0 + j) = true ∧ Hit (optOf c) dv H M) ↔ (optOf c).Hits H M j dv))
    (h : (if mask ≠ 0 then dvLoop mask C.sha1_dvs c1 else pure c1) = .ok c') : ShownC (optOf c) H M c' := by
  have none_hit : (∀ j dv, dvList[j]? = some dv → mask.getLsbD (0 + j) = true → ¬ Hit (optOf c) dv H M) →
      ¬ (optOf c).Flags H M := by
    rintro hn ⟨_, k, dv, h1, h2, h3⟩
    obtain ⟨a, b⟩ := (hh k dv h1).mpr ⟨h1, h2, h3⟩
    exact hn k dv h1 a b
  by_cases hz : mask = 0
  · rw [if_neg (by simp [hz])] at h
    cases h
    refine ⟨hinv.ihv1, hinv.m1, fun hfl => absurd hfl (none_hit fun j dv _ hm => ?_)⟩
    rw [hz] at hm
    simp at hm
  · rw [if_pos hz] at h
    obtain ⟨r1, r2, r3⟩ := dvLoop_shown H M mask 0 dvList sha1Dvs sha1Dvs_ok (by simp [dvList_length]) dvList_T
      C.sha1_dvs table_eq table_small c1 c' hinv h
    rw [hf.opt] at r3
    refine ⟨r1, r2, fun hfl => ?_⟩
    rcases r3 with r3 | ⟨j, dv, h1, h2, h3, h4, δ, h5, h6, h7, h8⟩
    · exact absurd hfl (none_hit r3)
    · refine ⟨j, dv, δ, (hh j dv h1).mp ⟨h2, h3⟩, fun i dv' hi hit => ?_, h5, xorBlock_ne h1 h5 M, h6, h7, h8⟩
      obtain ⟨a, b⟩ := (hh i dv' hit.1).mpr hit
      exact h4 i dv' hi hit.1 a b

theorem process_shown (cfg : Cfg) (c c' : Ctx) (p : List Byte) (hp : 64 ≤ p.length) (h : sha1_process cfg c p = .ok c') :
    ShownC (optOf c) c.ihv (toBlock p) c' := by
  obtain ⟨st58, st65, hs, h58, h65⟩ := states_spec cfg p hp c.ihv c.m1 c.states
  unfold sha1_process at h
  simp only [hs, bind, Except.bind] at h
  rw [blockOf_cfg] at hs h h58 h65
  have hh := mask_hits (optOf c) c.ihv (toBlock p)
  generalize toBlock p = M at *
  generalize hH1 : compress c.ihv M = H1 at hs h
  have hinv : LoopInv c.ihv M
      { c with ihv1 := c.ihv, ihv := H1, m1 := fun i => sched M i,
               states := upd (upd c.states 58 st58) 65 st65 } :=
    ⟨hH1.symm, fun _ => rfl, by simpa [upd] using h58, by simpa [upd] using h65, rfl⟩
  have hf : Frame c
      { c with ihv1 := c.ihv, ihv := H1, m1 := fun i => sched M i,
               states := upd (upd c.states 58 st58) 65 st65 } := ⟨rfl, rfl, rfl, rfl, rfl, rfl⟩
  by_cases hdc : c.detect_coll ≠ 0
  · rw [if_pos hdc] at h
    have hmask : (if c.ubc_check ≠ 0 then C.Ubc.ubcCheck (fun i => sched M i) else 0xFFFFFFFF) =
        (if (optOf c).ubc = true then C.Ubc.ubcCheck (fun i => sched M i) else 0xFFFFFFFF) := by
      by_cases h : c.ubc_check = 0 <;> simp [optOf, h]
    rw [← hmask] at hh
    generalize (if c.ubc_check ≠ 0 then C.Ubc.ubcCheck (fun i => sched M i) else 0xFFFFFFFF) = mask at hh h
    exact after_shown c _ c' hf c.ihv M mask hinv hh h
  · rw [if_neg hdc] at h
    have hdt : (optOf c).detect = false := by simpa [optOf] using hdc
    have hnf : ¬ (optOf c).Flags c.ihv M := fun hfl => by
      have := hfl.1
      rw [hdt] at this
      cases this
    cases h
    exact ⟨rfl, fun _ => rfl, fun hfl => absurd hfl hnf⟩

/-! ### The calls -/

/-- The members are untouched. -/
structure Same4 (c c' : Ctx) : Prop where
  ihv1 : c'.ihv1 = c.ihv1
  ihv2 : c'.ihv2 = c.ihv2
  m1 : c'.m1 = c.m1
  m2 : c'.m2 = c.m2

theorem Same4.refl (c : Ctx) : Same4 c c := ⟨rfl, rfl, rfl, rfl⟩

theorem Same4.trans {c c' c'' : Ctx} (h : Same4 c c') (h' : Same4 c' c'') : Same4 c c'' :=
  ⟨h'.ihv1.trans h.ihv1, h'.ihv2.trans h.ihv2, h'.m1.trans h.m1, h'.m2.trans h.m2⟩

theorem ShownC.same {o : Options} {H : Regs} {M : Block} {c c' : Ctx} (h : ShownC o H M c) (h' : Same4 c c') :
    ShownC o H M c' := by
  unfold ShownC at *
  rw [h'.ihv1, h'.ihv2, h'.m1, h'.m2]
  exact h

/-- After `p`, absorbed in the state `s`, the members tell of the block completed last, or are untouched. -/
structure Told (o : Options) (s : Sp) (p : List Byte) (c c' : Ctx) : Prop where
  none : blocks (s.buf ++ p) = [] → Same4 c c'
  last : ∀ pre M, blocks (s.buf ++ p) = pre ++ [M] → ShownC o (o.chain s.h pre).1 M c'

theorem Told.short {o : Options} {s : Sp} {p : List Byte} {c c' : Ctx} (h : (s.buf ++ p).length < 64)
    (h' : Same4 c c') : Told o s p c c' :=
  ⟨fun _ => h', fun pre M e => by rw [blocks_lt _ h] at e; simp at e⟩

theorem Told.trans {o : Options} {s : Sp} {p q : List Byte} {c c1 c2 : Ctx} (h1 : Told o s p c c1)
    (h2 : Told o (absorb o s p) q c1 c2) : Told o s (p ++ q) c c2 := by
  have e : blocks (s.buf ++ (p ++ q)) = blocks (s.buf ++ p) ++ blocks ((absorb o s p).buf ++ q) := by
    rw [← List.append_assoc, blocks_append_rem]; rfl
  constructor
  · intro h
    rw [e, List.append_eq_nil_iff] at h
    exact (h1.none h.1).trans (h2.none h.2)
  · intro pre M h
    rw [e] at h
    rcases List.eq_nil_or_concat (blocks ((absorb o s p).buf ++ q)) with h0 | ⟨pre', M', h0⟩
    · rw [h0, List.append_nil] at h
      exact (h1.last pre M h).same (h2.none h0)
    · rw [List.concat_eq_append] at h0
      have := h2.last pre' M' h0
      rw [h0, ← List.append_assoc] at h
      obtain ⟨ha, hb⟩ := List.append_inj' h rfl
      simp only [List.cons.injEq, and_true] at hb
      rw [← ha, ← hb, Options.chain_append]
      exact this

theorem process_told (cfg : Cfg) (c c1 c2 : Ctx) (ho : optOf c1 = optOf c) (b rest p : List Byte) (hb : b.length = 64)
    (hpend : (absC c).buf ++ p = b) (h1 : c1.ihv = c.ihv) (h : sha1_process cfg c1 (b ++ rest) = .ok c2) :
    Told (optOf c) (absC c) p c c2 := by
  have hsh := process_shown cfg c1 c2 (b ++ rest) (by simp; omega) h
  have hbl : toBlock (b ++ rest) = toBlock b := by
    rw [← toBlock_take (b ++ rest), ← hb, List.take_left]
  rw [hbl, ho, h1] at hsh
  have e : blocks ((absC c).buf ++ p) = [toBlock b] := by
    rw [hpend, blocks_ge _ (by omega), blocks_lt _ (by simp [hb])]
  constructor
  · intro h; rw [e] at h; cases h
  · intro pre M h
    rw [e] at h
    have hp : pre = [] := by
      have := congrArg List.length h
      simp at this
      exact this
    subst hp
    simp only [List.nil_append, List.cons.injEq, and_true] at h
    rw [← h]
    exact hsh

theorem updFill_told (cfg : Cfg) (c c' : Ctx) (buf q : List Byte) (l : Nat) (h : updFill cfg c buf = .ok (c', q, l)) :
    ∃ p0, buf = p0 ++ q ∧ Told (optOf c) (absC c) p0 c c' := by
  have hlen := absC_buf_length c
  unfold updFill at h
  simp only [and63] at h
  by_cases h0 : c.total.toNat % 64 ≠ 0 ∧ buf.length ≥ 64 - c.total.toNat % 64
  · rw [if_pos h0] at h
    obtain ⟨y, hy1, hy2⟩ := memcpyBuf_full c.buffer (c.total.toNat % 64) (buf.take (64 - c.total.toNat % 64))
      (by simp; omega)
    rw [hy1] at h
    simp only [bind, Except.bind] at h
    split at h
    · cases h
    rename_i c2 hc2
    cases h
    rw [← List.append_nil y.1] at hc2
    exact ⟨_, (List.take_append_drop _ _).symm, process_told cfg c
      { c with total := c.total + BitVec.ofNat 64 (64 - c.total.toNat % 64), buffer := y } c' rfl y.1 [] _ y.2 hy2.symm rfl hc2⟩
  · rw [if_neg h0] at h
    cases h
    refine ⟨[], rfl, Told.short ?_ (.refl c)⟩
    rw [List.length_append, hlen]; simp; omega

theorem updBulk_told (cfg : Cfg) (buf : List Byte) : ∀ (c c' : Ctx) (q : List Byte),
    (c.total.toNat % 64 = 0 ∨ c.total.toNat % 64 + buf.length < 64) → updBulk cfg c buf = .ok (c', q) →
    ∃ p0, buf = p0 ++ q ∧ Told (optOf c) (absC c) p0 c c' := by
  induction hn : buf.length using Nat.strongRecOn generalizing buf with
  | _ n ih =>
    intro c c' q h0 hrun
    have hlen := absC_buf_length c
    unfold updBulk at hrun
    by_cases h : 64 ≤ buf.length
    · have hz : c.total.toNat % 64 = 0 := by omega
      have ht : (c.total + 64).toNat % 64 = 0 := by
        rw [BitVec.toNat_add, show (64 : Word64).toNat = 64 from rfl]; omega
      have hpend : (absC c).buf ++ buf.take 64 = buf.take 64 := by simp [absC, hz]
      have hl : (buf.take 64).length = 64 := by simp; omega
      rw [if_pos h] at hrun
      have hstep : ∃ c2, updBulk cfg c2 (buf.drop 64) = .ok (c', q) ∧ optOf c2 = optOf c ∧ c2.total.toNat % 64 = 0 ∧
          absC c2 = absorb (optOf c) (absC c) (buf.take 64) ∧ Told (optOf c) (absC c) (buf.take 64) c c2 := by
        by_cases hu : cfg.plat.unaligned = true
        · rw [if_pos hu] at hrun
          obtain ⟨c2, r, hd2, t2, _, a2⟩ := process_absorb cfg c { c with total := c.total + 64 }
            rfl (buf.take 64) (buf.drop 64) (buf.take 64) hl hpend rfl rfl ht
          have tl := process_told cfg c { c with total := c.total + 64 } c2 rfl (buf.take 64) (buf.drop 64) _ hl hpend rfl r
          rw [List.take_append_drop] at r
          simp only [r, bind, Except.bind] at hrun
          exact ⟨c2, hrun, hd2, by rw [t2]; exact ht, a2, tl⟩
        · rw [if_neg hu] at hrun
          obtain ⟨y, hy1, hy2⟩ := memcpyBuf_full c.buffer 0 (buf.take 64) (by omega)
          rw [List.take_zero, List.nil_append] at hy2
          obtain ⟨c2, r, hd2, t2, _, a2⟩ := process_absorb cfg c { c with total := c.total + 64, buffer := y }
            rfl y.1 [] (buf.take 64) y.2 (hpend.trans hy2.symm) rfl rfl ht
          have tl := process_told cfg c { c with total := c.total + 64, buffer := y } c2 rfl y.1 [] _ y.2
            (hpend.trans hy2.symm) rfl r
          rw [List.append_nil] at r
          simp only [hy1, r, bind, Except.bind] at hrun
          exact ⟨c2, hrun, hd2, by rw [t2]; exact ht, a2, tl⟩
      obtain ⟨c2, r2, hd2, t2, a2, tl⟩ := hstep
      obtain ⟨p0, e3, tl3⟩ := ih (buf.drop 64).length (by simp; omega) (buf.drop 64) rfl c2 c' q (.inl t2) r2
      rw [hd2, a2] at tl3
      exact ⟨buf.take 64 ++ p0, by rw [List.append_assoc, ← e3, List.take_append_drop], tl.trans tl3⟩
    · rw [if_neg h] at hrun
      cases hrun
      refine ⟨[], rfl, Told.short ?_ (.refl c)⟩
      rw [List.length_append, hlen]; simp; omega

theorem updTail_told (c c' : Ctx) (q : List Byte) (left : Nat) (h : updTail c q left = .ok c') : Same4 c c' := by
  unfold updTail at h
  split at h
  · simp only [bind, Except.bind] at h
    split at h
    · cases h
    · cases h
      exact ⟨rfl, rfl, rfl, rfl⟩
  · cases h
    exact .refl c

theorem update_told (cfg : Cfg) (c c' : Ctx) (p : List Byte) (h : SHA1DCUpdate cfg c p = .ok c') :
    Told (optOf c) (absC c) p c c' := by
  unfold SHA1DCUpdate at h
  by_cases h0 : p.length = 0
  · rw [if_pos h0] at h
    cases h
    have hlen := absC_buf_length c
    exact Told.short (by rw [List.length_append, hlen]; omega) (.refl c)
  · rw [if_neg h0] at h
    obtain ⟨c1, q1, l, r1, d1, hl, hlt, p1, e1, t1, a1⟩ := updFill_spec cfg c p
    obtain ⟨c2, q2, r2, d2, m2, l2, p2, e2, t2, a2⟩ := updBulk_spec cfg q1 c1 (by rw [← hl]; exact hlt)
    obtain ⟨p1', e1', tl1⟩ := updFill_told cfg c c1 p q1 l r1
    obtain ⟨p2', e2', tl2⟩ := updBulk_told cfg q1 c1 c2 q2 (by rw [← hl]; exact hlt) r2
    have h1 : p1' = p1 := List.append_cancel_right (e1'.symm.trans e1)
    have h2 : p2' = p2 := List.append_cancel_right (e2'.symm.trans e2)
    subst h1 h2
    simp only [r1, bind, Except.bind, r2] at h
    have tl3 : Told (optOf c) (absC c2) q2 c2 c' :=
      Told.short (by rw [List.length_append, absC_buf_length]; exact l2) (updTail_told c2 c' q2 l h)
    rw [d1, a1] at tl2
    rw [d1, a1] at a2
    rw [a2] at tl3
    rw [e1, e2]
    exact tl1.trans (tl2.trans tl3)

theorem final_told (cfg : Cfg) (c c' : Ctx) (D : List Byte) (v : Word) (h : SHA1DCFinal cfg c = .ok (c', D, v)) :
    Told (optOf c) (absC c) (padTail c.total) c c' := by
  have hlast : ((c.total &&& 63).setWidth 32 : Word).toNat = c.total.toNat % 64 := by
    rw [BitVec.toNat_setWidth, and63]; omega
  have hpad : (if ((c.total &&& 63).setWidth 32 : Word) < 56 then 56 - ((c.total &&& 63).setWidth 32 : Word)
      else 120 - ((c.total &&& 63).setWidth 32 : Word)).toNat = zeroPad c.total.toNat + 1 := by
    unfold zeroPad
    have h56 : (56 : Word).toNat = 56 := rfl
    have h120 : (120 : Word).toNat = 120 := rfl
    split
    · rename_i h
      rw [BitVec.lt_def, hlast, h56] at h
      rw [BitVec.toNat_sub, hlast, h56]; omega
    · rename_i h
      rw [BitVec.lt_def, hlast, h56] at h
      rw [BitVec.toNat_sub, hlast, h120]; omega
  unfold SHA1DCFinal at h
  simp only at h
  generalize hg : (if ((c.total &&& 63).setWidth 32 : Word) < 56 then 56 - ((c.total &&& 63).setWidth 32 : Word)
      else 120 - ((c.total &&& 63).setWidth 32 : Word)) = padn at hpad h
  have hz : zeroPad c.total.toNat < 64 := Nat.mod_lt _ (by decide)
  rw [if_pos (by omega)] at h
  have htake : sha1_padding.take padn.toNat = 0x80 :: List.replicate (zeroPad c.total.toNat) 0 := by
    rw [hpad]
    unfold sha1_padding
    rw [List.take_succ_cons, List.take_replicate, Nat.min_eq_left (by omega)]
  rw [htake] at h
  obtain ⟨c1, r1, d1, t1, a1⟩ := update_spec cfg c (0x80 :: List.replicate (zeroPad c.total.toNat) 0)
  have tl1 := update_told cfg c c1 _ r1
  simp only [List.length_cons, List.length_replicate] at t1
  have hm : c1.total.toNat % 64 = 56 := by
    rw [t1, BitVec.toNat_add, BitVec.toNat_ofNat]
    unfold zeroPad
    omega
  have htot : c1.total - padn.setWidth 64 = c.total := by
    have : (padn.setWidth 64 : Word64) = BitVec.ofNat 64 (zeroPad c.total.toNat + 1) := by
      rw [← hpad]
      apply BitVec.eq_of_toNat_eq
      rw [BitVec.toNat_setWidth, BitVec.toNat_ofNat]
    rw [this, t1, BitVec.add_sub_cancel]
  simp only [r1, bind, Except.bind, htot] at h
  have hb := bytes64_eq (c.total <<< 3)
  unfold bytes64 at hb
  rw [hb] at h
  obtain ⟨y, hy1, hy2⟩ := memcpyBuf_full c1.buffer 56 (word64Bytes (c.total <<< 3)) (by simp [word64Bytes_length])
  have hpend : (absC c1).buf ++ word64Bytes (c.total <<< 3) = y.1 := by
    rw [hy2]; simp only [absC, hm]
  rw [hy1] at h
  simp only at h
  obtain ⟨c2, r2, -⟩ := process_spec cfg { c1 with buffer := y } y.1 (by rw [y.2]; exact Nat.le_refl _)
  rw [r2] at h
  simp only [pure, Except.pure, Except.ok.injEq, Prod.mk.injEq] at h
  rw [← List.append_nil y.1] at r2
  have tl2 := process_told cfg c1 { c1 with buffer := y } c2 rfl y.1 [] _ y.2 hpend rfl r2
  rw [d1, a1, h.1] at tl2
  exact tl1.trans tl2

end Verif.C
