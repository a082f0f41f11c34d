import Verif.Model.CLoops
import Verif.Proofs.Loops
import Verif.Proofs.CSponge

/-! `Model/CLoops` computes what `Model/CSha1` and `Model/Cgo` compute, and how much of the budget it uses. -/

namespace Verif.CLoopProofs

open Verif Verif.Model Verif.Model.C Verif.Model.Loops Verif.Model.CLoops Verif.LoopProofs

theorem ldA_costs {k : Nat} {α : Type} (a : Fin k → α) (i : Nat) (h : i < k) : Costs (ldA a i) (a ⟨i, h⟩) 0 := by
  unfold ldA; rw [dif_pos h]; exact Costs.pure _

theorem stA_costs {k : Nat} {α : Type} (a : Fin k → α) (i : Nat) (v : α) (h : i < k) :
    Costs (stA a i v) (upd a ⟨i, h⟩ v) 0 := by
  unfold stA; rw [dif_pos h]; exact Costs.pure _

theorem ldDv_costs (dvs : List DvInfoT) (i : Word) (h : i.toNat < dvs.length) : Costs (ldDv dvs i) dvs[i.toNat] 0 := by
  unfold ldDv; rw [dif_pos h]; exact Costs.pure _

/-- What the first `m` iterations of the loop over `m2` do. -/
theorem m2_loop (dm : Fin 80 → Word) (c : Ctx) : ∀ (m : Nat) (hm : m ≤ 80),
    loopUp 0 m (fun i _ hi (c : Ctx) => { c with m2 := upd c.m2 ⟨i, by omega⟩ (c.m1 ⟨i, by omega⟩ ^^^ dm ⟨i, by omega⟩) }) c =
      { c with m2 := fun j => if j.1 < m then c.m1 j ^^^ dm j else c.m2 j }
  | 0, _ => by simp [loopUp]
  | m + 1, hm => by
    have ih := m2_loop dm c m (by omega)
    rw [loopUp]
    rw [ih]
    simp only [Ctx.mk.injEq, true_and, and_true]
    funext j
    simp only [upd, Nat.zero_add]
    by_cases hj : j = ⟨m, by omega⟩
    · subst hj; simp
    · have hj' : j.1 ≠ m := fun h => hj (Fin.ext h)
      rw [if_neg hj]
      by_cases h1 : j.1 < m
      · rw [if_pos h1, if_pos (by omega)]
      · rw [if_neg h1, if_neg (by omega)]

theorem m2_costs (dm : Fin 80 → Word) (c : Ctx) :
    Costs (forUpU 0 80 (m2Body dm) c) { c with m2 := fun j => c.m1 j ^^^ dm j } 80 := by
  refine (forUpU_costs 0 80 (by decide)
    (fun i _ hi (c : Ctx) => { c with m2 := upd c.m2 ⟨i, by omega⟩ (c.m1 ⟨i, by omega⟩ ^^^ dm ⟨i, by omega⟩) }) _
    (fun i h1 h2 s => ?_) c).cast ?_ rfl
  · have e : (BitVec.ofNat 32 i).toNat = i := nat_lt word_bits (by omega)
    unfold m2Body
    rw [e]
    exact (ldA_costs _ _ (by omega)).bind0 ((ldA_costs _ _ (by omega)).bind0 ((stA_costs _ _ _ (by omega)).bind0
      (Costs.pure _)))
  · rw [m2_loop dm c 80 (Nat.le_refl _)]
    simp only [Ctx.mk.injEq, true_and, and_true]
    funext j
    rw [if_pos j.2]

theorem compressW_costs (c : Ctx) (i : Regs) (h : sha1_compression_W c.ihv c.m1 = .ok i) :
    Costs (compressW c) { c with ihv := i } 1 :=
  Costs.bind (l := 0) Costs.tick (Costs.bind0 (Costs.lift h) (Costs.pure _))

/-- The number of entries to test. -/
def entries (dvs : List DvInfoT) : Nat := dvs.countP fun e => decide (e.dvType ≠ 0)

theorem entries_pos {e : DvInfoT} (es : List DvInfoT) (h : e.dvType ≠ 0) : entries (e :: es) = entries es + 1 :=
  List.countP_cons_of_pos (p := fun e : DvInfoT => decide (e.dvType ≠ 0)) (decide_eq_true h)

theorem cond_true {i : Word} {e : DvInfoT} {c : Ctx} (h : e.dvType ≠ 0) :
    (fun s : CLoops.Scan => !s.brk && decide (s.entry.dvType ≠ 0)) ⟨i, e, c, false⟩ = true := decide_eq_true h

theorem cond_false {i : Word} {e : DvInfoT} {c : Ctx} (h : ¬ e.dvType ≠ 0) :
    (fun s : CLoops.Scan => !s.brk && decide (s.entry.dvType ≠ 0)) ⟨i, e, c, false⟩ = false := decide_eq_false h

theorem scan_costs (dvs : List DvInfoT) (hd : dvs.length < 1000) (mask : Word) (c' : Ctx) :
    ∀ (rest : List DvInfoT) (e : DvInfoT) (j : Nat) (c : Ctx), dvs.drop j = e :: rest →
      C.dvLoop mask (e :: rest) c = .ok c' →
      ∃ s' k, s'.ctx = c' ∧ k ≤ 82 * entries (e :: rest) + 2 ∧
        CostsW (fun s : CLoops.Scan => !s.brk && decide (s.entry.dvType ≠ 0)) (CLoops.scanBody dvs mask)
          ⟨BitVec.ofNat 32 j, e, c, false⟩ s' k := by
  intro rest
  induction rest with
  | nil =>
    intro e j c hj hs
    rw [C.dvLoop] at hs
    by_cases ht : e.dvType ≠ 0
    · rw [if_pos ht] at hs
      have hent := entries_pos [] ht
      by_cases hb : e.maskb < 32
      · rw [if_pos hb] at hs
        by_cases hm : mask &&& (1#32 <<< e.maskb) ≠ 0
        · rw [if_pos hm] at hs
          dsimp only at hs
          by_cases hT : e.testt < 80
          · rw [dif_pos hT] at hs
            obtain ⟨⟨i2, it⟩, hr, hs⟩ := bind_inv hs
            dsimp only at hs
            have hrec : Costs (recompress e.testt (fun j => c.m1 j ^^^ e.dm j) (c.states ⟨e.testt, hT⟩)) (i2, it) 1 :=
              Costs.bind (l := 0) Costs.tick (Costs.lift hr)
            by_cases hcol : (sameIhv it c.ihv || (c.reduced_round_coll != 0 && sameIhv c.ihv1 i2)) = true
            · rw [if_pos hcol] at hs
              by_cases hsafe : c.safe_hash ≠ 0
              · rw [if_pos hsafe] at hs
                obtain ⟨ia, ha, hs⟩ := bind_inv hs
                obtain ⟨ib, hb2, hs⟩ := bind_inv hs
                cases hs
                refine ⟨⟨BitVec.ofNat 32 j, e, _, true⟩, 1 + (80 + (1 + (1 + (1 + 0)))) + 0, rfl, by omega,
                   CostsW.step (cond_true ht) ?_ (CostsW.done ?_)⟩
                · unfold CLoops.scanBody
                  simp only [if_pos hb, if_pos hm]
                  refine Costs.bind (m2_costs _ _) (Costs.bind0 (ldA_costs _ _ hT) (Costs.bind hrec ?_))
                  rw [if_pos hcol, if_pos hsafe]
                  exact Costs.bind (compressW_costs _ _ ha) (Costs.bind (compressW_costs _ _ hb2) (Costs.pure _))
                · rfl
              · rw [if_neg hsafe] at hs
                cases hs
                refine ⟨⟨BitVec.ofNat 32 j, e, _, true⟩, 1 + (80 + (1 + 0)) + 0, rfl, by omega,
                   CostsW.step (cond_true ht) ?_ (CostsW.done ?_)⟩
                · unfold CLoops.scanBody
                  simp only [if_pos hb, if_pos hm]
                  refine Costs.bind (m2_costs _ _) (Costs.bind0 (ldA_costs _ _ hT) (Costs.bind hrec ?_))
                  rw [if_pos hcol, if_neg hsafe]
                  exact Costs.pure _
                · rfl
            · rw [if_neg hcol] at hs
              cases hs
          · rw [dif_neg hT] at hs
            cases hs
        · rw [if_neg hm] at hs
          cases hs
      · rw [if_neg hb] at hs
        cases hs
    · rw [if_neg ht] at hs
      cases hs
      exact ⟨_, 0, rfl, Nat.zero_le _, CostsW.done (cond_false ht)⟩
  | cons e' rest ih =>
    intro e j c hj hs
    have hlen : j + 1 < dvs.length := by
      have := congrArg List.length hj
      simp at this
      omega
    have hj' : dvs.drop (j + 1) = e' :: rest := by
      rw [← List.drop_drop, hj]; rfl
    have hget : dvs[j + 1]'hlen = e' := by
      rw [List.drop_eq_getElem_cons hlen] at hj'
      exact (List.cons.inj hj').1
    have hnext : ∀ c : Ctx, Costs (do
        let e ← ldDv dvs (BitVec.ofNat 32 j + 1)
        pure (⟨BitVec.ofNat 32 j + 1, e, c, false⟩ : CLoops.Scan))
        (⟨BitVec.ofNat 32 (j + 1), e', c, false⟩ : CLoops.Scan) 0 := by
      intro c
      have et : (BitVec.ofNat 32 (j + 1)).toNat = j + 1 := nat_lt word_bits (by omega)
      rw [ofNat_succ]
      refine ((ldDv_costs dvs (BitVec.ofNat 32 (j + 1)) (by rw [et]; exact hlen)).cast ?_ rfl).bind0 (Costs.pure _)
      simp only [et]
      exact hget
    rw [C.dvLoop] at hs
    by_cases ht : e.dvType ≠ 0
    · rw [if_pos ht] at hs
      have hent := entries_pos (e' :: rest) ht
      by_cases hb : e.maskb < 32
      · rw [if_pos hb] at hs
        by_cases hm : mask &&& (1#32 <<< e.maskb) ≠ 0
        · rw [if_pos hm] at hs
          dsimp only at hs
          by_cases hT : e.testt < 80
          · rw [dif_pos hT] at hs
            obtain ⟨⟨i2, it⟩, hr, hs⟩ := bind_inv hs
            dsimp only at hs
            have hrec : Costs (recompress e.testt (fun j => c.m1 j ^^^ e.dm j) (c.states ⟨e.testt, hT⟩)) (i2, it) 1 :=
              Costs.bind (l := 0) Costs.tick (Costs.lift hr)
            by_cases hcol : (sameIhv it c.ihv || (c.reduced_round_coll != 0 && sameIhv c.ihv1 i2)) = true
            · rw [if_pos hcol] at hs
              by_cases hsafe : c.safe_hash ≠ 0
              · rw [if_pos hsafe] at hs
                obtain ⟨ia, ha, hs⟩ := bind_inv hs
                obtain ⟨ib, hb2, hs⟩ := bind_inv hs
                cases hs
                refine ⟨⟨BitVec.ofNat 32 j, e, _, true⟩, 1 + (80 + (1 + (1 + (1 + 0)))) + 0, rfl, by omega,
                   CostsW.step (cond_true ht) ?_ (CostsW.done ?_)⟩
                · unfold CLoops.scanBody
                  simp only [if_pos hb, if_pos hm]
                  refine Costs.bind (m2_costs _ _) (Costs.bind0 (ldA_costs _ _ hT) (Costs.bind hrec ?_))
                  rw [if_pos hcol, if_pos hsafe]
                  exact Costs.bind (compressW_costs _ _ ha) (Costs.bind (compressW_costs _ _ hb2) (Costs.pure _))
                · rfl
              · rw [if_neg hsafe] at hs
                cases hs
                refine ⟨⟨BitVec.ofNat 32 j, e, _, true⟩, 1 + (80 + (1 + 0)) + 0, rfl, by omega,
                   CostsW.step (cond_true ht) ?_ (CostsW.done ?_)⟩
                · unfold CLoops.scanBody
                  simp only [if_pos hb, if_pos hm]
                  refine Costs.bind (m2_costs _ _) (Costs.bind0 (ldA_costs _ _ hT) (Costs.bind hrec ?_))
                  rw [if_pos hcol, if_neg hsafe]
                  exact Costs.pure _
                · rfl
            · rw [if_neg hcol] at hs
              obtain ⟨s', k, h1, h2, h3⟩ := ih e' (j + 1) _ hj' hs
              refine ⟨s', 1 + (80 + (1 + 0)) + k, h1, by omega, CostsW.step (cond_true ht) ?_ h3⟩
              unfold CLoops.scanBody
              simp only [if_pos hb, if_pos hm]
              refine Costs.bind (m2_costs _ _) (Costs.bind0 (ldA_costs _ _ hT) (Costs.bind hrec ?_))
              rw [if_neg hcol]
              exact hnext _
          · rw [dif_neg hT] at hs
            cases hs
        · rw [if_neg hm] at hs
          obtain ⟨s', k, h1, h2, h3⟩ := ih e' (j + 1) _ hj' hs
          refine ⟨s', 1 + 0 + k, h1, by omega, CostsW.step (cond_true ht) ?_ h3⟩
          unfold CLoops.scanBody
          simp only [if_pos hb, if_neg hm]
          exact hnext _
      · rw [if_neg hb] at hs
        cases hs
    · rw [if_neg ht] at hs
      cases hs
      exact ⟨_, 0, rfl, Nat.zero_le _, CostsW.done (cond_false ht)⟩

theorem dvLoop_costs (dvs : List DvInfoT) (hd : dvs.length < 1000) (mask : Word) (c c' : Ctx)
    (h : C.dvLoop mask dvs c = .ok c') :
    ∃ k, k ≤ 82 * entries dvs + 2 ∧ Costs (CLoops.dvLoop dvs mask c) c' k := by
  cases dvs with
  | nil => cases h
  | cons e rest =>
    obtain ⟨s', k, h1, h2, h3⟩ := scan_costs (e :: rest) hd mask c' rest e 0 c rfl h
    have h0 : Costs (ldDv (e :: rest) 0) e 0 := by
      exact (ldDv_costs (e :: rest) 0 (by simp)).cast (by simp) rfl
    refine ⟨k, h2, ?_⟩
    unfold CLoops.dvLoop
    refine h0.bind0 (Costs.bind (l := 0) h3.loop ?_)
    rw [← h1]
    exact Costs.pure _

/-- On a processor that faults on misaligned words the context is aligned and words are not read from the caller's
bytes. -/
def Aligned (w : Where) (cfg : Plat) : Prop := w.strict = true → w.ctx % 4 = 0 ∧ cfg.unaligned = false

theorem words_costs {w : Where} {addr : Nat} (h : w.strict = true → addr % 4 = 0) : Costs (CLoops.words w addr) () 0 := by
  unfold CLoops.words
  rw [if_neg]
  · exact Costs.pure _
  · intro hc
    simp only [Bool.and_eq_true, bne_iff_ne] at hc
    exact hc.2 (h hc.1)

theorem Aligned.buffer {w : Where} {cfg : Plat} (h : Aligned w cfg) (hs : w.strict = true) : w.buffer % 4 = 0 := by
  have e : w.buffer = w.ctx + 28 := rfl
  have := (h hs).1
  omega

theorem process_costs (w : Where) (addr : Nat) (ha : w.strict = true → addr % 4 = 0) (cfg : Plat) (c c' : Ctx) (p : List Byte) (h : sha1_process cfg c p = .ok c') :
    ∃ k, 1 ≤ k ∧ k ≤ 2628 ∧ Costs (CLoops.process w cfg c addr p) c' k := by
  unfold sha1_process at h
  dsimp only at h
  obtain ⟨⟨ihv, m1, states⟩, hs, h⟩ := bind_inv h
  dsimp only at h
  have ht : entries sha1_dvs = 32 := by decide +kernel
  unfold CLoops.process
  by_cases hd : c.detect_coll ≠ 0
  · rw [if_pos hd] at h
    by_cases hu : c.ubc_check ≠ 0
    · simp only [if_pos hu] at h
      by_cases hm : Ubc.ubcCheck m1 ≠ 0
      · rw [if_pos hm] at h
        obtain ⟨k, k1, k2⟩ := dvLoop_costs _ (by decide) _ _ _ h
        rw [ht] at k1
        refine ⟨1 + (1 + k), by omega, by omega, Costs.bind Costs.tick (Costs.bind0 (words_costs ha) (Costs.bind0 (Costs.lift hs) ?_))⟩
        dsimp only
        rw [if_pos hd, if_pos hu]
        refine Costs.bind Costs.tick (Costs.bind0 (Costs.pure _) ?_)
        rw [if_pos hm]
        exact k2
      · rw [if_neg hm] at h
        cases h
        refine ⟨1 + (1 + 0), by omega, by omega, Costs.bind Costs.tick (Costs.bind0 (words_costs ha) (Costs.bind0 (Costs.lift hs) ?_))⟩
        dsimp only
        rw [if_pos hd, if_pos hu]
        refine Costs.bind Costs.tick (Costs.bind0 (Costs.pure _) ?_)
        rw [if_neg hm]
        exact Costs.pure _
    · simp only [if_neg hu] at h
      have hm : (0xFFFFFFFF : Word) ≠ 0 := by decide
      rw [if_pos hm] at h
      obtain ⟨k, k1, k2⟩ := dvLoop_costs _ (by decide) _ _ _ h
      rw [ht] at k1
      refine ⟨1 + k, by omega, by omega, Costs.bind Costs.tick (Costs.bind0 (words_costs ha) (Costs.bind0 (Costs.lift hs) ?_))⟩
      dsimp only
      rw [if_pos hd, if_neg hu]
      refine Costs.bind0 (Costs.pure _) ?_
      rw [if_pos hm]
      exact k2
  · rw [if_neg hd] at h
    cases h
    refine ⟨1 + 0, by omega, by omega, Costs.bind Costs.tick (Costs.bind0 (words_costs ha) (Costs.bind0 (Costs.lift hs) ?_))⟩
    dsimp only
    rw [if_neg hd]
    exact Costs.pure _

theorem load32_take (cfg : Plat) (L : Nat) (p : List Byte) (t : Nat) (h : 4 * t + 4 ≤ L) :
    C.load32 cfg (p.take L) t = C.load32 cfg p t := by
  unfold C.load32
  rw [List.drop_take]
  obtain ⟨m, hm⟩ : ∃ m, L - 4 * t = m + 4 := ⟨L - 4 * t - 4, by omega⟩
  rw [hm]
  rcases p.drop (4 * t) with _ | ⟨a, _ | ⟨b, _ | ⟨c, _ | ⟨d, r⟩⟩⟩⟩ <;> rfl

/-- No item reads beyond the 64 bytes of a block. -/
def Within : Item → Bool
  | .load s => decide (s.t < 16)
  | _ => true

theorem runItems_take (cfg : Plat) (L : Nat) (hL : 64 ≤ L) (p : List Byte) : ∀ (is : List Item),
    (∀ i ∈ is, Within i = true) → ∀ s, runItems cfg (p.take L) is s = runItems cfg p is s
  | [], _, _ => rfl
  | i :: is, h, s => by
    have e : i.exec cfg (p.take L) s = i.exec cfg p s := by
      cases i with
      | load t =>
        have ht : decide (t.t < 16) = true := h (.load t) (by simp)
        have ht := of_decide_eq_true ht
        simp only [Item.exec, sha1_load]
        rw [load32_take cfg L p t.t (by omega)]
      | store _ => rfl
      | expand _ => rfl
    simp only [runItems]
    rw [e]
    refine congrArg (Except.bind _) (funext fun s' => ?_)
    exact runItems_take cfg L hL p is (fun i hi => h i (by simp [hi])) s'

theorem stepsStates_within : ∀ i ∈ stepsStates, Within i = true := by decide +kernel

/-- `sha1_process` depends on the 64 bytes of the block only. -/
theorem process_take (cfg : Plat) (L : Nat) (hL : 64 ≤ L) (c : Ctx) (p : List Byte) :
    sha1_process cfg c (p.take L) = sha1_process cfg c p := by
  have e : ∀ h W S, sha1_compression_states cfg h (p.take L) W S = sha1_compression_states cfg h p W S := by
    intro h W S
    unfold sha1_compression_states
    rw [runItems_take cfg L hL p _ stepsStates_within]
  unfold sha1_process
  simp only [e]

theorem memcpy_costs (c : Ctx) (off : Nat) (p : List Byte) (k : Nat) (hk : k ≤ p.length) (b : Buf)
    (h : memcpyBuf c.buffer off (p.take k) = .ok b) : Costs (CLoops.memcpy c off p k) { c with buffer := b } 0 := by
  unfold CLoops.memcpy
  rw [if_pos hk]
  exact Costs.bind0 (Costs.lift h) (Costs.pure _)

theorem left_toNat (t : Word64) : ((t &&& 63).setWidth 32 : Word).toNat = t.toNat % 64 := by
  rw [BitVec.toNat_setWidth, C.and63]
  omega

theorem fill_toNat (t : Word64) : (64 - (t &&& 63).setWidth 32 : Word).toNat = 64 - t.toNat % 64 := by
  rw [BitVec.toNat_sub, left_toNat]
  have : (64 : Word).toNat = 64 := rfl
  omega

theorem width_toNat {n : Nat} (hn : IntBits n) (w : Word) : (w.setWidth n).toNat = w.toNat := by
  rw [BitVec.toNat_setWidth]
  have := w.isLt
  rcases hn with rfl | rfl <;> omega

theorem width64 {n : Nat} (w : BitVec n) : w.setWidth 64 = BitVec.ofNat 64 w.toNat := by
  apply BitVec.eq_of_toNat_eq
  rw [BitVec.toNat_setWidth, BitVec.toNat_ofNat]

/-- The first `len` bytes from `buf` on are `p`. -/
def Holds {n : Nat} (buf : List Byte) (len : BitVec n) (p : List Byte) : Prop :=
  len.toNat ≤ buf.length ∧ buf.take len.toNat = p

theorem Holds.length {n : Nat} {buf p : List Byte} {len : BitVec n} (h : Holds buf len p) : p.length = len.toNat := by
  rw [← h.2, List.length_take]
  exact Nat.min_eq_left h.1

theorem Holds.drop {n : Nat} {buf p : List Byte} {len w : BitVec n} (h : Holds buf len p) (hw : w.toNat ≤ len.toNat) :
    Holds (buf.drop w.toNat) (len - w) (p.drop w.toNat) := by
  have e : (len - w).toNat = len.toNat - w.toNat := BitVec.toNat_sub_of_le hw
  refine ⟨?_, ?_⟩
  · rw [e, List.length_drop]
    have := h.1
    omega
  · rw [e, ← h.2, List.drop_take]

theorem Holds.take {n : Nat} {buf p : List Byte} {len : BitVec n} (h : Holds buf len p) {k : Nat} (hk : k ≤ len.toNat) :
    p.take k = buf.take k := by
  rw [← h.2, List.take_take, Nat.min_eq_left hk]

theorem updFill_costs {n : Nat} (hn : IntBits n) (w : Where) (cfg : Plat) (hw : Aligned w cfg) (addr : Nat) (c c' : Ctx) (buf p q : List Byte) (len : BitVec n)
    (l : Nat) (hp : Holds buf len p) (h : C.updFill cfg c p = .ok (c', q, l)) :
    ∃ s b k, Costs (CLoops.updFill w cfg c addr buf len) s k ∧ s.ctx = c' ∧ Holds s.buf s.len q ∧ s.left.toNat = l ∧
      b ≤ k ∧ k ≤ 2628 * b ∧ 64 * b + (l + q.length) = c.total.toNat % 64 + len.toNat ∧ (l = 0 ∨ l + q.length < 64) := by
  have hl := left_toNat c.total
  have hf := fill_toNat c.total
  have hfw : ((64 - (c.total &&& 63).setWidth 32 : Word).setWidth n).toNat = 64 - c.total.toNat % 64 := by
    rw [width_toNat hn, hf]
  have hz : ((c.total &&& 63).setWidth 32 : Word) ≠ 0 ↔ c.total.toNat % 64 ≠ 0 := by
    rw [Ne, Ne, BitVec.toNat_eq, hl]; rfl
  unfold C.updFill at h
  unfold CLoops.updFill
  simp only [C.and63] at h
  have hlen := hp.length
  by_cases h0 : c.total.toNat % 64 ≠ 0 ∧ p.length ≥ 64 - c.total.toNat % 64
  · rw [if_pos h0] at h
    rw [if_pos ⟨hz.mpr h0.1, by rw [ge_iff_le, BitVec.le_def, hfw]; omega⟩]
    obtain ⟨b, hb, h⟩ := bind_inv h
    obtain ⟨c1, hc, h⟩ := bind_inv h
    cases h
    rw [hp.take (by omega)] at hb
    obtain ⟨k, k1, k2, k3⟩ := process_costs w _ hw.buffer _ _ _ _ hc
    have et : c.total + (64 - (c.total &&& 63).setWidth 32 : Word).setWidth 64 =
        c.total + BitVec.ofNat 64 (64 - c.total.toNat % 64) := by
      rw [width64, hf]
    refine ⟨_, 1, k, Costs.bind0 ?_ (Costs.bind (l := 0) k3 (Costs.pure _)), rfl, ?_, rfl, k1, by omega, ?_, .inl rfl⟩
    · rw [hl, hf, et]
      exact memcpy_costs { c with total := c.total + BitVec.ofNat 64 (64 - c.total.toNat % 64) } _ _ _
        (by have := hp.1; omega) _ hb
    · show Holds (buf.drop _) (len - _) _
      rw [hf, ← hfw]
      exact hp.drop (by omega)
    · rw [List.length_drop]
      omega
  · rw [if_neg h0] at h
    cases h
    rw [if_neg (fun h => h0 ⟨hz.mp h.1, by
      have := h.2
      rw [ge_iff_le, BitVec.le_def, hfw] at this
      omega⟩)]
    refine ⟨_, 0, 0, Costs.pure _, rfl, hp, hl, Nat.le_refl _, Nat.le_refl _, by omega, ?_⟩
    omega

theorem updBulk_costs {n : Nat} (hn : IntBits n) (w : Where) (cfg : Plat) (hw : Aligned w cfg) (l : Word) :
    ∀ (b addr : Nat) (c c' : Ctx)
    (buf p q : List Byte) (len : BitVec n), p.length / 64 = b → Holds buf len p → C.updBulk cfg c p = .ok (c', q) →
    ∃ s k, CostsW (fun s : Upd n => decide (s.len ≥ 64)) (bulkBody w cfg) ⟨c, addr, buf, len, l⟩ s k ∧ s.ctx = c' ∧
      Holds s.buf s.len q ∧ s.left = l ∧ b ≤ k ∧ k ≤ 2629 * b ∧ q.length = p.length % 64 := by
  have e64 : (64 : BitVec n).toNat = 64 := nat_lt hn (by decide)
  have hcond : ∀ s : Upd n, decide (s.len ≥ 64) = decide (64 ≤ s.len.toNat) := by
    intro s
    simp only [ge_iff_le, BitVec.le_def, e64]
  intro b
  induction b with
  | zero =>
    intro addr c c' buf p q len hb hp h
    have hlen := hp.length
    unfold C.updBulk at h
    rw [if_neg (by omega)] at h
    cases h
    refine ⟨_, 0, CostsW.done ?_, rfl, hp, rfl, Nat.le_refl _, Nat.le_refl _, by omega⟩
    rw [hcond]
    exact decide_eq_false (by show ¬ 64 ≤ len.toNat; omega)
  | succ b ih =>
    intro addr c c' buf p q len hb hp h
    have hlen := hp.length
    have hbuf := hp.1
    unfold C.updBulk at h
    rw [if_pos (by omega)] at h
    dsimp only at h
    have hd := hp.drop (w := 64) (by omega)
    rw [e64] at hd
    have hc : decide ((⟨c, addr, buf, len, l⟩ : Upd n).len ≥ 64) = true := by
      rw [hcond]
      exact decide_eq_true (by show 64 ≤ len.toNat; omega)
    have hl : (p.drop 64).length / 64 = b := by rw [List.length_drop]; omega
    have hlm : (p.drop 64).length % 64 = p.length % 64 := by rw [List.length_drop]; omega
    by_cases hu : cfg.unaligned = true
    · rw [if_pos hu] at h
      obtain ⟨c1, h1, h2⟩ := bind_inv h
      rw [← hp.2, process_take _ _ (by omega)] at h1
      obtain ⟨k, k1, k2, k3⟩ := process_costs w addr (fun hs => by rw [(hw hs).2] at hu; cases hu) _ _ _ _ h1
      obtain ⟨s, k', x, s1, s2, s3, s4, s5, s6⟩ := ih (addr + 64) c1 c' (buf.drop 64) (p.drop 64) q (len - 64) hl hd h2
      refine ⟨s, 1 + k + k', CostsW.step hc ?_ x, s1, s2, s3, by omega, by omega, s6.trans hlm⟩
      unfold bulkBody
      dsimp only
      rw [if_pos hu]
      exact Costs.bind (l := 0) k3 (Costs.pure _)
    · rw [if_neg hu] at h
      obtain ⟨y, hy, h⟩ := bind_inv h
      obtain ⟨c1, h1, h2⟩ := bind_inv h
      rw [hp.take (by omega)] at hy
      obtain ⟨k, k1, k2, k3⟩ := process_costs w _ hw.buffer _ _ _ _ h1
      obtain ⟨s, k', x, s1, s2, s3, s4, s5, s6⟩ := ih (addr + 64) c1 c' (buf.drop 64) (p.drop 64) q (len - 64) hl hd h2
      refine ⟨s, 1 + k + k', CostsW.step hc ?_ x, s1, s2, s3, by omega, by omega, s6.trans hlm⟩
      unfold bulkBody
      dsimp only
      rw [if_neg hu]
      refine Costs.bind0 (memcpy_costs { c with total := c.total + 64 } _ _ _ (by omega) _ hy) ?_
      exact Costs.bind (l := 0) k3 (Costs.pure _)

/-- `SHA1DCUpdate` processes exactly the blocks that become complete. -/
theorem update_costs {n : Nat} (hn : IntBits n) (wh : Where) (cfg : Plat) (hw : Aligned wh cfg) (addr : Nat) (c c' : Ctx) (buf : List Byte) (len : BitVec n)
    (hlen : len.toNat ≤ buf.length) (h : SHA1DCUpdate cfg c (buf.take len.toNat) = .ok c') :
    ∃ k, Costs (CLoops.update wh cfg c addr buf len) c' k ∧ (c.total.toNat % 64 + len.toNat) / 64 ≤ k ∧
      k ≤ 2629 * ((c.total.toNat % 64 + len.toNat) / 64) := by
  have hp : Holds buf len (buf.take len.toNat) := ⟨hlen, rfl⟩
  have hl := hp.length
  have hz : len = 0 ↔ len.toNat = 0 := by
    rw [BitVec.toNat_eq]; simp
  unfold SHA1DCUpdate at h
  unfold CLoops.update
  by_cases h0 : len.toNat = 0
  · rw [if_pos (by omega)] at h
    cases h
    rw [if_pos (hz.mpr h0)]
    exact ⟨0, Costs.pure _, by omega, by omega⟩
  · rw [if_neg (by omega)] at h
    rw [if_neg (fun h => h0 (hz.mp h))]
    obtain ⟨⟨c1, q1, l⟩, r1, h⟩ := bind_inv h
    obtain ⟨⟨c2, q2⟩, r2, h⟩ := bind_inv h
    have r2 : C.updBulk cfg c1 q1 = .ok (c2, q2) := r2
    have h : updTail c2 q2 l = .ok c' := h
    obtain ⟨s, b, k, w, s1, s2, s3, b1, b2, e, z⟩ := updFill_costs hn wh cfg hw addr c c1 buf _ q1 len l hp r1
    obtain ⟨sc, sa, sb, sl, sf⟩ := s
    dsimp only at s1 s2 s3
    subst s1
    obtain ⟨t, k', w', t1, t2, t3, b3, b4, e'⟩ := updBulk_costs hn wh cfg hw sf _ sa _ c2 sb q1 q2 sl rfl s2 r2
    subst t1
    have hq := t2.length
    have hk : (c.total.toNat % 64 + len.toNat) / 64 = b + q1.length / 64 := by
      rcases z with z | z <;> omega
    refine ⟨k + (k' + 0), Costs.bind w (Costs.bind w'.loop ?_), by omega, by omega⟩
    unfold updTail at h
    have hgt : t.len > 0 ↔ t.len.toNat > 0 := by
      rw [gt_iff_lt, BitVec.lt_def]; simp
    by_cases hg : q2.length > 0
    · rw [if_pos hg] at h
      rw [if_pos (hgt.mpr (by omega))]
      obtain ⟨y, hy, h⟩ := bind_inv h
      cases h
      rw [t3, s3, width64, ← hq]
      refine memcpy_costs { t.ctx with total := t.ctx.total + BitVec.ofNat 64 q2.length } l t.buf q2.length ?_ y ?_
      · rw [hq]; exact t2.1
      · rw [hq, t2.2]; exact hy
    · rw [if_neg hg] at h
      cases h
      rw [if_neg (fun h => hg (by have := hgt.mp h; omega))]
      exact Costs.pure _

theorem final_costs {n : Nat} (hn : IntBits n) (wh : Where) (cfg : Plat) (hw : Aligned wh cfg) (c c' : Ctx) (D : List Byte) (v : Word)
    (h : SHA1DCFinal cfg c = .ok (c', D, v)) :
    ∃ k, Costs (CLoops.final n wh cfg c) (c', D, v) k ∧ (c.total.toNat % 64 + 72) / 64 ≤ k ∧
      k ≤ 2629 * ((c.total.toNat % 64 + 72) / 64) := by
  have hl := left_toNat c.total
  unfold SHA1DCFinal at h
  unfold CLoops.final
  have hpad : c.total.toNat % 64 + (if ((c.total &&& 63).setWidth 32 : Word) < 56 then
      56 - ((c.total &&& 63).setWidth 32 : Word) else 120 - ((c.total &&& 63).setWidth 32 : Word)).toNat =
      if c.total.toNat % 64 < 56 then 56 else 120 := by
    have h56 : (56 : Word).toNat = 56 := rfl
    have h120 : (120 : Word).toNat = 120 := rfl
    by_cases hlt : c.total.toNat % 64 < 56
    · rw [if_pos hlt, if_pos (by rw [BitVec.lt_def, hl, h56]; exact hlt), BitVec.toNat_sub, hl, h56]
      omega
    · rw [if_neg hlt, if_neg (by rw [BitVec.lt_def, hl, h56]; exact hlt), BitVec.toNat_sub, hl, h120]
      omega
  dsimp only at h ⊢
  generalize (if ((c.total &&& 63).setWidth 32 : Word) < 56 then 56 - ((c.total &&& 63).setWidth 32 : Word)
    else 120 - ((c.total &&& 63).setWidth 32 : Word)) = padn at h hpad ⊢
  by_cases hpn : padn.toNat ≤ 64
  · rw [if_pos hpn] at h
    obtain ⟨c1, h1, h⟩ := bind_inv h
    obtain ⟨y, h2, h⟩ := bind_inv h
    obtain ⟨c2, h3, h⟩ := bind_inv h
    cases h
    have ew := width_toNat hn padn
    obtain ⟨k, w, k1, k2⟩ := update_costs hn wh cfg hw wh.pad c c1 sha1_padding (padn.setWidth n)
      (by rw [ew]; exact hpn) (by rw [ew]; exact h1)
    rw [ew, hpad] at k1 k2
    obtain ⟨k', k3, k4, w'⟩ := process_costs wh _ hw.buffer _ _ _ _ h3
    refine ⟨k + (k' + 0), Costs.bind w (Costs.bind0 (memcpy_costs _ _ _ _ (Nat.le_refl _) _ h2)
      (Costs.bind w' (Costs.pure _))), ?_, ?_⟩ <;> split at k1 <;> split at k2 <;> omega
  · rw [if_neg hpn] at h
    cases h

/-- A call with a whole slice. -/
theorem update_all {n : Nat} (hn : IntBits n) (wh : Where) (cfg : Plat) (hw : Aligned wh cfg) (addr : Nat) (c c' : Ctx) (p : List Byte) (hp : p.length < 2 ^ n)
    (h : SHA1DCUpdate cfg c p = .ok c') :
    ∃ k, Costs (CLoops.update wh cfg c addr p (BitVec.ofNat n p.length)) c' k ∧ (c.total.toNat % 64 + p.length) / 64 ≤ k ∧
      k ≤ 2629 * ((c.total.toNat % 64 + p.length) / 64) := by
  have e : (BitVec.ofNat n p.length).toNat = p.length := by
    rw [BitVec.toNat_ofNat, Nat.mod_eq_of_lt hp]
  obtain ⟨k, w, k1, k2⟩ := update_costs hn wh cfg hw addr c c' p (BitVec.ofNat n p.length) (by rw [e]; exact Nat.le_refl _)
    (by rw [e, List.take_length]; exact h)
  rw [e] at k1 k2
  exact ⟨k, w, k1, k2⟩

/-- The bytes one call of the C library can make it hash. -/
def libWork : Option Call → Nat
  | some (.update p) => p.length
  | none => 136
  | _ => 0

/-- The lengths fit `size_t`. -/
def LibFits (n : Nat) : Option Call → Prop
  | some (.update p) => p.length < 2 ^ n
  | _ => True

theorem runAll_costs {n : Nat} (hn : IntBits n) (cfg : Cfg) (ops : List (Where × Option Call)) : ∀ (c c' : Ctx)
    (rs : List (List Byte × Word)), (∀ x ∈ ops, LibFits n x.2 ∧ Aligned x.1 cfg) → c.runAll cfg (ops.map Prod.snd) = .ok (c', rs) →
    ∃ k, Costs (CLoops.runAll n cfg c ops) (c', rs) k ∧
      64 * k + 2629 * (c'.total.toNat % 64) ≤ 2629 * (c.total.toNat % 64 + (ops.map (libWork ∘ Prod.snd)).sum) := by
  induction ops with
  | nil =>
    intro c c' rs _ h
    cases h
    exact ⟨0, Costs.pure _, by simp⟩
  | cons op ops ih =>
    intro c c' rs hf h
    obtain ⟨wh, op⟩ := op
    obtain ⟨hf1, hw⟩ := hf (wh, op) (by simp)
    have hf2 : ∀ x ∈ ops, LibFits n x.2 ∧ Aligned x.1 cfg := fun op ho => hf op (by simp [ho])
    rw [List.map_cons, List.sum_cons]
    cases op with
    | none =>
      obtain ⟨⟨c1, D, v⟩, h1, h⟩ := bind_inv h
      obtain ⟨⟨c2, rs'⟩, h2, h⟩ := bind_inv h
      cases h
      obtain ⟨k1, w1, l1, u1⟩ := final_costs hn wh cfg hw c c1 D v h1
      obtain ⟨k2, w2, u2⟩ := ih _ _ _ hf2 h2
      refine ⟨k1 + (k2 + 0), Costs.bind w1 (Costs.bind w2 (Costs.pure _)), ?_⟩
      show _ ≤ 2629 * (_ + (136 + _))
      omega
    | some op =>
      obtain ⟨c1, h1, h⟩ := bind_inv h
      obtain ⟨k2, w2, u2⟩ := ih _ _ _ hf2 h
      cases op with
      | update p =>
        obtain ⟨k1, w1, l1, u1⟩ := update_all hn wh cfg hw wh.buf c c1 p hf1 h1
        obtain ⟨c3, e3, _, t3, _⟩ := C.update_spec cfg c p
        have h1 : SHA1DCUpdate cfg c p = .ok c1 := h1
        rw [h1] at e3
        cases e3
        refine ⟨k1 + k2, Costs.bind w1 w2, ?_⟩
        have t4 : c1.total.toNat % 64 = (c.total.toNat % 64 + p.length) % 64 := by
          rw [t3, BitVec.toNat_add, BitVec.toNat_ofNat]
          omega
        rw [t4] at u2
        show _ ≤ 2629 * (_ + (p.length + _))
        omega
      | init =>
        cases h1
        refine ⟨0 + k2, Costs.bind (Costs.pure _) w2, ?_⟩
        have e : (SHA1DCInit c).total.toNat % 64 = 0 := rfl
        rw [e] at u2
        show _ ≤ 2629 * (_ + (0 + _))
        omega
      | setSafeHash v =>
        cases h1
        refine ⟨0 + k2, Costs.bind (Costs.pure _) w2, ?_⟩
        have e : (SHA1DCSetSafeHash c v).total = c.total := by unfold SHA1DCSetSafeHash; split <;> rfl
        rw [e] at u2
        show _ ≤ 2629 * (_ + (0 + _))
        omega
      | setUseUBC v =>
        cases h1
        refine ⟨0 + k2, Costs.bind (Costs.pure _) w2, ?_⟩
        have e : (SHA1DCSetUseUBC c v).total = c.total := by unfold SHA1DCSetUseUBC; split <;> rfl
        rw [e] at u2
        show _ ≤ 2629 * (_ + (0 + _))
        omega
      | setUseDetectColl v =>
        cases h1
        refine ⟨0 + k2, Costs.bind (Costs.pure _) w2, ?_⟩
        have e : (SHA1DCSetUseDetectColl c v).total = c.total := by unfold SHA1DCSetUseDetectColl; split <;> rfl
        rw [e] at u2
        show _ ≤ 2629 * (_ + (0 + _))
        omega
      | setDetectReducedRoundCollision v =>
        cases h1
        refine ⟨0 + k2, Costs.bind (Costs.pure _) w2, ?_⟩
        have e : (SHA1DCSetDetectReducedRoundCollision c v).total = c.total := by
          unfold SHA1DCSetDetectReducedRoundCollision; split <;> rfl
        rw [e] at u2
        show _ ≤ 2629 * (_ + (0 + _))
        omega

theorem sum0_costs {n : Nat} (hn : IntBits n) (wh : Where) (cfg : Plat) (hw : Aligned wh cfg) (d : Cgo.Digest) (r : Cgo.Digest × List Byte × Bool)
    (h : d.sum0 cfg = .ok r) :
    ∃ k, Costs (CLoops.sum0 n wh cfg d) r k ∧ (d.ctx.total.toNat % 64 + 72) / 64 ≤ k ∧
      k ≤ 2629 * ((d.ctx.total.toNat % 64 + 72) / 64) := by
  obtain ⟨⟨c1, D, v⟩, h1, h⟩ := bind_inv h
  obtain ⟨k, w, k1, k2⟩ := final_costs hn wh cfg hw _ _ _ _ h1
  refine ⟨k, Costs.bind (l := 0) w ?_, k1, k2⟩
  dsimp only at h ⊢
  by_cases hv : v ≠ 0
  · rw [if_pos hv] at h ⊢
    cases h
    exact Costs.pure _
  · rw [if_neg hv] at h ⊢
    cases h
    exact Costs.pure _

theorem write_costs {n : Nat} (hn : IntBits n) (wh : Where) (cfg : Cfg) (hw : Aligned wh cfg) (d d' : Cgo.Digest) (p : List Byte) (hp : p.length < 2 ^ n)
    (r : Nat × Option Err) (h : d.write cfg p = .ok (d', r)) :
    ∃ k, Costs (CLoops.write n wh cfg d p) (d', r) k ∧ (d.ctx.total.toNat % 64 + p.length) / 64 ≤ k ∧
      k ≤ 2629 * ((d.ctx.total.toNat % 64 + p.length) / 64) ∧
      d'.ctx.total.toNat % 64 = (d.ctx.total.toNat % 64 + p.length) % 64 := by
  unfold Cgo.Digest.write at h
  unfold CLoops.write
  by_cases h0 : p.length = 0
  · rw [if_pos h0] at h ⊢
    cases h
    exact ⟨0, Costs.pure _, by omega, by omega, by omega⟩
  · rw [if_neg h0] at h ⊢
    obtain ⟨c1, h1, h⟩ := bind_inv h
    cases h
    obtain ⟨k, w, k1, k2⟩ := update_all hn wh cfg hw wh.buf _ _ p hp h1
    obtain ⟨c3, e3, _, t3, _⟩ := C.update_spec cfg d.ctx p
    rw [h1] at e3
    cases e3
    refine ⟨k, Costs.bind (l := 0) w (Costs.pure _), k1, k2, ?_⟩
    show c1.total.toNat % 64 = _
    rw [t3, BitVec.toNat_add, BitVec.toNat_ofNat]
    omega

/-- The bytes one method call can make the object hash. -/
def opWork : Cgo.Op → Nat
  | .write p => p.length
  | .sum _ => 128
  | .collisionResistantSum _ => 128
  | _ => 0

/-- The lengths fit `size_t`. -/
def Fits (n : Nat) : Cgo.Op → Prop
  | .write p => p.length < 2 ^ n
  | _ => True

theorem call_costs {n : Nat} (hn : IntBits n) (wh : Where) (cfg : Cfg) (hw : Aligned wh cfg) (d d' : Cgo.Digest) (op : Cgo.Op) (hf : Fits n op) (o : Out)
    (h : d.call cfg op = .ok (d', o)) :
    ∃ k, Costs (CLoops.call n wh cfg d op) (d', o) k ∧
      64 * k + 2629 * (d'.ctx.total.toNat % 64) ≤ 2629 * (d.ctx.total.toNat % 64 + opWork op) := by
  cases op with
  | write p =>
    obtain ⟨⟨_, _, _⟩, h1, h⟩ := bind_inv h
    cases h
    obtain ⟨k, w, k1, k2, t⟩ := write_costs hn wh cfg hw _ _ p hf _ h1
    refine ⟨k, Costs.bind (l := 0) w (Costs.pure _), ?_⟩
    rw [t]
    show _ ≤ 2629 * (_ + p.length)
    omega
  | sum inp =>
    obtain ⟨⟨_, _⟩, h1, h⟩ := bind_inv h
    cases h
    obtain ⟨⟨_, _, _⟩, h2, h⟩ := bind_inv h1
    cases h
    obtain ⟨⟨_, _, _⟩, h3, h⟩ := bind_inv h2
    cases h
    obtain ⟨k, w, k1, k2⟩ := sum0_costs hn wh cfg hw _ _ h3
    refine ⟨k, Costs.bind (l := 0) (Costs.bind (l := 0) (Costs.bind (l := 0) w (Costs.pure _)) (Costs.pure _))
      (Costs.pure _), ?_⟩
    show _ ≤ 2629 * (_ + 128)
    omega
  | collisionResistantSum inp =>
    obtain ⟨⟨_, _, _⟩, h1, h⟩ := bind_inv h
    cases h
    obtain ⟨⟨_, _, _⟩, h2, h⟩ := bind_inv h1
    cases h
    obtain ⟨k, w, k1, k2⟩ := sum0_costs hn wh cfg hw _ _ h2
    refine ⟨k, Costs.bind (l := 0) (Costs.bind (l := 0) w (Costs.pure _)) (Costs.pure _), ?_⟩
    show _ ≤ 2629 * (_ + 128)
    omega
  | reset =>
    cases h
    refine ⟨0, Costs.pure _, ?_⟩
    have e : d.reset.ctx.total.toNat % 64 = 0 := rfl
    rw [e]
    omega
  | size => cases h; exact ⟨0, Costs.pure _, by omega⟩
  | blockSize => cases h; exact ⟨0, Costs.pure _, by omega⟩

theorem run_costs {n : Nat} (hn : IntBits n) (cfg : Cfg) (ops : List (Where × Cgo.Op)) : ∀ (d d' : Cgo.Digest) (os : List Out),
    (∀ x ∈ ops, Fits n x.2 ∧ Aligned x.1 cfg) → d.run cfg (ops.map Prod.snd) = .ok (d', os) →
    ∃ k, Costs (CLoops.run n cfg d ops) (d', os) k ∧
      64 * k + 2629 * (d'.ctx.total.toNat % 64) ≤ 2629 * (d.ctx.total.toNat % 64 + (ops.map (opWork ∘ Prod.snd)).sum) := by
  induction ops with
  | nil =>
    intro d d' os _ h
    cases h
    exact ⟨0, Costs.pure _, by simp⟩
  | cons op ops ih =>
    intro d d' os hf h
    obtain ⟨wh, op⟩ := op
    obtain ⟨hf1, hw⟩ := hf (wh, op) (by simp)
    obtain ⟨⟨d1, o⟩, h1, h⟩ := bind_inv h
    obtain ⟨⟨d2, os'⟩, h2, h⟩ := bind_inv h
    cases h
    obtain ⟨k1, c1, b1⟩ := call_costs hn wh cfg hw _ _ _ hf1 _ h1
    obtain ⟨k2, c2, b2⟩ := ih _ _ _ (fun op ho => hf op (by simp [ho])) h2
    refine ⟨k1 + (k2 + 0), Costs.bind c1 (Costs.bind c2 (Costs.pure _)), ?_⟩
    rw [List.map_cons, List.sum_cons]
    dsimp only at b1
    show _ ≤ 2629 * (_ + (opWork op + _))
    omega

theorem sumPkg_costs {n : Nat} (hn : IntBits n) (wh : Where) (cfg : Cfg) (hw : Aligned wh cfg) (data : List Byte) (hp : data.length < 2 ^ n)
    (r : List Byte × Bool) (h : Cgo.sumPkg cfg data = .ok r) :
    ∃ k, Costs (CLoops.sumPkg n wh cfg data) r k ∧ (data.length + 72) / 64 ≤ k ∧ k ≤ 2629 * ((data.length + 72) / 64) := by
  obtain ⟨⟨d1, o⟩, h1, h⟩ := bind_inv h
  obtain ⟨⟨d2, D, v⟩, h2, h⟩ := bind_inv h
  cases h
  have h2 : d1.sum0 cfg = .ok (d2, D, v) := h2
  obtain ⟨k1, w1, l1, u1, t⟩ := write_costs hn wh cfg hw _ _ data hp _ h1
  obtain ⟨k2, w2, l2, u2⟩ := sum0_costs hn wh cfg hw _ _ h2
  have e : Cgo.Digest.zero.reset.ctx.total.toNat % 64 = 0 := rfl
  rw [e] at l1 u1 t
  exact ⟨k1 + (k2 + 0), Costs.bind w1 (Costs.bind w2 (Costs.pure _)), by omega, by omega⟩

end Verif.CLoopProofs
