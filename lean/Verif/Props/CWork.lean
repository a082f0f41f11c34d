import Verif.Proofs.CWork
import Verif.Props.CLoops
import Verif.Props.Work

/-!
The exact number of steps of the C code and of package cgo (C50) and what it reveals about the data (C54).

Steps are those of `Model/CLoops`: see `Props/CLoops`.  `Spec/CWork` says how many there should be.
-/

namespace Verif.Props

open Verif Verif.Model Verif.Model.C Verif.Spec Verif.C

/-- The settings a context holds. -/
def settings (c : Ctx) : Options := ⟨c.safe_hash != 0, c.detect_coll != 0, c.ubc_check != 0, c.reduced_round_coll != 0⟩

/-- The bytes that wait in a context for their block to be complete. -/
def pending (c : Ctx) : List Byte := c.buffer.1.take (c.total.toNat % 64)

/-- C50: on a context with arbitrary contents, `sha1_process` takes exactly the steps that `Spec/CWork` counts for the
block under the settings of the context. -/
theorem C50_process_exact (w : CLoops.Where) (addr : Nat) (ha : w.strict = true → addr % 4 = 0) (cfg : Cfg) (c : Ctx)
    (p : List Byte) (hp : 64 ≤ p.length) :
    ∃ c', sha1_process cfg c p = .ok c' ∧ ∀ budget,
      CLoops.process w cfg c addr p (budget + (settings c).blockWork c.ihv (toBlock p)) = .ok (c', budget) := by
  obtain ⟨c', r, _⟩ := C.process_spec cfg c p hp
  exact ⟨c', r, CLoopProofs.process_exact w addr ha cfg c c' p hp r⟩

/-- C50: so does `SHA1DCUpdate` for the blocks that the pending bytes and the first `len` bytes make up; every block that is
taken from the caller's bytes directly is one more step, for the loop. -/
theorem C50_update_exact (n : Nat) (hn : n = 32 ∨ n = 64) (w : CLoops.Where) (addr : Nat) (cfg : Cfg)
    (hw : w.strict = true → w.ctx % 4 = 0 ∧ cfg.unaligned = false) (c : Ctx) (buf : List Byte) (len : BitVec n)
    (hl : len.toNat ≤ buf.length) :
    ∃ c', SHA1DCUpdate cfg c (buf.take len.toNat) = .ok c' ∧ ∀ budget,
      CLoops.update w cfg c addr buf len (budget + ((settings c).work c.ihv (blocks (pending c ++ buf.take len.toNat)) +
        bulkBlocks (c.total.toNat % 64) len.toNat)) = .ok (c', budget) := by
  obtain ⟨c', r, _⟩ := C.update_spec cfg c (buf.take len.toNat)
  exact ⟨c', r, CLoopProofs.update_exact hn w cfg hw addr c c' buf len hl r⟩

/-- C50: and `SHA1DCFinal`, for the blocks that the pending bytes and the padding make up. -/
theorem C50_final_exact (n : Nat) (hn : n = 32 ∨ n = 64) (w : CLoops.Where) (cfg : Cfg)
    (hw : w.strict = true → w.ctx % 4 = 0 ∧ cfg.unaligned = false) (c : Ctx) :
    ∃ r, SHA1DCFinal cfg c = .ok r ∧ ∀ budget,
      CLoops.final n w cfg c (budget + (settings c).work c.ihv (blocks (pending c ++ padTail c.total))) = .ok (r, budget) := by
  obtain ⟨c', r, _⟩ := C.final_spec cfg c
  exact ⟨_, r, CLoopProofs.final_exact hn w cfg hw c c' _ _ r⟩

theorem holdsO_work {c : Ctx} {s : OptState} (h : HoldsO c s) (q : List Byte) :
    (optOf c).work c.ihv (blocks ((absC c).buf ++ q)) = s.o.work s.H (newBlocks s.m q) := by
  obtain ⟨h1, _, h3⟩ := h
  have i1 : c.ihv = s.H := congrArg Sp.h h3
  have i2 : (absC c).buf = rem64 s.m := congrArg Sp.buf h3
  rw [h1, i1, i2, newBlocks_eq]

theorem holdsO_total {c : Ctx} {s : OptState} (h : HoldsO c s) : c.total.toNat % 64 = s.m.length % 64 := by
  rw [h.2.1, BitVec.toNat_ofNat]
  omega

theorem library_exact (n : Nat) (hn : n = 32 ∨ n = 64) (cfg : Cfg) (w' : CLoops.Where)
    (hw' : w'.strict = true → w'.ctx % 4 = 0 ∧ cfg.unaligned = false) (ops : List (CLoops.Where × Call)) :
    ∀ (c : Ctx) (s : OptState), HoldsO c s →
    (∀ x ∈ ops, x.1.strict = true → x.1.ctx % 4 = 0 ∧ cfg.unaligned = false) →
    (∀ w p, (w, Call.update p) ∈ ops → p.length < 2 ^ n) →
    ∃ c' v, (v ≠ 0 ↔ ((ops.map Prod.snd).foldl OptState.after s).final.2 = true) ∧
      LoopProofs.Costs (CLoops.runAll n cfg c (ops.map (fun x => (x.1, some x.2)) ++ [(w', none)]))
        (c', [(((ops.map Prod.snd).foldl OptState.after s).final.1, v)])
        (s.runWork (ops.map Prod.snd) + ((ops.map Prod.snd).foldl OptState.after s).finalWork) := by
  induction ops with
  | nil =>
    intro c s h _ _
    obtain ⟨c', v, r, hv⟩ := h.final cfg
    have x := CLoopProofs.final_exact hn w' cfg hw' c c' _ _ r
    rw [holdsO_work h, h.2.1] at x
    have e : newBlocks s.m (padTail (BitVec.ofNat 64 s.m.length)) = (blocks (pad s.m)).drop (blocks s.m).length := by
      unfold newBlocks
      rw [pad_eq]
    rw [e] at x
    refine ⟨c', v, hv, LoopProofs.Costs.cast (k := s.finalWork + 0) ?_ rfl (by simp [OptState.runWork])⟩
    exact LoopProofs.Costs.bind x (LoopProofs.Costs.bind (l := 0) (k := 0) (LoopProofs.Costs.pure _) (LoopProofs.Costs.pure _))
  | cons op ops ih =>
    intro c s h hw hf
    obtain ⟨w, op⟩ := op
    obtain ⟨c1, r1, h1⟩ := h.call cfg op
    have hww := hw (w, op) (by simp)
    obtain ⟨c', v, hv, x⟩ := ih c1 (s.after op) h1 (fun y hy => hw y (by simp [hy])) (fun w p hp => hf w p (by simp [hp]))
    have x1 : LoopProofs.Costs (CLoops.ctxCall n w cfg c op) c1 (s.callWork op) := by
      cases op with
      | update p =>
        have := CLoopProofs.update_all_exact hn w cfg hww w.buf c c1 p (hf w p (by simp)) r1
        rwa [holdsO_work h, holdsO_total h] at this
      | init => cases r1; exact LoopProofs.Costs.pure _
      | setSafeHash v => cases r1; exact LoopProofs.Costs.pure _
      | setUseUBC v => cases r1; exact LoopProofs.Costs.pure _
      | setUseDetectColl v => cases r1; exact LoopProofs.Costs.pure _
      | setDetectReducedRoundCollision v => cases r1; exact LoopProofs.Costs.pure _
    refine ⟨c', v, hv, LoopProofs.Costs.cast (LoopProofs.Costs.bind x1 x) rfl ?_⟩
    simp only [List.map_cons, OptState.runWork, List.foldl_cons]
    omega

/-- C50: every history of calls of the C library after `SHA1DCInit`, settings changed in between included, and a final
`SHA1DCFinal` take exactly the steps that `Spec/CWork` counts from the message, the settings and the chaining value in
force at each call. -/
theorem C50_library_exact (n : Nat) (hn : n = 32 ∨ n = 64) (cfg : Cfg) (c : Ctx) (w w' : CLoops.Where)
    (hw' : w'.strict = true → w'.ctx % 4 = 0 ∧ cfg.unaligned = false) (ops : List (CLoops.Where × Call))
    (hw : ∀ x ∈ ops, x.1.strict = true → x.1.ctx % 4 = 0 ∧ cfg.unaligned = false)
    (hf : ∀ w p, (w, Call.update p) ∈ ops → p.length < 2 ^ n) :
    ∃ c' v, (v ≠ 0 ↔ ((ops.map Prod.snd).foldl OptState.after .init).final.2 = true) ∧ ∀ budget,
      CLoops.runAll n cfg c ((w, some .init) :: (ops.map (fun x => (x.1, some x.2)) ++ [(w', none)]))
        (budget + (OptState.init.runWork (ops.map Prod.snd) +
          ((ops.map Prod.snd).foldl OptState.after .init).finalWork)) =
        .ok ((c', [(((ops.map Prod.snd).foldl OptState.after .init).final.1, v)]), budget) := by
  obtain ⟨c', v, hv, x⟩ := library_exact n hn cfg w' hw' ops (SHA1DCInit c) .init (holdsO_init c) hw hf
  exact ⟨c', v, hv, LoopProofs.Costs.cast (LoopProofs.Costs.bind (k := 0) (LoopProofs.Costs.pure _) x) rfl (Nat.zero_add _)⟩

/-- Without detection every block takes one step. -/
theorem work_off (o : Options) (hd : o.detect = false) (Ms : List Block) : ∀ H : Regs, o.work H Ms = Ms.length := by
  induction Ms with
  | nil => intro H; rfl
  | cons M Ms ih =>
    intro H
    rw [Options.work, ih, Options.blockWork, if_neg (by rw [hd]; decide), List.length_cons]
    omega

/-- Instance: with detection off, any 200 bytes and `SHA1DCFinal` take seven steps: four blocks, three of them in the
loop. -/
example (cfg : Cfg) (c : Ctx) (p : List Byte) (hp : p.length = 200) : ∃ r, CLoops.runAll 32 cfg c
    [(⟨false, 8, 7, 3⟩, some .init), (⟨false, 8, 7, 3⟩, some (.setUseDetectColl 0)), (⟨false, 8, 7, 3⟩, some (.update p)),
      (⟨false, 8, 7, 3⟩, none)] 7 = .ok (r, 0) := by
  obtain ⟨c', v, _, x⟩ := C50_library_exact 32 (.inl rfl) cfg c ⟨false, 8, 7, 3⟩ ⟨false, 8, 7, 3⟩ (fun h => nomatch h)
    [(⟨false, 8, 7, 3⟩, .setUseDetectColl 0), (⟨false, 8, 7, 3⟩, .update p)] (fun x hx => by
      simp at hx
      rcases hx with rfl | rfl <;> intro h <;> cases h) (fun w q hq => by
      simp at hq
      rw [hq.2, hp]
      decide)
  have x := x 0
  have e : OptState.init.runWork [Call.setUseDetectColl 0, .update p] +
      ([Call.setUseDetectColl 0, .update p].foldl OptState.after .init).finalWork = 7 := by
    simp only [OptState.runWork, OptState.callWork, OptState.finalWork, List.foldl_cons, List.foldl_nil, OptState.after,
      OptState.init]
    rw [work_off _ rfl, work_off _ rfl]
    simp only [newBlocks, List.nil_append, List.length_drop]
    have hb : (blocks p).length = 3 := by rw [Props.blocks_length, hp]
    have hq : (blocks (pad p)).length = 4 := by
      rw [Props.blocks_length, pad_eq, List.length_append, padTail_length, BitVec.toNat_ofNat, hp]
      rfl
    rw [hb, hq, blocks_lt [] (by simp), hp]
    rfl
  simp only [List.map_cons, List.map_nil] at x
  rw [e] at x
  exact ⟨_, x⟩

/-- C50: every history of calls on an object of package cgo takes exactly the steps that `Spec/CWork` counts from the
messages held. -/
theorem C50_history_exact (n : Nat) (hn : n = 32 ∨ n = 64) (cfg : Cfg) (ops : List (CLoops.Where × Cgo.Op))
    (hw : ∀ x ∈ ops, x.1.strict = true → x.1.ctx % 4 = 0 ∧ cfg.unaligned = false)
    (hf : ∀ w p, (w, Cgo.Op.write p) ∈ ops → p.length < 2 ^ n) :
    ∃ d, ∀ budget, CLoops.run n cfg Cgo.new ops (budget + cgoRunWork [] ((ops.map Prod.snd).map Cgo.Op.toGo)) =
      .ok ((d, results (verdict Detected) [] ((ops.map Prod.snd).map Cgo.Op.toGo)), budget) := by
  obtain ⟨d, r⟩ := C33_cgo_refines cfg (ops.map Prod.snd)
  exact ⟨d, CLoopProofs.run_exact hn cfg ops _ _ [] _ holdsCgo_new (fun x ho => ⟨by
      obtain ⟨w, op⟩ := x
      unfold CLoopProofs.Fits
      dsimp only
      split
      · exact hf _ _ ho
      · trivial, hw x ho⟩) r⟩

/-- Instance: "abc" and two sums take four steps: the one block of the padded message is processed twice. -/
example (cfg : Cfg) : ∃ r, CLoops.run 64 cfg Cgo.new [(⟨false, 8, 7, 3⟩, .size), (⟨false, 8, 7, 3⟩, .write abc),
    (⟨false, 16, 7, 3⟩, .sum []), (⟨false, 24, 7, 3⟩, .collisionResistantSum [1])] 4 = .ok (r, 0) := by
  obtain ⟨d, x⟩ := C50_history_exact 64 (.inr rfl) cfg [(⟨false, 8, 7, 3⟩, .size), (⟨false, 8, 7, 3⟩, .write abc),
    (⟨false, 16, 7, 3⟩, .sum []), (⟨false, 24, 7, 3⟩, .collisionResistantSum [1])] (fun x hx => by
      simp at hx
      rcases hx with rfl | rfl | rfl | rfl <;> intro h <;> cases h)
    (fun w q hq => by
      simp at hq
      rw [hq.2]
      decide)
  have x := x 0
  have e : Options.default.work H0 (blocks (pad abc)) = 2 := by
    rw [CLoopProofs.cWork_eval 1 _ (by decide +kernel)]
    decide +kernel
  have e0 : Options.default.work H0 (blocks abc) = 0 := by
    rw [blocks_lt _ (by decide)]
    rfl
  simp only [List.map_cons, List.map_nil, Cgo.Op.toGo, cgoRunWork, cgoCallWork, msgAfter, List.nil_append, e, e0] at x
  rw [blocks_lt [] (by simp)] at x
  exact ⟨_, x⟩

/-- C50: package cgo's `Sum(data)` takes exactly the steps for the blocks of the padded message, and one for each complete
block of `data`. -/
theorem C50_sum_exact (n : Nat) (hn : n = 32 ∨ n = 64) (w : CLoops.Where) (cfg : Cfg)
    (hw : w.strict = true → w.ctx % 4 = 0 ∧ cfg.unaligned = false) (data : List Byte) (hd : data.length < 2 ^ n)
    (budget : Nat) :
    CLoops.sumPkg n w cfg data (budget + (Options.default.work H0 (blocks (pad data)) + data.length / 64)) =
      .ok (safeHash (verdict Detected) data, budget) :=
  CLoopProofs.sumPkg_exact hn w cfg hw data hd _ (cgo_sumPkg cfg data) budget

/-- The first five blocks of shattered-1.pdf. -/
theorem shattered1_cWork : Options.default.work H0 (blocks (pad shattered1)) = 236 := by
  rw [CLoopProofs.cWork_eval 6 _ shattered1_pad]
  decide +kernel

/-- Instance: five of the six blocks of SHAttered are taken from the slice. -/
example (cfg : Cfg) : CLoops.sumPkg 64 ⟨false, 8, 7, 3⟩ cfg shattered1 241 = .ok ((shatteredDigest1, true), 0) := by
  have e := shattered1_hash_c
  have hl : shattered1.length = 320 := by decide +kernel
  have w := shattered1_cWork
  revert e hl w
  generalize shattered1 = m
  intro e hl w
  have := C50_sum_exact 64 (.inr rfl) ⟨false, 8, 7, 3⟩ cfg (fun h => nomatch h) m (by rw [hl]; decide) 0
  rw [w, hl, e] at this
  exact this

/-- Blocks take the least number of steps under the default settings, 2 each, exactly if none of them meets the unavoidable
conditions of any of the 32 vectors. -/
theorem cWork_least_iff (H : Regs) (Ms : List Block) :
    2 * Ms.length ≤ Options.default.work H Ms ∧
      (Options.default.work H Ms = 2 * Ms.length ↔ ∀ M ∈ Ms, ∀ k, k < 32 → ubcHolds k (sched M) = false) := by
  have one : ∀ H M, 2 ≤ Options.default.blockWork H M ∧
      (Options.default.blockWork H M = 2 ↔ ∀ k, k < 32 → ubcHolds k (sched M) = false) := by
    classical
    intro H M
    have ed : Options.default.detect = true := rfl
    have eu : Options.default.ubc = true := rfl
    unfold Options.blockWork
    rw [if_pos ed, if_pos eu]
    refine ⟨by omega, ?_⟩
    constructor
    · intro h k hk
      refine Bool.eq_false_iff.mpr fun hm => ?_
      unfold Options.lookedAt at h
      rw [if_pos ⟨k, hk, fun _ => hm⟩] at h
      have : 0 < (List.range 32).countP fun k => decide (∀ j < k, ¬ Options.default.Hit H M j) :=
        List.countP_pos_iff.mpr ⟨0, by simp, by simp⟩
      omega
    · intro h
      have h0 : ¬ ∃ k, Options.default.Tested M k := fun ⟨k, hk, hm⟩ => by rw [h k hk] at hm; cases hm rfl
      have hd : ¬ Options.default.Flags H M := fun ⟨_, k, dv, h1, h2, _⟩ => h0 ⟨k, by
        have := (List.getElem?_eq_some_iff.mp h1).1; rwa [dvList_length] at this, h2⟩
      unfold Options.lookedAt Options.reconstructed
      rw [if_neg h0, if_neg (fun q => hd q.2),
        List.countP_eq_zero.mpr (fun k _ q => h0 ⟨k, (of_decide_eq_true q).1⟩)]
  induction Ms generalizing H with
  | nil => simp [Options.work]
  | cons M Ms ih =>
    obtain ⟨i1, i2⟩ := ih (Options.default.next H M)
    obtain ⟨o1, o2⟩ := one H M
    rw [Options.work, List.length_cons, Nat.mul_succ]
    refine ⟨by omega, ?_⟩
    simp only [List.mem_cons, forall_eq_or_imp]
    rw [← o2, ← i2]
    omega

theorem pad_blocks_length (data : List Byte) : (blocks (pad data)).length = (data.length + 72) / 64 := by
  rw [blocks_length, pad_eq, List.length_append, padTail_length, BitVec.toNat_ofNat]
  unfold zeroPad
  omega

/-- C54: package cgo's `Sum` too takes the least number of steps the length of the message allows exactly if no block of the
padded message meets the unavoidable conditions of any of the 32 vectors. -/
theorem C54_cgo_least_iff (n : Nat) (hn : n = 32 ∨ n = 64) (w : CLoops.Where) (cfg : Cfg)
    (hw : w.strict = true → w.ctx % 4 = 0 ∧ cfg.unaligned = false) (data : List Byte) (hd : data.length < 2 ^ n) :
    ∃ k, (∀ budget, CLoops.sumPkg n w cfg data (budget + k) = .ok (safeHash (verdict Detected) data, budget)) ∧
      2 * ((data.length + 72) / 64) + data.length / 64 ≤ k ∧
      (k = 2 * ((data.length + 72) / 64) + data.length / 64 ↔
        ∀ M ∈ blocks (pad data), ∀ j, j < 32 → ubcHolds j (sched M) = false) := by
  refine ⟨_, C50_sum_exact n hn w cfg hw data hd, ?_⟩
  have h := cWork_least_iff H0 (blocks (pad data))
  rw [pad_blocks_length] at h
  refine ⟨by omega, ?_⟩
  rw [← h.2]
  omega

/-- C54: package cgo is not constant-time either: two messages of 55 bytes, neither flagged, of which one takes 2 steps and
the other 115. -/
theorem C54_cgo_not_constant (cfg : Cfg) : ∃ m m' : List Byte, m.length = 55 ∧ m'.length = 55 ∧
    CLoops.sumPkg 64 ⟨false, 8, 7, 3⟩ cfg m 2 = .ok (((safeHash (verdict Detected) m).1, false), 0) ∧
    CLoops.sumPkg 64 ⟨false, 8, 7, 3⟩ cfg m' 115 = .ok (((safeHash (verdict Detected) m').1, false), 0) := by
  have key : ∀ (m : List Byte) (k : Nat), m.length = 55 → Options.default.work H0 (blocks (pad m)) = k →
      (safeHash (verdict Detected) m).2 = false →
      CLoops.sumPkg 64 ⟨false, 8, 7, 3⟩ cfg m k = .ok (((safeHash (verdict Detected) m).1, false), 0) := by
    intro m k l w e
    have h := C50_sum_exact 64 (.inr rfl) ⟨false, 8, 7, 3⟩ cfg (fun h => nomatch h) m (by rw [l]; decide) 0
    rw [w, l, Nat.zero_add] at h
    exact h.trans (congrArg (fun x => Except.ok (x, 0)) (Prod.ext rfl e))
  refine ⟨List.replicate 55 0, List.replicate 55 0x14, rfl, rfl, key _ _ rfl ?_ ?_, key _ _ rfl ?_ ?_⟩
  · rw [CLoopProofs.cWork_eval 1 _ (by decide +kernel)]
    decide +kernel
  · rw [detected_eval 1 _ (by decide +kernel)]
    decide +kernel
  · rw [CLoopProofs.cWork_eval 1 _ (by decide +kernel)]
    decide +kernel
  · rw [detected_eval 1 _ (by decide +kernel)]
    decide +kernel

/-- C54: with detection switched off the number of steps of `SHA1DCUpdate` is a function of the number of bytes pending and
the number of bytes given, whatever they are. -/
theorem C54_detection_off (n : Nat) (hn : n = 32 ∨ n = 64) (w : CLoops.Where) (addr : Nat) (cfg : Cfg)
    (hw : w.strict = true → w.ctx % 4 = 0 ∧ cfg.unaligned = false) (c : Ctx) (hc : c.detect_coll = 0) (buf : List Byte)
    (len : BitVec n) (hl : len.toNat ≤ buf.length) :
    ∃ c', ∀ budget, CLoops.update w cfg c addr buf len (budget + ((c.total.toNat % 64 + len.toNat) / 64 +
      (len.toNat - (64 - c.total.toNat % 64) % 64) / 64)) = .ok (c', budget) := by
  obtain ⟨c', _, x⟩ := C50_update_exact n hn w addr cfg hw c buf len hl
  have hd : (settings c).detect = false := by simp [settings, hc]
  have hp : (pending c).length = c.total.toNat % 64 := absC_buf_length c
  rw [work_off _ hd, blocks_length, List.length_append, List.length_take, Nat.min_eq_left hl, hp] at x
  exact ⟨c', x⟩

/-- C54: with the unavoidable conditions not looked at, every block that is not flagged takes 2625 steps, and if flagged
blocks are to be compressed thrice no other block does. -/
theorem C54_conditions_off (o : Options) (hd : o.detect = true) (hu : o.ubc = false) (H : Regs) (M : Block) :
    (¬ o.Flags H M → o.blockWork H M = 2625) ∧ (o.safe = true → o.blockWork H M = 2625 → ¬ o.Flags H M) := by
  classical
  have ht : ∀ k, o.Tested M k ↔ k < 32 := fun k => by
    unfold Options.Tested
    rw [hu]
    simp
  have he : ∃ k, o.Tested M k := ⟨0, (ht 0).mpr (by decide)⟩
  have hr : o.reconstructed H M = o.lookedAt H M := by
    unfold Options.reconstructed Options.lookedAt
    rw [if_pos he]
    refine List.countP_congr fun k hk => ?_
    simp only [decide_eq_true_eq]
    exact ⟨fun h => h.2, fun h => ⟨(ht k).mpr (List.mem_range.mp hk), h⟩⟩
  unfold Options.blockWork
  rw [if_pos hd, if_neg (by rw [hu]; decide), hr]
  constructor
  · intro h
    have hh : ∀ j, ¬ o.Hit H M j := fun j ⟨dv, h1, h2⟩ => h ⟨hd, j, dv, h1, h2⟩
    have : o.lookedAt H M = 32 := by
      unfold Options.lookedAt
      rw [if_pos he, List.countP_eq_length.mpr (fun k _ => decide_eq_true fun j _ => hh j), List.length_range]
    rw [this, if_neg (fun q => h q.2)]
  · intro hs h hf
    rw [if_pos ⟨hs, hf⟩] at h
    omega

/-- Instance: reduced-round collisions sought as well, in a context without pending bytes. -/
example (cfg : Cfg) (c : Ctx) (p : List Byte) (hp : 64 ≤ p.length)
    (hc : c.detect_coll = 1 ∧ c.ubc_check = 0 ∧ c.reduced_round_coll = 1) (hf : ¬ (settings c).Flags c.ihv (toBlock p)) :
    ∃ c', CLoops.process ⟨false, 8, 7, 3⟩ cfg c 7 p 2625 = .ok (c', 0) := by
  obtain ⟨c', _, x⟩ := C50_process_exact ⟨false, 8, 7, 3⟩ 7 (fun h => nomatch h) cfg c p hp
  have x := x 0
  rw [(C54_conditions_off (settings c) (by simp [settings, hc.1]) (by simp [settings, hc.2.1]) _ _).1 hf] at x
  exact ⟨c', x⟩

end Verif.Props
