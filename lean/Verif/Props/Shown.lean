import Verif.Proofs.CShown
import Verif.Props.Options

/-!
What a context of the C library shows of the block processed last, and of the collision found in it (C57).
-/

namespace Verif.Props

open Verif Verif.Model Verif.Model.C Verif.Spec Verif.C

/-! ### C57: a context that has found a collision shows both halves of it -/

theorem HoldsO.newBlocks {c : Ctx} {s : OptState} (h : HoldsO c s) (p : List Byte) :
    blocks ((absC c).buf ++ p) = Spec.newBlocks s.m p := by
  rw [newBlocks_eq, h.2.2]

/-- C57: for every history of calls after `SHA1DCInit` and every call of `SHA1DCUpdate` that follows: if the data
complete a block, the context shows the last of the blocks completed, otherwise the four members stay as they were. -/
theorem C57_update_shows (cfg : Cfg) (c : Ctx) (ops : List Call) (p : List Byte) (s : OptState)
    (hs : s = ops.foldl OptState.after .init) :
    ∃ c1 c2, (SHA1DCInit c).run cfg ops = .ok c1 ∧ SHA1DCUpdate cfg c1 p = .ok c2 ∧
      (newBlocks s.m p = [] → c2.ihv1 = c1.ihv1 ∧ c2.ihv2 = c1.ihv2 ∧ c2.m1 = c1.m1 ∧ c2.m2 = c1.m2) ∧
      ∀ pre M, newBlocks s.m p = pre ++ [M] → Shown s.o (s.o.chain s.H pre).1 M c2.ihv1 c2.ihv2 c2.m1 c2.m2 := by
  subst hs
  obtain ⟨c1, r1, h1⟩ := (holdsO_init c).run cfg ops
  obtain ⟨c2, r2, -⟩ := update_spec cfg c1 p
  have t := update_told cfg c1 c2 p r2
  refine ⟨c1, c2, r1, r2, fun h => ?_, fun pre M h => ?_⟩
  · have := t.none ((h1.newBlocks p).trans h)
    exact ⟨this.ihv1, this.ihv2, this.m1, this.m2⟩
  · have := t.last pre M ((h1.newBlocks p).trans h)
    rw [h1.1, h1.2.2] at this
    exact this

/-- C57: `SHA1DCFinal` always processes a block, and the context shows the last one. -/
theorem C57_final_shows (cfg : Cfg) (c : Ctx) (ops : List Call) (s : OptState)
    (hs : s = ops.foldl OptState.after .init) :
    ∃ c1 c2 D v pre M, (SHA1DCInit c).run cfg ops = .ok c1 ∧ SHA1DCFinal cfg c1 = .ok (c2, D, v) ∧
      (blocks (pad s.m)).drop (blocks s.m).length = pre ++ [M] ∧
      Shown s.o (s.o.chain s.H pre).1 M c2.ihv1 c2.ihv2 c2.m1 c2.m2 := by
  subst hs
  obtain ⟨c1, r1, h1⟩ := (holdsO_init c).run cfg ops
  obtain ⟨c2, r2, -⟩ := final_spec cfg c1
  have t := final_told cfg c1 c2 _ _ r2
  generalize ops.foldl OptState.after .init = s at h1 ⊢
  have e : blocks ((absC c1).buf ++ padTail c1.total) = (blocks (pad s.m)).drop (blocks s.m).length := by
    rw [h1.2.1, h1.2.2, pad_eq, blocks_append_rem s.m, List.drop_left]
  have hne : blocks ((absC c1).buf ++ padTail c1.total) ≠ [] := by
    have hl : 64 ≤ ((absC c1).buf ++ padTail c1.total).length := by
      rw [List.length_append, padTail_length, absC_buf_length]
      unfold zeroPad
      omega
    rw [blocks_ge _ hl]
    exact List.cons_ne_nil _ _
  rcases List.eq_nil_or_concat (blocks ((absC c1).buf ++ padTail c1.total)) with h0 | ⟨pre, M, h0⟩
  · exact absurd h0 hne
  · rw [List.concat_eq_append] at h0
    have := t.last pre M h0
    rw [h1.1, h1.2.2] at this
    exact ⟨c1, c2, _, _, pre, M, r1, r2, e.symm.trans h0, this⟩

/-- C57: the other calls leave the four members alone. -/
theorem C57_settings_keep (cfg : Cfg) (c c' : Ctx) (op : Call) (hop : ∀ p, op ≠ .update p)
    (h : c.call cfg op = .ok c') : c'.ihv1 = c.ihv1 ∧ c'.ihv2 = c.ihv2 ∧ c'.m1 = c.m1 ∧ c'.m2 = c.m2 := by
  cases op with
  | update p => exact absurd rfl (hop p)
  | init => cases h; exact ⟨rfl, rfl, rfl, rfl⟩
  | setSafeHash v => cases h; unfold SHA1DCSetSafeHash; split <;> exact ⟨rfl, rfl, rfl, rfl⟩
  | setUseUBC v => cases h; unfold SHA1DCSetUseUBC; split <;> exact ⟨rfl, rfl, rfl, rfl⟩
  | setUseDetectColl v => cases h; unfold SHA1DCSetUseDetectColl; split <;> exact ⟨rfl, rfl, rfl, rfl⟩
  | setDetectReducedRoundCollision v =>
    cases h; unfold SHA1DCSetDetectReducedRoundCollision; split <;> exact ⟨rfl, rfl, rfl, rfl⟩

/-- C57: what is shown of a flagged block is determined by the settings, the chaining value and the block. -/
theorem C57_shown_unique {o : Options} {H : Regs} {M : Block} {a b a' b' : Regs} {m1 m2 m1' m2' : Fin 80 → Word}
    (hf : o.Flags H M) (h : Shown o H M a b m1 m2) (h' : Shown o H M a' b' m1' m2') :
    a = a' ∧ b = b' ∧ m1 = m1' ∧ m2 = m2' := by
  refine ⟨h.ihv1.trans h'.ihv1.symm, ?_, funext fun i => (h.m1 i).trans (h'.m1 i).symm, ?_⟩ <;>
    obtain ⟨k, dv, δ, g1, g2, g3, -, g4, g5, -⟩ := h.other hf <;>
    obtain ⟨k', dv', δ', g1', g2', g3', -, g4', g5', -⟩ := h'.other hf <;>
    (have hk : k = k' := by
      rcases Nat.lt_trichotomy k k' with hlt | he | hlt
      · exact absurd g1 (g2' k dv hlt)
      · exact he
      · exact absurd g1' (g2 k' dv' hlt)) <;>
    subst hk <;>
    (have hd : dv = dv' := by have := g1.1.symm.trans g1'.1; simpa using this) <;>
    subst hd <;>
    have hx := xorBlock_unique (dvList_T dv (List.mem_of_getElem? g1.1)).2 g3 g3' M
  · rw [← hx] at g5'
    exact steps_inj _ _ (g5.trans g5'.symm)
  · rw [← hx] at g4'
    exact funext fun i => (g4 i).trans (g4' i).symm

/-- The block in the first sixteen words. -/
def first16 (m : Fin 80 → Word) : Block := fun i => m ⟨i.val, by omega⟩

/-- C57: if the search for reduced-round collisions is off and the block completed by the call is the first one found in
a collision, the four members hold two different blocks and chaining values giving the same result. -/
theorem C57_shows_a_collision (cfg : Cfg) (c : Ctx) (ops : List Call) (p : List Byte) (s : OptState)
    (hs : s = ops.foldl OptState.after .init) (hr : s.o.reduced = false) (M : Block) (hM : newBlocks s.m p = [M])
    (c1 c2 : Ctx) (h1 : (SHA1DCInit c).run cfg ops = .ok c1) (h2 : SHA1DCUpdate cfg c1 p = .ok c2)
    (hb : c1.found_collision = 0) (ha : c2.found_collision ≠ 0) :
    c2.ihv1 = s.H ∧ first16 c2.m1 = M ∧ first16 c2.m2 ≠ first16 c2.m1 ∧
      compress c2.ihv2 (first16 c2.m2) = compress c2.ihv1 (first16 c2.m1) := by
  subst hs
  obtain ⟨d1, d2, r1, r2, -, hl⟩ := C57_update_shows cfg c ops p _ rfl
  rw [h1] at r1; cases r1
  rw [h2] at r2; cases r2
  obtain ⟨d1, r1, g⟩ := (holdsO_init c).run cfg ops
  rw [h1] at r1; cases r1
  have hl := hl [] M hM
  obtain ⟨d2, r2, g2⟩ := g.call cfg (.update p)
  have r2' : SHA1DCUpdate cfg c1 p = .ok d2 := r2
  rw [h2] at r2'; cases r2'
  generalize ops.foldl OptState.after .init = s at *
  have e16 : ∀ (m : Fin 80 → Word) (B : Block), (∀ i, m i = sched B i) → first16 m = B := by
    intro m B h
    funext i
    show m _ = _
    rw [h, sched_lt _ _ i.isLt]
  have hcol : s.col = false := by
    have := congrArg Sp.col g.2.2
    simpa [absC, hb] using this.symm
  have hfl : s.o.Flags s.H M := by
    have := congrArg Sp.col g2.2.2
    simp only [absC, OptState.after, hcol, Bool.false_or, hM, Options.chain, Bool.or_false] at this
    refine (verdict_iff _ _ _).mp (this.symm.trans ?_)
    simpa using ha
  obtain ⟨k, dv, δ, -, -, -, i1, i2, -, i3⟩ := hl.other hfl
  have e1 := e16 _ _ hl.m1
  have e2 := e16 _ _ i2
  rw [e1, e2, hl.ihv1]
  refine ⟨rfl, rfl, i1, ?_⟩
  rcases i3 with h | h
  · exact h
  · rw [hr] at h; cases h.1

/-! ### Instances -/

theorem sh_masked : ∀ j < 27, ubcHolds j (sched shM1) = false := by
  intro j hj
  rw [← ubcHolds_congr j (schedL_spec shM1 _ (wordsL_spec shM1).1 (wordsL_spec shM1).2).2]
  revert j
  decide +kernel

/-- Instance: the data of the published collision, the second file's block and chaining value. -/
theorem sh_shown (a b : Regs) (m1 m2 : Fin 80 → Word) (h : Shown .default shH1 shM1 a b m1 m2) :
    a = shH1 ∧ b = shH2 ∧ first16 m1 = shM1 ∧ first16 m2 = shM2 := by
  have hit : Options.default.Hits shH1 shM1 27 sh_dv := ⟨sh_dv_get, fun _ => sh_ubc1, .inl sh_sibling1⟩
  obtain ⟨δ, hδ, hx⟩ := sh_diff
  have hx : xorBlock shM1 δ = shM2 := by funext i; exact (hx i).symm
  have hs : Shown .default shH1 shM1 shH1 shH2 (fun i => sched shM1 i) (fun i => sched shM2 i) := by
    refine ⟨rfl, fun _ => rfl, fun _ => ⟨27, sh_dv, δ, hit, ?_, hδ, xorBlock_ne sh_dv_get hδ _, ?_, ?_, .inl ?_⟩⟩
    · intro j dv' hj hh
      have := hh.2.1 rfl
      rw [sh_masked j hj] at this
      cases this
    · intro i; rw [hx]
    · rw [hx]; exact sh_state
    · rw [hx]; exact sh_out
  obtain ⟨h1, h2, h3, h4⟩ := C57_shown_unique ⟨rfl, 27, sh_dv, hit⟩ h hs
  refine ⟨h1, h2, ?_, ?_⟩
  · funext i; show m1 _ = _; rw [h3]; exact sched_lt _ _ i.isLt
  · funext i; show m2 _ = _; rw [h4]; exact sched_lt _ _ i.isLt

/-- Instance: from the first file of the published collision alone, the context shows the colliding block of the
second. -/
theorem C57_shattered (cfg : Cfg) (c : Ctx) :
    ∃ c1, SHA1DCUpdate cfg (SHA1DCInit c) shattered1 = .ok c1 ∧ c1.ihv1 = shH1 ∧ c1.ihv2 = shH2 ∧
      first16 c1.m1 = shM1 ∧ first16 c1.m2 = shM2 := by
  obtain ⟨c1, c2, r1, r2, -, h⟩ := C57_update_shows cfg c [] shattered1 _ rfl
  cases r1
  refine ⟨c2, r2, ?_⟩
  have e : newBlocks [] shattered1 = shPre1 ++ [shM1] := by
    rw [newBlocks_eq, show rem64 [] = [] from rfl, List.nil_append]
    exact sh_blocks1
  have := h shPre1 shM1 e
  rw [show (([] : List Call).foldl OptState.after .init) = .init from rfl] at this
  rw [show OptState.init.o = .default from rfl, show OptState.init.H = H0 from rfl, chain_default,
    show (safeChain cVerdict H0 shPre1) = (shH1, false) from sh_chain1_c] at this
  exact sh_shown _ _ _ _ this

/-- Instance of `C57_shows_a_collision`: the same data in two parts, the second being the block that gives it away. -/
example (cfg : Cfg) (c : Ctx) :
    ∃ c1 c2, (SHA1DCInit c).run cfg [.update (shattered1.take 256)] = .ok c1 ∧
      SHA1DCUpdate cfg c1 (shattered1.drop 256) = .ok c2 ∧ c1.found_collision = 0 ∧ c2.found_collision ≠ 0 ∧
      ([Call.update (shattered1.take 256)].foldl OptState.after .init).o.reduced = false ∧
      newBlocks ([Call.update (shattered1.take 256)].foldl OptState.after .init).m (shattered1.drop 256) = [shM1] := by
  have hd : blocks (shattered1.drop 256) = [shM1] := by
    rw [blocksN_spec 1 _ (by decide +kernel)]; rfl
  have hb : blocks (shattered1.take 256) = shPre1 := by
    have h := blocks_append (shattered1.take 256) (shattered1.drop 256) (by decide +kernel)
    rw [List.take_append_drop, hd, sh_blocks1] at h
    exact (List.append_inj' h rfl).1.symm
  have hn : newBlocks [] (shattered1.take 256) = shPre1 := by
    rw [newBlocks_eq, show rem64 [] = [] from rfl, List.nil_append, hb]
  have hs : [Call.update (shattered1.take 256)].foldl OptState.after .init =
      ⟨.default, shH1, false, shattered1.take 256⟩ := by
    simp only [List.foldl_cons, List.foldl_nil, OptState.after, OptState.init, hn, chain_default, List.nil_append]
    rw [show (safeChain cVerdict H0 shPre1) = (shH1, false) from sh_chain1_c]
    rfl
  have hn2 : newBlocks (shattered1.take 256) (shattered1.drop 256) = [shM1] := by
    rw [newBlocks_eq, rem64, List.drop_eq_nil_of_le (by decide +kernel), List.nil_append, hd]
  obtain ⟨c1, r1, h1⟩ := (holdsO_init c).run cfg [.update (shattered1.take 256)]
  obtain ⟨c2, r2, h2⟩ := h1.call cfg (.update (shattered1.drop 256))
  rw [hs] at h1 h2
  rw [hs]
  refine ⟨c1, c2, r1, r2, ?_, ?_, rfl, hn2⟩
  · have := congrArg Sp.col h1.2.2
    simpa [absC] using this
  · have := congrArg Sp.col h2.2.2
    have hv : verdict Options.default.Flags shH1 shM1 = true :=
      (verdict_iff _ _ _).mpr ⟨rfl, 27, sh_dv, sh_dv_get, fun _ => sh_ubc1, .inl sh_sibling1⟩
    simp only [absC, OptState.after, hn2, Options.chain, hv, Bool.or_false, Bool.false_or] at this
    simpa using this

end Verif.Props
