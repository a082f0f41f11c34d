import Verif.Props.Files

/-!
Everything that starts with data once flagged stays flagged, in particular all variants of the published collisions: C56.
-/

namespace Verif.Props

open Verif Verif.Model Verif.Model.C Verif.Spec Verif.C

theorem chain_prefix_flag (det : Regs → Block → Bool) (H : Regs) (p x : List Byte)
    (h : (safeChain det H (blocks p)).2 = true) : (safeChain det H (blocks (p ++ x))).2 = true := by
  rw [blocks_append_rem, safeChain_append, h, Bool.true_or]

theorem hash_prefix_flag (det : Regs → Block → Bool) (p x : List Byte)
    (h : (safeChain det H0 (blocks p)).2 = true) : (safeHash det (p ++ x)).2 = true := by
  unfold safeHash
  rw [pad_eq, List.append_assoc]
  exact chain_prefix_flag det H0 p _ h

/-- C56: if a complete block of `p` is judged colliding, every message that starts with `p` is flagged: by `Sum` in either
order of evaluation, and by every object that holds it, whatever was hashed before and however it was written. -/
theorem C56_flagged_prefix (B : Build) (p : List Byte) (pre post : List Block) (M : Block)
    (hb : blocks p = pre ++ M :: post) (hM : GoDetected (safeChain goVerdict H0 pre).1 M) (x : List Byte) :
    (∀ order, ∃ D, sumPkg B.block order (p ++ x) = .ok (D, true)) ∧
    ∀ ops, (∀ op ∈ ops, isRestore op = false) → msgOf ops = p ++ x →
      ∃ d outs, new.run B.block ops = .ok (d, outs) ∧
        ∀ inp, ∃ D, d.collisionResistantSum B.block inp = .ok (d, D, true) := by
  have h : (safeChain goVerdict H0 (blocks p)).2 = true :=
    (safeChain_flag _ _ _).mpr ⟨pre, M, post, hb, (verdict_iff _ _ _).mpr hM⟩
  refine ⟨fun order => ?_, fun ops hops hm => ?_⟩
  · cases order with
    | callFirst =>
      refine ⟨(safeHash goVerdict (p ++ x)).1, ?_⟩
      rw [C14_safe_hash]
      exact congrArg Except.ok (Prod.ext rfl (hash_prefix_flag _ p x h))
    | fieldFirst =>
      refine ⟨(safeHash goVerdict (p ++ x)).1, ?_⟩
      rw [C26_oneshot_any_order_partial, chain_prefix_flag _ _ _ _ h]
  · obtain ⟨d, r, he⟩ := (holds_new goVerdict).run (build_impl B) ops hops
    refine ⟨d, _, r, fun inp => ⟨inp ++ (safeHash goVerdict (p ++ x)).1, ?_⟩⟩
    rw [crs_spec B.block goVerdict (build_impl B) d he.1, he.finish]
    rw [show ops.foldl msgAfter [] = p ++ x from hm, hash_prefix_flag _ p x h]

/-- Instance: the first five blocks of shattered-1.pdf. -/
example : blocks shattered1 = shPre1 ++ shM1 :: [] ∧ GoDetected (safeChain goVerdict H0 shPre1).1 shM1 := by
  rw [sh_chain1]; exact ⟨sh_blocks1, sh_detected1⟩

/-- C56 for package cgo. -/
theorem C56_cgo_flagged_prefix (cfg : Cfg) (p : List Byte) (pre post : List Block) (M : Block)
    (hb : blocks p = pre ++ M :: post) (hM : Detected (safeChain (verdict Detected) H0 pre).1 M) (x : List Byte) :
    (∃ D, Cgo.sumPkg cfg (p ++ x) = .ok (D, true)) ∧
    ∀ ops, msgOf (ops.map Cgo.Op.toGo) = p ++ x →
      ∃ d outs, Cgo.new.run cfg ops = .ok (d, outs) ∧
        ∀ inp, ∃ D, d.collisionResistantSum cfg inp = .ok (d, D, true) := by
  have h : (safeChain (verdict Detected) H0 (blocks p)).2 = true :=
    (safeChain_flag _ _ _).mpr ⟨pre, M, post, hb, (verdict_iff _ _ _).mpr hM⟩
  refine ⟨⟨(safeHash (verdict Detected) (p ++ x)).1, ?_⟩, fun ops hm => ?_⟩
  · rw [cgo_sumPkg]
    exact congrArg Except.ok (Prod.ext rfl (hash_prefix_flag _ p x h))
  · obtain ⟨d, r, he⟩ := holdsCgo_new.run cfg ops
    refine ⟨d, _, r, fun inp => ⟨inp ++ (safeHash (verdict Detected) (p ++ x)).1, ?_⟩⟩
    rw [he.crs, show (ops.map Cgo.Op.toGo).foldl msgAfter [] = p ++ x from hm]
    exact congrArg (fun f => Except.ok (d, inp ++ (safeHash (verdict Detected) (p ++ x)).1, f))
      (hash_prefix_flag (verdict Detected) p x h)

/-- The published collisions: the first 320 bytes of the two files of shattered.io, and the two files of sha-mbles.github.io. -/
def published : List (List Byte) := [shattered1, shattered2, shambles1, shambles2]

theorem published_flag_go : ∀ p ∈ published, (safeChain goVerdict H0 (blocks p)).2 = true := by
  have key : ∀ n p, p.length / 64 = n → (evalChain rotGo H0 false (blocksN n p)).2 = true →
      (safeChain goVerdict H0 (blocks p)).2 = true := by
    intro n p hn h
    rw [blocksN_spec n p hn]
    have := evalChain_spec rotGo goVerdict evalDet_go (blocksN n p) H0 false
    rw [this] at h
    simpa using h
  intro p hp
  simp only [published, List.mem_cons, List.not_mem_nil, or_false] at hp
  rcases hp with rfl | rfl | rfl | rfl
  · exact key 5 _ (by decide +kernel) (by decide +kernel)
  · exact key 5 _ (by decide +kernel) (by decide +kernel)
  · exact key 10 _ (by decide +kernel) (by decide +kernel)
  · exact key 10 _ (by decide +kernel) (by decide +kernel)

theorem published_flag_c : ∀ p ∈ published, (safeChain (verdict Detected) H0 (blocks p)).2 = true := by
  have key : ∀ n p, p.length / 64 = n → (evalChain (fun _ => id) H0 false (blocksN n p)).2 = true →
      (safeChain (verdict Detected) H0 (blocks p)).2 = true := by
    intro n p hn h
    rw [blocksN_spec n p hn]
    have := evalChain_spec (fun _ => id) (verdict Detected) evalDet_detected (blocksN n p) H0 false
    rw [this] at h
    simpa using h
  intro p hp
  simp only [published, List.mem_cons, List.not_mem_nil, or_false] at hp
  rcases hp with rfl | rfl | rfl | rfl
  · exact key 5 _ (by decide +kernel) (by decide +kernel)
  · exact key 5 _ (by decide +kernel) (by decide +kernel)
  · exact key 10 _ (by decide +kernel) (by decide +kernel)
  · exact key 10 _ (by decide +kernel) (by decide +kernel)

/-- C56: every file that starts with one of the published collisions is flagged, by package sha1cd in every build and by
package cgo, one-shot and in any division into writes. -/
theorem C56_published (B : Build) (cfg : Cfg) (p : List Byte) (hp : p ∈ published) (x : List Byte) :
    (∀ order, ∃ D, sumPkg B.block order (p ++ x) = .ok (D, true)) ∧
    (∃ D, Cgo.sumPkg cfg (p ++ x) = .ok (D, true)) ∧
    (∀ ps : List (List Byte), ps.flatten = p ++ x → ∃ d outs D, new.run B.block (ps.map .write) = .ok (d, outs) ∧
      d.collisionResistantSum B.block [] = .ok (d, D, true)) ∧
    ∀ ps : List (List Byte), ps.flatten = p ++ x → ∃ d outs D, Cgo.new.run cfg (ps.map .write) = .ok (d, outs) ∧
      d.collisionResistantSum cfg [] = .ok (d, D, true) := by
  obtain ⟨pre, M, post, hb, hM⟩ := (safeChain_flag _ _ _).mp (published_flag_go p hp)
  obtain ⟨pre', M', post', hb', hM'⟩ := (safeChain_flag _ _ _).mp (published_flag_c p hp)
  obtain ⟨g1, g2⟩ := C56_flagged_prefix B p pre post M hb ((verdict_iff _ _ _).mp hM) x
  obtain ⟨c1, c2⟩ := C56_cgo_flagged_prefix cfg p pre' post' M' hb' ((verdict_iff _ _ _).mp hM') x
  have hw : ∀ (ps : List (List Byte)) m, (ps.map Op.write).foldl msgAfter m = m ++ ps.flatten := by
    intro ps
    induction ps with
    | nil => simp
    | cons q ps ih => intro m; simp [msgAfter, ih]
  refine ⟨g1, c1, fun ps e => ?_, fun ps e => ?_⟩
  · obtain ⟨d, o, r, hs⟩ := g2 (ps.map .write) (by simp [isRestore]) (by rw [msgOf, hw, e]; rfl)
    obtain ⟨D, hD⟩ := hs []
    exact ⟨d, o, D, r, hD⟩
  · obtain ⟨d, o, r, hs⟩ := c2 (ps.map .write) (by
      have : (ps.map Cgo.Op.write).map Cgo.Op.toGo = ps.map Op.write := by
        rw [List.map_map]; rfl
      rw [this, msgOf, hw, e]; rfl)
    obtain ⟨D, hD⟩ := hs []
    exact ⟨d, o, D, r, hD⟩

/-- C56: plain SHA-1 does not tell these files apart: the two files of a pair collide with any common ending. -/
theorem C56_published_collide (x : List Byte) :
    shattered1 ++ x ≠ shattered2 ++ x ∧ sha1 (shattered1 ++ x) = sha1 (shattered2 ++ x) ∧
    shambles1 ++ x ≠ shambles2 ++ x ∧ sha1 (shambles1 ++ x) = sha1 (shambles2 ++ x) := by
  have key : ∀ p q : List Byte, p.length = q.length → p.length % 64 = 0 →
      (blocks p).foldl compress H0 = (blocks q).foldl compress H0 → sha1 (p ++ x) = sha1 (q ++ x) := by
    intro p q hl h64 h
    unfold sha1
    rw [pad_eq, pad_eq, List.append_assoc, List.append_assoc, blocks_append p _ h64, blocks_append q _ (hl ▸ h64),
      List.foldl_append, List.foldl_append, h, List.length_append, List.length_append, hl]
  have ev : ∀ n p, p.length / 64 = n → (blocks p).foldl compress H0 = (blocksN n p).foldl (fun H M => evalCompress (schedL (wordsL M)) H) H0 := by
    intro n p hn
    rw [blocksN_spec n p hn, ← show (fun H M => evalCompress (schedL (wordsL M)) H) = compress from
      funext fun H => funext fun M => evalCompress_eq H M]
  refine ⟨fun h => shattered_ne (List.append_cancel_right h), key _ _ (by decide +kernel) (by decide +kernel) ?_,
    fun h => shambles_ne (List.append_cancel_right h), key _ _ (by decide +kernel) (by decide +kernel) ?_⟩
  · rw [ev 5 _ (by decide +kernel), ev 5 _ (by decide +kernel)]; decide +kernel
  · rw [ev 10 _ (by decide +kernel), ev 10 _ (by decide +kernel)]; decide +kernel

end Verif.Props
