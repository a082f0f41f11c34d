import Verif.Proofs.CSponge
import Verif.Props.Detect

/-!
Package cgo, with and without cgo: C19–C21 (the C side), C27, C33, C34.

`cfg` ranges over the byte order of the machine and over the two ways of compiling `SHA1DCUpdate`
(`SHA1DC_ALLOW_UNALIGNED_ACCESS` or not).
-/

namespace Verif.Props

open Verif Verif.Model Verif.Model.C Verif.Spec Verif.C

/-! ### C33: the object -/

/-- Every history of calls on a new cgo hash succeeds (no abort, no access outside an array) and returns exactly
what the message-level specification prescribes, with the intended verdict. -/
theorem C33_cgo_refines (cfg : Cfg) (ops : List Cgo.Op) :
    ∃ d, Cgo.new.run cfg ops = .ok (d, results (verdict Detected) [] (ops.map Cgo.Op.toGo)) := by
  obtain ⟨d, r, _⟩ := holdsCgo_new.run cfg ops
  exact ⟨d, r⟩

theorem abc_hash_c : safeHash (verdict Detected) abc = (abcDigest, false) := by
  rw [detected_eval 1 abc (by decide)]; decide +kernel

theorem shattered1_hash_c : safeHash (verdict Detected) shattered1 = (shatteredDigest1, true) := by
  rw [detected_eval 6 _ shattered1_pad]; decide +kernel

theorem shattered2_hash_c : safeHash (verdict Detected) shattered2 = (shatteredDigest2, true) := by
  rw [detected_eval 6 _ shattered2_pad]; decide +kernel

/-- Instance: "abc" unflagged, then a reset, then the first five blocks of shattered-1.pdf, flagged. -/
example (cfg : Cfg) : ∃ d, Cgo.new.run cfg [.write abc, .collisionResistantSum [], .reset, .write shattered1,
      .sum [7], .collisionResistantSum []] =
    .ok (d, [.write 3 none, .collisionResistantSum abcDigest false, .reset, .write 320 none,
      .sum (7 :: shatteredDigest1), .collisionResistantSum shatteredDigest1 true]) := by
  obtain ⟨d, h⟩ := C33_cgo_refines cfg [.write abc, .collisionResistantSum [], .reset, .write shattered1,
      .sum [7], .collisionResistantSum []]
  refine ⟨d, h.trans ?_⟩
  simp only [List.map, Cgo.Op.toGo, results, result, msgAfter, List.nil_append, List.cons_append, abc_hash_c,
    shattered1_hash_c]
  have h1 : abc.length = 3 := rfl
  have h2 : shattered1.length = 320 := by decide +kernel
  rw [h1, h2]

/-- C33: any division into `Write` calls gives the result of the one-shot `Sum`, and summing does not change the
object. -/
theorem C33_cgo_chunking (cfg : Cfg) (ps : List (List Byte)) :
    ∃ d D c, Cgo.new.run cfg (ps.map .write) = .ok (d, ps.map fun p => .write p.length none) ∧
      (∀ inp, d.collisionResistantSum cfg inp = .ok (d, inp ++ D, c)) ∧
      (∀ inp, d.sum cfg inp = .ok (d, inp ++ D)) ∧
      Cgo.sumPkg cfg ps.flatten = .ok (D, c) := by
  have key : ∀ (ps : List (List Byte)) (d : Cgo.Digest) (m : List Byte), HoldsCgo d m →
      ∃ d', d.run cfg (ps.map .write) = .ok (d', ps.map fun p => .write p.length none) ∧
        HoldsCgo d' (m ++ ps.flatten) := by
    intro ps
    induction ps with
    | nil => intro d m h; exact ⟨d, rfl, by simpa using h⟩
    | cons p ps ih =>
      intro d m h
      obtain ⟨d1, w, h1⟩ := h.write cfg p
      obtain ⟨d2, r, h2⟩ := ih d1 _ h1
      refine ⟨d2, ?_, by rw [List.flatten_cons, ← List.append_assoc]; exact h2⟩
      simp [Cgo.Digest.run, Cgo.Digest.call, w, r, bind, Except.bind, pure, Except.pure]
  obtain ⟨d, r, h⟩ := key ps _ _ holdsCgo_new
  rw [List.nil_append] at h
  exact ⟨d, _, _, r, fun inp => h.crs cfg inp, fun inp => h.sum cfg inp, cgo_sumPkg cfg _⟩

/-- C33: inserting `Sum`, `CollisionResistantSum`, `Size` or `BlockSize` anywhere in any history changes neither the
other results nor the final object. -/
theorem C33_cgo_observers_pure (cfg : Cfg) (pre post : List Cgo.Op) (op : Cgo.Op)
    (hop : isObserver op.toGo = true) :
    ∃ d o1 x o2, o1.length = pre.length ∧
      Cgo.new.run cfg (pre ++ post) = .ok (d, o1 ++ o2) ∧
      Cgo.new.run cfg (pre ++ op :: post) = .ok (d, o1 ++ x :: o2) := by
  have happ : ∀ (a b : List Cgo.Op) (d d1 d2 : Cgo.Digest) (o1 o2 : List Out),
      d.run cfg a = .ok (d1, o1) → d1.run cfg b = .ok (d2, o2) → d.run cfg (a ++ b) = .ok (d2, o1 ++ o2) := by
    intro a
    induction a with
    | nil =>
      intro b d d1 d2 o1 o2 h1 h2
      cases h1
      exact h2
    | cons x a ih =>
      intro b d d1 d2 o1 o2 h1 h2
      simp only [Cgo.Digest.run, bind, Except.bind] at h1
      split at h1
      · cases h1
      · rename_i v hv
        split at h1
        · cases h1
        · rename_i u hu
          cases h1
          have := ih b _ _ _ _ _ hu h2
          simp [Cgo.Digest.run, hv, this, bind, Except.bind, pure, Except.pure]
  obtain ⟨d1, r1, h1⟩ := holdsCgo_new.run cfg pre
  obtain ⟨d2, r2, h2⟩ := h1.run cfg post
  obtain ⟨x, hx⟩ : ∃ x, d1.call cfg op = .ok (d1, x) := by
    cases op with
    | sum inp => exact ⟨_, by simp [Cgo.Digest.call, h1.sum cfg, bind, Except.bind, pure, Except.pure]; rfl⟩
    | collisionResistantSum inp =>
      exact ⟨_, by simp [Cgo.Digest.call, h1.crs cfg, bind, Except.bind, pure, Except.pure]; rfl⟩
    | size => exact ⟨_, rfl⟩
    | blockSize => exact ⟨_, rfl⟩
    | write p => simp [isObserver, Cgo.Op.toGo] at hop
    | reset => simp [isObserver, Cgo.Op.toGo] at hop
  refine ⟨d2, _, x, _, ?_, happ _ _ _ _ _ _ _ r1 r2, happ _ _ _ _ _ _ (x :: _) r1 ?_⟩
  · clear r1 h1 r2 h2 hx
    have : ∀ (m : List Byte) (l : List Op), (results cVerdict m l).length = l.length := by
      intro m l
      induction l generalizing m with
      | nil => rfl
      | cons a l ih => simp [results, ih]
    rw [this, List.length_map]
  · simp [Cgo.Digest.run, hx, r2, bind, Except.bind, pure, Except.pure]

/-- C33: after `Reset`, every history gives the results it gives on a new hash.  `d` is arbitrary. -/
theorem C33_cgo_reset_is_new (cfg : Cfg) (d : Cgo.Digest) (ops : List Cgo.Op) :
    ∃ d1 d2 outs, d.reset.run cfg ops = .ok (d1, outs) ∧ Cgo.new.run cfg ops = .ok (d2, outs) := by
  obtain ⟨d1, r1, _⟩ := (holdsCgo_reset d).run cfg ops
  obtain ⟨d2, r2, _⟩ := holdsCgo_new.run cfg ops
  exact ⟨d1, d2, _, r1, r2⟩

/-- C33: if no collision is reported the digest is SHA-1. -/
theorem C33_cgo_unflagged_is_sha1 (cfg : Cfg) (ops : List Cgo.Op) (d d' : Cgo.Digest) (outs : List Out)
    (D : List Byte) (hr : Cgo.new.run cfg ops = .ok (d, outs))
    (hs : d.collisionResistantSum cfg [] = .ok (d', D, false)) : D = sha1 (msgOf (ops.map Cgo.Op.toGo)) := by
  obtain ⟨e, r, he⟩ := holdsCgo_new.run cfg ops
  rw [hr] at r
  cases r
  rw [he.crs cfg] at hs
  simp only [List.nil_append, Except.ok.injEq, Prod.mk.injEq] at hs
  rw [← hs.2.1]
  exact safeHash_unflagged _ _ hs.2.2

/-- Instance: the hypotheses hold for "abc" written in two pieces. -/
example (cfg : Cfg) : ∃ d outs, Cgo.new.run cfg [.write [0x61], .sum [], .write [0x62, 0x63]] = .ok (d, outs) ∧
    d.collisionResistantSum cfg [] = .ok (d, abcDigest, false) := by
  obtain ⟨d, r, h⟩ := holdsCgo_new.run cfg [.write [0x61], .sum [], .write [0x62, 0x63]]
  refine ⟨d, _, r, ?_⟩
  rw [h.crs cfg]
  exact congrArg (fun r => Except.ok (d, [] ++ r.1, r.2)) abc_hash_c

/-! ### C34: detection -/

/-- C34, one-shot: the digest is the safe hash, and the flag is true iff some block of the padded message satisfies
the bit conditions of a listed vector and is one half of a collision along it. -/
theorem C34_cgo_flag_exact (cfg : Cfg) (m : List Byte) :
    ∃ c, Cgo.sumPkg cfg m = .ok ((safeHash (verdict Detected) m).1, c) ∧
      (c = true ↔ ∃ pre M post, blocks (pad m) = pre ++ M :: post ∧
        ∃ k dv, dvList[k]? = some dv ∧ ubcHolds k (sched M) = true ∧
          Sibling dv (safeChain (verdict Detected) H0 pre).1 M) := by
  refine ⟨(safeHash (verdict Detected) m).2, cgo_sumPkg cfg m, ?_⟩
  simp only [safeHash, safeChain_flag, verdict_iff]
  exact Iff.rfl

/-- Instance: both truth values occur, and the right-hand side holds for shattered-1.pdf. -/
example (cfg : Cfg) : Cgo.sumPkg cfg shattered1 = .ok (shatteredDigest1, true) ∧
    Cgo.sumPkg cfg abc = .ok (abcDigest, false) := by
  rw [cgo_sumPkg, cgo_sumPkg]
  exact ⟨congrArg _ shattered1_hash_c, congrArg _ abc_hash_c⟩

theorem sh_chain1_c : safeChain (verdict Detected) H0 shPre1 = (shH1, false) := by
  have := evalChain_spec (fun _ => id) _ evalDet_detected shPre1 H0 false
  rw [Bool.false_or] at this
  exact this.symm.trans (by decide +kernel)

theorem sh_chain2_c : safeChain (verdict Detected) H0 shPre2 = (shH2, false) := by
  have := evalChain_spec (fun _ => id) _ evalDet_detected shPre2 H0 false
  rw [Bool.false_or] at this
  exact this.symm.trans (by decide +kernel)

example : blocks (pad shattered1) = shPre1 ++ shM1 :: shPost1 ∧ dvList[27]? = some sh_dv ∧
    ubcHolds 27 (sched shM1) = true ∧ Sibling sh_dv (safeChain (verdict Detected) H0 shPre1).1 shM1 := by
  rw [sh_chain1_c]; exact ⟨sh_pad1, sh_dv_get, sh_ubc1, sh_sibling1⟩

/-- C34, streaming: after any history, for the bytes written since the last reset. -/
theorem C34_cgo_flag_exact_streaming (cfg : Cfg) (ops : List Cgo.Op) (d : Cgo.Digest) (outs : List Out)
    (hr : Cgo.new.run cfg ops = .ok (d, outs)) :
    ∃ D c, (∀ inp, d.collisionResistantSum cfg inp = .ok (d, inp ++ D, c)) ∧
      Cgo.sumPkg cfg (msgOf (ops.map Cgo.Op.toGo)) = .ok (D, c) := by
  obtain ⟨e, r, he⟩ := holdsCgo_new.run cfg ops
  rw [hr] at r
  cases r
  exact ⟨_, _, fun inp => he.crs cfg inp, cgo_sumPkg cfg _⟩

/-- C34: a raised flag exhibits a different block and a chaining value with the same SHA-1 compression output. -/
theorem C34_cgo_flag_genuine (cfg : Cfg) (m D : List Byte) (h : Cgo.sumPkg cfg m = .ok (D, true)) :
    ∃ pre M post M' H', blocks (pad m) = pre ++ M :: post ∧ M' ≠ M ∧
      compress H' M' = compress (safeChain (verdict Detected) H0 pre).1 M := by
  obtain ⟨c, hc, hi⟩ := C34_cgo_flag_exact cfg m
  rw [h] at hc
  cases hc
  obtain ⟨pre, M, post, e, k, dv, hk, _, δ, H', hδ, _, h2⟩ := hi.mp rfl
  exact ⟨pre, M, post, xorBlock M δ, H', e, xorBlock_ne hk hδ M, h2⟩

/-- C34: both halves of a collision along any of the 32 vectors are flagged by the C code. -/
theorem C34_cgo_both_halves (cfg : Cfg) (m1 m2 : List Byte) (pre1 post1 pre2 post2 : List Block)
    (M1 M2 : Block) (hb1 : blocks (pad m1) = pre1 ++ M1 :: post1)
    (hb2 : blocks (pad m2) = pre2 ++ M2 :: post2) (k : Nat) (dv : DV) (hk : dvList[k]? = some dv)
    (δ : Nat → Word) (hδ : IsDiff dv δ) (hM : ∀ i : Fin 16, M2 i = M1 i ^^^ δ i)
    (hst : steps (sched M2) dv.T (safeChain (verdict Detected) H0 pre2).1 =
      steps (sched M1) dv.T (safeChain (verdict Detected) H0 pre1).1)
    (hout : compress (safeChain (verdict Detected) H0 pre2).1 M2 =
      compress (safeChain (verdict Detected) H0 pre1).1 M1)
    (hu : ubcHolds k (sched M1) = true) :
    (∃ D1, Cgo.sumPkg cfg m1 = .ok (D1, true)) ∧ ∃ D2, Cgo.sumPkg cfg m2 = .ok (D2, true) := by
  have hM2 : M2 = xorBlock M1 δ := by funext i; exact hM i
  rw [hM2] at hst hout
  constructor
  · obtain ⟨c, h, hi⟩ := C34_cgo_flag_exact cfg m1
    have : c = true := hi.mpr ⟨pre1, M1, post1, hb1, k, dv, hk, hu, δ, _, hδ, hst, hout⟩
    exact ⟨_, this ▸ h⟩
  · obtain ⟨c, h, hi⟩ := C34_cgo_flag_exact cfg m2
    have : c = true := hi.mpr ⟨pre2, M2, post2, hb2, k, dv, hk, by rw [hM2, ubc_symm hk hδ]; exact hu, by
      rw [hM2]; exact sibling_symm hδ hst hout⟩
    exact ⟨_, this ▸ h⟩

/-- Instance: the hypotheses hold for the two SHAttered files. -/
example : blocks (pad shattered1) = shPre1 ++ shM1 :: shPost1 ∧
    blocks (pad shattered2) = shPre2 ++ shM2 :: shPost2 ∧ dvList[27]? = some sh_dv ∧
    (∃ δ, IsDiff sh_dv δ ∧ ∀ i : Fin 16, shM2 i = shM1 i ^^^ δ i) ∧
    steps (sched shM2) sh_dv.T (safeChain (verdict Detected) H0 shPre2).1 =
      steps (sched shM1) sh_dv.T (safeChain (verdict Detected) H0 shPre1).1 ∧
    compress (safeChain (verdict Detected) H0 shPre2).1 shM2 =
      compress (safeChain (verdict Detected) H0 shPre1).1 shM1 ∧
    ubcHolds 27 (sched shM1) = true := by
  rw [sh_chain1_c, sh_chain2_c]
  exact ⟨sh_pad1, sh_pad2, sh_dv_get, sh_diff, sh_state, sh_out, sh_ubc1⟩

/-! ### C20, C21: the C side -/

/-- C20: package cgo's `CalculateDvMask` computes the bit conditions, and so agrees with package ubc's. -/
theorem C20_c_mask (W : Fin 80 → Word) :
    C.Ubc.calculateDvMask W = Model.Ubc.calculateDvMask (some W) ∧
    ∀ k, k < 32 → (C.Ubc.calculateDvMask W).getLsbD k =
      ubcHolds k (fun t => if h : t < 80 then W ⟨t, h⟩ else 0) :=
  ⟨rfl, fun k hk => C20_mask_is_ubc W k hk⟩

/-- C21: the C table and the Go table are the same, entry by entry and field by field. -/
theorem C21_c_table : C.sha1_dvs.length = sha1Dvs.length ∧
    ∀ (k : Nat) (c : DvInfoT) (g : DvInfo), C.sha1_dvs[k]? = some c → sha1Dvs[k]? = some g →
      g.DvType.toNat = c.dvType ∧ g.DvK.toNat = c.dvK ∧ g.DvB.toNat = c.dvB ∧ g.TestT.toNat = c.testt ∧
      g.MaskI.toNat = c.maski ∧ g.MaskB.toNat = c.maskb ∧ g.Dm = c.dm := by
  refine ⟨rfl, fun k c g hc hg => ?_⟩
  rw [← table_eq, List.getElem?_map, hc] at hg
  cases hg
  obtain ⟨h1, h2, h3, h4, h5, h6⟩ := table_small c (List.mem_of_getElem? hc)
  simp only [toGo, BitVec.toNat_ofNat, and_true]
  omega

/-- Instance: the terminator is a full entry too. -/
example : (C.sha1_dvs.map DvInfoT.dvType)[32]? = some 0 ∧ (C.sha1_dvs.map DvInfoT.testt)[27]? = some 65 := by decide

/-! ### C19: Go and C -/

/-- Histories give the same results under two verdicts that agree on all messages held on the way. -/
theorem results_congr (det1 det2 : Regs → Block → Bool) (ops : List Cgo.Op) (m : List Byte)
    (h : ∀ pre post, ops = pre ++ post → safeHash det1 ((pre.map Cgo.Op.toGo).foldl msgAfter m) =
      safeHash det2 ((pre.map Cgo.Op.toGo).foldl msgAfter m)) :
    results det1 m (ops.map Cgo.Op.toGo) = results det2 m (ops.map Cgo.Op.toGo) := by
  induction ops generalizing m with
  | nil => rfl
  | cons op ops ih =>
    have h0 := h [] (op :: ops) rfl
    simp only [List.map_nil, List.foldl_nil] at h0
    simp only [List.map_cons, results]
    have e : result det1 m op.toGo = result det2 m op.toGo := by
      cases op <;> simp [Cgo.Op.toGo, result, h0]
    rw [e, ih (msgAfter m op.toGo)]
    intro pre post hp
    exact h (op :: pre) post (by rw [hp]; rfl)

/-- The two chains coincide if the verdicts agree on every block at the chaining value that reaches it. -/
theorem safeChain_congr (det1 det2 : Regs → Block → Bool) (Ms : List Block) (H : Regs)
    (h : ∀ pre M post, Ms = pre ++ M :: post →
      det1 (safeChain det1 H pre).1 M = det2 (safeChain det1 H pre).1 M) :
    safeChain det1 H Ms = safeChain det2 H Ms := by
  induction Ms generalizing H with
  | nil => rfl
  | cons M Ms ih =>
    have h0 : det1 H M = det2 H M := h [] M Ms rfl
    have hs : safeCompress det1 H M = safeCompress det2 H M := by unfold safeCompress; rw [h0]
    have := ih (safeCompress det1 H M) (fun pre M' post hp => by
      exact h (M :: pre) M' post (by rw [hp]; rfl))
    simp only [safeChain, h0]
    rw [this, hs]

/-- The blocks on which the Go and the C code are bound to agree: for every vector with test step 58 whose bit
conditions hold, the genuine test and the Go code's test give the same answer. -/
def AgreeAt (H : Regs) (M : Block) : Prop :=
  ∀ k dv, dvList[k]? = some dv → dv.T = 58 → ubcHolds k (sched M) = true → (Sibling dv H M ↔ Misaligned dv H M)

theorem agreeAt_verdict {H : Regs} {M : Block} (h : AgreeAt H M) : GoDetected H M ↔ Detected H M := by
  constructor
  · rintro ⟨k, dv, hk, hu, ⟨_, hs⟩ | ⟨hT, hm⟩⟩
    · exact ⟨k, dv, hk, hu, hs⟩
    · exact ⟨k, dv, hk, hu, (h k dv hk hT hu).mpr hm⟩
  · rintro ⟨k, dv, hk, hu, hs⟩
    have : ∀ dv ∈ dvList, dv.T = 58 ∨ dv.T = 65 := by decide
    rcases this dv (List.mem_of_getElem? hk) with hT | hT
    · exact ⟨k, dv, hk, hu, .inr ⟨hT, (h k dv hk hT hu).mp hs⟩⟩
    · exact ⟨k, dv, hk, hu, .inl ⟨hT, hs⟩⟩

/-- C19, one-shot, for every message all of whose blocks satisfy `AgreeAt`.  Missing: the others, on which the
two implementations differ (`C19_T58_disagree`, `C19_recompression_differs`). -/
theorem C19_sum_agrees_partial (B : Build) (cfg : Cfg) (m : List Byte)
    (h : ∀ pre M post, blocks (pad m) = pre ++ M :: post → AgreeAt (safeChain goVerdict H0 pre).1 M) :
    sumPkg B.block .callFirst m = Cgo.sumPkg cfg m := by
  rw [sumPkg_call (build_impl B), cgo_sumPkg]
  unfold safeHash
  rw [safeChain_congr goVerdict cVerdict]
  intro pre M post hp
  rw [Bool.eq_iff_iff, verdict_iff, verdict_iff]
  exact agreeAt_verdict (h pre M post hp)

/-- C19 for histories: the same calls on a new Go hash and a new cgo hash give the same results, provided that no
block of the messages held on the way satisfies the bit conditions of a vector with test step 58. -/
theorem C19_histories_agree_partial (B : Build) (cfg : Cfg) (ops : List Cgo.Op)
    (h : ∀ pre post, ops = pre ++ post → ∀ M ∈ blocks (pad (msgOf (pre.map Cgo.Op.toGo))),
      ∀ k dv, dvList[k]? = some dv → dv.T = 58 → ubcHolds k (sched M) = false) :
    ∃ dg dc outs, new.run B.block (ops.map Cgo.Op.toGo) = .ok (dg, outs) ∧ Cgo.new.run cfg ops = .ok (dc, outs) := by
  obtain ⟨dg, rg⟩ := object_refines B (ops.map Cgo.Op.toGo) (by
    intro op hop
    obtain ⟨o, _, rfl⟩ := List.mem_map.mp hop
    cases o <;> rfl)
  obtain ⟨dc, rc⟩ := C33_cgo_refines cfg ops
  refine ⟨dg, dc, _, rg, ?_⟩
  rw [rc, results_congr goVerdict (verdict Detected)]
  intro pre post hp
  unfold safeHash
  rw [safeChain_congr goVerdict cVerdict]
  intro pr M po hM
  rw [Bool.eq_iff_iff, verdict_iff, verdict_iff]
  refine agreeAt_verdict fun k dv hk hT hu => ?_
  have : ubcHolds k (sched M) = false := h pre post hp M (by
    show M ∈ blocks (pad ((pre.map Cgo.Op.toGo).foldl msgAfter []))
    rw [hM]; simp) k dv hk hT
  rw [this] at hu; exact absurd hu (by decide)

/-- No block satisfies the conditions of a vector with test step 58, evaluated. -/
def no58 (Ms : List Block) : Bool :=
  Ms.all fun M => (List.range 32).all fun k =>
    match dvList[k]? with
    | none => true
    | some dv => dv.T != 58 || !ubcHolds k (fun t => (schedL (wordsL M)).getD t 0)

theorem no58_spec (Ms : List Block) (h : no58 Ms = true) : ∀ M ∈ Ms, ∀ k dv, dvList[k]? = some dv → dv.T = 58 →
    ubcHolds k (sched M) = false := by
  intro M hM k dv hk hT
  have h1 := List.all_eq_true.mp h M hM
  have h2 := List.all_eq_true.mp h1 k (List.mem_range.mpr (dv_lt hk))
  rw [hk] at h2
  simp only [hT, bne_self_eq_false, Bool.false_or, Bool.not_eq_true'] at h2
  rw [← h2]
  exact (ubcHolds_congr k (schedL_spec M _ (wordsL_spec M).1 (wordsL_spec M).2).2).symm

/-- Instance: the hypothesis holds for shattered-1.pdf and for "abc": neither contains a block that satisfies the
conditions of a vector with test step 58. -/
theorem shattered1_no58 : ∀ M ∈ blocks (pad shattered1), ∀ k dv, dvList[k]? = some dv → dv.T = 58 →
    ubcHolds k (sched M) = false := by
  rw [blocksN_spec 6 _ shattered1_pad]
  exact no58_spec _ (by decide +kernel)

example (B : Build) (cfg : Cfg) : sumPkg B.block .callFirst shattered1 = Cgo.sumPkg cfg shattered1 :=
  C19_sum_agrees_partial B cfg shattered1 fun pre M post hp k dv hk hT hu => by
    rw [shattered1_no58 M (by rw [hp]; simp) k dv hk hT] at hu; exact absurd hu (by decide)

/-- C19 fails wherever the bug of `hasCollided` matters: a message with a block that is one half of a genuine
collision along a vector with test step 58 is flagged by the C code; the Go code returns its plain SHA-1 unflagged,
under the conditions of `C12_T58_missed`. -/
theorem C19_T58_disagree (B : Build) (cfg : Cfg) (m : List Byte)
    (h65 : ∀ M ∈ blocks (pad m), ∀ k dv, dvList[k]? = some dv → dv.T = 65 → ubcHolds k (sched M) = false)
    (hgen : ∀ pre M post, blocks (pad m) = pre ++ M :: post → ∀ k dv, dvList[k]? = some dv → dv.T = 58 →
      ubcHolds k (sched M) = true → Sibling dv (safeChain goVerdict H0 pre).1 M)
    (hne : ∀ pre M post, blocks (pad m) = pre ++ M :: post →
      ¬ ((steps (sched M) 58 (safeChain goVerdict H0 pre).1).a =
          (steps (sched M) 58 (safeChain goVerdict H0 pre).1).b)) :
    sumPkg B.block .callFirst m = .ok (sha1 m, false) ∧
    ((∃ M ∈ blocks (pad m), ∃ k dv, dvList[k]? = some dv ∧ dv.T = 58 ∧ ubcHolds k (sched M) = true) →
      ∃ D, Cgo.sumPkg cfg m = .ok (D, true)) := by
  have hgo := C12_T58_missed B m h65 hgen hne
  refine ⟨hgo, ?_⟩
  rintro ⟨M, hM, k, dv, hk, hT, hu⟩
  -- the Go chain is the plain chain
  have hunf : ∀ pre M post, blocks (pad m) = pre ++ M :: post → goVerdict (safeChain goVerdict H0 pre).1 M = false := by
    intro pre M post hp
    refine Bool.eq_false_iff.mpr fun hv => ?_
    have := (C13_flag_is_blockwise B m (sha1 m) false hgo).mpr ⟨pre, M, post, hp, (verdict_iff _ _ _).mp hv⟩
    exact absurd this (by decide)
  obtain ⟨c, hc, hi⟩ := C34_cgo_flag_exact cfg m
  refine Classical.byContradiction fun hno => ?_
  have hcf : c = false := Bool.eq_false_iff.mpr fun h => hno ⟨_, h ▸ hc⟩
  -- then the C chain is the plain chain too
  have hcu : (safeChain cVerdict H0 (blocks (pad m))).2 = false := by
    have : (safeHash cVerdict m).2 = c := by
      rw [cgo_sumPkg] at hc
      exact congrArg Prod.snd (Except.ok.inj hc)
    rw [← hcf, ← this]; rfl
  have hsame : ∀ (Ms : List Block) (H : Regs), (safeChain cVerdict H Ms).2 = false →
      (∀ pre M post, Ms = pre ++ M :: post → goVerdict (safeChain goVerdict H pre).1 M = false) →
      ∀ pre post, Ms = pre ++ post → (safeChain cVerdict H pre).1 = (safeChain goVerdict H pre).1 := by
    intro Ms
    induction Ms with
    | nil =>
      intro H _ _ pre post hp
      have : pre = [] := by
        cases pre with
        | nil => rfl
        | cons => simp at hp
      subst this; rfl
    | cons N Ms ih =>
      intro H h1 h2 pre post hp
      cases pre with
      | nil => rfl
      | cons N' pre =>
        simp only [List.cons_append, List.cons.injEq] at hp
        obtain ⟨rfl, hp⟩ := hp
        simp only [safeChain, Bool.or_eq_false_iff] at h1
        have hg : goVerdict H N = false := h2 [] N Ms rfl
        have e1 : safeCompress cVerdict H N = compress H N := by unfold safeCompress; rw [h1.1]; rfl
        have e2 : safeCompress goVerdict H N = compress H N := by unfold safeCompress; rw [hg]; rfl
        simp only [safeChain]
        rw [e1, e2]
        refine ih (compress H N) (e1 ▸ h1.2) (fun pr M po hq => ?_) pre post hp
        have := h2 (N :: pr) M po (by rw [hq]; rfl)
        simp only [safeChain] at this
        rwa [e2] at this
  obtain ⟨pre, post, hp⟩ := List.append_of_mem hM
  have hs := hgen pre M post hp k dv hk hT hu
  rw [← hsame _ H0 hcu hunf pre (M :: post) hp] at hs
  have := hi.mpr ⟨pre, M, post, hp, k, dv, hk, hu, hs⟩
  rw [hcf] at this; exact absurd this (by decide)

/-- C23 for the C library, at every step: if the C code, working on the second message from chaining value `H'`,
stores its five variables after `T` of its eighty step macros, the recompression from what it stored returns `H'` and
the compression of the second message from `H'`.  (The recompression functions for steps other than 58 and 65
are in the source and are not compiled.) -/
theorem C23_c_recompression (T : Nat) (hT : T ≤ 80) (H' : Regs) (me2 : Fin 80 → Word) (W : Nat → Word)
    (hW : ∀ i : Fin 80, W i = me2 i) :
    ∃ v, runW me2 (stepsW.take T) (Env.of H') = .ok v ∧
      sha1recompress_fast T me2 v.regs = .ok (H', H'.add (steps W 80 H')) := by
  obtain ⟨v, h1, h2⟩ := runW_spec me2 W hW T 0 (Env.of H') (by omega)
  have ht : stepsW.take T = (List.range' 0 T).map stepAt := by
    rw [stepsW_eq, ← List.map_take]
    have e : List.range' 0 80 = List.range' 0 T ++ List.range' (0 + T) (80 - T) := by
      rw [List.range'_append_1, show T + (80 - T) = 80 by omega]
    rw [e, List.take_left' List.length_range']
  refine ⟨v, by rw [ht]; exact h1, ?_⟩
  rw [Nat.zero_add, view_zero, regs_of, ← steps_eq_run] at h2
  obtain ⟨H'', h3, h4⟩ := recompress_spec T hT me2 W hW v.regs
  rw [of_regs, h2] at h3 h4
  have e : H'' = H' := steps_inj W T h4
  rw [e] at h3
  rw [h3, ← steps_add, show T + (80 - T) = 80 by omega]

/-- Instance: 30 steps of the all-zero message from the chaining value of SHA-1. -/
example : ∃ v, runW (fun _ => 0) (stepsW.take 30) (Env.of H0) = .ok v ∧ v.regs ≠ H0 ∧
    sha1recompress_fast 30 (fun _ => 0) v.regs = .ok (H0, H0.add (steps (fun _ => 0) 80 H0)) := by
  obtain ⟨v, h1, h2⟩ := C23_c_recompression 30 (by decide) H0 (fun _ => 0) (fun _ => 0) (fun _ => rfl)
  refine ⟨v, h1, fun h => ?_, h2⟩
  obtain ⟨v', h3, h4⟩ := runW_spec (fun _ => 0) (fun _ => 0) (fun _ => rfl) 30 0 (Env.of H0) (by omega)
  have e : v = v' := by
    have : stepsW.take 30 = (List.range' 0 30).map stepAt := by decide
    rw [this, h3] at h1
    exact (Except.ok.inj h1).symm
  rw [← e, show v = Env.of v.regs from (of_regs v).symm, h] at h4
  revert h4
  decide +kernel

/-- C19 at the level of the recompression tests, for all data: given the state before step 58 reached by the second
message `W = m1 ^ dm` from a chaining value `H'`, the C code reconstructs `H'` and its compression output; the Go code,
given the same state and that output, answers no unless the five working variables are all equal.  (The C code keeps
the working variables under rotating names: before step 58 they are in `c, d, e, a, b`.) -/
theorem C19_recompression_differs (m1 dm : Fin 80 → Word) (H' : Regs) (W : Nat → Word)
    (hW : ∀ i : Fin 80, W i = m1 i ^^^ dm i) (s : Regs) (hs : s = steps W 58 H') :
    sha1_recompression_step 58 (fun i => m1 i ^^^ dm i) ⟨s.d, s.e, s.a, s.b, s.c⟩ =
      .ok (H', H'.add (steps W 80 H')) ∧
    (hasCollided 58 m1 dm s (H'.add (steps W 80 H')) = true ↔ s.a = s.b ∧ s.b = s.c ∧ s.c = s.d ∧ s.d = s.e) := by
  subst hs
  refine ⟨?_, C23_T58_refuted m1 dm H' W hW⟩
  generalize hg : steps W 58 H' = s
  obtain ⟨H'', r, e⟩ := recomp_step_spec 58 (.inl rfl) (fun i => m1 i ^^^ dm i) W hW ⟨s.d, s.e, s.a, s.b, s.c⟩
  have hv : view 58 (Env.of ⟨s.d, s.e, s.a, s.b, s.c⟩) = s := rfl
  rw [hv] at r e
  have : H'' = H' := steps_inj W 58 (e.trans hg.symm)
  rw [r, this]
  have h80 : steps W 80 H' = runSteps W 58 22 s := by rw [← hg, ← steps_add]
  rw [h80]

/-- The expanded difference of I(43,0), the first vector of the list, on a message of zeros. -/
def w43 : Nat → Word := fun t => if h : t < 80 then 0 ^^^ dv0.Dm ⟨t, h⟩ else 0

/-- Instance with a real vector, I(43,0): on the same data the C test says yes and the Go test says no. -/
theorem C19_recompression_differs_I43 : ∃ (m1 : Fin 80 → Word) (s h : Regs) (H' : Regs),
    sha1_recompression_step 58 (fun i => m1 i ^^^ dv0.Dm i) ⟨s.d, s.e, s.a, s.b, s.c⟩ = .ok (H', h) ∧
    hasCollided 58 m1 dv0.Dm s h = false := by
  obtain ⟨h1, h2⟩ := C19_recompression_differs (fun _ => 0) dv0.Dm H0 w43
    (fun i => by simp only [w43, dif_pos i.isLt]) _ rfl
  refine ⟨_, _, _, _, h1, Bool.eq_false_iff.mpr fun h => ?_⟩
  have := (h2.mp h).1
  revert this
  decide +kernel

/-! ### C27: without cgo -/

/-- C27: built without cgo, `Sum`, `New` and `CalculateDvMask` of package cgo return what packages sha1cd and ubc
return. -/
theorem C27_fallback (B : Build) :
    (∀ m, Cgo.Fallback.sumPkg B.block m = sumPkg B.block .callFirst m) ∧
    (∀ ops, Cgo.Fallback.new.run B.block ops = new.run B.block ops) ∧
    (∀ W, Cgo.Fallback.calculateDvMask W = Model.Ubc.calculateDvMask W) := by
  refine ⟨fun m => ?_, fun _ => rfl, fun _ => rfl⟩
  obtain ⟨d, w, h⟩ := (holds_new goVerdict).write (build_impl B) m
  rw [sumPkg_call (build_impl B)]
  unfold Cgo.Fallback.sumPkg
  simp only [w, crs_spec B.block goVerdict (build_impl B) d h.1, h.finish, bind, Except.bind, pure, Except.pure,
    List.nil_append]

/-- Instance. -/
example (B : Build) : Cgo.Fallback.sumPkg B.block shattered1 = .ok (shatteredDigest1, true) := by
  rw [(C27_fallback B).1, C14_safe_hash, shattered1_hash]

end Verif.Props
