import Verif.Proofs.Witness

/-!
The hash object as a function of the bytes written: C01–C06, C13–C15, C24, C26.

`new.run B.block ops` is the sequence of API calls `ops` on a hash fresh from `New` in build `B`;
`.ok (d, outs)` means that none panicked, the calls returned `outs` and the object is now `d`.
-/

namespace Verif.Props

open Verif Verif.Model Verif.Spec

/-- The verdict of the Go implementation on a block (see `Spec/Detect`). -/
noncomputable abbrev goVerdict : Regs → Block → Bool := verdict GoDetected

theorem build_impl (B : Build) : BlockImpl B.block goVerdict := by
  have := B.impl
  rwa [detGo_eq] at this

/-- The central refinement: every history of calls other than `UnmarshalBinary` on a new hash succeeds
and returns exactly what the message-level specification prescribes. -/
theorem object_refines (B : Build) (ops : List Op) (h : ∀ op ∈ ops, isRestore op = false) :
    ∃ d, new.run B.block ops = .ok (d, results goVerdict [] ops) := by
  obtain ⟨d, r, _⟩ := (holds_new goVerdict).run (build_impl B) ops h
  exact ⟨d, r⟩

/-- Instance: "abc" unflagged, then a reset, then the first five blocks of shattered-1.pdf, flagged. -/
example (B : Build) : ∃ d, new.run B.block [.write abc, .collisionResistantSum [], .reset, .write shattered1,
      .sum [7], .collisionResistantSum []] =
    .ok (d, [.write 3 none, .collisionResistantSum abcDigest false, .reset, .write 320 none,
      .sum (7 :: shatteredDigest1), .collisionResistantSum shatteredDigest1 true]) := by
  obtain ⟨d, h⟩ := object_refines B [.write abc, .collisionResistantSum [], .reset, .write shattered1,
      .sum [7], .collisionResistantSum []] (by simp [isRestore])
  refine ⟨d, h.trans ?_⟩
  simp only [results, result, msgAfter, List.nil_append, List.cons_append, abc_hash, shattered1_hash]
  have h1 : abc.length = 3 := rfl
  have h2 : shattered1.length = 320 := by decide +kernel
  rw [h1, h2]

/-- C01, streaming: if no collision is reported, the digest is SHA-1 of the bytes written since the last
reset, whatever else happened before. -/
theorem C01_unflagged_is_sha1 (B : Build) (ops : List Op) (h : ∀ op ∈ ops, isRestore op = false)
    (d d' : Digest) (outs : List Out) (D : List Byte)
    (hr : new.run B.block ops = .ok (d, outs))
    (hs : d.collisionResistantSum B.block [] = .ok (d', D, false)) : D = sha1 (msgOf ops) := by
  obtain ⟨e, r, he⟩ := (holds_new goVerdict).run (build_impl B) ops h
  rw [hr] at r
  cases r
  rw [crs_spec B.block goVerdict (build_impl B) d he.1, he.finish] at hs
  simp only [List.nil_append, Except.ok.injEq, Prod.mk.injEq] at hs
  rw [← hs.2.1]
  exact safeHash_unflagged goVerdict (msgOf ops) hs.2.2

/-- Instance: the hypotheses hold for "abc" written in two pieces. -/
example (B : Build) : ∃ d outs, new.run B.block [.write [0x61], .sum [], .write [0x62, 0x63]] = .ok (d, outs) ∧
    d.collisionResistantSum B.block [] = .ok (d, abcDigest, false) := by
  obtain ⟨d, r, h⟩ := (holds_new goVerdict).run (build_impl B) [.write [0x61], .sum [], .write [0x62, 0x63]]
    (by simp [isRestore])
  refine ⟨d, _, r, ?_⟩
  rw [crs_spec B.block goVerdict (build_impl B) d h.1, h.finish]
  exact congrArg (fun r => Except.ok (d, [] ++ r.1, r.2)) abc_hash

/-- C01, one-shot. -/
theorem C01_sum_unflagged_is_sha1 (B : Build) (m D : List Byte)
    (h : sumPkg B.block .callFirst m = .ok (D, false)) : D = sha1 m := by
  rw [sumPkg_call (build_impl B)] at h
  simp only [Except.ok.injEq] at h
  have h1 := congrArg Prod.fst h
  have h2 := congrArg Prod.snd h
  simp only at h1 h2
  rw [← h1]
  exact safeHash_unflagged goVerdict m h2

/-- Instance. -/
example (B : Build) : sumPkg B.block .callFirst abc = .ok (abcDigest, false) := by
  rw [sumPkg_call (build_impl B), abc_hash]

example : abcDigest = sha1 abc := C01_sum_unflagged_is_sha1 .noasm abc abcDigest (by
  rw [sumPkg_call (build_impl .noasm), abc_hash])

/-- C02: any division into `Write` calls gives the result of the one-shot `Sum`. -/
theorem C02_chunking (B : Build) (ps : List (List Byte)) :
    ∃ d D c, new.run B.block (ps.map .write) = .ok (d, ps.map fun p => .write p.length none) ∧
      (∀ inp, d.collisionResistantSum B.block inp = .ok (d, inp ++ D, c)) ∧
      (∀ inp, d.sum B.block inp = .ok (d, inp ++ D)) ∧
      sumPkg B.block .callFirst ps.flatten = .ok (D, c) := by
  obtain ⟨d, r, h⟩ := run_writes (build_impl B) ps (holds_new goVerdict)
  refine ⟨d, (safeHash goVerdict ps.flatten).1, (safeHash goVerdict ps.flatten).2, r, ?_, ?_, ?_⟩
  · intro inp
    rw [crs_spec B.block goVerdict (build_impl B) d h.1, h.finish]; rfl
  · intro inp
    rw [sum_spec B.block goVerdict (build_impl B) d h.1, h.finish]; rfl
  · exact sumPkg_call (build_impl B) _

/-- C03: inserting an observing call anywhere in any history (restores included) changes neither the
other results nor the final object. -/
theorem C03_observers_pure (B : Build) (pre post : List Op) (op : Op) (hop : isObserver op = true) :
    ∃ d o1 x o2, o1.length = pre.length ∧
      new.run B.block (pre ++ post) = .ok (d, o1 ++ o2) ∧
      new.run B.block (pre ++ op :: post) = .ok (d, o1 ++ x :: o2) := by
  obtain ⟨d1, _, o1, _, r1, _, s1, _, _⟩ :=
    run_sim B.block B.block _ (build_impl B) (build_impl B) pre (Sim.refl new_inv).1
  obtain ⟨d2, _, o2, _, r2, _, s2, _, _⟩ :=
    run_sim B.block B.block _ (build_impl B) (build_impl B) post (Sim.refl s1.inv1).1
  have hc : ∃ x, d1.call B.block op = .ok (d1, x) := by
    cases op with
    | sum inp =>
      refine ⟨.sum (inp ++ (finish goVerdict d1).1), ?_⟩
      simp [Digest.call, sum_spec _ _ (build_impl B) d1 s1.inv1, bind, Except.bind, pure, Except.pure]
    | collisionResistantSum inp =>
      refine ⟨.collisionResistantSum (inp ++ (finish goVerdict d1).1) (finish goVerdict d1).2, ?_⟩
      simp [Digest.call, crs_spec _ _ (build_impl B) d1 s1.inv1, bind, Except.bind, pure, Except.pure]
    | marshalBinary =>
      refine ⟨.marshalBinary (encode d1.h ((absD d1).buf ++ List.replicate (64 - d1.nx) 0) d1.len) none, ?_⟩
      simp [Digest.call, marshal_spec d1 (Nat.le_of_lt s1.inv1.lt), bind, Except.bind, pure, Except.pure]
    | size => exact ⟨_, rfl⟩
    | blockSize => exact ⟨_, rfl⟩
    | write p => simp [isObserver] at hop
    | reset => simp [isObserver] at hop
    | unmarshalBinary b => simp [isObserver] at hop
  obtain ⟨x, hx⟩ := hc
  refine ⟨d2, o1, x, o2, run_length _ _ _ _ _ r1, ?_, ?_⟩
  · rw [run_append]
    simp [r1, r2, bind, Except.bind, pure, Except.pure]
  · rw [run_append]
    simp [r1, Digest.run, hx, r2, bind, Except.bind, pure, Except.pure]

/-- C04: after `Reset`, every history gives the results it gives on a new hash.  `d` is arbitrary: not
even reachability is assumed. -/
theorem C04_reset_is_new (B : Build) (d : Digest) (ops : List Op) :
    ∃ d1 d2 outs, d.reset.run B.block ops = .ok (d1, outs) ∧ new.run B.block ops = .ok (d2, outs) := by
  have hs : SimD d.reset new := ⟨rfl, rfl, rfl, by simp [absD, Digest.reset, new], rfl⟩
  obtain ⟨d1, d2, o1, o2, r1, r2, _, _, hc⟩ :=
    run_sim B.block B.block _ (build_impl B) (build_impl B) ops hs
  obtain ⟨_, e⟩ := hc rfl
  exact ⟨d1, d2, o1, r1, e ▸ r2⟩

/-- C05: after any history `Write(p)` returns `(len(p), nil)`. -/
theorem C05_write_accepts (B : Build) (ops : List Op) (d : Digest) (outs : List Out)
    (h : new.run B.block ops = .ok (d, outs)) (p : List Byte) :
    ∃ d', d.write B.block p = .ok (d', p.length, none) := by
  obtain ⟨d', e, _⟩ := write_spec B.block _ (build_impl B) d (reach_inv _ _ (build_impl B) ops d outs h) p
  exact ⟨d', e⟩

/-- Instance: after a history that includes a restore of attacker-chosen bytes. -/
example (B : Build) : ∃ d outs, new.run B.block
    [.write shattered1, .unmarshalBinary (checkpoint H0 [] (-1)), .write [1], .marshalBinary] = .ok (d, outs) := by
  obtain ⟨d, _, o, _, r, _⟩ :=
    run_sim B.block B.block _ (build_impl B) (build_impl B)
      [.write shattered1, .unmarshalBinary (checkpoint H0 [] (-1)), .write [1], .marshalBinary]
      (Sim.refl new_inv).1
  exact ⟨d, o, r⟩

/-- C06: no history of calls panics, whatever bytes are given to `UnmarshalBinary`. -/
theorem C06_no_panic (B : Build) (ops : List Op) : ∃ d outs, new.run B.block ops = .ok (d, outs) := by
  obtain ⟨d, _, o, _, r, _⟩ :=
    run_sim B.block B.block _ (build_impl B) (build_impl B) ops (Sim.refl new_inv).1
  exact ⟨d, o, r⟩

/-- C06 for the package-level function. -/
theorem C06_sum_no_panic (B : Build) (o : EvalOrder) (m : List Byte) :
    ∃ D c, sumPkg B.block o m = .ok (D, c) := by
  obtain ⟨d, w, h⟩ := (holds_reset goVerdict Digest.zero).write (build_impl B) m
  obtain ⟨d', e, _⟩ := checkSum_spec B.block _ (build_impl B) d h.1
  unfold sumPkg
  simp only [w, e, bind, Except.bind, pure, Except.pure]
  exact ⟨_, _, rfl⟩

/-- C13: the flag is true iff some block of the padded message is judged colliding at the chaining value
that reaches it. -/
theorem C13_flag_is_blockwise (B : Build) (m D : List Byte) (c : Bool)
    (h : sumPkg B.block .callFirst m = .ok (D, c)) :
    c = true ↔ ∃ pre M post, blocks (pad m) = pre ++ M :: post ∧
      GoDetected (safeChain goVerdict H0 pre).1 M := by
  rw [sumPkg_call (build_impl B)] at h
  have h2 : (safeHash goVerdict m).2 = c := congrArg Prod.snd (Except.ok.inj h)
  rw [← h2]
  simp only [safeHash, safeChain_flag, verdict_iff]

/-- Instance: both truth values occur. -/
example (B : Build) : sumPkg B.block .callFirst shattered1 = .ok (shatteredDigest1, true) ∧
    sumPkg B.block .callFirst abc = .ok (abcDigest, false) := by
  rw [sumPkg_call (build_impl B), sumPkg_call (build_impl B), abc_hash, shattered1_hash]; exact ⟨rfl, rfl⟩

example : blocks (pad shattered1) = shPre1 ++ shM1 :: shPost1 ∧
    GoDetected (safeChain goVerdict H0 shPre1).1 shM1 := by
  rw [sh_chain1]; exact ⟨sh_pad1, sh_detected1⟩

/-- C13 and C14 for the object: after any history without restores, `CollisionResistantSum` appends the digest of
the bytes written since the last reset, in which flagged blocks are compressed three times, and its flag is true iff
some block of those bytes plus padding is judged colliding at the chaining value that reaches it. -/
theorem C13_history (B : Build) (ops : List Op) (h : ∀ op ∈ ops, isRestore op = false)
    (d d' : Digest) (outs : List Out) (inp D : List Byte) (c : Bool)
    (hr : new.run B.block ops = .ok (d, outs))
    (hs : d.collisionResistantSum B.block inp = .ok (d', D, c)) :
    D = inp ++ (safeHash goVerdict (msgOf ops)).1 ∧
    (c = true ↔ ∃ pre M post, blocks (pad (msgOf ops)) = pre ++ M :: post ∧
      GoDetected (safeChain goVerdict H0 pre).1 M) := by
  obtain ⟨d0, r, he⟩ := (holds_new goVerdict).run (build_impl B) ops h
  rw [hr] at r
  cases r
  rw [crs_spec B.block goVerdict (build_impl B) d he.1, he.finish] at hs
  have e := Except.ok.inj hs
  refine ⟨(congrArg (fun x => x.2.1) e).symm, ?_⟩
  rw [← show (safeHash goVerdict (msgOf ops)).2 = c from congrArg (fun x => x.2.2) e]
  simp only [safeHash, safeChain_flag, verdict_iff]

/-- Instance: the hypotheses hold for a history with a reset whose last message is flagged. -/
example (B : Build) : ∃ d outs, new.run B.block [.write abc, .reset, .write shattered1, .sum []] = .ok (d, outs) ∧
    d.collisionResistantSum B.block [7] = .ok (d, 7 :: shatteredDigest1, true) := by
  obtain ⟨d, r, he⟩ := (holds_new goVerdict).run (build_impl B) [.write abc, .reset, .write shattered1, .sum []]
    (by simp [isRestore])
  refine ⟨d, _, r, ?_⟩
  rw [crs_spec B.block goVerdict (build_impl B) d he.1, he.finish]
  have : ([.write abc, .reset, .write shattered1, .sum []] : List Op).foldl msgAfter [] = shattered1 := rfl
  rw [this, shattered1_hash]; rfl

/-- C14: the digest is the chain that compresses unflagged blocks once and flagged blocks three times. -/
theorem C14_safe_hash (B : Build) (m : List Byte) :
    sumPkg B.block .callFirst m = .ok (safeHash goVerdict m) := sumPkg_call (build_impl B) m

/-- Instance: three compressions of the fifth block, and a digest that is not SHA-1's. -/
example (B : Build) : sumPkg B.block .callFirst shattered1 = .ok (shatteredDigest1, true) ∧
    shatteredDigest1 ≠ sha1 shattered1 := by
  rw [C14_safe_hash, shattered1_hash]; exact ⟨rfl, shattered_sha1_ne.1.symm⟩

/-- C15: once a complete block of the data is judged colliding, every later `CollisionResistantSum`
reports it, until `Reset` (an `UnmarshalBinary` in between does not clear it either). -/
theorem C15_flag_stays (B : Build) (ops : List Op) (h : ∀ op ∈ ops, isRestore op = false)
    (d : Digest) (outs : List Out) (hr : new.run B.block ops = .ok (d, outs))
    (pre post : List Block) (M : Block) (hb : blocks (msgOf ops) = pre ++ M :: post)
    (hM : GoDetected (safeChain goVerdict H0 pre).1 M)
    (later : List Op) (hl : ∀ op ∈ later, op ≠ .reset) :
    ∃ d' outs', d.run B.block later = .ok (d', outs') ∧
      (∀ b c, .collisionResistantSum b c ∈ outs' → c = true) ∧
      ∀ inp, ∃ D, d'.collisionResistantSum B.block inp = .ok (d', D, true) := by
  obtain ⟨e, r, he⟩ := (holds_new goVerdict).run (build_impl B) ops h
  rw [hr] at r
  cases r
  have hcol : d.col = true := by
    have h1 := congrArg Sp.col he.2.2
    have h2 : (safeChain goVerdict H0 (blocks (msgOf ops))).2 = true :=
      (safeChain_flag _ _ _).mpr ⟨pre, M, post, hb, (verdict_iff _ _ _).mpr hM⟩
    simp only [Sp.absorb, absD, List.nil_append, Bool.false_or] at h1
    rw [h1]; exact h2
  have hfin : ∀ d : Digest, d.col = true → (finish goVerdict d).2 = true := by
    intro d hd; simp [finish, Sp.absorb, absD, hd]
  have key : ∀ (later : List Op) (d : Digest), (∀ op ∈ later, op ≠ .reset) → DInv d → d.col = true →
      ∃ d' outs', d.run B.block later = .ok (d', outs') ∧ DInv d' ∧ d'.col = true ∧
      (∀ b c, Out.collisionResistantSum b c ∈ outs' → c = true) := by
    intro later
    induction later with
    | nil => intro d _ hi hc; exact ⟨d, [], rfl, hi, hc, by simp⟩
    | cons op later ih =>
      intro d hne hi hc
      have hstep : ∃ d1 o, d.call B.block op = .ok (d1, o) ∧ DInv d1 ∧ d1.col = true ∧
          (∀ b c, o = Out.collisionResistantSum b c → c = true) := by
        obtain ⟨d1, _, o, _, c1, _, s1, _, _⟩ :=
          call_sim B.block B.block _ (build_impl B) (build_impl B) (Sim.refl hi).1 op
        refine ⟨d1, o, c1, s1.inv1, ?_⟩
        cases op with
        | write p =>
          obtain ⟨d2, w, _, _, a⟩ := write_spec B.block _ (build_impl B) d hi p
          simp only [Digest.call, w, bind, Except.bind, pure, Except.pure, Except.ok.injEq,
            Prod.mk.injEq] at c1
          have h1 := congrArg Sp.col a
          simp only [absD, Sp.absorb, hc, Bool.true_or] at h1
          rw [← c1.1, ← c1.2]
          exact ⟨h1, by simp⟩
        | sum inp =>
          simp only [Digest.call, sum_spec _ _ (build_impl B) d hi, bind, Except.bind, pure, Except.pure,
            Except.ok.injEq, Prod.mk.injEq] at c1
          rw [← c1.1, ← c1.2]
          exact ⟨hc, by simp⟩
        | collisionResistantSum inp =>
          simp only [Digest.call, crs_spec _ _ (build_impl B) d hi, bind, Except.bind, pure, Except.pure,
            Except.ok.injEq, Prod.mk.injEq] at c1
          rw [← c1.1, ← c1.2]
          refine ⟨hc, ?_⟩
          intro b c hbc
          simp only [Out.collisionResistantSum.injEq] at hbc
          rw [← hbc.2]
          exact hfin d hc
        | reset => exact absurd rfl (hne .reset (by simp))
        | size => cases c1; exact ⟨hc, by simp⟩
        | blockSize => cases c1; exact ⟨hc, by simp⟩
        | marshalBinary =>
          simp only [Digest.call, marshal_spec d (Nat.le_of_lt hi.lt), bind, Except.bind, pure,
            Except.pure, Except.ok.injEq, Prod.mk.injEq] at c1
          rw [← c1.1, ← c1.2]
          exact ⟨hc, by simp⟩
        | unmarshalBinary b =>
          simp only [Digest.call, Digest.unmarshalBinary] at c1
          split at c1
          · cases c1; exact ⟨hc, by simp⟩
          · rename_i hm
            split at c1
            · cases c1; exact ⟨hc, by simp⟩
            · rename_i hl
              obtain ⟨H, x, len, hx, rfl⟩ := parse b (Decidable.not_not.mp hl)
                (Decidable.byContradiction fun hne => hm (.inr hne))
              have hu := unmarshal_encode d H x len hx
              unfold Digest.unmarshalBinary at hu
              rw [if_neg hm, if_neg hl] at hu
              rw [hu] at c1
              simp only [bind, Except.bind, pure, Except.pure, Except.ok.injEq, Prod.mk.injEq] at c1
              rw [← c1.1, ← c1.2]
              exact ⟨hc, by simp⟩
      obtain ⟨d1, o, c1, i1, k1, f1⟩ := hstep
      obtain ⟨d2, os, r2, i2, k2, f2⟩ := ih d1 (fun o ho => hne o (by simp [ho])) i1 k1
      refine ⟨d2, o :: os, ?_, i2, k2, ?_⟩
      · simp [Digest.run, c1, r2, bind, Except.bind, pure, Except.pure]
      · intro b c hm
        rcases List.mem_cons.mp hm with hm | hm
        · exact f1 b c hm.symm
        · exact f2 b c hm
  obtain ⟨d', outs', r, i, k, f⟩ := key later d hl he.1 hcol
  refine ⟨d', outs', r, f, fun inp => ⟨inp ++ (finish goVerdict d').1, ?_⟩⟩
  rw [crs_spec _ _ (build_impl B) d' i, hfin d' k]

/-- Instance: the hypotheses hold after writing the first five blocks of shattered-1.pdf. -/
example : (∀ op ∈ [Op.write shattered1], isRestore op = false) ∧
    blocks (msgOf [.write shattered1]) = shPre1 ++ shM1 :: [] ∧
    GoDetected (safeChain goVerdict H0 shPre1).1 shM1 := by
  refine ⟨by simp [isRestore], sh_blocks1, ?_⟩
  rw [sh_chain1]; exact sh_detected1

/-- C24: the length recorded is the number of bytes written modulo 2^64, starting from any restored length
`len`; the padding encodes eight times that modulo 2^64; no total length panics. -/
theorem C24_length_mod (B : Build) (H : Regs) (x : List Byte) (hx : x.length = 64) (len : Word64)
    (ps : List (List Byte)) :
    ∃ d,
      new.run B.block (.unmarshalBinary (checkpoint H x len) :: ps.map .write) =
        .ok (d, .unmarshalBinary none :: ps.map fun p => .write p.length none) ∧
      (∃ H' pend, pend.length = (len.toNat + ps.flatten.length) % 64 ∧
        d.marshalBinary = .ok (d, checkpoint H' pend (len + BitVec.ofNat 64 ps.flatten.length))) ∧
      ∀ inp, d.sum B.block inp = .ok (d, inp ++ digestBytes
        (safeChain goVerdict H (blocks (x.take (len.toNat % 64) ++ ps.flatten ++
          0x80 :: List.replicate (zeroPad (len.toNat + ps.flatten.length)) 0 ++
          word64Bytes (8 * (len + BitVec.ofNat 64 ps.flatten.length))))).1) := by
  have hck : checkpoint H x len = encode H x len := by
    rw [← encode_checkpoint H x 64 hx]; simp
  have hu := unmarshal_encode new H x len hx
  generalize hd0 : ({ new with h := H, x := ⟨x, hx⟩, len := len, nx := (len % 64).toNat } : Digest) = d0 at hu
  have hi0 : DInv d0 := by rw [← hd0]; rfl
  have ha0 : absD d0 = ⟨H, x.take (len.toNat % 64), false⟩ := by
    rw [← hd0]; simp [absD, BitVec.toNat_umod, new, Digest.reset]
  have hl0 : d0.len = len := by rw [← hd0]
  have key : ∀ (ps : List (List Byte)) (d : Digest), DInv d →
      ∃ d', d.run B.block (ps.map .write) = .ok (d', ps.map fun p => .write p.length none) ∧ DInv d' ∧
        d'.len = d.len + BitVec.ofNat 64 ps.flatten.length ∧
        absD d' = (absD d).absorb goVerdict ps.flatten := by
    intro ps
    induction ps with
    | nil =>
      intro d hi
      refine ⟨d, rfl, hi, by simp, ?_⟩
      rw [List.flatten_nil, Sp.absorb_short _ _ _ (by
        simpa [absD_buf_length d (Nat.le_of_lt hi.lt)] using hi.lt)]
      simp
    | cons p ps ih =>
      intro d hi
      obtain ⟨d1, w, i1, l1, a1⟩ := write_spec B.block _ (build_impl B) d hi p
      obtain ⟨d2, r, i2, l2, a2⟩ := ih d1 i1
      refine ⟨d2, ?_, i2, ?_, ?_⟩
      · simp [Digest.run, Digest.call, w, r, bind, Except.bind, pure, Except.pure]
      · rw [l2, l1, List.flatten_cons, List.length_append, BitVec.ofNat_add, BitVec.add_assoc]
      · rw [a2, a1, Sp.absorb_append, List.flatten_cons]
  obtain ⟨d, r, hi, hl, ha⟩ := key ps d0 hi0
  rw [hl0] at hl
  refine ⟨d, ?_, ?_, ?_⟩
  · simp [Digest.run, Digest.call, hck, hu, r, bind, Except.bind, pure, Except.pure]
  · refine ⟨d.h, (absD d).buf, ?_, ?_⟩
    · rw [absD_buf_length d (Nat.le_of_lt hi.lt), hi, hl, toNat_len_add]
    · rw [marshal_spec d (Nat.le_of_lt hi.lt),
        encode_checkpoint _ _ _ (absD_buf_length d (Nat.le_of_lt hi.lt)), hl]
  · intro inp
    rw [sum_spec _ _ (build_impl B) d hi]
    unfold finish
    rw [ha, Sp.absorb_append, ha0, hl]
    simp only [Sp.absorb]
    have hz : zeroPad (len + BitVec.ofNat 64 ps.flatten.length).toNat =
        zeroPad (len.toNat + ps.flatten.length) := by
      unfold zeroPad; simp
    have hs : (len + BitVec.ofNat 64 ps.flatten.length) <<< 3 =
        8 * (len + BitVec.ofNat 64 ps.flatten.length) := by
      apply BitVec.eq_of_toNat_eq
      simp [Nat.shiftLeft_eq]
      omega
    simp only [padTail, hz, hs, List.append_assoc]

/-- C26, call-first evaluation order: `Sum` agrees with streaming. -/
theorem C26_oneshot (B : Build) (m : List Byte) :
    ∃ d d' n D c, new.write B.block m = .ok (d, n, none) ∧
      d.collisionResistantSum B.block [] = .ok (d', D, c) ∧
      sumPkg B.block .callFirst m = .ok (D, c) := by
  obtain ⟨d, w, h⟩ := (holds_new goVerdict).write (build_impl B) m
  refine ⟨d, d, _, (safeHash goVerdict m).1, (safeHash goVerdict m).2, w, ?_, sumPkg_call (build_impl B) m⟩
  rw [crs_spec B.block goVerdict (build_impl B) d h.1, h.finish]; rfl

/-- C26 for any history without restores: the object gives what the one-shot `Sum` gives on the bytes written since
the last reset. -/
theorem C26_history (B : Build) (ops : List Op) (h : ∀ op ∈ ops, isRestore op = false)
    (d : Digest) (outs : List Out) (hr : new.run B.block ops = .ok (d, outs)) :
    ∃ D c, sumPkg B.block .callFirst (msgOf ops) = .ok (D, c) ∧
      (∀ inp, d.collisionResistantSum B.block inp = .ok (d, inp ++ D, c)) ∧
      ∀ inp, d.sum B.block inp = .ok (d, inp ++ D) := by
  obtain ⟨d0, r, he⟩ := (holds_new goVerdict).run (build_impl B) ops h
  rw [hr] at r
  cases r
  refine ⟨_, _, sumPkg_call (build_impl B) _, fun inp => ?_, fun inp => ?_⟩
  · rw [crs_spec B.block goVerdict (build_impl B) d he.1, he.finish]; rfl
  · rw [sum_spec B.block goVerdict (build_impl B) d he.1, he.finish]; rfl

/-- C26, either order: the digest always agrees; the flag agrees unless the only colliding blocks are
padding blocks (those not wholly made of message bytes), in which case reading the flag first loses it.  Missing:
equality of the flags in that order, which fails on any message of that kind. -/
theorem C26_oneshot_any_order_partial (B : Build) (m : List Byte) :
    sumPkg B.block .fieldFirst m =
      .ok ((safeHash goVerdict m).1, (safeChain goVerdict H0 (blocks m)).2) := by
  obtain ⟨d, w, h⟩ := (holds_reset goVerdict Digest.zero).write (build_impl B) m
  obtain ⟨d', e, ha⟩ := checkSum_spec B.block goVerdict (build_impl B) d h.1
  have hf := h.finish
  unfold sumPkg
  simp only [w, e, bind, Except.bind, pure, Except.pure]
  rw [List.nil_append] at hf
  have hc : d.col = (safeChain goVerdict H0 (blocks m)).2 := by
    have := congrArg Sp.col h.2.2
    simpa [Sp.absorb, absD] using this
  rw [← hf, hc]
  unfold finish
  rw [← ha]
  rfl

end Verif.Props
