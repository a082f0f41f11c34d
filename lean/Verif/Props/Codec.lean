import Verif.Props.Stream

/-! Checkpoints: C07–C10. -/

namespace Verif.Props

open Verif Verif.Model Verif.Spec

/-- Dropping the collision flag from a result. -/
def withoutFlag : Out → Out
  | .collisionResistantSum b _ => .collisionResistantSum b false
  | o => o

theorem withoutFlag_eq : withoutFlag = eraseFlag := by
  funext o; cases o <;> rfl

theorem checkpoint_eq_encode (H : Regs) (p : List Byte) (hp : p.length ≤ 64) (len : Word64) :
    checkpoint H p len = encode H (p ++ List.replicate (64 - p.length) 0) len ∧
      (p ++ List.replicate (64 - p.length) (0 : Byte)).length = 64 :=
  ⟨(encode_checkpoint H p _ rfl len).symm, by simp; omega⟩

theorem encode_inj {H H' : Regs} {x x' : List Byte} {len len' : Word64} (hx : x.length = 64)
    (hx' : x'.length = 64) (h : encode H x len = encode H' x' len') : H = H' ∧ x = x' ∧ len = len' := by
  have h1 := unmarshal_encode new H x len hx
  rw [h, unmarshal_encode new H' x' len' hx'] at h1
  simp only [Except.ok.injEq, Prod.mk.injEq, Digest.mk.injEq, and_true] at h1
  exact ⟨h1.1.symm, (congrArg Subtype.val h1.2.1).symm, h1.2.2.2.symm⟩

/-- The object after a restore from a marshalled object is similar to that object. -/
theorem restore_sim (d e : Digest) (hd : DInv d) :
    ∃ b e', d.marshalBinary = .ok (d, b) ∧ e.unmarshalBinary b = .ok (e', none) ∧ SimD d e' ∧
      e'.col = e.col := by
  have hle := Nat.le_of_lt hd.lt
  have hbl := absD_buf_length d hle
  refine ⟨_, _, marshal_spec d hle, unmarshal_encode e _ _ _ (by simp [hbl]; omega), ⟨hd, rfl, rfl, ?_, rfl⟩,
    rfl⟩
  have hnx : (d.len % 64).toNat = (absD d).buf.length := by rw [hbl, hd]
  simp only [absD, hnx]
  exact List.take_left.symm

/-- C07: a checkpoint taken after any history and restored into any hash object, of the same build or another one,
succeeds, and from then on both objects return the same results for every later history, up to the collision
flag. -/
theorem C07_checkpoint_digest (B B' : Build) (ops : List Op) (d : Digest) (outs : List Out)
    (h : new.run B.block ops = .ok (d, outs)) (e : Digest) :
    ∃ b e', d.marshalBinary = .ok (d, b) ∧ e.unmarshalBinary b = .ok (e', none) ∧
      ∀ later, ∃ d1 d2 o1 o2, d.run B.block later = .ok (d1, o1) ∧ e'.run B'.block later = .ok (d2, o2) ∧
        o1.map withoutFlag = o2.map withoutFlag := by
  obtain ⟨b, e', hm, hu, hs, _⟩ := restore_sim d e (reach_inv _ _ (build_impl B) ops d outs h)
  refine ⟨b, e', hm, hu, fun later => ?_⟩
  obtain ⟨d1, d2, o1, o2, r1, r2, _, ho, _⟩ :=
    run_sim B.block B'.block _ (build_impl B) (build_impl B') later hs
  exact ⟨d1, d2, o1, o2, r1, r2, by rw [withoutFlag_eq]; exact ho⟩

/-- C08 holds when nothing complete was flagged before the checkpoint and the receiver is a new hash:
every later result, flags included, is that of the original.  Missing: if the original was already flagged
the restored hash forgets it (`C08_refuted`), and a flagged receiver stays flagged (`C08_stale_receiver`),
because neither `MarshalBinary` nor `UnmarshalBinary` touches the flag. -/
theorem C08_checkpoint_flag_partial (B B' : Build) (ops : List Op) (hops : ∀ op ∈ ops, isRestore op = false)
    (d : Digest) (outs : List Out) (h : new.run B.block ops = .ok (d, outs))
    (hun : ¬ ∃ pre M post, blocks (msgOf ops) = pre ++ M :: post ∧
      GoDetected (safeChain goVerdict H0 pre).1 M) :
    ∃ b e', d.marshalBinary = .ok (d, b) ∧ new.unmarshalBinary b = .ok (e', none) ∧
      ∀ later, ∃ d1 d2 o, d.run B.block later = .ok (d1, o) ∧ e'.run B'.block later = .ok (d2, o) := by
  obtain ⟨d0, r, he⟩ := (holds_new goVerdict).run (build_impl B) ops hops
  rw [h] at r
  cases r
  obtain ⟨b, e', hm, hu, hs, hc⟩ := restore_sim d new he.1
  refine ⟨b, e', hm, hu, fun later => ?_⟩
  obtain ⟨d1, d2, o1, o2, r1, r2, _, _, hcol⟩ :=
    run_sim B.block B'.block _ (build_impl B) (build_impl B') later hs
  have hd : d.col = false := by
    have h1 := congrArg Sp.col he.2.2
    simp only [Sp.absorb, absD, List.nil_append, Bool.false_or] at h1
    rw [h1]
    refine Bool.eq_false_iff.mpr fun hne => ?_
    obtain ⟨pre, M, post, e, hM⟩ := (safeChain_flag _ _ _).mp hne
    exact hun ⟨pre, M, post, e, (verdict_iff _ _ _).mp hM⟩
  have := hcol (by rw [hd, hc]; rfl)
  exact ⟨d1, d2, o1, r1, by rw [this.2]; exact r2⟩

/-- Instance: after "abc" no complete block has been flagged (there is none). -/
example : (∀ op ∈ [Op.write abc], isRestore op = false) ∧
    ¬ ∃ pre M post, blocks (msgOf [.write abc]) = pre ++ M :: post ∧
      GoDetected (safeChain goVerdict H0 pre).1 M := by
  refine ⟨by simp [isRestore], ?_⟩
  rintro ⟨pre, M, post, e, _⟩
  have : blocks (msgOf [.write abc]) = [] := blocks_lt _ (by decide)
  rw [this] at e; cases pre <;> cases e

/-- C08 is false: write the first five blocks of shattered-1.pdf, checkpoint, restore into a new hash; the
original reports a collision, the restored hash, holding the same bytes, does not. -/
theorem C08_refuted (B : Build) : ∃ d outs b e D,
    new.run B.block [.write shattered1] = .ok (d, outs) ∧
    d.marshalBinary = .ok (d, b) ∧ new.unmarshalBinary b = .ok (e, none) ∧
    d.collisionResistantSum B.block [] = .ok (d, D, true) ∧
    e.collisionResistantSum B.block [] = .ok (e, D, false) := by
  obtain ⟨d, r, h⟩ := run_writes (build_impl B) [shattered1] (holds_new goVerdict)
  obtain ⟨b, e, hm, hu, hs, hc⟩ := restore_sim d new h.1
  rw [show ([shattered1] : List (List Byte)).flatten = shattered1 by simp, List.nil_append] at h
  have hf : finish goVerdict d = (shatteredDigest1, true) := by rw [h.finish]; exact shattered1_hash
  have hfe : finish goVerdict e = (shatteredDigest1, false) := by
    have e1 : (finish goVerdict e).1 = (finish goVerdict d).1 := by
      unfold finish; simp only [Sp.absorb, absD, hs.h, hs.len]
      have := hs.buf
      simp only [absD] at this
      rw [this]
    have hh : d.h = (compress (compress (compress shH1 shM1) shM1) shM1) ∧ (absD d).buf = [] := by
      have hab := h.2.2
      have h1 := congrArg Sp.h hab
      have h2 := congrArg Sp.buf hab
      simp only [Sp.absorb, List.nil_append, absD] at h1 h2
      refine ⟨?_, ?_⟩
      · rw [h1, sh_blocks1, safeChain_append, sh_chain1]
        simp only [safeChain, safeCompress, (verdict_iff _ _ _).mpr sh_detected1, if_true]
      · simp only [absD, h2]; decide +kernel
    have e2 : (finish goVerdict e).2 = false := by
      unfold finish
      have hb : (absD e).buf = [] := by rw [← hs.buf]; exact hh.2
      have hlen : e.len = 320 := by
        rw [← hs.len, h.2.1]; decide +kernel
      have hcol : (absD e).col = false := hc
      simp only [Sp.absorb, hb, hcol, hlen, List.nil_append, Bool.false_or]
      rw [show (absD e).h = d.h from hs.h.symm, hh.1]
      have := evalChain_spec rotGo _ evalDet_go
        (blocksN 1 (padTail 320)) (compress (compress (compress shH1 shM1) shM1) shM1) false
      rw [Bool.false_or] at this
      rw [blocksN_spec 1 (padTail 320) (by decide +kernel)]
      refine (congrArg Prod.snd this).symm.trans ?_
      rw [← evalCompress_eq, ← evalCompress_eq, ← evalCompress_eq]
      decide +kernel
    exact Prod.ext (by rw [e1, hf]) e2
  refine ⟨d, _, b, e, shatteredDigest1, r, hm, hu, ?_, ?_⟩
  · rw [crs_spec _ _ (build_impl B) d h.1, hf]; rfl
  · rw [crs_spec _ _ (build_impl B) e hs.inv2, hfe]; rfl

/-- C08 is false in the other direction too: a receiver that was flagged before stays flagged, although the
original and the restored bytes have nothing to do with the collision. -/
theorem C08_stale_receiver (B : Build) : ∃ d outs d0 outs0 b e D,
    new.run B.block [.write shattered1] = .ok (d0, outs0) ∧
    new.run B.block [.write abc] = .ok (d, outs) ∧
    d.marshalBinary = .ok (d, b) ∧ d0.unmarshalBinary b = .ok (e, none) ∧
    d.collisionResistantSum B.block [] = .ok (d, D, false) ∧
    e.collisionResistantSum B.block [] = .ok (e, D, true) := by
  obtain ⟨d, r, h⟩ := run_writes (build_impl B) [abc] (holds_new goVerdict)
  obtain ⟨d0, r0, h0⟩ := run_writes (build_impl B) [shattered1] (holds_new goVerdict)
  rw [show ([shattered1] : List (List Byte)).flatten = shattered1 by simp, List.nil_append] at h0
  rw [show ([abc] : List (List Byte)).flatten = abc by simp, List.nil_append] at h
  obtain ⟨b, e, hm, hu, hs, hc⟩ := restore_sim d d0 h.1
  have hcol : d0.col = true := by
    have h1 := congrArg Sp.col h0.2.2
    simp only [Sp.absorb, absD, List.nil_append, Bool.false_or] at h1
    rw [h1]
    exact (safeChain_flag _ _ _).mpr ⟨shPre1, shM1, [], sh_blocks1, by
      rw [sh_chain1]; exact (verdict_iff _ _ _).mpr sh_detected1⟩
  have hf : finish goVerdict d = (abcDigest, false) := by rw [h.finish]; exact abc_hash
  refine ⟨d, _, d0, _, b, e, abcDigest, r0, r, hm, hu, ?_, ?_⟩
  · rw [crs_spec _ _ (build_impl B) d h.1, hf]; rfl
  · rw [crs_spec _ _ (build_impl B) e hs.inv2]
    have e1 : (finish goVerdict e).1 = (finish goVerdict d).1 := by
      unfold finish; simp only [Sp.absorb, absD, hs.h, hs.len]
      have := hs.buf
      simp only [absD] at this
      rw [this]
    have e2 : (finish goVerdict e).2 = true := by simp [finish, Sp.absorb, absD, hc, hcol]
    rw [e1, e2, hf]; rfl

/-- What C08 is for the code as it stands: restoring checkpoint (H, pending, len) and writing `m` gives the
receiver's own old flag, joined with the verdicts on the blocks completed after the restore (padding
included).  The original's flag at the time of the checkpoint does not enter. -/
theorem C08_restored_flag_exact (B : Build) (e : Digest) (H : Regs) (pend : List Byte) (len : Word64)
    (hp : pend.length = len.toNat % 64) (m : List Byte) :
    ∃ e' e'', e.unmarshalBinary (checkpoint H pend len) = .ok (e', none) ∧
      e'.write B.block m = .ok (e'', m.length, none) ∧
      ∃ D, e''.collisionResistantSum B.block [] = .ok (e'', D,
        e.col || (safeChain goVerdict H (blocks (pend ++ m ++
          0x80 :: List.replicate (zeroPad (len.toNat + m.length)) 0 ++
          word64Bytes (8 * (len + BitVec.ofNat 64 m.length))))).2) := by
  have hp64 : pend.length ≤ 64 := by omega
  obtain ⟨hck, hl64⟩ := checkpoint_eq_encode H pend hp64 len
  have hu := unmarshal_encode e H _ len hl64
  rw [← hck] at hu
  generalize hd0 : ({ e with h := H, x := ⟨_, hl64⟩, len := len, nx := (len % 64).toNat } : Digest) = d0 at hu
  have hi0 : DInv d0 := by rw [← hd0]; rfl
  have ha0 : absD d0 = ⟨H, pend, e.col⟩ := by
    rw [← hd0]
    simp only [absD, BitVec.toNat_umod]
    rw [show (64 : Word64).toNat = 64 from rfl, ← hp, List.take_left]
  have hl0 : d0.len = len := by rw [← hd0]
  obtain ⟨d1, w, hi, hl, ha⟩ := write_spec B.block _ (build_impl B) d0 hi0 m
  refine ⟨d0, d1, hu, w, (finish goVerdict d1).1, ?_⟩
  rw [crs_spec _ _ (build_impl B) d1 hi]
  rw [hl0] at hl
  have hz : zeroPad (len + BitVec.ofNat 64 m.length).toNat = zeroPad (len.toNat + m.length) := by
    unfold zeroPad; simp
  have hs : (len + BitVec.ofNat 64 m.length) <<< 3 = 8 * (len + BitVec.ofNat 64 m.length) := by
    apply BitVec.eq_of_toNat_eq
    simp [Nat.shiftLeft_eq]
    omega
  simp only [finish, ha, Sp.absorb_append, ha0, hl]
  simp only [Sp.absorb, padTail, hz, hs, List.append_assoc, List.nil_append]

/-- Instance of the hypothesis: 67 bytes hashed, three pending. -/
example : abc.length = (67#64).toNat % 64 := by decide

/-- C09: which inputs `UnmarshalBinary` accepts, which error it gives otherwise, and that a rejected input
leaves the hash as it was.  `d` is arbitrary. -/
theorem C09_unmarshal_acceptance (d : Digest) (b : List Byte) :
    ∃ d' err, d.unmarshalBinary b = .ok (d', err) ∧
      (err = none ↔ b.length = 98 ∧ b.take 6 = [0x73, 0x68, 0x61, 0x63, 0x64, 0x01]) ∧
      (err = some .badIdentifier ↔ b.take 6 ≠ [0x73, 0x68, 0x61, 0x63, 0x64, 0x01]) ∧
      (err = some .badSize ↔ b.length ≠ 98 ∧ b.take 6 = [0x73, 0x68, 0x61, 0x63, 0x64, 0x01]) ∧
      (err ≠ none → d' = d) := by
  change ∃ d' err, d.unmarshalBinary b = .ok (d', err) ∧ (err = none ↔ b.length = 98 ∧ b.take 6 = Magic) ∧
      (err = some .badIdentifier ↔ b.take 6 ≠ Magic) ∧
      (err = some .badSize ↔ b.length ≠ 98 ∧ b.take 6 = Magic) ∧ (err ≠ none → d' = d)
  by_cases hm : b.take 6 = Magic
  · have hlen : ¬ b.length < 6 := by
      intro hlt
      have := congrArg List.length hm
      simp only [List.length_take, Magic, List.length_cons, List.length_nil] at this
      omega
    have hno : ¬ (b.length < Magic.length ∨ b.take Magic.length ≠ Magic) := by
      rintro (h | h)
      · exact hlen h
      · exact h hm
    by_cases hl : b.length = 98
    · obtain ⟨H, x, len, hx, rfl⟩ := parse b hl hm
      exact ⟨_, _, unmarshal_encode d H x len hx, by simp [hl, hm], by simp [hm], by simp [hl], by simp⟩
    · refine ⟨d, some .badSize, ?_, by simp [hl], by simp [hm], by simp [hl, hm], fun _ => rfl⟩
      unfold Digest.unmarshalBinary
      rw [if_neg hno, if_pos (show b.length ≠ MarshaledSize from hl)]; rfl
  · refine ⟨d, some .badIdentifier, ?_, by simp [hm], by simp [hm], by simp [hm], fun _ => rfl⟩
    unfold Digest.unmarshalBinary
    rw [if_pos (.inr hm)]; rfl

/-- C10: `MarshalBinary` returns the 98-byte checkpoint of some chaining value, pending bytes and length,
the number of pending bytes being the length modulo 64. -/
theorem C10_marshal_form (B : Build) (ops : List Op) (d : Digest) (outs : List Out)
    (h : new.run B.block ops = .ok (d, outs)) :
    ∃ H pend len, pend.length = len.toNat % 64 ∧ (checkpoint H pend len).length = 98 ∧
      d.marshalBinary = .ok (d, checkpoint H pend len) := by
  have hd := reach_inv _ _ (build_impl B) ops d outs h
  have hle := Nat.le_of_lt hd.lt
  have hbl := absD_buf_length d hle
  refine ⟨d.h, (absD d).buf, d.len, ?_, ?_, ?_⟩
  · rw [hbl, hd, BitVec.toNat_umod]; rfl
  · rw [← encode_checkpoint _ _ _ rfl]
    exact encode_length _ _ _ (by simp [hbl]; omega)
  · rw [marshal_spec d hle, encode_checkpoint _ _ _ hbl]

/-- C10: without restores, the checkpoint is that of the bytes written since the last reset. -/
theorem C10_marshal_message (B : Build) (ops : List Op) (hops : ∀ op ∈ ops, isRestore op = false)
    (d : Digest) (outs : List Out) (h : new.run B.block ops = .ok (d, outs)) :
    d.marshalBinary = .ok (d, checkpoint (safeChain goVerdict H0 (blocks (msgOf ops))).1
      ((msgOf ops).drop (64 * ((msgOf ops).length / 64))) (BitVec.ofNat 64 (msgOf ops).length)) := by
  obtain ⟨d0, r, he⟩ := (holds_new goVerdict).run (build_impl B) ops hops
  rw [h] at r
  cases r
  obtain ⟨d1, hc, _⟩ := he.call (build_impl B) .marshalBinary rfl
  simp only [Digest.call, marshal_spec d (Nat.le_of_lt he.1.lt), bind, Except.bind, pure, Except.pure,
    result, Except.ok.injEq, Prod.mk.injEq, Out.marshalBinary.injEq, and_true] at hc
  rw [marshal_spec d (Nat.le_of_lt he.1.lt), hc.2]
  rfl

/-- C10: two hashes with the same checkpoint give the same results for every later history, up to the
flag. -/
theorem C10_marshal_determines (B B' : Build) (ops ops' : List Op) (d d' : Digest) (outs outs' : List Out)
    (h : new.run B.block ops = .ok (d, outs)) (h' : new.run B'.block ops' = .ok (d', outs')) (b : List Byte)
    (hm : d.marshalBinary = .ok (d, b)) (hm' : d'.marshalBinary = .ok (d', b)) (later : List Op) :
    ∃ d1 d2 o1 o2, d.run B.block later = .ok (d1, o1) ∧ d'.run B'.block later = .ok (d2, o2) ∧
      o1.map withoutFlag = o2.map withoutFlag := by
  have hd := reach_inv _ _ (build_impl B) ops d outs h
  have hd' := reach_inv _ _ (build_impl B') ops' d' outs' h'
  have hle := Nat.le_of_lt hd.lt
  have hle' := Nat.le_of_lt hd'.lt
  have hbl := absD_buf_length d hle
  have hbl' := absD_buf_length d' hle'
  rw [marshal_spec d hle] at hm
  rw [marshal_spec d' hle'] at hm'
  have e : _ = _ := (congrArg Prod.snd (Except.ok.inj hm)).trans (congrArg Prod.snd (Except.ok.inj hm')).symm
  obtain ⟨e1, e2, e3⟩ := encode_inj (by simp [hbl]; omega) (by simp [hbl']; omega) e
  have hnx : d.nx = d'.nx := by rw [hd, hd', e3]
  have hs : SimD d d' := ⟨hd, hd', e1, (List.append_inj e2 (by rw [hbl, hbl', hnx])).1, e3⟩
  obtain ⟨d1, d2, o1, o2, r1, r2, _, ho, _⟩ :=
    run_sim B.block B'.block _ (build_impl B) (build_impl B') later hs
  exact ⟨d1, d2, o1, o2, r1, r2, by rw [withoutFlag_eq]; exact ho⟩

/-- C10: marshalling a restored hash gives back the bytes with the unused buffer bytes zeroed. -/
theorem C10_marshal_unmarshal (d : Digest) (H : Regs) (x : List Byte) (hx : x.length = 64) (len : Word64) :
    ∃ d', d.unmarshalBinary (checkpoint H x len) = .ok (d', none) ∧
      d'.marshalBinary = .ok (d', checkpoint H (x.take (len.toNat % 64)) len) := by
  have hck : checkpoint H x len = encode H x len := by
    rw [← encode_checkpoint H x 64 hx]; simp
  refine ⟨_, hck ▸ unmarshal_encode d H x len hx, ?_⟩
  have hlt : (len % 64).toNat < 64 := by rw [BitVec.toNat_umod]; exact Nat.mod_lt _ (by decide)
  rw [marshal_spec _ (Nat.le_of_lt hlt)]
  have hb : ((x.take (len % 64).toNat)).length = (len % 64).toNat := by simp; omega
  rw [← show (len % 64).toNat = len.toNat % 64 by rw [BitVec.toNat_umod]; rfl]
  rw [← encode_checkpoint _ _ _ hb]
  rfl

/-- Every 98-byte string with the magic is a `checkpoint` with a full buffer, so the previous theorem covers
every accepted input. -/
theorem C10_accepted_is_checkpoint (b : List Byte) (hl : b.length = 98)
    (hm : b.take 6 = [0x73, 0x68, 0x61, 0x63, 0x64, 0x01]) :
    ∃ H x len, x.length = 64 ∧ b = checkpoint H x len := by
  obtain ⟨H, x, len, hx, e⟩ := parse b hl hm
  refine ⟨H, x, len, hx, ?_⟩
  rw [e, ← encode_checkpoint H x 64 hx]; simp

/-- Instance: a checkpoint of a hash holding "abc". -/
example : (checkpoint H0 abc 3).length = 98 ∧
    (checkpoint H0 abc 3).take 6 = [0x73, 0x68, 0x61, 0x63, 0x64, 0x01] := by decide +kernel

/-- Instance of `C10_marshal_determines`: two different histories with the same checkpoint. -/
example (B B' : Build) : ∃ d d' o o' b, new.run B.block [.write [0x61], .write [0x62, 0x63]] = .ok (d, o) ∧
    new.run B'.block [.write shattered1, .reset, .sum [], .write abc] = .ok (d', o') ∧
    d.marshalBinary = .ok (d, b) ∧ d'.marshalBinary = .ok (d', b) := by
  obtain ⟨d, o, r⟩ := C06_no_panic B [.write [0x61], .write [0x62, 0x63]]
  obtain ⟨d', o', r'⟩ := C06_no_panic B' [.write shattered1, .reset, .sum [], .write abc]
  have e := C10_marshal_message B _ (by simp [isRestore]) d o r
  have e' := C10_marshal_message B' _ (by simp [isRestore]) d' o' r'
  have h1 : msgOf [.write [0x61], .write [0x62, 0x63]] = abc := rfl
  have h2 : msgOf [.write shattered1, .reset, .sum [], .write abc] = abc := rfl
  rw [h1] at e
  rw [h2] at e'
  exact ⟨d, d', o, o', _, r, r', e, e'⟩

end Verif.Props
