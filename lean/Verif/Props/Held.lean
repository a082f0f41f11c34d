import Verif.Spec.Held
import Verif.Props.Codec

/-!
C60: every history of calls on a hash of package sha1cd, with arbitrary bytes given to UnmarshalBinary.
-/

namespace Verif.Props

open Verif Verif.Model Verif.Spec

/-- The object `d` has the contents `s`. -/
def HeldBy (d : Digest) (s : Held) : Prop :=
  DInv d ∧ absD d = ⟨s.H, s.pend, s.col⟩ ∧ d.len = s.len

theorem heldBy_reset (d : Digest) : HeldBy d.reset .new := ⟨rfl, rfl, rfl⟩

theorem word32At_word32Bytes (pre post : List Byte) (w : Word) :
    word32At (pre ++ word32Bytes w ++ post) pre.length = w := by
  unfold word32At
  have h : ∀ k, k < 4 → (pre ++ word32Bytes w ++ post).getD (pre.length + k) 0 = (word32Bytes w).getD k 0 := by
    intro k hk
    rw [List.append_assoc, List.getD_eq_getElem?_getD, List.getElem?_append_right (by omega), Nat.add_sub_cancel_left,
      List.getElem?_append_left (by simpa [word32Bytes] using hk), ← List.getD_eq_getElem?_getD]
  have h0 := h 0 (by decide)
  rw [Nat.add_zero] at h0
  rw [h0, h 1 (by decide), h 2 (by decide), h 3 (by decide)]
  simp only [word32Bytes, be32, List.getD_cons_zero, List.getD_cons_succ]
  apply BitVec.eq_of_getLsbD_eq
  intro i hi
  simp only [BitVec.getLsbD_append, BitVec.getLsbD_extractLsb']
  by_cases h1 : i < 8
  · simp [h1]
  · by_cases h2 : i - 8 < 8
    · simp [h1, h2, show 8 + (i - 8) = i by omega]
    · by_cases h3 : i - 8 - 8 < 8
      · simp [h1, h2, h3, show 16 + (i - 8 - 8) = i by omega]
      · simp [h1, h2, h3, show i - 8 - 8 - 8 < 8 by omega, show 24 + (i - 8 - 8 - 8) = i by omega]

theorem word64Bytes_split (w : Word64) :
    word64Bytes w = word32Bytes (w.extractLsb' 32 32) ++ word32Bytes (w.extractLsb' 0 32) := by
  simp only [word64Bytes, word32Bytes, List.cons_append, List.nil_append, List.cons.injEq, and_true]
  refine ⟨?_, ?_, ?_, ?_, ?_, ?_, ?_, ?_⟩ <;>
  · apply BitVec.eq_of_getLsbD_eq
    intro i hi
    simp only [BitVec.getLsbD_extractLsb']
    simp only [hi, decide_true, Bool.true_and]
    first
      | rw [← Nat.add_assoc, decide_eq_true (by omega), Bool.true_and]
      | rw [decide_eq_true (by omega), Bool.true_and, Nat.zero_add]

theorem word32At_at (b pre post : List Byte) (w : Word) (i : Nat) (h : b = pre ++ word32Bytes w ++ post)
    (hi : pre.length = i) : word32At b i = w := by
  rw [h, ← hi, word32At_word32Bytes]

theorem restoreError_encode (H : Regs) (x : List Byte) (hx : x.length = 64) (len : Word64) :
    restoreError (encode H x len) = none := by
  have h1 : (encode H x len).take 6 = [0x73, 0x68, 0x61, 0x63, 0x64, 0x01] := by
    change (encode H x len).take Magic.length = Magic
    simp [encode, List.append_assoc]
  unfold restoreError
  rw [if_neg (by rw [h1]; simp), if_neg (by rw [encode_length _ _ _ hx]; simp)]

theorem restore_encode (s : Held) (H : Regs) (x : List Byte) (hx : x.length = 64) (len : Word64) :
    s.restore (encode H x len) = ⟨H, x.take (len.toNat % 64), len, s.col⟩ := by
  unfold Held.restore
  rw [if_pos (restoreError_encode H x hx len)]
  have hlen : (word32At (encode H x len) 90 ++ word32At (encode H x len) 94 : Word64) = len := by
    rw [word32At_at (encode H x len) (Magic ++ digestBytes H ++ x) (word32Bytes (len.extractLsb' 0 32))
        (len.extractLsb' 32 32) 90 (by simp only [encode, word64Bytes_split, List.append_assoc])
        (by simp [Magic, digestBytes_length, hx]),
      word32At_at (encode H x len) (Magic ++ digestBytes H ++ x ++ word32Bytes (len.extractLsb' 32 32)) []
        (len.extractLsb' 0 32) 94 (by simp only [encode, word64Bytes_split, List.append_assoc, List.append_nil])
        (by simp [Magic, digestBytes_length, word32Bytes_length, hx])]
    apply BitVec.eq_of_getLsbD_eq
    intro i hi
    rw [BitVec.getLsbD_append]
    by_cases h : i < 32
    · simp [h]
    · simp [h, show i - 32 < 32 by omega, show 32 + (i - 32) = i by omega]
  have hd : (encode H x len).drop 26 = x ++ word64Bytes len := by
    rw [show encode H x len = (Magic ++ digestBytes H) ++ (x ++ word64Bytes len) by simp [encode, List.append_assoc]]
    rw [show 26 = (Magic ++ digestBytes H).length from rfl, List.drop_left]
  simp only [hlen, hd]
  rw [word32At_at (encode H x len) Magic
      (word32Bytes H.b ++ word32Bytes H.c ++ word32Bytes H.d ++ word32Bytes H.e ++ x ++ word64Bytes len) H.a 6
      (by simp only [encode, digestBytes, List.append_assoc]) rfl,
    word32At_at (encode H x len) (Magic ++ word32Bytes H.a)
      (word32Bytes H.c ++ word32Bytes H.d ++ word32Bytes H.e ++ x ++ word64Bytes len) H.b 10
      (by simp only [encode, digestBytes, List.append_assoc]) rfl,
    word32At_at (encode H x len) (Magic ++ word32Bytes H.a ++ word32Bytes H.b)
      (word32Bytes H.d ++ word32Bytes H.e ++ x ++ word64Bytes len) H.c 14
      (by simp only [encode, digestBytes, List.append_assoc]) rfl,
    word32At_at (encode H x len) (Magic ++ word32Bytes H.a ++ word32Bytes H.b ++ word32Bytes H.c)
      (word32Bytes H.e ++ x ++ word64Bytes len) H.d 18
      (by simp only [encode, digestBytes, List.append_assoc]) rfl,
    word32At_at (encode H x len) (Magic ++ word32Bytes H.a ++ word32Bytes H.b ++ word32Bytes H.c ++ word32Bytes H.d)
      (x ++ word64Bytes len) H.e 22 (by simp only [encode, digestBytes, List.append_assoc]) rfl]
  rw [List.take_append_of_le_length (by rw [hx]; omega)]

theorem HeldBy.sum {d : Digest} {s : Held} (det : Regs → Block → Bool) (h : HeldBy d s) :
    finish det d = s.sum det := by
  have hs : s.len <<< 3 = 8 * s.len := by
    apply BitVec.eq_of_toNat_eq
    simp [Nat.shiftLeft_eq]
    omega
  unfold finish Held.sum
  simp only [h.2.1, h.2.2, Sp.absorb, padTail, hs, List.append_assoc]

theorem HeldBy.call {det : Regs → Block → Bool} {block : BlockFn} (hb : BlockImpl block det) {d : Digest} {s : Held}
    (h : HeldBy d s) (op : Op) : ∃ d', d.call block op = .ok (d', s.result det op) ∧ HeldBy d' (s.after det op) := by
  have hfin := h.sum det
  obtain ⟨hi, ha, hl⟩ := id h
  cases op with
  | write p =>
    obtain ⟨d', w, hi', hl', ha'⟩ := write_spec block det hb d hi p
    exact ⟨d', by simp [Digest.call, w, bind, Except.bind, pure, Except.pure, Held.result], hi', by rw [ha', ha]; rfl,
      by rw [hl', hl]; rfl⟩
  | sum inp =>
    exact ⟨d, by simp [Digest.call, sum_spec block det hb d hi, bind, Except.bind, pure, Except.pure, Held.result, hfin], h⟩
  | collisionResistantSum inp =>
    exact ⟨d, by simp [Digest.call, crs_spec block det hb d hi, bind, Except.bind, pure, Except.pure, Held.result, hfin], h⟩
  | reset => exact ⟨_, rfl, heldBy_reset d⟩
  | size => exact ⟨d, rfl, h⟩
  | blockSize => exact ⟨d, rfl, h⟩
  | marshalBinary =>
    have hle := Nat.le_of_lt hi.lt
    have hbl := absD_buf_length d hle
    refine ⟨d, ?_, h⟩
    have hp : s.pend = (absD d).buf := by rw [ha]
    have hH : s.H = d.h := by rw [← show (absD d).h = d.h from rfl, ha]
    simp only [Digest.call, marshal_spec d hle, bind, Except.bind, pure, Except.pure, Held.result]
    rw [hp, hH, ← hl, (checkpoint_eq_encode _ _ (by omega) _).1, hbl]
  | unmarshalBinary b =>
    by_cases hm : b.take 6 = Magic
    · by_cases hlen : b.length = 98
      · obtain ⟨H, x, len, hx, rfl⟩ := parse b hlen hm
        refine ⟨{ d with h := H, x := ⟨x, hx⟩, len := len, nx := (len % 64).toNat }, ?_, ?_⟩
        · simp only [Digest.call, unmarshal_encode d H x len hx, bind, Except.bind, pure, Except.pure, Held.result,
            restoreError_encode H x hx len]
        · simp only [Held.after, restore_encode s H x hx len]
          refine ⟨rfl, ?_, rfl⟩
          have hc : d.col = s.col := by rw [← show (absD d).col = d.col from rfl, ha]
          simp only [absD, hc, BitVec.toNat_umod]
          rfl
      · have he : restoreError b = some .badSize := by
          unfold restoreError
          rw [if_neg (fun hn => hn hm), if_pos hlen]
        have hno : ¬ (b.length < Magic.length ∨ b.take Magic.length ≠ Magic) := by
          rintro (h | h)
          · have := congrArg List.length hm
            simp only [List.length_take, Magic, List.length_cons, List.length_nil] at this h
            omega
          · exact h hm
        refine ⟨d, ?_, ?_⟩
        · simp only [Digest.call, Digest.unmarshalBinary]
          rw [if_neg hno, if_pos (show b.length ≠ MarshaledSize from hlen)]
          simp only [bind, Except.bind, pure, Except.pure, Held.result, he]
        · simpa only [Held.after, Held.restore, he, reduceCtorEq, if_false] using h
    · have he : restoreError b = some .badIdentifier := by
        unfold restoreError
        exact if_pos hm
      refine ⟨d, ?_, ?_⟩
      · simp only [Digest.call, Digest.unmarshalBinary]
        rw [if_pos (.inr hm)]
        simp only [bind, Except.bind, pure, Except.pure, Held.result, he]
      · simpa only [Held.after, Held.restore, he, reduceCtorEq, if_false] using h

theorem HeldBy.run {det : Regs → Block → Bool} {block : BlockFn} (hb : BlockImpl block det) (ops : List Op) {d : Digest}
    {s : Held} (h : HeldBy d s) :
    ∃ d', d.run block ops = .ok (d', s.results det ops) ∧ HeldBy d' (ops.foldl (Held.after det) s) := by
  induction ops generalizing d s with
  | nil => exact ⟨d, rfl, h⟩
  | cons op ops ih =>
    obtain ⟨d1, c, h1⟩ := h.call hb op
    obtain ⟨d2, r, h2⟩ := ih h1
    refine ⟨d2, ?_, h2⟩
    simp only [Digest.run, c, r, bind, Except.bind, pure, Except.pure, Held.results]

/-- What the contents of objects have to do with messages: writing a message to a new object, the digest and flag of what
is held, and a checkpoint that is taken of an object holding `m` and restored into any other. -/
theorem C60_messages (det : Regs → Block → Bool) (m : List Byte) :
    Held.new = Held.message det [] ∧ (Held.message det m).sum det = safeHash det m ∧
    (∀ p, (Held.message det m).write det p = Held.message det (m ++ p)) ∧
    ∀ s : Held, s.restore (checkpoint (Held.message det m).H (Held.message det m).pend (Held.message det m).len) =
      { Held.message det m with col := s.col } := by
  have hab : ∀ m, (⟨H0, [], false⟩ : Sp).absorb det m =
      ⟨(Held.message det m).H, (Held.message det m).pend, (Held.message det m).col⟩ := by
    intro m
    simp [Sp.absorb, Held.message, rem64]
  have hpl : (Held.message det m).pend.length = m.length % 64 := by
    simp only [Held.message, List.length_drop]
    omega
  refine ⟨?_, ?_, fun p => ?_, fun s => ?_⟩
  · simp [Held.new, Held.message, blocks, chunks, safeChain]
  · have hz : zeroPad (BitVec.ofNat 64 m.length : Word64).toNat = zeroPad m.length := by
      unfold zeroPad
      rw [BitVec.toNat_ofNat, Nat.mod_mod_of_dvd _ (by decide)]
    have h8 : (8 : Word64) * BitVec.ofNat 64 m.length = BitVec.ofNat 64 (8 * m.length) := by
      rw [BitVec.ofNat_mul]
      rfl
    have hp := Sp.absorb_append det ⟨H0, [], false⟩ m
      (0x80 :: List.replicate (zeroPad m.length) 0 ++ word64Bytes (BitVec.ofNat 64 (8 * m.length)))
    rw [hab m] at hp
    simp only [Sp.absorb, Sp.mk.injEq, List.nil_append, Bool.false_or] at hp
    unfold Held.sum
    rw [show (Held.message det m).len = BitVec.ofNat 64 m.length from rfl, hz, h8]
    simp only [List.append_assoc] at hp ⊢
    simp only [hp.1, hp.2.2, safeHash, pad, List.append_assoc]
  · have hp := Sp.absorb_append det ⟨H0, [], false⟩ m p
    rw [hab m, hab (m ++ p)] at hp
    simp only [Sp.absorb, Sp.mk.injEq] at hp
    have hl : (Held.message det m).len + BitVec.ofNat 64 p.length = (Held.message det (m ++ p)).len := by
      simp only [Held.message, List.length_append, BitVec.ofNat_add]
    simp only [Held.write]
    rw [hp.1, hl]
    have h2 := hp.2.1
    unfold rem64 at h2
    rw [h2, hp.2.2]
  · rw [(checkpoint_eq_encode _ _ (by omega) _).1, restore_encode _ _ _ (checkpoint_eq_encode H0 _ (by omega) 0).2]
    congr 1
    have hlen : (Held.message det m).len.toNat % 64 = (Held.message det m).pend.length := by
      rw [hpl]
      simp only [Held.message, BitVec.toNat_ofNat]
      exact Nat.mod_mod_of_dvd _ (by decide)
    rw [hlen, List.take_left]

/-- C60: every history of calls on a new object, in every build, with whatever bytes are given to UnmarshalBinary, gives
the specified results. -/
theorem C60_every_history (B : Build) (ops : List Op) :
    ∃ d, new.run B.block ops = .ok (d, Held.new.results goVerdict ops) := by
  obtain ⟨d, r, _⟩ := (heldBy_reset Digest.zero).run (build_impl B) ops
  exact ⟨d, r⟩

/-- Instance: a history in which restores are rejected and accepted; bytes that nobody wrote are pending after the
second one. -/
example : Held.new.results (fun _ _ => false)
      [.unmarshalBinary [1, 2], .unmarshalBinary (checkpoint H0 [7, 8, 9] 67), .marshalBinary] =
    [.unmarshalBinary (some .badIdentifier), .unmarshalBinary none, .marshalBinary (checkpoint H0 [7, 8, 9] 67) none] := by
  decide +kernel

end Verif.Props
