import Verif.Proofs.Final

/-! `MarshalBinary` / `UnmarshalBinary`. -/

namespace Verif

open Verif.Model Verif.Spec

/-- The serialised form: magic, chaining value, 64 buffer bytes, length. -/
def encode (H : Regs) (x : List Byte) (len : Word64) : List Byte :=
  Magic ++ digestBytes H ++ x ++ word64Bytes len

theorem digestBytes_length (H : Regs) : (digestBytes H).length = 20 := rfl

theorem encode_length (H : Regs) (x : List Byte) (len : Word64) (hx : x.length = 64) :
    (encode H x len).length = 98 := by
  simp [encode, digestBytes_length, word64Bytes_length, hx, Magic]

theorem shiftByte32 (w : Word) (k i : Nat) (hi : i < 32) :
    (((w.extractLsb' k 8).setWidth 32) <<< k).getLsbD i =
      (decide (k ≤ i ∧ i < k + 8) && w.getLsbD i) := by
  simp only [BitVec.getLsbD_shiftLeft, BitVec.getLsbD_setWidth, BitVec.getLsbD_extractLsb', hi]
  by_cases h : k ≤ i
  · by_cases h2 : i < k + 8
    · simp [h, h2, show ¬ i < k by omega, show i - k < 8 by omega, show i - k < 32 by omega,
        show k + (i - k) = i by omega]
    · simp [h, h2, show ¬ i - k < 8 by omega]
  · simp [h, show i < k by omega]

theorem consume32 (w : Word) (r : List Byte) : consumeUint32 (word32Bytes w ++ r) = .ok (r, w) := by
  simp only [word32Bytes, List.cons_append, List.nil_append, consumeUint32, pure, Except.pure]
  congr 2
  apply BitVec.eq_of_getLsbD_eq
  intro i hi
  have h0 : ((w.extractLsb' 0 8).setWidth 32).getLsbD i =
      (decide (0 ≤ i ∧ i < 0 + 8) && w.getLsbD i) := by
    have := shiftByte32 w 0 i hi
    simpa using this
  simp only [BitVec.getLsbD_or, shiftByte32 _ _ _ hi, h0]
  cases w.getLsbD i <;> simp
  omega

theorem shiftByte (w : Word64) (k i : Nat) (hi : i < 64) :
    (((w.extractLsb' k 8).setWidth 64) <<< k).getLsbD i =
      (decide (k ≤ i ∧ i < k + 8) && w.getLsbD i) := by
  simp only [BitVec.getLsbD_shiftLeft, BitVec.getLsbD_setWidth, BitVec.getLsbD_extractLsb', hi]
  by_cases h : k ≤ i
  · by_cases h2 : i < k + 8
    · simp [h, h2, show ¬ i < k by omega, show i - k < 8 by omega, show i - k < 64 by omega,
        show k + (i - k) = i by omega]
    · simp [h, h2, show ¬ i - k < 8 by omega]
  · simp [h, show i < k by omega]

theorem consume64 (w : Word64) (r : List Byte) : consumeUint64 (word64Bytes w ++ r) = .ok (r, w) := by
  simp only [word64Bytes, List.cons_append, List.nil_append, consumeUint64, pure, Except.pure]
  congr 2
  apply BitVec.eq_of_getLsbD_eq
  intro i hi
  have h0 : ((w.extractLsb' 0 8).setWidth 64).getLsbD i =
      (decide (0 ≤ i ∧ i < 0 + 8) && w.getLsbD i) := by
    have := shiftByte w 0 i hi
    simpa using this
  simp only [BitVec.getLsbD_or, shiftByte _ _ _ hi, h0]
  cases w.getLsbD i <;> simp
  omega

theorem exists_word32 (l : List Byte) (h : 4 ≤ l.length) :
    ∃ w r, l = word32Bytes w ++ r ∧ r.length = l.length - 4 := by
  match l, h with
  | b0 :: b1 :: b2 :: b3 :: r, _ =>
    refine ⟨b0 ++ b1 ++ b2 ++ b3, r, ?_, by simp⟩
    simp only [word32Bytes, List.cons_append, List.nil_append, List.cons.injEq, and_true]
    refine ⟨?_, ?_, ?_, ?_⟩ <;>
    · apply BitVec.eq_of_getLsbD_eq
      intro i hi
      simp only [BitVec.getLsbD_extractLsb', BitVec.getLsbD_append]
      simp [hi, show ¬ 24 + i < 8 by omega, show ¬ 24 + i - 8 < 8 by omega,
        show ¬ 24 + i - 8 - 8 < 8 by omega, show 24 + i - 8 - 8 - 8 = i by omega,
        show ¬ 16 + i < 8 by omega, show ¬ 16 + i - 8 < 8 by omega,
        show 16 + i - 8 - 8 = i by omega, show ¬ 8 + i < 8 by omega, show 8 + i - 8 = i by omega]

theorem exists_word64 (l : List Byte) (h : l.length = 8) : ∃ w, l = word64Bytes w := by
  match l, h with
  | [b0, b1, b2, b3, b4, b5, b6, b7], _ =>
    obtain ⟨w1, r1, e1, h1⟩ := exists_word32 [b0, b1, b2, b3] (by simp)
    obtain ⟨w2, r2, e2, h2⟩ := exists_word32 [b4, b5, b6, b7] (by simp)
    have z1 : r1 = [] := List.eq_nil_of_length_eq_zero h1
    have z2 : r2 = [] := List.eq_nil_of_length_eq_zero h2
    subst z1 z2
    simp only [word32Bytes, List.append_nil, List.cons.injEq, and_true] at e1 e2
    refine ⟨w1 ++ w2, ?_⟩
    simp only [word64Bytes, List.cons.injEq, and_true]
    rw [e1.1, e1.2.1, e1.2.2.1, e1.2.2.2, e2.1, e2.2.1, e2.2.2.1, e2.2.2.2]
    refine ⟨?_, ?_, ?_, ?_, ?_, ?_, ?_, ?_⟩ <;>
    · apply BitVec.eq_of_getLsbD_eq
      intro i hi
      simp only [BitVec.getLsbD_extractLsb', BitVec.getLsbD_append]
      simp [hi, show ¬ 56 + i < 32 by omega, show ¬ 48 + i < 32 by omega, show ¬ 40 + i < 32 by omega,
        show ¬ 32 + i < 32 by omega, show 24 + i < 32 by omega, show 16 + i < 32 by omega,
        show 8 + i < 32 by omega, show i < 32 by omega, show 56 + i - 32 = 24 + i by omega,
        show 48 + i - 32 = 16 + i by omega, show 40 + i - 32 = 8 + i by omega]

/-- Every string of 98 bytes with the right magic is the serialised form of something. -/
theorem parse (b : List Byte) (hl : b.length = 98) (hm : b.take 6 = Magic) :
    ∃ H x len, x.length = 64 ∧ b = encode H x len := by
  obtain ⟨r, hr, hrl⟩ : ∃ r, b = Magic ++ r ∧ r.length = 92 :=
    ⟨b.drop 6, by rw [← hm, List.take_append_drop], by simp [hl]⟩
  obtain ⟨wa, ra, ea, la⟩ := exists_word32 r (by omega)
  obtain ⟨wb, rb, eb, lb⟩ := exists_word32 ra (by omega)
  obtain ⟨wc, rc, ec, lc⟩ := exists_word32 rb (by omega)
  obtain ⟨wd, rd, ed, ld⟩ := exists_word32 rc (by omega)
  obtain ⟨we, re, ee, le⟩ := exists_word32 rd (by omega)
  obtain ⟨wl, el⟩ := exists_word64 (re.drop 64) (by simp; omega)
  refine ⟨⟨wa, wb, wc, wd, we⟩, re.take 64, wl, by simp; omega, ?_⟩
  have : re = re.take 64 ++ word64Bytes wl := by rw [← el, List.take_append_drop]
  rw [hr, ea, eb, ec, ed, ee]
  simp only [encode, digestBytes, List.append_assoc]
  rw [← this]

theorem unmarshal_encode (d : Digest) (H : Regs) (x : List Byte) (len : Word64) (hx : x.length = 64) :
    d.unmarshalBinary (encode H x len) =
      .ok ({ d with h := H, x := ⟨x, hx⟩, len := len, nx := (len % 64).toNat }, none) := by
  unfold Digest.unmarshalBinary
  have hl := encode_length H x len hx
  have hm : (encode H x len).take Magic.length = Magic := by
    simp [encode, List.append_assoc]
  rw [if_neg (by rw [hm, hl]; simp [Magic]), if_neg (by rw [hl]; simp [MarshaledSize, Magic, Chunk])]
  have hd : (encode H x len).drop Magic.length =
      word32Bytes H.a ++ (word32Bytes H.b ++ (word32Bytes H.c ++ (word32Bytes H.d ++
        (word32Bytes H.e ++ (x ++ word64Bytes len))))) := by
    simp [encode, digestBytes, List.append_assoc]
  simp only
  rw [hd]
  simp only [consume32, bind, Except.bind]
  have h64 : min 64 (x ++ word64Bytes len).length = 64 := by simp [hx]
  rw [h64]
  have h2 : (x ++ word64Bytes len).drop 64 = word64Bytes len ++ [] := by
    rw [← hx, List.drop_left, List.append_nil]
  rw [h2, consume64]
  simp only [pure, Except.pure]
  congr 4
  apply Subtype.ext
  simp only [copyAt]
  have hx2 := d.x.2
  have h3 : (x ++ word64Bytes len).take (64 - 0) = x := by
    rw [show 64 - 0 = x.length by omega, List.take_left]
  rw [h3, Nat.sub_zero, h64, List.drop_eq_nil_of_le (by omega)]
  simp

theorem slice_append (b : Slice) (bs : List Byte) (h : bs.length ≤ b.tail.length) :
    b.append bs = ⟨b.data ++ bs, b.tail.drop bs.length⟩ := by
  unfold Slice.append; rw [if_pos h]

/-- What `MarshalBinary` returns. -/
theorem marshal_spec (d : Digest) (hd : d.nx ≤ 64) :
    d.marshalBinary =
      .ok (d, encode d.h ((absD d).buf ++ List.replicate (64 - d.nx) 0) d.len) := by
  unfold Digest.marshalBinary
  have hbl := absD_buf_length d hd
  have hbuf : d.x.1.take d.nx = (absD d).buf := rfl
  rw [hbuf]
  simp only [Slice.make0]
  rw [show MarshaledSize = 98 from rfl]
  rw [slice_append _ Magic (by simp [Magic])]
  rw [slice_append _ (bytes32 d.h.a) (by simp [Magic, bytes32])]
  rw [slice_append _ (bytes32 d.h.b) (by simp [Magic, bytes32])]
  rw [slice_append _ (bytes32 d.h.c) (by simp [Magic, bytes32])]
  rw [slice_append _ (bytes32 d.h.d) (by simp [Magic, bytes32])]
  rw [slice_append _ (bytes32 d.h.e) (by simp [Magic, bytes32])]
  rw [if_pos hd]
  rw [slice_append _ (absD d).buf (by simp [Magic, bytes32, hbl]; omega)]
  simp only [bytes32_eq, List.drop_replicate]
  have hm : Magic.length = 6 := rfl
  simp only [hm, word32Bytes_length, hbl]
  unfold Slice.resliceTo
  rw [if_pos (by simp [hm, word32Bytes_length, hbl]; omega)]
  simp only [bind, Except.bind, pure, Except.pure]
  rw [slice_append _ (bytes64 d.len) (by simp [hm, word32Bytes_length, hbl, bytes64]; omega)]
  rw [bytes64_eq]
  congr 2
  simp only [encode, digestBytes, List.nil_append, ← List.append_assoc]
  congr 1
  generalize hg : Magic ++ word32Bytes d.h.a ++ word32Bytes d.h.b ++ word32Bytes d.h.c ++
    word32Bytes d.h.d ++ word32Bytes d.h.e ++ (absD d).buf = g
  rw [show g.length + 64 - d.nx = g.length + (64 - d.nx) by omega, List.take_length_add_append,
    List.take_replicate]
  congr 2
  omega

end Verif
