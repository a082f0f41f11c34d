import Verif.Proofs.Sponge

/-! Padding and final digest; checkpoints. -/

namespace Verif

open Verif.Model Verif.Spec

/-- The padding appended to a message whose length is `len` modulo 2^64. -/
def padTail (len : Word64) : List Byte :=
  (0x80 : Byte) :: List.replicate (zeroPad len.toNat) 0 ++ word64Bytes (len <<< 3)

theorem bytes64_eq (v : Word64) : bytes64 v = word64Bytes v := by
  unfold bytes64 word64Bytes
  simp only [List.cons.injEq, and_true]
  refine ⟨?_, ?_, ?_, ?_, ?_, ?_, ?_, ?_⟩ <;>
  · apply BitVec.eq_of_getLsbD_eq
    intro i hi
    simp <;> omega

theorem bytes32_eq (v : Word) : bytes32 v = word32Bytes v := by
  unfold bytes32 word32Bytes
  simp only [List.cons.injEq, and_true]
  refine ⟨?_, ?_, ?_, ?_⟩ <;>
  · apply BitVec.eq_of_getLsbD_eq
    intro i hi
    simp <;> omega

theorem word64Bytes_length (v : Word64) : (word64Bytes v).length = 8 := rfl

theorem padding_spec (len : Word64) : padding len = .ok (padTail len) := by
  unfold padding padTail
  have ht : (if len % 64 < 56 then 56 - len % 64 else 64 + 56 - len % 64 : Word64).toNat =
      zeroPad len.toNat + 1 := by
    have hr : (len % 64).toNat = len.toNat % 64 := by simp [BitVec.toNat_umod]
    have hlt : len.toNat % 64 < 64 := Nat.mod_lt _ (by decide)
    unfold zeroPad
    split
    · rename_i h
      have h' : len.toNat % 64 < 56 := by
        have := BitVec.lt_def.mp h
        rw [hr] at this
        simpa using this
      rw [BitVec.toNat_sub, hr]
      have : (56 : Word64).toNat = 56 := rfl
      rw [this]
      omega
    · rename_i h
      have h' : ¬ len.toNat % 64 < 56 := by
        intro h2; apply h
        rw [BitVec.lt_def, hr]
        simpa using h2
      rw [BitVec.toNat_sub, hr]
      have : (64 + 56 : Word64).toNat = 120 := rfl
      rw [this]
      omega
  generalize (if len % 64 < 56 then 56 - len % 64 else 64 + 56 - len % 64 : Word64) = t at ht
  have hz : zeroPad len.toNat < 64 := Nat.mod_lt _ (by decide)
  have ht8 : (t + 8).toNat = zeroPad len.toNat + 9 := by
    rw [BitVec.toNat_add, ht]
    have : (8 : Word64).toNat = 8 := rfl
    rw [this]; omega
  simp only
  rw [ht8, ht, bytes64_eq]
  unfold putAt
  rw [if_pos (by simp [word64Bytes_length]; omega)]
  simp only [bind, Except.bind, pure, Except.pure]
  rw [if_pos (by omega)]
  congr 1
  have e1 : List.take (zeroPad len.toNat + 1) (0x80 :: List.replicate 71 0 : List Byte) =
      0x80 :: List.replicate (zeroPad len.toNat) 0 := by
    rw [List.take_succ_cons, List.take_replicate, Nat.min_eq_left (by omega)]
  rw [e1]
  have e2 : ((0x80 : Byte) :: List.replicate (zeroPad len.toNat) 0 ++ word64Bytes (len <<< 3)).length = zeroPad len.toNat + 9 := by
    simp [word64Bytes_length]
  rw [← e2, List.take_left]

theorem padTail_length (len : Word64) : (padTail len).length = zeroPad len.toNat + 9 := by
  simp [padTail, word64Bytes_length]

theorem word32Bytes_length (v : Word) : (word32Bytes v).length = 4 := rfl

/-- `checkSum` absorbs the padding and returns the chaining value. -/
theorem checkSum_spec (block : BlockFn) (det : Regs → Block → Bool) (hb : BlockImpl block det)
    (d : Digest) (hd : DInv d) :
    ∃ d', d.checkSum block = .ok (d', digestBytes d'.h) ∧
      absD d' = (absD d).absorb det (padTail d.len) := by
  unfold Digest.checkSum
  rw [padding_spec]
  obtain ⟨d', e, hi, hl, ha⟩ := write_spec block det hb d hd (padTail d.len)
  simp only [bind, Except.bind]
  rw [e]
  simp only
  have hnx : d'.nx = 0 := by
    rw [hi, hl, toNat_len_add, padTail_length]
    unfold zeroPad
    omega
  rw [if_neg (by simp [hnx])]
  refine ⟨d', ?_, ha⟩
  simp only [bytes32_eq]
  rfl

/-- The digest bytes and verdict obtained from a state. -/
def finish (det : Regs → Block → Bool) (d : Digest) : List Byte × Bool :=
  (digestBytes ((absD d).absorb det (padTail d.len)).h, ((absD d).absorb det (padTail d.len)).col)

theorem sum_spec (block : BlockFn) (det : Regs → Block → Bool) (hb : BlockImpl block det)
    (d : Digest) (hd : DInv d) (inp : List Byte) :
    d.sum block inp = .ok (d, inp ++ (finish det d).1) := by
  obtain ⟨d', e, ha⟩ := checkSum_spec block det hb d hd
  unfold Digest.sum
  simp only [e, bind, Except.bind, pure, Except.pure]
  rw [← show (absD d').h = d'.h from rfl, ha]
  rfl

theorem crs_spec (block : BlockFn) (det : Regs → Block → Bool) (hb : BlockImpl block det)
    (d : Digest) (hd : DInv d) (inp : List Byte) :
    d.collisionResistantSum block inp = .ok (d, inp ++ (finish det d).1, (finish det d).2) := by
  obtain ⟨d', e, ha⟩ := checkSum_spec block det hb d hd
  unfold Digest.collisionResistantSum
  simp only [e, bind, Except.bind, pure, Except.pure]
  rw [← show (absD d').h = d'.h from rfl, ← show (absD d').col = d'.col from rfl, ha]
  rfl

/-! ### Messages -/

/-- The digest `d` has absorbed exactly `m` since `New`/`Reset`. -/
def Holds (det : Regs → Block → Bool) (d : Digest) (m : List Byte) : Prop :=
  DInv d ∧ d.len = BitVec.ofNat 64 m.length ∧ absD d = (⟨H0, [], false⟩ : Sp).absorb det m

theorem holds_reset (det : Regs → Block → Bool) (d : Digest) : Holds det d.reset [] := by
  refine ⟨rfl, rfl, ?_⟩
  rw [Sp.absorb_short _ _ _ (by simp)]
  simp [absD, Digest.reset, H0, Init0, Init1, Init2, Init3, Init4]

theorem holds_new (det : Regs → Block → Bool) : Holds det new [] := holds_reset det _

theorem Holds.write {det : Regs → Block → Bool} {block : BlockFn} (hb : BlockImpl block det)
    {d : Digest} {m : List Byte} (h : Holds det d m) (p : List Byte) :
    ∃ d', d.write block p = .ok (d', p.length, none) ∧ Holds det d' (m ++ p) := by
  obtain ⟨d', e, hi, hl, ha⟩ := write_spec block det hb d h.1 p
  refine ⟨d', e, hi, ?_, ?_⟩
  · rw [hl, h.2.1, List.length_append, BitVec.ofNat_add]
  · rw [ha, h.2.2, Sp.absorb_append]

theorem pad_eq (m : List Byte) : pad m = m ++ padTail (BitVec.ofNat 64 m.length) := by
  unfold pad padTail
  have e1 : zeroPad (BitVec.ofNat 64 m.length).toNat = zeroPad m.length := by
    unfold zeroPad; rw [BitVec.toNat_ofNat]; omega
  have e2 : BitVec.ofNat 64 (8 * m.length) = (BitVec.ofNat 64 m.length) <<< 3 := by
    apply BitVec.eq_of_toNat_eq
    simp [Nat.shiftLeft_eq]
    omega
  rw [e1, e2]
  simp

theorem Holds.finish {det : Regs → Block → Bool} {d : Digest} {m : List Byte} (h : Holds det d m) :
    Verif.finish det d = safeHash det m := by
  unfold Verif.finish
  rw [h.2.1, h.2.2, Sp.absorb_append, ← pad_eq]
  simp [Sp.absorb, safeHash]

end Verif
