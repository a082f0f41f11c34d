import Verif.Proofs.BlockSpec
import Verif.Model.Digest

/-! The digest as an abstract absorber of bytes. -/

namespace Verif

open Verif.Model Verif.Spec

/-- The bytes after the last complete block. -/
def rem64 (l : List Byte) : List Byte := l.drop (64 * (l.length / 64))

theorem rem64_length (l : List Byte) : (rem64 l).length = l.length % 64 := by
  simp [rem64]; omega

theorem blocks_append (a b : List Byte) (h : a.length % 64 = 0) :
    blocks (a ++ b) = blocks a ++ blocks b := by
  induction hn : a.length using Nat.strongRecOn generalizing a with
  | _ n ih =>
    by_cases h64 : 64 ≤ a.length
    · rw [blocks_ge (a ++ b) (by simp; omega), blocks_ge a h64]
      have e1 : toBlock (a ++ b) = toBlock a := by
        rw [← toBlock_take (a ++ b), ← toBlock_take a, List.take_append_of_le_length h64]
      rw [e1, List.drop_append_of_le_length h64, List.cons_append]
      rw [ih (a.drop 64).length (by simp; omega) (a.drop 64) (by simp; omega) rfl]
    · have : a = [] := List.eq_nil_of_length_eq_zero (by omega)
      subst this
      rw [blocks_lt [] (by simp)]; rfl

theorem split64 (l : List Byte) :
    l = l.take (64 * (l.length / 64)) ++ rem64 l := (List.take_append_drop _ _).symm

theorem take64_length (l : List Byte) : (l.take (64 * (l.length / 64))).length % 64 = 0 := by
  simp; omega

theorem blocks_take (l : List Byte) : blocks (l.take (64 * (l.length / 64))) = blocks l := by
  conv => rhs; rw [split64 l]
  rw [blocks_append _ _ (take64_length l), blocks_lt (rem64 l) (by rw [rem64_length]; omega)]
  simp

theorem blocks_append_rem (l q : List Byte) : blocks (l ++ q) = blocks l ++ blocks (rem64 l ++ q) := by
  conv => lhs; rw [split64 l, List.append_assoc]
  rw [blocks_append _ _ (take64_length l), blocks_take]

theorem rem64_append (l q : List Byte) : rem64 (l ++ q) = rem64 (rem64 l ++ q) := by
  conv => lhs; rw [split64 l, List.append_assoc]
  have h := take64_length l
  generalize l.take (64 * (l.length / 64)) = a at *
  generalize rem64 l ++ q = b
  unfold rem64
  have : 64 * ((a ++ b).length / 64) = a.length + 64 * (b.length / 64) := by simp; omega
  rw [this, ← List.drop_drop, List.drop_left]

theorem safeChain_append (det : Regs → Block → Bool) (H : Regs) (xs ys : List Block) :
    safeChain det H (xs ++ ys) =
      ((safeChain det (safeChain det H xs).1 ys).1,
        (safeChain det H xs).2 || (safeChain det (safeChain det H xs).1 ys).2) := by
  induction xs generalizing H with
  | nil => simp [safeChain]
  | cons x xs ih => simp [safeChain, ih, Bool.or_assoc]

/-- Chaining value, unprocessed bytes and flag. -/
@[ext] structure Sp where
  h : Regs
  buf : List Byte
  col : Bool

/-- Absorb bytes. -/
def Sp.absorb (det : Regs → Block → Bool) (s : Sp) (p : List Byte) : Sp :=
  { h := (safeChain det s.h (blocks (s.buf ++ p))).1
    buf := rem64 (s.buf ++ p)
    col := s.col || (safeChain det s.h (blocks (s.buf ++ p))).2 }

theorem Sp.absorb_append (det : Regs → Block → Bool) (s : Sp) (p q : List Byte) :
    (s.absorb det p).absorb det q = s.absorb det (p ++ q) := by
  unfold Sp.absorb
  simp only [← List.append_assoc]
  rw [blocks_append_rem (s.buf ++ p) q, safeChain_append, rem64_append (s.buf ++ p) q]
  simp only [Bool.or_assoc]

theorem rem64_lt (l : List Byte) (h : l.length < 64) : rem64 l = l := by
  unfold rem64; rw [Nat.div_eq_of_lt h]; simp

theorem Sp.absorb_short (det : Regs → Block → Bool) (s : Sp) (p : List Byte)
    (h : s.buf.length + p.length < 64) : s.absorb det p = { s with buf := s.buf ++ p } := by
  unfold Sp.absorb
  rw [blocks_lt _ (by simpa using h), rem64_lt _ (by simpa using h)]
  simp [safeChain]

/-- The block function computes the safe chain for the verdict `det`. -/
def BlockImpl (block : BlockFn) (det : Regs → Block → Bool) : Prop :=
  ∀ c p, block c p =
    .ok ⟨(safeChain det c.h (blocks p)).1, c.col || (safeChain det c.h (blocks p)).2⟩

theorem blockNoasm_impl : BlockImpl blockNoasm detGo := fun c p => blockGeneric_spec c p

/-- The abstract state of a digest. -/
def absD (d : Digest) : Sp := ⟨d.h, d.x.1.take d.nx, d.col⟩

/-- Invariant of every reachable digest. -/
def DInv (d : Digest) : Prop := d.nx = (d.len % 64).toNat

theorem DInv.lt {d : Digest} (h : DInv d) : d.nx < 64 := by
  unfold DInv at h; rw [h, BitVec.toNat_umod]; exact Nat.mod_lt _ (by decide)

theorem absD_buf_length (d : Digest) (h : d.nx ≤ 64) : (absD d).buf.length = d.nx := by
  have := d.x.2
  simp only [absD, List.length_take]; omega

theorem copyAt_take (x : Buf) (off : Nat) (h : off ≤ 64) (p : List Byte) :
    (copyAt x off h p).1.take (off + min (64 - off) p.length) = x.1.take off ++ p.take (64 - off) := by
  have hx := x.2
  unfold copyAt
  simp only
  have e : (x.1.take off ++ p.take (64 - off)).length = off + min (64 - off) p.length := by
    simp; omega
  rw [← e, List.take_left]

theorem fill_spec (block : BlockFn) (det : Regs → Block → Bool) (hb : BlockImpl block det)
    (d : Digest) (hd : d.nx < 64) (p : List Byte) :
    ∃ d' q, d.writeFill block p = .ok (d', q ) ∧ d'.nx < 64 ∧ (d'.nx = 0 ∨ q = []) ∧
      d'.len = d.len ∧ ∃ p0, p = p0 ++ q ∧ absD d' = (absD d).absorb det p0 := by
  unfold Digest.writeFill
  by_cases h0 : d.nx > 0
  · rw [if_pos h0, dif_pos (by omega)]
    have hbl := absD_buf_length d (by omega)
    have hct := copyAt_take d.x d.nx (by omega) p
    by_cases h64 : d.nx + min (64 - d.nx) p.length = 64
    · rw [if_pos (show _ = Chunk from h64)]
      unfold Digest.callBlock
      rw [hb]
      simp only [bind, Except.bind, pure, Except.pure]
      refine ⟨_, _, rfl, by simp, .inl rfl, rfl, p.take (64 - d.nx), ?_, ?_⟩
      · rw [show min (64 - d.nx) p.length = 64 - d.nx by omega, List.take_append_drop]
      · have hx : (copyAt d.x d.nx (by omega) p).1 = (absD d).buf ++ p.take (64 - d.nx) := by
          rw [← List.take_of_length_le (l := (copyAt d.x d.nx (by omega) p).1) (i := 64)
            (by rw [(copyAt d.x d.nx (by omega) p).2]; exact Nat.le_refl _)]
          rw [h64] at hct
          exact hct
        have hl : ((absD d).buf ++ p.take (64 - d.nx)).length = 64 := by
          rw [← hx]; exact (copyAt d.x d.nx (by omega) p).2
        unfold Sp.absorb
        rw [← hx] at hl ⊢
        ext1
        · rfl
        · simp [absD, rem64, hl]
        · rfl
    · rw [if_neg (show ¬ _ = Chunk from h64)]
      simp only [pure, Except.pure]
      refine ⟨_, _, rfl, by simp only; omega, .inr ?_, rfl, p, ?_, ?_⟩
      · exact List.drop_eq_nil_of_le (by omega)
      · rw [List.drop_eq_nil_of_le (by omega)]; simp
      · rw [Sp.absorb_short _ _ _ (by omega)]
        simp only [absD]
        rw [hct, List.take_of_length_le (l := p) (by omega)]
  · rw [if_neg h0]
    refine ⟨d, p, rfl, hd, .inl (by omega), rfl, [], rfl, ?_⟩
    rw [Sp.absorb_short _ _ _ (by rw [absD_buf_length d (by omega)]; simpa using hd)]
    simp

theorem bulk_spec (block : BlockFn) (det : Regs → Block → Bool) (hb : BlockImpl block det)
    (d : Digest) (p : List Byte) (h : d.nx = 0 ∨ p = []) (hd : d.nx < 64) :
    ∃ d' q, d.writeBulk block p = .ok (d', q) ∧ (d'.nx = 0 ∨ q = []) ∧ q.length < 64 ∧
      d'.nx < 64 ∧ d'.len = d.len ∧ ∃ p0, p = p0 ++ q ∧ absD d' = (absD d).absorb det p0 := by
  unfold Digest.writeBulk
  by_cases h64 : p.length ≥ Chunk
  · rw [if_pos h64]
    have hnx : d.nx = 0 := by
      rcases h with h | h
      · exact h
      · subst h; simp [Chunk] at h64
    have hn : p.length - (p.length &&& (Chunk - 1)) = 64 * (p.length / 64) := by
      have : p.length &&& (Chunk - 1) = p.length % 64 := Nat.and_two_pow_sub_one_eq_mod p.length 6
      rw [this]; omega
    simp only
    rw [hn]
    unfold Digest.callBlock
    rw [hb]
    simp only [bind, Except.bind, pure, Except.pure]
    refine ⟨_, _, rfl, .inl hnx, by simp; omega, hd, rfl, p.take (64 * (p.length / 64)),
      (List.take_append_drop _ _).symm, ?_⟩
    unfold Sp.absorb
    have hbuf : (absD d).buf = [] := by simp [absD, hnx]
    rw [hbuf]
    simp only [List.nil_append]
    ext1
    · rfl
    · simp only [absD, hnx, List.take_zero]
      symm
      apply List.eq_nil_of_length_eq_zero
      rw [rem64_length, take64_length]
    · rfl
  · rw [if_neg h64]
    refine ⟨d, p, rfl, h, by simp only [Chunk] at h64; omega, hd, rfl, [], rfl, ?_⟩
    rw [Sp.absorb_short _ _ _ (by rw [absD_buf_length d (by omega)]; simpa using hd)]
    simp

theorem tail_spec (det : Regs → Block → Bool) (d : Digest) (p : List Byte) (h : d.nx = 0 ∨ p = [])
    (hp : p.length < 64) (hd : d.nx < 64) :
    (d.writeTail p).nx < 64 ∧ (d.writeTail p).len = d.len ∧
      absD (d.writeTail p) = (absD d).absorb det p := by
  unfold Digest.writeTail
  have hbl := absD_buf_length d (by omega)
  by_cases h0 : p.length > 0
  · rw [if_pos h0]
    have hnx : d.nx = 0 := by
      rcases h with h | h
      · exact h
      · subst h; simp at h0
    refine ⟨by simp only; omega, rfl, ?_⟩
    rw [Sp.absorb_short _ _ _ (by omega)]
    have hct := copyAt_take d.x 0 (Nat.zero_le _) p
    simp only [Nat.zero_add, Nat.sub_zero] at hct
    simp only [absD, hct, hnx, List.take_zero, List.nil_append,
      List.take_of_length_le (l := p) (i := 64) (by omega)]
  · rw [if_neg h0]
    have : p = [] := List.eq_nil_of_length_eq_zero (by omega)
    subst this
    refine ⟨hd, rfl, ?_⟩
    rw [Sp.absorb_short _ _ _ (by simpa [hbl] using hd)]
    simp

theorem toNat_len_add (l : Word64) (n : Nat) :
    ((l + BitVec.ofNat 64 n) % 64).toNat = (l.toNat + n) % 64 := by
  simp [BitVec.toNat_umod]

/-- `Write` absorbs its argument, keeps the invariant, and returns `(len(p), nil)`. -/
theorem write_spec (block : BlockFn) (det : Regs → Block → Bool) (hb : BlockImpl block det)
    (d : Digest) (hd : DInv d) (p : List Byte) :
    ∃ d', d.write block p = .ok (d', p.length, none) ∧ DInv d' ∧
      d'.len = d.len + BitVec.ofNat 64 p.length ∧ absD d' = (absD d).absorb det p := by
  have hlt := hd.lt
  unfold Digest.write
  by_cases h0 : p.length = 0
  · rw [if_pos h0]
    have : p = [] := List.eq_nil_of_length_eq_zero h0
    subst this
    refine ⟨d, rfl, hd, by simp, ?_⟩
    rw [Sp.absorb_short _ _ _ (by simpa [absD_buf_length d (by omega)] using hlt)]
    simp
  · rw [if_neg h0]
    simp only [bind, Except.bind]
    obtain ⟨d1, q1, e1, n1, c1, l1, p1, s1, a1⟩ := fill_spec block det hb
      { d with len := d.len + BitVec.ofNat 64 p.length } hlt p
    rw [e1]
    simp only
    obtain ⟨d2, q2, e2, c2, m2, n2, l2, p2, s2, a2⟩ := bulk_spec block det hb d1 q1 c1 n1
    rw [e2]
    simp only
    obtain ⟨n3, l3, a3⟩ := tail_spec det d2 q2 c2 m2 n2
    have hlen : (d2.writeTail q2).len = d.len + BitVec.ofNat 64 p.length := by rw [l3, l2, l1]
    have habs : absD (d2.writeTail q2) = (absD d).absorb det p := by
      rw [a3, a2, a1, Sp.absorb_append, Sp.absorb_append, ← s2, ← s1]
      rfl
    refine ⟨_, rfl, ?_, hlen, habs⟩
    unfold DInv
    rw [hlen, toNat_len_add]
    have e := congrArg (fun s => s.buf.length) habs
    rw [absD_buf_length _ (by omega)] at e
    rw [e]
    simp only [Sp.absorb, rem64_length, List.length_append]
    rw [absD_buf_length _ (by omega), hd, BitVec.toNat_umod]
    simp

end Verif
