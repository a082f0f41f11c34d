import Verif.Proofs.CProcess
import Verif.Proofs.Final
import Verif.Model.Cgo

/-! The C context as an abstract absorber of bytes, and package cgo on top of it. -/

namespace Verif.C

open Verif Verif.Model Verif.Model.C Verif.Spec

/-- The intended verdict. -/
noncomputable abbrev cVerdict : Regs → Block → Bool := verdict Detected

/-- The abstract state of a context. -/
def absC (c : Ctx) : Sp := ⟨c.ihv, c.buffer.1.take (c.total.toNat % 64), c.found_collision != 0⟩

theorem and63 (x : Word64) : (x &&& 63).toNat = x.toNat % 64 := by
  rw [BitVec.toNat_and]
  exact Nat.and_two_pow_sub_one_eq_mod _ 6

theorem absC_buf_length (c : Ctx) : (absC c).buf.length = c.total.toNat % 64 := by
  have := c.buffer.2
  simp only [absC, List.length_take]; omega

theorem Options.chain_append (o : Options) (H : Regs) (xs ys : List Block) :
    o.chain H (xs ++ ys) =
      ((o.chain (o.chain H xs).1 ys).1, (o.chain H xs).2 || (o.chain (o.chain H xs).1 ys).2) := by
  induction xs generalizing H with
  | nil => simp [Options.chain]
  | cons x xs ih => simp [Options.chain, ih, Bool.or_assoc]

/-- Absorb bytes under the settings `o`. -/
noncomputable def absorb (o : Options) (s : Sp) (p : List Byte) : Sp :=
  { h := (o.chain s.h (blocks (s.buf ++ p))).1
    buf := rem64 (s.buf ++ p)
    col := s.col || (o.chain s.h (blocks (s.buf ++ p))).2 }

theorem absorb_append (o : Options) (s : Sp) (p q : List Byte) :
    absorb o (absorb o s p) q = absorb o s (p ++ q) := by
  unfold absorb
  simp only [← List.append_assoc]
  rw [blocks_append_rem (s.buf ++ p) q, Options.chain_append, rem64_append (s.buf ++ p) q]
  simp only [Bool.or_assoc]

theorem absorb_short (o : Options) (s : Sp) (p : List Byte)
    (h : s.buf.length + p.length < 64) : absorb o s p = { s with buf := s.buf ++ p } := by
  unfold absorb
  rw [blocks_lt _ (by simpa using h), rem64_lt _ (by simpa using h)]
  simp [Options.chain]

theorem absorb_block (o : Options) (s : Sp) (p : List Byte) (h : (s.buf ++ p).length = 64) :
    absorb o s p =
      ⟨o.next s.h (toBlock (s.buf ++ p)), [], s.col || verdict o.Flags s.h (toBlock (s.buf ++ p))⟩ := by
  unfold absorb
  rw [blocks_ge _ (by omega), blocks_lt _ (by simp [h])]
  simp only [Options.chain, rem64, h]
  ext1
  · rfl
  · simp only [Nat.reduceDiv, Nat.mul_one]
    exact List.drop_eq_nil_of_le (by omega)
  · simp

/-- With the default settings a block is flagged iff it is detected. -/
theorem flags_default : Options.default.Flags = Detected := by
  funext H M
  simp [Options.Flags, Options.default, Detected]

theorem next_default (H : Regs) (M : Block) : Options.default.next H M = safeCompress cVerdict H M := by
  unfold Options.next safeCompress
  rw [flags_default]
  simp [Options.default]

theorem chain_default (H : Regs) (bs : List Block) : Options.default.chain H bs = safeChain cVerdict H bs := by
  induction bs generalizing H with
  | nil => rfl
  | cons M Ms ih => simp only [Options.chain, safeChain, ih, next_default, flags_default]

theorem absorb_default (s : Sp) (p : List Byte) : absorb .default s p = s.absorb cVerdict p := by
  unfold absorb Sp.absorb
  rw [chain_default]

theorem memcpyBuf_ok (x : Buf) (off : Nat) (p : List Byte) (h : off + p.length ≤ 64) :
    ∃ y : Buf, memcpyBuf x off p = .ok y ∧ y.1 = x.1.take off ++ p ++ x.1.drop (off + p.length) := by
  unfold memcpyBuf
  rw [dif_pos h]
  exact ⟨_, rfl, rfl⟩

theorem memcpyBuf_full (x : Buf) (off : Nat) (p : List Byte) (h : off + p.length = 64) :
    ∃ y : Buf, memcpyBuf x off p = .ok y ∧ y.1 = x.1.take off ++ p := by
  obtain ⟨y, h1, h2⟩ := memcpyBuf_ok x off p (by omega)
  refine ⟨y, h1, ?_⟩
  rw [h2, List.drop_eq_nil_of_le (by have := x.2; omega), List.append_nil]

/-- Processing one full block held in the list `b`, on a context whose pending bytes plus `p` are `b`. -/
theorem process_absorb (cfg : Cfg) (c c1 : Ctx) (ho : optOf c1 = optOf c) (b rest p : List Byte) (hb : b.length = 64)
    (hpend : (absC c).buf ++ p = b) (h1 : c1.ihv = c.ihv) (h2 : c1.found_collision = c.found_collision)
    (h3 : c1.total.toNat % 64 = 0) :
    ∃ c2, sha1_process cfg c1 (b ++ rest) = .ok c2 ∧ optOf c2 = optOf c ∧ c2.total = c1.total ∧ c2.buffer = c1.buffer ∧
      absC c2 = absorb (optOf c) (absC c) p := by
  obtain ⟨c2, r, f, i, g⟩ := process_spec cfg c1 (b ++ rest) (by simp; omega)
  have hbl : toBlock (b ++ rest) = toBlock b := by
    rw [← toBlock_take (b ++ rest), ← hb, List.take_left]
  refine ⟨c2, r, f.opt.trans ho, f.total, f.buffer, ?_⟩
  rw [absorb_block _ _ _ (by rw [hpend]; exact hb), hpend]
  rw [hbl, h1, ho] at i g
  rw [h2] at g
  unfold absC
  rw [f.total, h3, i, g]
  simp only [List.take_zero, Sp.mk.injEq, true_and]
  show _ = (_ || verdict (optOf c).Flags c.ihv (toBlock b))
  cases verdict (optOf c).Flags c.ihv (toBlock b)
  · simp
  · simp

theorem updFill_spec (cfg : Cfg) (c : Ctx) (buf : List Byte) :
    ∃ c' q l, updFill cfg c buf = .ok (c', q, l) ∧ optOf c' = optOf c ∧ l = c'.total.toNat % 64 ∧
      (l = 0 ∨ l + q.length < 64) ∧
      ∃ p0, buf = p0 ++ q ∧ c'.total = c.total + BitVec.ofNat 64 p0.length ∧
        absC c' = absorb (optOf c) (absC c) p0 := by
  have hlen := absC_buf_length c
  unfold updFill
  simp only [and63]
  by_cases h : c.total.toNat % 64 ≠ 0 ∧ buf.length ≥ 64 - c.total.toNat % 64
  · rw [if_pos h]
    obtain ⟨y, hy1, hy2⟩ := memcpyBuf_full c.buffer (c.total.toNat % 64) (buf.take (64 - c.total.toNat % 64))
      (by simp; omega)
    rw [hy1]
    simp only [bind, Except.bind]
    have ht : (c.total + BitVec.ofNat 64 (64 - c.total.toNat % 64)).toNat % 64 = 0 := by
      rw [BitVec.toNat_add, BitVec.toNat_ofNat]; omega
    obtain ⟨c2, r, hd2, t2, b2, a2⟩ := process_absorb cfg c
      { c with total := c.total + BitVec.ofNat 64 (64 - c.total.toNat % 64), buffer := y }
      rfl y.1 [] (buf.take (64 - c.total.toNat % 64)) y.2 hy2.symm rfl rfl ht
    rw [List.append_nil] at r
    rw [r]
    refine ⟨c2, _, 0, rfl, hd2, ?_, .inl rfl, buf.take (64 - c.total.toNat % 64),
      (List.take_append_drop _ _).symm, ?_, a2⟩
    · rw [t2]; exact ht.symm
    · rw [t2, List.length_take, Nat.min_eq_left h.2]
  · rw [if_neg h]
    refine ⟨c, buf, _, rfl, rfl, rfl, by omega, [], rfl, by simp, ?_⟩
    rw [absorb_short _ _ _ (by rw [hlen]; simp; omega)]
    simp

theorem updBulk_spec (cfg : Cfg) (buf : List Byte) : ∀ (c : Ctx),
    (c.total.toNat % 64 = 0 ∨ c.total.toNat % 64 + buf.length < 64) →
    ∃ c' q, updBulk cfg c buf = .ok (c', q) ∧ optOf c' = optOf c ∧ c'.total.toNat % 64 = c.total.toNat % 64 ∧
      c'.total.toNat % 64 + q.length < 64 ∧
      ∃ p0, buf = p0 ++ q ∧ c'.total = c.total + BitVec.ofNat 64 p0.length ∧
        absC c' = absorb (optOf c) (absC c) p0 := by
  induction hn : buf.length using Nat.strongRecOn generalizing buf with
  | _ n ih =>
    intro c h0
    have hlen := absC_buf_length c
    unfold updBulk
    by_cases h : 64 ≤ buf.length
    · have hz : c.total.toNat % 64 = 0 := by omega
      have ht : (c.total + 64).toNat % 64 = 0 := by
        rw [BitVec.toNat_add, show (64 : Word64).toNat = 64 from rfl]; omega
      have hpend : (absC c).buf ++ buf.take 64 = buf.take 64 := by simp [absC, hz]
      have hl : (buf.take 64).length = 64 := by simp; omega
      rw [if_pos h]
      have hstep : ∃ c2, (if cfg.plat.unaligned = true then
            sha1_process cfg { c with total := c.total + 64 } buf
          else do
            let b ← memcpyBuf c.buffer 0 (buf.take 64)
            sha1_process cfg { c with total := c.total + 64, buffer := b } b.1) = .ok c2 ∧
          optOf c2 = optOf c ∧ c2.total = c.total + 64 ∧ absC c2 = absorb (optOf c) (absC c) (buf.take 64) := by
        by_cases hu : cfg.plat.unaligned = true
        · rw [if_pos hu]
          obtain ⟨c2, r, hd2, t2, _, a2⟩ := process_absorb cfg c { c with total := c.total + 64 }
            rfl (buf.take 64) (buf.drop 64) (buf.take 64) hl hpend rfl rfl ht
          rw [List.take_append_drop] at r
          exact ⟨c2, r, hd2, t2, a2⟩
        · rw [if_neg hu]
          obtain ⟨y, hy1, hy2⟩ := memcpyBuf_full c.buffer 0 (buf.take 64) (by omega)
          rw [List.take_zero, List.nil_append] at hy2
          obtain ⟨c2, r, hd2, t2, _, a2⟩ := process_absorb cfg c { c with total := c.total + 64, buffer := y }
            rfl y.1 [] (buf.take 64) y.2 (hpend.trans hy2.symm) rfl rfl ht
          rw [List.append_nil] at r
          rw [hy1]
          exact ⟨c2, r, hd2, t2, a2⟩
      obtain ⟨c2, r2, hd2, t2, a2⟩ := hstep
      obtain ⟨c3, q, r3, hd3, m3, l3, p0, e3, t3, a3⟩ := ih (buf.drop 64).length (by simp; omega) (buf.drop 64) rfl c2
        (.inl (by rw [t2]; exact ht))
      refine ⟨c3, q, ?_, hd3.trans hd2, by rw [m3, t2, ht, hz], l3, buf.take 64 ++ p0, ?_, ?_, ?_⟩
      · simp only [bind, Except.bind] at r2 ⊢
        by_cases hu : cfg.plat.unaligned = true
        · rw [if_pos hu] at r2 ⊢
          rw [r2]
          exact r3
        · rw [if_neg hu] at r2 ⊢
          cases hmem : memcpyBuf c.buffer 0 (buf.take 64) with
          | error e => rw [hmem] at r2; cases r2
          | ok v =>
            rw [hmem] at r2
            simp only at r2 ⊢
            rw [r2]
            exact r3
      · rw [List.append_assoc, ← e3, List.take_append_drop]
      · rw [t3, t2, List.length_append, hl, BitVec.ofNat_add, BitVec.add_assoc]; rfl
      · rw [a3, hd2, a2, absorb_append]
    · rw [if_neg h]
      refine ⟨c, buf, rfl, rfl, rfl, by omega, [], rfl, by simp, ?_⟩
      rw [absorb_short _ _ _ (by rw [hlen]; simp; omega)]
      simp

theorem updTail_spec (c : Ctx) (q : List Byte) (h : c.total.toNat % 64 + q.length < 64) :
    ∃ c', updTail c q (c.total.toNat % 64) = .ok c' ∧ optOf c' = optOf c ∧ c'.total = c.total + BitVec.ofNat 64 q.length ∧
      absC c' = absorb (optOf c) (absC c) q := by
  have hlen := absC_buf_length c
  unfold updTail
  rw [absorb_short _ _ _ (by rw [hlen]; omega)]
  by_cases h0 : q.length > 0
  · rw [if_pos h0]
    obtain ⟨y, hy1, hy2⟩ := memcpyBuf_ok c.buffer (c.total.toNat % 64) q (by omega)
    simp only [hy1, bind, Except.bind, pure, Except.pure]
    refine ⟨_, rfl, rfl, rfl, ?_⟩
    unfold absC
    simp only [Sp.mk.injEq, true_and, and_true]
    rw [hy2, BitVec.toNat_add, BitVec.toNat_ofNat]
    have e : (c.total.toNat + q.length % 2 ^ 64) % 2 ^ 64 % 64 = (c.buffer.1.take (c.total.toNat % 64) ++ q).length := by
      have := c.buffer.2
      simp only [List.length_append, List.length_take]; omega
    rw [e, List.take_left]
  · rw [if_neg h0]
    have : q = [] := List.eq_nil_of_length_eq_zero (by omega)
    subst this
    exact ⟨c, rfl, rfl, by simp, by simp⟩

theorem update_spec (cfg : Cfg) (c : Ctx) (p : List Byte) :
    ∃ c', SHA1DCUpdate cfg c p = .ok c' ∧ optOf c' = optOf c ∧ c'.total = c.total + BitVec.ofNat 64 p.length ∧
      absC c' = absorb (optOf c) (absC c) p := by
  unfold SHA1DCUpdate
  by_cases h0 : p.length = 0
  · rw [if_pos h0]
    have : p = [] := List.eq_nil_of_length_eq_zero h0
    subst this
    refine ⟨c, rfl, rfl, by simp, ?_⟩
    rw [absorb_short _ _ _ (by rw [absC_buf_length]; simp; omega)]
    simp
  · rw [if_neg h0]
    obtain ⟨c1, q1, l, r1, d1, hl, hlt, p1, e1, t1, a1⟩ := updFill_spec cfg c p
    obtain ⟨c2, q2, r2, d2, m2, l2, p2, e2, t2, a2⟩ := updBulk_spec cfg q1 c1 (by rw [← hl]; exact hlt)
    obtain ⟨c3, r3, d3, t3, a3⟩ := updTail_spec c2 q2 l2
    simp only [r1, bind, Except.bind, r2]
    refine ⟨c3, ?_, d3.trans (d2.trans d1), ?_, ?_⟩
    · rw [hl, ← m2]; exact r3
    · rw [t3, t2, t1, e1, e2]
      simp only [List.length_append, BitVec.ofNat_add, BitVec.add_assoc]
    · rw [a3, a2, a1, d2, d1, absorb_append, absorb_append, ← e2, ← e1]

theorem out32_eq (v : Word) : out32 v = word32Bytes v := bytes32_eq v

theorem final_spec (cfg : Cfg) (c : Ctx) :
    ∃ c', SHA1DCFinal cfg c =
        .ok (c', digestBytes (absorb (optOf c) (absC c) (padTail c.total)).h, c'.found_collision) ∧
      (c'.found_collision != 0) = (absorb (optOf c) (absC c) (padTail c.total)).col := by
  have hlast : ((c.total &&& 63).setWidth 32 : Word).toNat = c.total.toNat % 64 := by
    rw [BitVec.toNat_setWidth, and63]; omega
  have hpad : (if ((c.total &&& 63).setWidth 32 : Word) < 56 then 56 - ((c.total &&& 63).setWidth 32 : Word)
      else 120 - ((c.total &&& 63).setWidth 32 : Word)).toNat = zeroPad c.total.toNat + 1 := by
    unfold zeroPad
    have h56 : (56 : Word).toNat = 56 := rfl
    have h120 : (120 : Word).toNat = 120 := rfl
    split
    · rename_i h
      rw [BitVec.lt_def, hlast, h56] at h
      rw [BitVec.toNat_sub, hlast, h56]; omega
    · rename_i h
      rw [BitVec.lt_def, hlast, h56] at h
      rw [BitVec.toNat_sub, hlast, h120]; omega
  unfold SHA1DCFinal
  simp only
  generalize hg : (if ((c.total &&& 63).setWidth 32 : Word) < 56 then 56 - ((c.total &&& 63).setWidth 32 : Word)
      else 120 - ((c.total &&& 63).setWidth 32 : Word)) = padn at hpad ⊢
  have hz : zeroPad c.total.toNat < 64 := Nat.mod_lt _ (by decide)
  rw [if_pos (by omega)]
  have htake : sha1_padding.take padn.toNat = 0x80 :: List.replicate (zeroPad c.total.toNat) 0 := by
    rw [hpad]
    unfold sha1_padding
    rw [List.take_succ_cons, List.take_replicate, Nat.min_eq_left (by omega)]
  rw [htake]
  obtain ⟨c1, r1, d1, t1, a1⟩ := update_spec cfg c (0x80 :: List.replicate (zeroPad c.total.toNat) 0)
  simp only [List.length_cons, List.length_replicate] at t1
  have hm : c1.total.toNat % 64 = 56 := by
    rw [t1, BitVec.toNat_add, BitVec.toNat_ofNat]
    unfold zeroPad
    omega
  have htot : c1.total - padn.setWidth 64 = c.total := by
    have : (padn.setWidth 64 : Word64) = BitVec.ofNat 64 (zeroPad c.total.toNat + 1) := by
      rw [← hpad]
      apply BitVec.eq_of_toNat_eq
      rw [BitVec.toNat_setWidth, BitVec.toNat_ofNat]
    rw [this, t1, BitVec.add_sub_cancel]
  simp only [r1, bind, Except.bind, htot]
  have hb := bytes64_eq (c.total <<< 3)
  unfold bytes64 at hb
  rw [hb]
  obtain ⟨y, hy1, hy2⟩ := memcpyBuf_full c1.buffer 56 (word64Bytes (c.total <<< 3)) (by simp [word64Bytes_length])
  have hpend : (absC c1).buf ++ word64Bytes (c.total <<< 3) = y.1 := by
    rw [hy2]; simp only [absC, hm]
  rw [hy1]
  simp only
  obtain ⟨c2, r2, f2, i2, g2⟩ := process_spec cfg { c1 with buffer := y } y.1
    (by rw [y.2]; exact Nat.le_refl _)
  rw [r2]
  have hab : absorb (optOf c) (absC c) (padTail c.total) =
      ⟨c2.ihv, [], c2.found_collision != 0⟩ := by
    unfold padTail
    rw [← absorb_append, ← a1, absorb_block _ _ _ (by rw [hpend]; exact y.2), hpend]
    simp only at i2 g2
    rw [show optOf { c1 with buffer := y } = optOf c from d1] at i2 g2
    rw [i2, g2]
    simp only [absC, Sp.mk.injEq, true_and]
    show (_ || verdict (optOf c).Flags c1.ihv (toBlock y.1)) = _
    cases verdict (optOf c).Flags c1.ihv (toBlock y.1)
    · simp
    · simp
  refine ⟨c2, ?_, by rw [hab]⟩
  rw [hab]
  simp only [out32_eq, pure, Except.pure]
  rfl

/-! ### Messages -/

/-- The context has absorbed exactly `m` since `SHA1DCInit`, with the default settings. -/
def HoldsC (c : Ctx) (m : List Byte) : Prop :=
  optOf c = .default ∧ c.total = BitVec.ofNat 64 m.length ∧ absC c = (⟨H0, [], false⟩ : Sp).absorb cVerdict m

theorem holdsC_init (c : Ctx) : HoldsC (SHA1DCInit c) [] := by
  refine ⟨rfl, rfl, ?_⟩
  rw [Sp.absorb_short _ _ _ (by simp)]
  simp [absC, SHA1DCInit, H0]

theorem HoldsC.update {c : Ctx} {m : List Byte} (cfg : Cfg) (h : HoldsC c m) (p : List Byte) :
    ∃ c', SHA1DCUpdate cfg c p = .ok c' ∧ HoldsC c' (m ++ p) := by
  obtain ⟨c', r, d, t, a⟩ := update_spec cfg c p
  refine ⟨c', r, d.trans h.1, ?_, ?_⟩
  · rw [t, h.2.1, List.length_append, BitVec.ofNat_add]
  · rw [a, h.1, absorb_default, h.2.2, Sp.absorb_append]

theorem HoldsC.final {c : Ctx} {m : List Byte} (cfg : Cfg) (h : HoldsC c m) :
    ∃ c', SHA1DCFinal cfg c = .ok (c', (safeHash cVerdict m).1, c'.found_collision) ∧
      (c'.found_collision != 0) = (safeHash cVerdict m).2 := by
  obtain ⟨c', r, f⟩ := final_spec cfg c
  have e : absorb (optOf c) (absC c) (padTail c.total) = (⟨H0, [], false⟩ : Sp).absorb cVerdict (pad m) := by
    rw [h.1, absorb_default, h.2.1, h.2.2, Sp.absorb_append, ← pad_eq]
  rw [e] at r f
  refine ⟨c', ?_, ?_⟩
  · rw [r]; simp [Sp.absorb, safeHash]
  · rw [f]; simp [Sp.absorb, safeHash]

end Verif.C

namespace Verif

open Verif.Model Verif.Model.C Verif.Spec Verif.C

/-- The cgo object has absorbed exactly `m` since `New`/`Reset`. -/
def HoldsCgo (d : Cgo.Digest) (m : List Byte) : Prop := HoldsC d.ctx m

theorem holdsCgo_reset (d : Cgo.Digest) : HoldsCgo d.reset [] := holdsC_init d.ctx

theorem holdsCgo_new : HoldsCgo Cgo.new [] := holdsCgo_reset _

theorem HoldsCgo.write {d : Cgo.Digest} {m : List Byte} (cfg : Cfg) (h : HoldsCgo d m) (p : List Byte) :
    ∃ d', d.write cfg p = .ok (d', p.length, none) ∧ HoldsCgo d' (m ++ p) := by
  unfold Cgo.Digest.write
  by_cases h0 : p.length = 0
  · rw [if_pos h0]
    have : p = [] := List.eq_nil_of_length_eq_zero h0
    subst this
    exact ⟨d, rfl, by simpa using h⟩
  · rw [if_neg h0]
    obtain ⟨c', r, h'⟩ := HoldsC.update cfg h p
    simp only [r, bind, Except.bind, pure, Except.pure]
    exact ⟨_, rfl, h'⟩

theorem HoldsCgo.sum0 {d : Cgo.Digest} {m : List Byte} (cfg : Cfg) (h : HoldsCgo d m) :
    ∃ d', d.sum0 cfg = .ok (d', (safeHash cVerdict m).1, (safeHash cVerdict m).2) := by
  obtain ⟨c', r, f⟩ := HoldsC.final cfg h
  unfold Cgo.Digest.sum0
  simp only [r, bind, Except.bind, pure, Except.pure]
  by_cases hc : c'.found_collision ≠ 0
  · rw [if_pos hc]
    rw [show (c'.found_collision != 0) = true by simpa using hc] at f
    rw [← f]; exact ⟨_, rfl⟩
  · rw [if_neg hc]
    rw [show (c'.found_collision != 0) = false by simpa using hc] at f
    rw [← f]; exact ⟨_, rfl⟩

theorem HoldsCgo.crs {d : Cgo.Digest} {m : List Byte} (cfg : Cfg) (h : HoldsCgo d m) (inp : List Byte) :
    d.collisionResistantSum cfg inp = .ok (d, inp ++ (safeHash cVerdict m).1, (safeHash cVerdict m).2) := by
  obtain ⟨d', r⟩ := h.sum0 cfg
  unfold Cgo.Digest.collisionResistantSum
  simp only [r, bind, Except.bind, pure, Except.pure]

theorem HoldsCgo.sum {d : Cgo.Digest} {m : List Byte} (cfg : Cfg) (h : HoldsCgo d m) (inp : List Byte) :
    d.sum cfg inp = .ok (d, inp ++ (safeHash cVerdict m).1) := by
  unfold Cgo.Digest.sum
  simp only [h.crs cfg inp, bind, Except.bind, pure, Except.pure]

theorem HoldsCgo.call {d : Cgo.Digest} {m : List Byte} (cfg : Cfg) (h : HoldsCgo d m) (op : Cgo.Op) :
    ∃ d', d.call cfg op = .ok (d', result cVerdict m op.toGo) ∧ HoldsCgo d' (msgAfter m op.toGo) := by
  cases op with
  | write p =>
    obtain ⟨d', r, h'⟩ := h.write cfg p
    exact ⟨d', by simp [Cgo.Digest.call, r, bind, Except.bind, pure, Except.pure, result, Cgo.Op.toGo], h'⟩
  | sum inp =>
    exact ⟨d, by simp [Cgo.Digest.call, h.sum cfg, bind, Except.bind, pure, Except.pure, result, Cgo.Op.toGo], h⟩
  | collisionResistantSum inp =>
    exact ⟨d, by simp [Cgo.Digest.call, h.crs cfg, bind, Except.bind, pure, Except.pure, result, Cgo.Op.toGo], h⟩
  | reset => exact ⟨d.reset, rfl, holdsCgo_reset d⟩
  | size => exact ⟨d, rfl, h⟩
  | blockSize => exact ⟨d, rfl, h⟩

theorem HoldsCgo.run {d : Cgo.Digest} {m : List Byte} (cfg : Cfg) (ops : List Cgo.Op) (h : HoldsCgo d m) :
    ∃ d', d.run cfg ops = .ok (d', results cVerdict m (ops.map Cgo.Op.toGo)) ∧
      HoldsCgo d' ((ops.map Cgo.Op.toGo).foldl msgAfter m) := by
  induction ops generalizing d m with
  | nil => exact ⟨d, rfl, h⟩
  | cons op ops ih =>
    obtain ⟨d1, r1, h1⟩ := h.call cfg op
    obtain ⟨d2, r2, h2⟩ := ih h1
    exact ⟨d2, by simp [Cgo.Digest.run, r1, r2, bind, Except.bind, pure, Except.pure, results], h2⟩

theorem cgo_sumPkg (cfg : Cfg) (m : List Byte) : Cgo.sumPkg cfg m = .ok (safeHash cVerdict m) := by
  obtain ⟨d, r, h⟩ := (holdsCgo_reset Cgo.Digest.zero).write cfg m
  obtain ⟨d', r'⟩ := h.sum0 cfg
  unfold Cgo.sumPkg
  simp only [r, r', bind, Except.bind, pure, Except.pure, List.nil_append]

end Verif
