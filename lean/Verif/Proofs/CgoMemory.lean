import Verif.Model.CgoMemory
import Verif.Proofs.Memory
import Verif.Proofs.CSponge

/-! The object of package cgo in memory does what the object as a value does. -/

namespace Verif

open Verif.Model Verif.Model.C Verif.Spec Verif.C

namespace CgoMem

open Verif.Model.Cgo

/-- The context with another `buffer`. -/
def setBuf (c : Ctx) (b : Buf) : Ctx := { c with buffer := b }

theorem dvLoop_buf (mask : Word) (b : Buf) : ∀ (dvs : List DvInfoT) (c : Ctx),
    dvLoop mask dvs (setBuf c b) = (dvLoop mask dvs c).map (setBuf · b)
  | [], _ => rfl
  | dv :: dvs, c => by
    unfold dvLoop
    simp only [setBuf]
    split
    · split
      · split
        · split
          · rename_i ht
            simp only [bind, Except.bind]
            cases sha1_recompression_step dv.testt (fun j => c.m1 j ^^^ dv.dm j) (c.states ⟨dv.testt, ht⟩) with
            | error _ => rfl
            | ok r =>
              simp only
              by_cases hs : (sameIhv r.2 c.ihv || c.reduced_round_coll != 0 && sameIhv c.ihv1 r.1) = true
              · rw [if_pos hs]; refine (if_pos hs).trans ?_
                by_cases hsafe : c.safe_hash ≠ 0
                · rw [if_pos hsafe]; refine (if_pos hsafe).trans ?_
                  cases sha1_compression_W c.ihv c.m1 with
                  | error _ => rfl
                  | ok i1 =>
                    simp only
                    cases sha1_compression_W i1 c.m1 with
                    | error _ => rfl
                    | ok _ => rfl
                · rw [if_neg hsafe]; refine (if_neg hsafe).trans ?_; rfl
              · rw [if_neg hs]; refine (if_neg hs).trans ?_
                exact dvLoop_buf mask b dvs
                  { c with m2 := fun j => c.m1 j ^^^ dv.dm j, ihv2 := r.1 }
          · rfl
        · exact dvLoop_buf mask b dvs c
      · rfl
    · rfl

theorem process_buf (cfg : Plat) (c : Ctx) (b : Buf) (p : List Byte) :
    sha1_process cfg (setBuf c b) p = (sha1_process cfg c p).map (setBuf · b) := by
  unfold sha1_process
  simp only [bind, Except.bind, setBuf]
  split
  · rfl
  · rename_i w _
    by_cases hd : c.detect_coll ≠ 0
    · rw [if_pos hd]; refine (if_pos hd).trans ?_
      by_cases hm : (if c.ubc_check ≠ 0 then Ubc.ubcCheck w.2.1 else 0xFFFFFFFF) ≠ 0
      · rw [if_pos hm]; refine (if_pos hm).trans ?_
        exact dvLoop_buf _ b _ { c with ihv := w.1, ihv1 := c.ihv, m1 := w.2.1, states := w.2.2 }
      · rw [if_neg hm]; refine (if_neg hm).trans ?_; rfl
    · rw [if_neg hd]; refine (if_neg hd).trans ?_; rfl

theorem dvLoop_keep (mask : Word) : ∀ (dvs : List DvInfoT) (c c' : Ctx),
    dvLoop mask dvs c = .ok c' → c'.buffer = c.buffer := by
  intro dvs c c' h
  have := dvLoop_buf mask c.buffer dvs c
  rw [show setBuf c c.buffer = c from rfl, h] at this
  simp only [Except.map, Except.ok.injEq] at this
  rw [this]; rfl

theorem process_keep (cfg : Plat) {c c' : Ctx} {p : List Byte} (h : sha1_process cfg c p = .ok c') :
    c'.buffer = c.buffer := by
  have := process_buf cfg c c.buffer p
  rw [show setBuf c c.buffer = c from rfl, h] at this
  simp only [Except.map, Except.ok.injEq] at this
  rw [this]; rfl

/-- The object `d` in memory `H` is the value `v`. -/
structure CRep (H : Heap) (d : MCgo) (v : Cgo.Digest) : Prop where
  ctx : ∃ b, d.ctx = setBuf v.ctx b
  buf : H[d.buf]? = some v.ctx.buffer.1
  h : H[d.h]? = some v.h
  hl : v.h.length = 20
  ne : d.buf ≠ d.h

theorem CRep.congr {H H' : Heap} {d : MCgo} {v : Cgo.Digest} (h : CRep H d v) (e : H'[d.buf]? = H[d.buf]?)
    (e' : H'[d.h]? = H[d.h]?) : CRep H' d v :=
  ⟨h.ctx, e.trans h.buf, e'.trans h.h, h.hl, h.ne⟩

theorem adv_spec {H : Heap} {p : Sl} (hp : Fits H p) (n : Nat) (hn : n ≤ p.len) :
    Fits H (adv p n) ∧ rd H (adv p n) = (rd H p).drop n := by
  obtain ⟨a, ha, hl⟩ := hp.arr
  have h1 := hp.len
  refine ⟨⟨by simp only [adv]; omega, a, ha, by simp only [adv]; omega⟩, ?_⟩
  rw [rd_eq ha, rd_eq (s := adv p n) ha]
  simp only [adv, List.drop_take, List.drop_drop]

/-- `sha1_process` on a block in memory. -/
theorem process_sim (cfg : Plat) {H : Heap} {d : MCgo} {v : Cgo.Digest} (h : CRep H d v) (p : Sl) {c' : Ctx}
    (e : sha1_process cfg v.ctx (rd H p) = .ok c') :
    ∃ d', d.process cfg H p = .ok d' ∧ CRep H d' { v with ctx := c' } ∧ d'.buf = d.buf ∧ d'.h = d.h := by
  obtain ⟨b, hb⟩ := h.ctx
  unfold MCgo.process
  rw [hb, process_buf, e]
  refine ⟨_, rfl, ⟨⟨b, rfl⟩, ?_, h.h, h.hl, h.ne⟩, rfl, rfl⟩
  simp only [process_keep cfg e]; exact h.buf

/-- Writing into the buffer. -/
theorem wr_sim {H : Heap} {d : MCgo} {v : Cgo.Digest} (h : CRep H d v) (off : Nat) (bs : List Byte) {y : Buf}
    (e : memcpyBuf v.ctx.buffer off bs = .ok y) :
    CRep (wr H d.buf off bs) d { v with ctx := { v.ctx with buffer := y } } ∧ OffEq d.buf H (wr H d.buf off bs) := by
  obtain ⟨b, hb⟩ := h.ctx
  have ho := OffEq.wr H d.buf off bs
  refine ⟨⟨⟨b, hb⟩, ?_, ?_, h.hl, h.ne⟩, ho⟩
  · rw [wr_get, if_pos rfl, h.buf]
    unfold memcpyBuf at e
    split at e
    · cases e; rfl
    · cases e
  · rw [ho.get _ (Ne.symm h.ne)]; exact h.h

theorem memcpy_inv {x y : Buf} {off : Nat} {bs : List Byte} (e : memcpyBuf x off bs = .ok y) :
    off + bs.length ≤ 64 := by
  unfold memcpyBuf at e
  split at e
  · assumption
  · cases e

theorem memcpy_sim {H : Heap} {d : MCgo} {v : Cgo.Digest} (h : CRep H d v) (off n : Nat) (p : Sl) (hp : Fits H p)
    (hn : n ≤ p.len) {y : Buf} (e : memcpyBuf v.ctx.buffer off ((rd H p).take n) = .ok y) :
    ∃ H', memcpyM H d.buf off p n = .ok H' ∧ CRep H' d { v with ctx := { v.ctx with buffer := y } } ∧
      OffEq d.buf H H' := by
  have hl := hp.rd_length
  have h1 := memcpy_inv e
  rw [List.length_take, hl, Nat.min_eq_left hn] at h1
  unfold memcpyM
  rw [if_pos ⟨h1, hn⟩]
  exact ⟨_, rfl, wr_sim h off _ e⟩

theorem setTotal {H : Heap} {d : MCgo} {v : Cgo.Digest} (h : CRep H d v) (t : Word64) :
    CRep H { d with ctx := { d.ctx with total := t } } { v with ctx := { v.ctx with total := t } } := by
  obtain ⟨b, hb⟩ := h.ctx
  exact ⟨⟨b, by rw [hb]; rfl⟩, h.buf, h.h, h.hl, h.ne⟩

theorem CRep.total {H : Heap} {d : MCgo} {v : Cgo.Digest} (h : CRep H d v) : d.ctx.total = v.ctx.total := by
  obtain ⟨b, hb⟩ := h.ctx
  rw [hb]; rfl

theorem CRep.ihv {H : Heap} {d : MCgo} {v : Cgo.Digest} (h : CRep H d v) : d.ctx.ihv = v.ctx.ihv := by
  obtain ⟨b, hb⟩ := h.ctx
  rw [hb]; rfl

theorem CRep.found {H : Heap} {d : MCgo} {v : Cgo.Digest} (h : CRep H d v) :
    d.ctx.found_collision = v.ctx.found_collision := by
  obtain ⟨b, hb⟩ := h.ctx
  rw [hb]; rfl

theorem CRep.whole {H : Heap} {d : MCgo} {v : Cgo.Digest} (h : CRep H d v) :
    rd H (whole d.buf 64) = v.ctx.buffer.1 := rd_whole h.buf v.ctx.buffer.2

theorem fill_sim (cfg : Plat) {H : Heap} {d : MCgo} {v : Cgo.Digest} (h : CRep H d v) (p : Sl) (hp : Fits H p)
    (hne : p.arr ≠ d.buf) {c' : Ctx} {q : List Byte} {l : Nat}
    (e : updFill cfg v.ctx (rd H p) = .ok (c', q, l)) :
    ∃ H' d' p', d.updFill cfg H p = .ok (H', d', p', l) ∧ CRep H' d' { v with ctx := c' } ∧ d'.buf = d.buf ∧
      d'.h = d.h ∧ OffEq d.buf H H' ∧ Fits H' p' ∧ p'.arr = p.arr ∧ rd H' p' = q := by
  have hl := hp.rd_length
  unfold updFill at e
  unfold MCgo.updFill
  simp only [h.total] at e ⊢
  rw [hl] at e
  by_cases h0 : (v.ctx.total &&& 63).toNat ≠ 0 ∧ p.len ≥ 64 - (v.ctx.total &&& 63).toNat
  · rw [if_pos h0] at e ⊢
    simp only [bind, Except.bind] at e ⊢
    split at e
    · cases e
    · rename_i y hy
      obtain ⟨H1, m1, m2, m3⟩ := memcpy_sim (setTotal h (v.ctx.total + BitVec.ofNat 64 (64 - (v.ctx.total &&& 63).toNat)))
        _ _ p hp h0.2 hy
      simp only at m1 m3
      rw [m1]
      simp only
      split at e
      · cases e
      · rename_i c1 hc1
        rw [← m2.whole] at hc1
        obtain ⟨d1, k1, k2, k3, k4⟩ := process_sim cfg m2 _ hc1
        simp only at k1
        rw [k1]
        cases e
        have hp1 : Fits H1 p := hp.congr (m3.get _ hne)
        obtain ⟨a1, a2⟩ := adv_spec hp1 _ h0.2
        exact ⟨H1, d1, _, rfl, k2, k3, k4, m3, a1, rfl, by rw [a2, rd_congr (m3.get _ hne)]⟩
  · rw [if_neg h0] at e ⊢
    cases e
    exact ⟨H, d, p, rfl, h, rfl, rfl, OffEq.refl _ _, hp, rfl, rfl⟩

theorem bulk_sim (cfg : Plat) {v : Cgo.Digest} {c' : Ctx} {q : List Byte} {H : Heap} {d : MCgo} (h : CRep H d v) (p : Sl)
    (hp : Fits H p) (hne : p.arr ≠ d.buf) (e : updBulk cfg v.ctx (rd H p) = .ok (c', q)) :
    ∃ H' d' p', d.updBulk cfg H p = .ok (H', d', p') ∧ CRep H' d' { v with ctx := c' } ∧ d'.buf = d.buf ∧
      d'.h = d.h ∧ OffEq d.buf H H' ∧ Fits H' p' ∧ p'.arr = p.arr ∧ rd H' p' = q := by
  induction hn : p.len using Nat.strongRecOn generalizing p H d v with
  | _ n ih =>
    have hl := hp.rd_length
    unfold updBulk at e
    unfold MCgo.updBulk
    rw [hl] at e
    by_cases h0 : 64 ≤ p.len
    · rw [if_pos h0] at e ⊢
      simp only [bind, Except.bind] at e ⊢
      simp only [h.total]
      have hst := setTotal h (v.ctx.total + 64)
      by_cases hu : cfg.unaligned = true
      · simp only [hu, if_true] at e ⊢
        split at e
        · cases e
        · rename_i c1 hc1
          obtain ⟨d1, k1, k2, k3, k4⟩ := process_sim cfg hst p hc1
          rw [k1]
          simp only [pure, Except.pure]
          obtain ⟨a1, a2⟩ := adv_spec hp _ h0
          rw [← a2] at e
          obtain ⟨H2, d2, p2, b1, b2, b3, b4, b5, b6, b7, b8⟩ := ih (adv p 64).len (by simp only [adv]; omega) k2
            (adv p 64) a1 (by rw [k3]; exact hne) e rfl
          exact ⟨H2, d2, p2, b1, b2, b3.trans k3, b4.trans k4, by rw [k3] at b5; exact b5, b6, b7, b8⟩
      · simp only [hu] at e ⊢
        simp only [Bool.false_eq_true, if_false] at e ⊢
        split at e
        · cases e
        · rename_i y hy
          obtain ⟨H1, m1, m2, m3⟩ := memcpy_sim hst 0 64 p hp h0 hy
          simp only at m1 m3
          rw [m1]
          simp only
          split at e
          · cases e
          · rename_i c1 hc1
            rw [← m2.whole] at hc1
            obtain ⟨d1, k1, k2, k3, k4⟩ := process_sim cfg m2 _ hc1
            simp only at k1
            rw [k1]
            simp only [pure, Except.pure]
            have hp1 : Fits H1 p := hp.congr (m3.get _ hne)
            obtain ⟨a1, a2⟩ := adv_spec hp1 _ h0
            rw [← rd_congr (m3.get _ hne), ← a2] at e
            obtain ⟨H2, d2, p2, b1, b2, b3, b4, b5, b6, b7, b8⟩ := ih (adv p 64).len (by simp only [adv]; omega) k2
              (adv p 64) a1 (by rw [k3]; exact hne) e rfl
            exact ⟨H2, d2, p2, b1, b2, b3.trans k3, b4.trans k4, by rw [k3] at b5; exact m3.trans b5, b6, b7, b8⟩
    · rw [if_neg h0] at e ⊢
      cases e
      exact ⟨H, d, p, rfl, h, rfl, rfl, OffEq.refl _ _, hp, rfl, rfl⟩

theorem tail_sim {H : Heap} {d : MCgo} {v : Cgo.Digest} (h : CRep H d v) (p : Sl) (hp : Fits H p) (left : Nat)
    {c' : Ctx} (e : updTail v.ctx (rd H p) left = .ok c') :
    ∃ H' d', d.updTail H p left = .ok (H', d') ∧ CRep H' d' { v with ctx := c' } ∧ d'.buf = d.buf ∧ d'.h = d.h ∧
      OffEq d.buf H H' := by
  have hl := hp.rd_length
  unfold updTail at e
  unfold MCgo.updTail
  rw [hl] at e
  by_cases h0 : p.len > 0
  · rw [if_pos h0] at e ⊢
    simp only [bind, Except.bind, h.total] at e ⊢
    split at e
    · cases e
    · rename_i y hy
      cases e
      obtain ⟨H1, m1, m2, m3⟩ := memcpy_sim (setTotal h (v.ctx.total + BitVec.ofNat 64 p.len)) left p.len p hp
        (Nat.le_refl _) (y := y) (by rw [List.take_of_length_le (by omega)]; exact hy)
      simp only at m1 m3
      rw [m1]
      exact ⟨H1, _, rfl, m2, rfl, rfl, m3⟩
  · rw [if_neg h0] at e ⊢
    cases e
    exact ⟨H, d, rfl, h, rfl, rfl, OffEq.refl _ _⟩

theorem update_sim (cfg : Plat) {H : Heap} {d : MCgo} {v : Cgo.Digest} (h : CRep H d v) (p : Sl)
    (hp : Apart H d.buf p) {c' : Ctx} (e : SHA1DCUpdate cfg v.ctx (rd H p) = .ok c') :
    ∃ H' d', d.update cfg H p = .ok (H', d') ∧ CRep H' d' { v with ctx := c' } ∧ d'.buf = d.buf ∧ d'.h = d.h ∧
      OffEq d.buf H H' := by
  have hl := hp.rd_length
  unfold SHA1DCUpdate at e
  unfold MCgo.update
  rw [hl] at e
  by_cases h0 : p.len = 0
  · rw [if_pos h0] at e ⊢
    cases e
    exact ⟨H, d, rfl, h, rfl, rfl, OffEq.refl _ _⟩
  · rw [if_neg h0] at e ⊢
    obtain ⟨hf, hne⟩ : Fits H p ∧ p.arr ≠ d.buf := by
      rcases hp with hp | hp
      · exact absurd hp.1 h0
      · exact hp
    simp only [bind, Except.bind] at e ⊢
    split at e
    · cases e
    · rename_i r1 hr1
      obtain ⟨c1, q1, l⟩ := r1
      obtain ⟨H1, d1, p1, f1, f2, f3, f4, f5, f6, f7, f8⟩ := fill_sim cfg h p hf hne hr1
      rw [f1]
      simp only at e ⊢
      split at e
      · cases e
      · rename_i r2 hr2
        obtain ⟨c2, q2⟩ := r2
        rw [← f8] at hr2
        obtain ⟨H2, d2, p2, b1, b2, b3, b4, b5, b6, b7, b8⟩ := bulk_sim cfg f2 p1 f6 (by rw [f7, f3]; exact hne) hr2
        rw [b1]
        simp only at e ⊢
        rw [← b8] at e
        obtain ⟨H3, d3, t1, t2, t3, t4, t5⟩ := tail_sim b2 p2 b6 l e
        refine ⟨H3, d3, t1, t2, t3.trans (b3.trans f3), t4.trans (b4.trans f4), ?_⟩
        rw [b3, f3] at t5
        rw [f3] at b5
        exact (f5.trans b5).trans t5

/-- Nothing that existed differs but the arrays `x` and `y`. -/
structure Ext2 (x y : Nat) (H H' : Heap) : Prop where
  len : H.length ≤ H'.length
  get : ∀ i, i < H.length → i ≠ x → i ≠ y → H'[i]? = H[i]?

theorem final_sim (cfg : Plat) {H : Heap} {d : MCgo} {v v' : Cgo.Digest} {D : List Byte} {c : Bool} (h : CRep H d v)
    (e : v.sum0 cfg = .ok (v', D, c)) :
    ∃ H' d', d.sum0 cfg H = .ok (H', d', D, c) ∧ CRep H' d' v' ∧ d'.buf = d.buf ∧ d'.h = d.h ∧
      Ext2 d.buf d.h H H' ∧ D.length = 20 := by
  have hbuf := lt_of_get h.buf
  have hh := lt_of_get h.h
  unfold Cgo.Digest.sum0 at e
  unfold MCgo.sum0
  simp only [bind, Except.bind] at e ⊢
  split at e
  · cases e
  · rename_i r hr
    obtain ⟨c1, D1, f1⟩ := r
    unfold SHA1DCFinal at hr
    unfold MCgo.final
    rw [h.total]
    simp only [alloc, bind, Except.bind] at hr ⊢
    generalize (if ((v.ctx.total &&& 63).setWidth 32 : Word) < 56 then 56 - ((v.ctx.total &&& 63).setWidth 32 : Word)
      else 120 - ((v.ctx.total &&& 63).setWidth 32 : Word)) = padn at hr ⊢
    split at hr
    · rename_i hpad
      rw [if_pos hpad]
      have g0 : (H ++ [sha1_padding])[H.length]? = some sha1_padding := alloc_get _ _
      have r0 : CRep (H ++ [sha1_padding]) d v :=
        h.congr (List.getElem?_append_left hbuf) (List.getElem?_append_left hh)
      have x0 : ∀ i, i < H.length → (H ++ [sha1_padding])[i]? = H[i]? := fun i hi => List.getElem?_append_left hi
      have l0 : (H ++ [sha1_padding]).length = H.length + 1 := by simp
      generalize H ++ [sha1_padding] = H0 at g0 r0 x0 l0 ⊢
      have hrd : rd H0 ⟨H.length, 0, padn.toNat, 64⟩ = sha1_padding.take padn.toNat := by
        rw [rd_eq (s := ⟨H.length, 0, padn.toNat, 64⟩) g0]; simp
      have hap : Apart H0 d.buf ⟨H.length, 0, padn.toNat, 64⟩ :=
        .inr ⟨⟨hpad, _, g0, by simp only [sha1_padding, List.length_cons, List.length_replicate]; omega⟩,
          by simp only; omega⟩
      split at hr
      · cases hr
      · rename_i c2 hc2
        rw [← hrd] at hc2
        obtain ⟨H1, d1, u1, u2, u3, u4, u5⟩ := update_sim cfg r0 _ hap hc2
        rw [u1]
        simp only
        split at hr
        · cases hr
        · rename_i y hy
          rw [u2.total]
          obtain ⟨w1, w2⟩ := wr_sim u2 56 _ hy
          simp only at w1 w2
          split at hr
          · cases hr
          · rename_i c3 hc3
            rw [← w1.whole] at hc3
            obtain ⟨d3, p1, p2, p3, p4⟩ := process_sim cfg w1 _ hc3
            simp only [pure, Except.pure, Except.ok.injEq, Prod.mk.injEq] at hr
            obtain ⟨rfl, rfl, rfl⟩ := hr
            rw [p1]
            simp only [pure, Except.pure]
            rw [p2.ihv, p2.found]
            simp only
            generalize hD : out32 c3.ihv.a ++ out32 c3.ihv.b ++ out32 c3.ihv.c ++ out32 c3.ihv.d ++ out32 c3.ihv.e = D'
              at e ⊢
            have lD : D'.length = 20 := by rw [← hD]; rfl
            generalize hH2 : wr H1 d1.buf 56 _ = H2 at w1 w2 p1 p2 ⊢
            have hg : (wr H2 d.h 0 D')[d.h]? = some D' := by
              rw [wr_get, if_pos rfl]
              have : H2[d.h]? = some v.h := by have := p2.h; rw [p4, u4] at this; exact this
              rw [this]
              simp only [Option.map_some, Option.some.injEq, splice, List.take_zero, List.nil_append]
              rw [List.drop_eq_nil_of_le (by rw [h.hl, lD]; exact Nat.le_refl _), List.append_nil]
            have hrd' : rd (wr H2 d.h 0 D') (Model.whole d3.h 20) = D' := by
              rw [p4, u4]; exact rd_whole hg lD
            have hrep : CRep (wr H2 d.h 0 D') d3 { v with ctx := c3, h := D' } := by
              refine ⟨p2.ctx, ?_, by rw [p4, u4]; exact hg, lD, p2.ne⟩
              rw [(OffEq.wr H2 d.h 0 D').get _ (by rw [← u4, ← p4]; exact p2.ne)]
              exact p2.buf
            have hext : Ext2 d.buf d.h H (wr H2 d.h 0 D') := by
              refine ⟨?_, fun i hi h1 h2 => ?_⟩
              · rw [wr_length, w2.len, u5.len, l0]; omega
              · rw [(OffEq.wr H2 d.h 0 D').get _ h2, w2.get _ (by rw [u3]; exact h1), u5.get _ h1, x0 i hi]
            simp only [hrd']
            by_cases hc : c3.found_collision ≠ 0
            · rw [if_pos hc] at e ⊢
              cases e
              exact ⟨_, d3, rfl, hrep, p3.trans u3, p4.trans u4, hext, lD⟩
            · rw [if_neg hc] at e ⊢
              cases e
              exact ⟨_, d3, rfl, hrep, p3.trans u3, p4.trans u4, hext, lD⟩
    · cases hr

theorem clone_sim {H : Heap} {d : MCgo} {v : Cgo.Digest} (h : CRep H d v) :
    ∃ H' d', d.clone H = (H', d') ∧ CRep H' d' v ∧ (∀ i, i < H.length → H'[i]? = H[i]?) ∧ H.length ≤ H'.length ∧
      H.length ≤ d'.buf ∧ H.length ≤ d'.h := by
  unfold MCgo.clone
  simp only [alloc]
  rw [h.whole]
  have hh : (H ++ [v.ctx.buffer.1])[d.h]? = some v.h := by
    rw [List.getElem?_append_left (lt_of_get h.h)]; exact h.h
  rw [rd_whole hh h.hl]
  refine ⟨_, _, rfl, ⟨h.ctx, ?_, ?_, h.hl, ?_⟩, ?_, ?_, ?_, ?_⟩
  · simp only
    rw [List.getElem?_append_left (by simp)]
    exact alloc_get _ _
  · exact alloc_get _ _
  · simp only [List.length_append, List.length_cons, List.length_nil]; omega
  · intro i hi
    rw [List.getElem?_append_left (by simp; omega), List.getElem?_append_left hi]
  · simp only [List.length_append, List.length_cons, List.length_nil]; omega
  · exact Nat.le_refl _
  · simp

theorem make_sim (H : Heap) :
    ∃ H' d, MCgo.make H = (H', d) ∧ CRep H' d Cgo.new ∧ (∀ i, i < H.length → H'[i]? = H[i]?) ∧
      H.length ≤ d.buf ∧ H.length ≤ d.h := by
  unfold MCgo.make
  simp only [alloc]
  refine ⟨_, _, rfl, ⟨⟨⟨List.replicate 64 0, rfl⟩, rfl⟩, ?_, alloc_get _ _, rfl, ?_⟩, ?_, Nat.le_refl _, ?_⟩
  · simp only [MCgo.reset]
    rw [List.getElem?_append_left (by simp)]
    exact alloc_get _ _
  · simp only [MCgo.reset, List.length_append, List.length_cons, List.length_nil]; omega
  · intro i hi
    rw [List.getElem?_append_left (by simp; omega), List.getElem?_append_left hi]
  · simp [MCgo.reset]

/-- A slice that shares neither array of the object. -/
def Apart2 (H : Heap) (d : MCgo) (p : Sl) : Prop := (p.len = 0 ∧ p.cap = 0) ∨ (Fits H p ∧ p.arr ≠ d.buf ∧ p.arr ≠ d.h)

theorem Apart2.one {H : Heap} {d : MCgo} {p : Sl} (h : Apart2 H d p) : Apart H d.buf p :=
  h.imp id fun h => ⟨h.1, h.2.1⟩

theorem Apart2.fits {H : Heap} {d : MCgo} {p : Sl} (h : Apart2 H d p) : (p.len = 0 ∧ p.cap = 0) ∨ Fits H p :=
  h.imp id fun h => h.1

/-- `append` of the twenty bytes `D` after steps that only made new arrays. -/
theorem appended_of {H H2 : Heap} (inp : Sl) (hi : (inp.len = 0 ∧ inp.cap = 0) ∨ Fits H inp) (D : List Byte)
    (k5 : D.length = 20) (grow : Nat) (hl2 : H.length ≤ H2.length) (e2 : ∀ i, i < H.length → H2[i]? = H[i]?) (x : Nat) :
    ∃ H' r, appendSl (H2 ++ [D]) inp D grow = (H', r) ∧ Appended x H inp D H' r := by
  have e3 : ∀ i, i < H.length → (H2 ++ [D])[i]? = H[i]? := by
    intro i hi
    rw [List.getElem?_append_left (by omega), e2 i hi]
  have hi3 : (inp.len = 0 ∧ inp.cap = 0) ∨ Fits (H2 ++ [D]) inp := by
    rcases hi with hi | hi
    · exact .inl hi
    · obtain ⟨a, ha, hl⟩ := hi.arr
      exact .inr ⟨hi.len, a, by rw [e3 _ (lt_of_get ha)]; exact ha, hl⟩
  have hrd : rd (H2 ++ [D]) inp = rd H inp := by
    rcases hi with hi | hi
    · unfold Model.rd; simp [hi.1]
    · obtain ⟨a, ha, hl⟩ := hi.arr
      exact rd_congr (e3 _ (lt_of_get ha))
  obtain ⟨H4, r, a1, a2, a3⟩ := append_sim inp D grow hi3 (by intro h; rw [h] at k5; cases k5)
  rw [a1]
  refine ⟨H4, r, rfl, ?_⟩
  rw [hrd] at a2
  rcases a3 with ⟨b1, b2, b3, a, b4, b5⟩ | ⟨b1, b2, b3⟩
  · rw [k5] at b1 b2
    have hin : inp.arr < H.length := by
      rcases hi with hi | hi
      · omega
      · obtain ⟨a, ha, hl⟩ := hi.arr; exact lt_of_get ha
    refine ⟨a2, ?_, ?_, ?_, fun hc => absurd b1 hc⟩
    · rw [b3.len]; simp; omega
    · intro i hi hne
      rw [b3.get i hne, e3 i hi]
    · intro _
      exact ⟨b2, a, by rw [← e3 _ hin]; exact b4, b5⟩
  · rw [k5] at b1
    have hfr : ∀ i, i < H.length → H4[i]? = H[i]? := by
      intro i hi
      rw [b3, List.getElem?_append_left (by simp; omega), e3 i hi]
    refine ⟨a2, ?_, fun i hi _ => hfr i hi, fun hc => absurd hc b1, fun _ => ⟨?_, ?_, hfr, ?_, ?_⟩⟩
    · rw [b3]; simp; omega
    · rw [b2]; simp; omega
    · rw [b2, b3]; simp
    · rw [b2]
    · rw [b2, k5]

theorem crs_sim (cfg : Plat) {H : Heap} {d : MCgo} {v v' : Cgo.Digest} (h : CRep H d v) (inp : Sl)
    (hi : (inp.len = 0 ∧ inp.cap = 0) ∨ Fits H inp) (grow : Nat) {D : List Byte} {c : Bool}
    (e : v.sum0 cfg = .ok (v', D, c)) :
    ∃ H' r, d.collisionResistantSum cfg H inp grow = .ok (H', r, c) ∧ Appended d.buf H inp D H' r := by
  obtain ⟨H1, d1, c1, c2, c3, c4, c5, c6⟩ := clone_sim h
  obtain ⟨H2, d2, k1, k2, k3, k4, k5, k6⟩ := final_sim cfg c2 e
  unfold MCgo.collisionResistantSum
  simp only [c1, k1, bind, Except.bind, alloc]
  have hD : rd (H2 ++ [D]) (whole H2.length 20) = D := rd_whole (alloc_get _ _) k6
  rw [hD]
  obtain ⟨H', r, a1, a2⟩ := appended_of inp hi D k6 grow (Nat.le_trans c4 k5.len)
    (fun i hi => (k5.get i (by omega) (by omega) (by omega)).trans (c3 i hi)) d.buf
  rw [a1]
  exact ⟨H', r, rfl, a2⟩

theorem sum_sim (cfg : Plat) {H : Heap} {d : MCgo} {v v' : Cgo.Digest} (h : CRep H d v) (inp : Sl)
    (hi : (inp.len = 0 ∧ inp.cap = 0) ∨ Fits H inp) (grow : Nat) {D : List Byte} {c : Bool}
    (e : v.sum0 cfg = .ok (v', D, c)) :
    ∃ H' r, d.sum cfg H inp grow = .ok (H', r) ∧ Appended d.buf H inp D H' r := by
  obtain ⟨H1, d1, c1, c2, c3, c4, c5, c6⟩ := clone_sim h
  have hi1 : (inp.len = 0 ∧ inp.cap = 0) ∨ Fits H1 inp := hi.imp id fun hi => by
    obtain ⟨a, ha, _⟩ := hi.arr
    exact hi.congr (c3 _ (lt_of_get ha))
  have hrd : rd H1 inp = rd H inp := by
    rcases hi with hi | hi
    · unfold Model.rd; simp [hi.1]
    · obtain ⟨a, ha, hl⟩ := hi.arr
      exact rd_congr (c3 _ (lt_of_get ha))
  obtain ⟨H', r, k1, k2⟩ := crs_sim cfg c2 inp hi1 grow e
  unfold MCgo.sum
  simp only [c1, k1, bind, Except.bind]
  refine ⟨H', r, rfl, ?_⟩
  have hin : inp.len + 20 ≤ inp.cap → inp.arr < H.length := by
    intro hr
    rcases hi with hi | hi
    · omega
    · obtain ⟨a, ha, _⟩ := hi.arr; exact lt_of_get ha
  refine ⟨by rw [k2.val, hrd], Nat.le_trans c4 k2.len, ?_, ?_, ?_⟩
  · intro i hi hne
    rw [k2.frame i (by omega) hne, c3 i hi]
  · intro hr
    obtain ⟨h1, a, h2, h3⟩ := k2.room hr
    exact ⟨h1, a, by rw [← c3 _ (hin hr)]; exact h2, h3⟩
  · intro hr
    obtain ⟨h1, h2, h3, h4⟩ := k2.full hr
    exact ⟨by omega, h2, fun i hi => (h3 i (by omega)).trans (c3 i hi), h4⟩

/-- The slice a call appends to. -/
def cdest : CMOp → Option Sl
  | .sum inp _ => some inp
  | .collisionResistantSum inp _ => some inp
  | _ => none

/-- What a call does to the memory: it changes the object's own arrays, the array of the slice it appends to if there is
room, and new ones. -/
structure CFrame (d : MCgo) (op : CMOp) (H H' : Heap) (r : Option Sl) : Prop where
  len : H.length ≤ H'.length
  keep : ∀ i, i < H.length → i ≠ d.buf → (∀ inp, cdest op = some inp → inp.len + 20 ≤ inp.cap → i ≠ inp.arr) →
    H'[i]? = H[i]?
  ret : ∀ q, r = some q → q.arr < H'.length ∧
    (H.length ≤ q.arr ∨ ∃ inp, cdest op = some inp ∧ inp.len + 20 ≤ inp.cap ∧ q.arr = inp.arr)

theorem offEq_frame {d : MCgo} {H H' : Heap} (op : CMOp) (h : OffEq d.buf H H') : CFrame d op H H' none :=
  ⟨Nat.le_of_eq h.len.symm, fun i _ hi _ => h.get i hi, fun _ h => by cases h⟩

theorem appended_frame {x : Nat} {d : MCgo} {H H' : Heap} {op : CMOp} {inp r : Sl} {D : List Byte}
    (h : Appended x H inp D H' r) (hop : cdest op = some inp) : CFrame d op H H' (some r) := by
  refine ⟨h.len, ?_, ?_⟩
  · intro i hi _ hk
    by_cases hr : inp.len + 20 ≤ inp.cap
    · exact h.frame i hi (hk inp hop hr)
    · exact (h.full hr).2.2.1 i hi
  · intro q hq
    cases hq
    by_cases hr : inp.len + 20 ≤ inp.cap
    · obtain ⟨h1, a, h2, h3⟩ := h.room hr
      have : r.arr = inp.arr := by rw [h1]
      exact ⟨by rw [this]; exact lt_of_get h3, .inr ⟨inp, hop, hr, this⟩⟩
    · exact ⟨(h.full hr).2.1, .inl (h.full hr).1⟩

theorem appended_rep {x : Nat} {d : MCgo} {v : Cgo.Digest} {H H' : Heap} {inp r : Sl} {D : List Byte}
    (h : Appended x H inp D H' r) (ha : Apart2 H d inp) (hr : CRep H d v) : CRep H' d v := by
  by_cases hroom : inp.len + 20 ≤ inp.cap
  · rcases ha with ha | ha
    · omega
    · exact hr.congr (h.frame _ (lt_of_get hr.buf) (Ne.symm ha.2.1)) (h.frame _ (lt_of_get hr.h) (Ne.symm ha.2.2))
  · exact hr.congr ((h.full hroom).2.2.1 _ (lt_of_get hr.buf)) ((h.full hroom).2.2.1 _ (lt_of_get hr.h))

theorem call_sim (cfg : Plat) {H : Heap} {d : MCgo} {v v' : Cgo.Digest} (h : CRep H d v) (op : CMOp)
    (ha : ∀ p, op.arg = some p → Apart2 H d p) {out : Out} (e : v.call cfg (op.val H) = .ok (v', out)) :
    ∃ H' d' r, d.call cfg H op = .ok (H', d', r, out) ∧ CRep H' d' v' ∧ d'.buf = d.buf ∧ d'.h = d.h ∧
      CFrame d op H H' r := by
  cases op with
  | write p =>
    have hap := ha p rfl
    have hl := hap.one.rd_length
    simp only [CMOp.val, Cgo.Digest.call, Cgo.Digest.write, bind, Except.bind] at e
    simp only [MCgo.call, MCgo.write, bind, Except.bind]
    rw [hl] at e
    by_cases h0 : p.len = 0
    · simp only [if_pos h0, pure, Except.pure, Except.ok.injEq, Prod.mk.injEq] at e ⊢
      obtain ⟨rfl, rfl⟩ := e
      exact ⟨H, d, none, ⟨rfl, rfl, rfl, rfl⟩, h, rfl, rfl, offEq_frame _ (OffEq.refl _ _)⟩
    · simp only [if_neg h0] at e ⊢
      cases hu : SHA1DCUpdate cfg v.ctx (Model.rd H p) with
      | error _ => rw [hu] at e; cases e
      | ok c' =>
        rw [hu] at e
        simp only [pure, Except.pure, Except.ok.injEq, Prod.mk.injEq] at e
        obtain ⟨rfl, rfl⟩ := e
        obtain ⟨H', d', h1, h2, h3, h4, h5⟩ := update_sim cfg h p hap.one hu
        exact ⟨H', d', none, by rw [h1]; rfl, h2, h3, h4, offEq_frame _ h5⟩
  | sum inp grow =>
    simp only [CMOp.val, Cgo.Digest.call, Cgo.Digest.sum, Cgo.Digest.collisionResistantSum, bind, Except.bind] at e
    cases hc : v.sum0 cfg with
    | error _ => rw [hc] at e; cases e
    | ok w =>
      obtain ⟨v1, D, c⟩ := w
      rw [hc] at e
      simp only [pure, Except.pure, Except.ok.injEq, Prod.mk.injEq] at e
      obtain ⟨rfl, rfl⟩ := e
      obtain ⟨H', r, h1, h2⟩ := sum_sim cfg h inp (ha inp rfl).fits grow hc
      exact ⟨H', d, some r, by simp only [MCgo.call, h1, bind, Except.bind, pure, Except.pure, h2.val],
        appended_rep h2 (ha inp rfl) h, rfl, rfl, appended_frame h2 rfl⟩
  | collisionResistantSum inp grow =>
    simp only [CMOp.val, Cgo.Digest.call, Cgo.Digest.collisionResistantSum, bind, Except.bind] at e
    cases hc : v.sum0 cfg with
    | error _ => rw [hc] at e; cases e
    | ok w =>
      obtain ⟨v1, D, c⟩ := w
      rw [hc] at e
      simp only [pure, Except.pure, Except.ok.injEq, Prod.mk.injEq] at e
      obtain ⟨rfl, rfl⟩ := e
      obtain ⟨H', r, h1, h2⟩ := crs_sim cfg h inp (ha inp rfl).fits grow hc
      exact ⟨H', d, some r, by simp only [MCgo.call, h1, bind, Except.bind, pure, Except.pure, h2.val],
        appended_rep h2 (ha inp rfl) h, rfl, rfl, appended_frame h2 rfl⟩
  | reset =>
    simp only [CMOp.val, Cgo.Digest.call, pure, Except.pure, Except.ok.injEq, Prod.mk.injEq] at e
    obtain ⟨rfl, rfl⟩ := e
    obtain ⟨b, hb⟩ := h.ctx
    exact ⟨H, d.reset, none, rfl, ⟨⟨b, by simp only [MCgo.reset, hb]; rfl⟩, h.buf, h.h, h.hl, h.ne⟩, rfl, rfl,
      offEq_frame _ (OffEq.refl _ _)⟩
  | size =>
    simp only [CMOp.val, Cgo.Digest.call, pure, Except.pure, Except.ok.injEq, Prod.mk.injEq] at e
    obtain ⟨rfl, rfl⟩ := e
    exact ⟨H, d, none, rfl, h, rfl, rfl, offEq_frame _ (OffEq.refl _ _)⟩
  | blockSize =>
    simp only [CMOp.val, Cgo.Digest.call, pure, Except.pure, Except.ok.injEq, Prod.mk.injEq] at e
    obtain ⟨rfl, rfl⟩ := e
    exact ⟨H, d, none, rfl, h, rfl, rfl, offEq_frame _ (OffEq.refl _ _)⟩

/-- `Sum` of the package changes only new arrays and returns one of them. -/
theorem sumPkg_sim (cfg : Plat) {H : Heap} (data : Sl) (hd : (data.len = 0 ∧ data.cap = 0) ∨ Fits H data)
    {D : List Byte} {c : Bool} (e : Cgo.sumPkg cfg (Model.rd H data) = .ok (D, c)) :
    ∃ H' r, Cgo.msumPkg cfg H data = .ok (H', r, c) ∧ Model.rd H' r = D ∧ H.length ≤ r.arr ∧ r.arr < H'.length ∧
      r.off = 0 ∧ r.len = 20 ∧ r.cap = 20 ∧ H'[r.arr]? = some D ∧ ∀ i, i < H.length → H'[i]? = H[i]? := by
  obtain ⟨H1, d, m1, m2, m3, m4, m5⟩ := make_sim H
  have hrd : Model.rd H1 data = Model.rd H data := by
    rcases hd with hd | hd
    · unfold Model.rd; simp [hd.1]
    · obtain ⟨a, ha, _⟩ := hd.arr
      exact rd_congr (m3 _ (lt_of_get ha))
  have hap : Apart2 H1 d data := by
    rcases hd with hd | hd
    · exact .inl hd
    · obtain ⟨a, ha, _⟩ := hd.arr
      have := lt_of_get ha
      exact .inr ⟨hd.congr (m3 _ this), by omega, by omega⟩
  unfold Cgo.sumPkg at e
  unfold Cgo.msumPkg
  simp only [m1, bind, Except.bind] at e ⊢
  split at e
  · cases e
  · rename_i w hw
    obtain ⟨v1, n, er⟩ := w
    obtain ⟨H2, d2, r2, k1, k2, k3, k4, k5⟩ := call_sim cfg m2 (.write data) (by intro p hp; cases hp; exact hap)
      (v' := v1) (out := .write n er) (by
        simp only [CMOp.val, Cgo.Digest.call, bind, Except.bind, hrd]
        rw [show Cgo.new = Cgo.Digest.zero.reset from rfl, hw]; rfl)
    simp only [MCgo.call, bind, Except.bind] at k1
    split at k1
    · cases k1
    · rename_i w2 hw2
      simp only [pure, Except.pure, Except.ok.injEq, Prod.mk.injEq] at k1
      obtain ⟨h1, h2, _, _⟩ := k1
      rw [h1, h2]
      simp only at e
      split at e
      · cases e
      · rename_i w3 hw3
        obtain ⟨v3, D3, c3⟩ := w3
        obtain ⟨H3, d3, f1, f2, f3, f4, f5, f6⟩ := final_sim cfg k2 hw3
        rw [f1]
        cases e
        simp only [alloc, pure, Except.pure]
        have hl : H.length ≤ H1.length := by have := lt_of_get m2.buf; omega
        have hlen : H.length ≤ H3.length := Nat.le_trans hl (Nat.le_trans k5.len f5.len)
        refine ⟨_, _, rfl, rd_whole (alloc_get _ _) f6, hlen, ?_, rfl, rfl, rfl, alloc_get _ _, fun i hi => ?_⟩
        · simp [whole]
        · rw [List.getElem?_append_left (by omega),
            f5.get i (Nat.lt_of_lt_of_le hi (Nat.le_trans hl k5.len)) (by omega) (by omega),
            k5.keep i (by omega) (by omega) (by intro inp hi; cases hi), m3 i hi]

end CgoMem

end Verif
