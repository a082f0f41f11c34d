import Verif.Model.Memory
import Verif.Proofs.Object

/-! The digest in memory does what the digest as a value does. -/

namespace Verif

open Verif.Model Verif.Spec

/-! ### Reading and writing -/

theorem wr_get (H : Heap) (a off : Nat) (bs : List Byte) (i : Nat) :
    (wr H a off bs)[i]? = if a = i then H[i]?.map (fun l => splice l off bs) else H[i]? := by
  unfold wr
  rw [List.getElem?_modify]
  split <;> simp

theorem wr_length (H : Heap) (a off : Nat) (bs : List Byte) : (wr H a off bs).length = H.length := by
  simp [wr]

theorem rd_eq {H : Heap} {s : Sl} {a : List Byte} (h : H[s.arr]? = some a) : rd H s = (a.drop s.off).take s.len := by
  unfold rd
  rw [List.getD_eq_getElem?_getD, h]; rfl

theorem rd_congr {H H' : Heap} {s : Sl} (h : H'[s.arr]? = H[s.arr]?) : rd H' s = rd H s := by
  unfold rd
  rw [List.getD_eq_getElem?_getD, List.getD_eq_getElem?_getD, h]

/-- The slice fits its array. -/
structure Fits (H : Heap) (p : Sl) : Prop where
  len : p.len ≤ p.cap
  arr : ∃ a, H[p.arr]? = some a ∧ p.off + p.cap ≤ a.length

theorem Fits.rd_length {H : Heap} {p : Sl} (h : Fits H p) : (rd H p).length = p.len := by
  obtain ⟨a, ha, hl⟩ := h.arr
  have := h.len
  rw [rd_eq ha]; simp; omega

theorem Fits.congr {H H' : Heap} {p : Sl} (h : Fits H p) (e : H'[p.arr]? = H[p.arr]?) : Fits H' p :=
  ⟨h.len, by rw [e]; exact h.arr⟩

theorem Fits.slice {H : Heap} {p : Sl} (h : Fits H p) (i j : Nat) (hij : i ≤ j) (hj : j ≤ p.len) :
    ∃ q, p.slice i j = .ok q ∧ Fits H q ∧ q.arr = p.arr ∧ q.len = j - i ∧
      rd H q = ((rd H p).drop i).take (j - i) := by
  obtain ⟨a, ha, hl⟩ := h.arr
  have h1 := h.len
  refine ⟨⟨p.arr, p.off + i, j - i, p.cap - i⟩, ?_, ⟨?_, a, ha, ?_⟩, rfl, rfl, ?_⟩
  · unfold Sl.slice; rw [if_pos ⟨hij, by omega⟩]; rfl
  · simp only; omega
  · simp only; omega
  · rw [rd_eq ha, rd_eq (s := ⟨p.arr, p.off + i, j - i, p.cap - i⟩) ha]
    simp only [List.drop_take, List.take_take, List.drop_drop]
    rw [Nat.min_eq_left (by omega)]

/-- Nothing but array `x` differs. -/
structure OffEq (x : Nat) (H H' : Heap) : Prop where
  len : H'.length = H.length
  get : ∀ i, i ≠ x → H'[i]? = H[i]?

theorem OffEq.refl (x : Nat) (H : Heap) : OffEq x H H := ⟨rfl, fun _ _ => rfl⟩

theorem OffEq.trans {x : Nat} {H H' H'' : Heap} (h : OffEq x H H') (h' : OffEq x H' H'') : OffEq x H H'' :=
  ⟨h'.len.trans h.len, fun i hi => (h'.get i hi).trans (h.get i hi)⟩

theorem OffEq.wr (H : Heap) (a off : Nat) (bs : List Byte) : OffEq a H (wr H a off bs) :=
  ⟨wr_length _ _ _ _, fun i hi => by rw [wr_get, if_neg (Ne.symm hi)]⟩

/-- The object `d` in memory `H` is the value `v`. -/
structure Rep (H : Heap) (d : MDigest) (v : Digest) : Prop where
  h : d.h = v.h
  nx : d.nx = v.nx
  len : d.len = v.len
  col : d.col = v.col
  x : H[d.x]? = some v.x.1

theorem Rep.congr {H H' : Heap} {d : MDigest} {v : Digest} (h : Rep H d v) (e : H'[d.x]? = H[d.x]?) : Rep H' d v :=
  ⟨h.h, h.nx, h.len, h.col, e.trans h.x⟩

theorem rd_whole {H : Heap} {a n : Nat} {l : List Byte} (h : H[a]? = some l) (hn : l.length = n) :
    rd H (whole a n) = l := by
  rw [rd_eq (s := whole a n) h]
  simp [whole, ← hn]

theorem callBlock_sim {H : Heap} {d : MDigest} {v v' : Digest} (block : BlockFn) (h : Rep H d v) (p : List Byte)
    (e : v.callBlock block p = .ok v') :
    ∃ d', d.callBlock block p = .ok d' ∧ Rep H d' v' ∧ d'.x = d.x ∧ d'.nx = d.nx ∧ v'.nx = v.nx := by
  unfold Digest.callBlock at e
  unfold MDigest.callBlock
  rw [h.h, h.col]
  simp only [bind, Except.bind] at e ⊢
  split at e
  · cases e
  · cases e
    exact ⟨_, rfl, ⟨rfl, h.nx, h.len, rfl, h.x⟩, rfl, rfl, rfl⟩

/-- `copy(x[off:], p)` on the array `x` of an object. -/
theorem copy_sim {H : Heap} {d : MDigest} {v : Digest} (h : Rep H d v) (off : Nat) (ho : off ≤ 64) (p : Sl)
    (hp : Fits H p) :
    (copySl H ⟨d.x, off, 64 - off, 64 - off⟩ p).2 = min (64 - off) (rd H p).length ∧
    OffEq d.x H (copySl H ⟨d.x, off, 64 - off, 64 - off⟩ p).1 ∧
    (copySl H ⟨d.x, off, 64 - off, 64 - off⟩ p).1[d.x]? = some (copyAt v.x off ho (rd H p)).1 := by
  have hl := hp.rd_length
  unfold copySl
  refine ⟨by rw [hl], OffEq.wr _ _ _ _, ?_⟩
  simp only [wr_get, if_true, h.x, Option.map_some, Option.some.injEq]
  unfold splice copyAt
  simp only [List.length_take]
  have e1 : (rd H p).take (min (64 - off) p.len) = (rd H p).take (64 - off) := by
    rw [← hl, ← List.take_take]
    congr 1
    rw [List.take_of_length_le (Nat.le_refl _)]
  rw [e1]
  congr 3
  omega

theorem fill_sim {H : Heap} {d : MDigest} {v v' : Digest} (block : BlockFn) (h : Rep H d v) (p : Sl) (hp : Fits H p)
    (hne : p.arr ≠ d.x) (q : List Byte) (e : v.writeFill block (rd H p) = .ok (v', q)) :
    ∃ H' d' p', d.writeFill block H p = .ok (H', d', p') ∧ Rep H' d' v' ∧ d'.x = d.x ∧ OffEq d.x H H' ∧
      Fits H' p' ∧ p'.arr = p.arr ∧ rd H' p' = q := by
  have hl := hp.rd_length
  unfold Digest.writeFill at e
  unfold MDigest.writeFill
  by_cases h0 : v.nx > 0
  · rw [if_pos h0] at e
    rw [if_pos (by rw [h.nx]; exact h0)]
    by_cases h64 : v.nx ≤ 64
    · rw [dif_pos h64] at e
      have hs : (whole d.x 64).slice d.nx 64 = .ok ⟨d.x, v.nx, 64 - v.nx, 64 - v.nx⟩ := by
        unfold Sl.slice whole
        rw [h.nx, if_pos ⟨h64, Nat.le_refl _⟩]; simp [pure, Except.pure]
      obtain ⟨c1, c2, c3⟩ := copy_sim h v.nx h64 p hp
      generalize hc : copySl H ⟨d.x, v.nx, 64 - v.nx, 64 - v.nx⟩ p = r at c1 c2 c3
      obtain ⟨H1, n⟩ := r
      simp only at c1 c2 c3
      simp only [hs, bind, Except.bind, hc]
      subst c1
      have hp1 : Fits H1 p := hp.congr (c2.get _ hne)
      have hr1 : rd H1 p = rd H p := rd_congr (c2.get _ hne)
      obtain ⟨p', s1, s2, s3, s4, s5⟩ := hp1.slice (min (64 - v.nx) (rd H p).length) p.len (by omega) (Nat.le_refl _)
      have hq : rd H1 p' = (rd H p).drop (min (64 - v.nx) (rd H p).length) := by
        rw [s5, hr1]
        exact List.take_of_length_le (by simp; omega)
      have hrep : Rep H1 { d with nx := d.nx + min (64 - v.nx) (rd H p).length }
          { v with x := copyAt v.x v.nx h64 (rd H p), nx := v.nx + min (64 - v.nx) (rd H p).length } :=
        ⟨h.h, by simp only [h.nx], h.len, h.col, c3⟩
      by_cases hck : v.nx + min (64 - v.nx) (rd H p).length = Chunk
      · simp only at e
        rw [if_pos hck] at e
        rw [if_pos (by simp only [h.nx]; exact hck)]
        simp only [bind, Except.bind] at e
        split at e
        · cases e
        · rename_i v1 hv1
          cases e
          have hw : rd H1 (whole d.x 64) = (copyAt v.x v.nx h64 (rd H p)).1 := rd_whole c3 (copyAt _ _ _ _).2
          obtain ⟨d1, k1, k2, k3, _, _⟩ := callBlock_sim block hrep _ hv1
          simp only [hw, k1, s1]
          exact ⟨H1, _, p', rfl, ⟨k2.h, rfl, k2.len, k2.col, k2.x⟩, k3, c2, s2, s3, hq⟩
      · simp only at e
        rw [if_neg hck] at e
        rw [if_neg (by simp only [h.nx]; exact hck)]
        cases e
        simp only [s1]
        exact ⟨H1, _, p', rfl, hrep, rfl, c2, s2, s3, hq⟩
    · rw [dif_neg h64] at e; cases e
  · rw [if_neg h0] at e
    rw [if_neg (by rw [h.nx]; exact h0)]
    cases e
    exact ⟨H, d, p, rfl, h, rfl, OffEq.refl _ _, hp, rfl, rfl⟩

theorem bulk_sim {H : Heap} {d : MDigest} {v v' : Digest} (block : BlockFn) (h : Rep H d v) (p : Sl) (hp : Fits H p)
    (q : List Byte) (e : v.writeBulk block (rd H p) = .ok (v', q)) :
    ∃ d' p', d.writeBulk block H p = .ok (H, d', p') ∧ Rep H d' v' ∧ d'.x = d.x ∧
      Fits H p' ∧ p'.arr = p.arr ∧ rd H p' = q := by
  have hl := hp.rd_length
  unfold Digest.writeBulk at e
  unfold MDigest.writeBulk
  rw [hl] at e
  by_cases h0 : p.len ≥ Chunk
  · rw [if_pos h0] at e ⊢
    simp only [bind, Except.bind] at e ⊢
    have hle : p.len - (p.len &&& (Chunk - 1)) ≤ p.len := Nat.sub_le _ _
    obtain ⟨q1, s1, s2, s3, s4, s5⟩ := hp.slice 0 (p.len - (p.len &&& (Chunk - 1))) (Nat.zero_le _) hle
    obtain ⟨q2, t1, t2, t3, t4, t5⟩ := hp.slice (p.len - (p.len &&& (Chunk - 1))) p.len hle (Nat.le_refl _)
    rw [List.drop_zero, Nat.sub_zero] at s5
    split at e
    · cases e
    · rename_i v1 hv1
      cases e
      rw [← s5] at hv1
      obtain ⟨d1, k1, k2, k3, _, _⟩ := callBlock_sim block h _ hv1
      simp only [s1, k1, t1]
      refine ⟨_, q2, rfl, k2, k3, t2, t3, ?_⟩
      rw [t5]
      exact List.take_of_length_le (by simp; omega)
  · rw [if_neg h0] at e ⊢
    cases e
    exact ⟨d, p, rfl, h, rfl, hp, rfl, rfl⟩

theorem tail_sim {H : Heap} {d : MDigest} {v : Digest} (h : Rep H d v) (p : Sl) (hp : Fits H p) :
    ∃ H' d', d.writeTail H p = (H', d') ∧ Rep H' d' (v.writeTail (rd H p)) ∧ d'.x = d.x ∧ OffEq d.x H H' := by
  have hl := hp.rd_length
  unfold Digest.writeTail MDigest.writeTail
  rw [hl]
  by_cases h0 : p.len > 0
  · rw [if_pos h0, if_pos h0]
    obtain ⟨c1, c2, c3⟩ := copy_sim h 0 (Nat.zero_le _) p hp
    refine ⟨_, _, rfl, ⟨h.h, ?_, h.len, h.col, c3⟩, rfl, c2⟩
    show (copySl H (whole d.x 64) p).2 = min 64 p.len
    rw [← hl]
    exact c1
  · rw [if_neg h0, if_neg h0]
    exact ⟨H, d, rfl, h, rfl, OffEq.refl _ _⟩

/-- A slice that does not share the array `x`. -/
def Apart (H : Heap) (x : Nat) (p : Sl) : Prop := (p.len = 0 ∧ p.cap = 0) ∨ (Fits H p ∧ p.arr ≠ x)

theorem Apart.rd_length {H : Heap} {x : Nat} {p : Sl} (h : Apart H x p) : (rd H p).length = p.len := by
  rcases h with h | h
  · unfold rd; simp [h.1]
  · exact h.1.rd_length

theorem write_sim {H : Heap} {d : MDigest} {v v' : Digest} (block : BlockFn) (h : Rep H d v) (p : Sl)
    (hp : Apart H d.x p) (n : Nat) (er : Option Err) (e : v.write block (rd H p) = .ok (v', n, er)) :
    ∃ H' d', d.write block H p = .ok (H', d', n, er) ∧ Rep H' d' v' ∧ d'.x = d.x ∧ OffEq d.x H H' := by
  have hl := hp.rd_length
  unfold Digest.write at e
  unfold MDigest.write
  rw [hl] at e
  by_cases h0 : p.len = 0
  · rw [if_pos h0] at e ⊢
    cases e
    exact ⟨H, d, rfl, h, rfl, OffEq.refl _ _⟩
  · rw [if_neg h0] at e ⊢
    obtain ⟨hf, hne⟩ : Fits H p ∧ p.arr ≠ d.x := by
      rcases hp with hp | hp
      · exact absurd hp.1 h0
      · exact hp
    simp only [bind, Except.bind] at e ⊢
    split at e
    · cases e
    · rename_i r1 hr1
      obtain ⟨v1, q1⟩ := r1
      obtain ⟨H1, d1, p1, f1, f2, f3, f4, f5, f6, f7⟩ := fill_sim (v' := v1) block
        (d := { d with len := d.len + BitVec.ofNat 64 p.len }) (v := { v with len := v.len + BitVec.ofNat 64 p.len })
        ⟨h.h, h.nx, by simp only [h.len], h.col, h.x⟩ p hf hne q1 hr1
      rw [f1]
      simp only at e ⊢
      split at e
      · cases e
      · rename_i r2 hr2
        obtain ⟨v2, q2⟩ := r2
        rw [← f7] at hr2
        obtain ⟨d2, p2, b1, b2, b3, b4, b5, b6⟩ := bulk_sim block f2 p1 f5 q2 hr2
        rw [b1]
        obtain ⟨H3, d3, t1, t2, t3, t4⟩ := tail_sim b2 p2 b4
        simp only [t1]
        cases e
        rw [b6] at t2
        refine ⟨H3, d3, rfl, t2, ?_, ?_⟩
        · rw [t3, b3, f3]
        · rw [b3, f3] at t4
          exact f4.trans t4

/-! ### Allocation -/

/-- The arrays of `H` are still there and, except `x`, unchanged. -/
structure Ext (x : Nat) (H H' : Heap) : Prop where
  len : H.length ≤ H'.length
  get : ∀ i, i < H.length → i ≠ x → H'[i]? = H[i]?

theorem Ext.refl (x : Nat) (H : Heap) : Ext x H H := ⟨Nat.le_refl _, fun _ _ _ => rfl⟩

theorem OffEq.ext {x : Nat} {H H' : Heap} (h : OffEq x H H') : Ext x H H' :=
  ⟨Nat.le_of_eq h.len.symm, fun i _ hi => h.get i hi⟩

/-- A change of an array that did not exist. -/
theorem OffEq.ext_new {x y : Nat} {H H' : Heap} (h : OffEq x H H') {H0 : Heap} (he : Ext y H0 H) (hx : H0.length ≤ x) :
    Ext y H0 H' :=
  ⟨by rw [h.len]; exact he.len, fun i hi hy => (h.get i (by omega)).trans (he.get i hi hy)⟩

theorem Ext.trans {x : Nat} {H H' H'' : Heap} (h : Ext x H H') (h' : Ext x H' H'') : Ext x H H'' :=
  ⟨Nat.le_trans h.len h'.len, fun i hi hx =>
    (h'.get i (Nat.lt_of_lt_of_le hi h.len) hx).trans (h.get i hi hx)⟩

theorem Ext.alloc (x : Nat) (H : Heap) (bs : List Byte) : Ext x H (H ++ [bs]) :=
  ⟨by simp, fun i hi _ => by rw [List.getElem?_append_left hi]⟩

theorem alloc_get (H : Heap) (bs : List Byte) : (H ++ [bs])[H.length]? = some bs := by
  rw [List.getElem?_append_right (Nat.le_refl _)]; simp

/-- Weakening: nothing at all is excepted if `x` is new. -/
theorem Ext.all {x : Nat} {H H' : Heap} (h : Ext x H H') (hx : H.length ≤ x) (i : Nat) (hi : i < H.length) :
    H'[i]? = H[i]? := h.get i hi (by omega)

theorem lt_of_get {H : Heap} {i : Nat} {a : List Byte} (h : H[i]? = some a) : i < H.length :=
  (List.getElem?_eq_some_iff.mp h).1

theorem clone_sim {H : Heap} {d : MDigest} {v : Digest} (h : Rep H d v) :
    d.clone H = (H ++ [v.x.1], { d with x := H.length }) ∧
      Rep (H ++ [v.x.1]) { d with x := H.length } v := by
  unfold MDigest.clone
  rw [rd_whole h.x v.x.2]
  exact ⟨rfl, h.h, h.nx, h.len, h.col, alloc_get _ _⟩

theorem make_sim (H : Heap) :
    ∃ d, MDigest.make H = (H ++ [List.replicate 64 0], d) ∧ d.x = H.length ∧
      Rep (H ++ [List.replicate 64 0]) d new :=
  ⟨_, rfl, rfl, rfl, rfl, rfl, rfl, alloc_get _ _⟩

theorem putAt_ok (l : List Byte) (off : Nat) (bs : List Byte) (h : off + bs.length ≤ l.length) :
    putAt l off bs = .ok (splice l off bs) := by
  unfold putAt splice; rw [if_pos h]; rfl

theorem putAt_inv {l l' : List Byte} {off : Nat} {bs : List Byte} (h : putAt l off bs = .ok l') :
    off + bs.length ≤ l.length ∧ l' = splice l off bs := by
  unfold putAt at h
  split at h
  · rename_i hle
    cases h
    exact ⟨hle, rfl⟩
  · cases h

theorem splice_length {l : List Byte} {off : Nat} {bs : List Byte} (h : off + bs.length ≤ l.length) :
    (splice l off bs).length = l.length := by
  unfold splice; simp; omega

/-- `PutUint32(a[off:], v)` on an array. -/
theorem put_sim {H : Heap} {a n : Nat} {l l' : List Byte} (hl : H[a]? = some l) (hn : l.length = n) (off : Nat)
    (bs : List Byte) (e : putAt l off bs = .ok l') :
    ∃ s H', (whole a n).slice off n = .ok s ∧ putSl H s bs = .ok H' ∧ OffEq a H H' ∧ H'[a]? = some l' ∧
      l'.length = n := by
  obtain ⟨h1, rfl⟩ := putAt_inv e
  refine ⟨⟨a, off, n - off, n - off⟩, wr H a off bs, ?_, ?_, OffEq.wr _ _ _ _, ?_, ?_⟩
  · unfold Sl.slice whole
    simp only
    rw [if_pos ⟨by omega, Nat.le_refl _⟩]; simp [pure, Except.pure]
  · unfold putSl
    rw [if_pos (by simp only; omega)]; rfl
  · rw [wr_get, if_pos rfl, hl]; rfl
  · rw [splice_length h1, hn]

theorem bytes32_length (v : Word) : (bytes32 v).length = 4 := rfl
theorem bytes64_length (v : Word64) : (bytes64 v).length = 8 := rfl

theorem checkSum_sim {H : Heap} {d : MDigest} {v v' : Digest} (block : BlockFn) (h : Rep H d v) (D : List Byte)
    (e : v.checkSum block = .ok (v', D)) :
    ∃ H' d', d.checkSum block H = .ok (H', d', D) ∧ Rep H' d' v' ∧ d'.x = d.x ∧ Ext d.x H H' ∧ D.length = 20 := by
  have hx := lt_of_get h.x
  unfold Digest.checkSum padding at e
  unfold MDigest.checkSum
  rw [h.len]
  simp only [bind, Except.bind, alloc] at e ⊢
  generalize (if v.len % 64 < 56 then 56 - v.len % 64 else 64 + 56 - v.len % 64 : Word64) = t at e ⊢
  -- the local array tmp
  have g0 : (wr (H ++ [List.replicate 72 0]) H.length 0 [0x80])[H.length]? =
      some (0x80 :: List.replicate 71 0) := by
    rw [wr_get, if_pos rfl, alloc_get]; rfl
  have x0 : Ext d.x H (wr (H ++ [List.replicate 72 0]) H.length 0 [0x80]) :=
    (OffEq.wr _ _ _ _).ext_new (Ext.alloc _ _ _) (Nat.le_refl _)
  have r0 : Rep (wr (H ++ [List.replicate 72 0]) H.length 0 [0x80]) d v := by
    refine h.congr ?_
    rw [wr_get, if_neg (by omega), List.getElem?_append_left hx]
  generalize hH1 : wr (H ++ [List.replicate 72 0]) H.length 0 [0x80] = H1 at g0 x0 r0 ⊢
  have hlen1 : H1.length = H.length + 1 := by rw [← hH1, wr_length]; simp
  split at e
  · cases e
  · rename_i padlen hpad
    split at hpad
    · cases hpad
    · rename_i tmp htmp
      split at hpad
      · rename_i ht8
        cases hpad
        have hs : (whole H.length 72).slice 0 (t + 8).toNat = .ok ⟨H.length, 0, (t + 8).toNat, 72⟩ := by
          unfold Sl.slice whole
          rw [if_pos ⟨Nat.zero_le _, ht8⟩]; simp [pure, Except.pure]
        obtain ⟨s2, H2, p1, p2, p3, p4, p5⟩ := put_sim (n := 72) g0 (by simp) _ _ htmp
        rw [hs]
        simp only [p1, p2]
        have hrd : rd H2 ⟨H.length, 0, (t + 8).toNat, 72⟩ = tmp.take (t + 8).toNat := by
          rw [rd_eq (s := ⟨H.length, 0, (t + 8).toNat, 72⟩) p4]; simp
        have r2 : Rep H2 d v := r0.congr (p3.get _ (by omega))
        split at e
        · cases e
        · rename_i w hw
          obtain ⟨v3, n3, e3⟩ := w
          rw [← hrd] at hw
          obtain ⟨H3, d3, w1, w2, w3, w4⟩ := write_sim block r2 ⟨H.length, 0, (t + 8).toNat, 72⟩
            (.inr ⟨⟨ht8, _, p4, by simp only; omega⟩, by simp only; omega⟩) n3 e3 hw
          rw [w1]
          simp only at e ⊢
          rw [← w2.nx] at e
          split at e
          · cases e
          · rename_i hnx
            rw [if_neg hnx]
            have hlen3 : H3.length = H.length + 1 := by rw [w4.len, p3.len, hlen1]
            have x3 : Ext d.x H H3 := (p3.ext_new x0 (Nat.le_refl _)).trans w4.ext
            have g4 : (H3 ++ [List.replicate Size 0])[H3.length]? = some (List.replicate Size 0) := alloc_get _ _
            have r4 : Rep (H3 ++ [List.replicate Size 0]) d3 v3 :=
              w2.congr (by rw [List.getElem?_append_left (lt_of_get w2.x)])
            have x4 : Ext d.x H (H3 ++ [List.replicate Size 0]) := x3.trans (Ext.alloc _ _ _)
            have hd3 : d3.x < H3.length := lt_of_get w2.x
            generalize H3 ++ [List.replicate Size 0] = H4 at g4 r4 x4 ⊢
            rw [← r4.h] at e
            split at e
            · cases e
            · rename_i l1 hl1
              obtain ⟨s5, H5, a1, a2, a3, a4, a5⟩ := put_sim (n := Size) g4 (by simp) _ _ hl1
              simp only [a1, a2]
              split at e
              · cases e
              · rename_i l2 hl2
                obtain ⟨s6, H6, b1, b2, b3, b4, b5⟩ := put_sim a4 a5 _ _ hl2
                simp only [b1, b2]
                split at e
                · cases e
                · rename_i l3 hl3
                  obtain ⟨s7, H7, c1, c2, c3, c4, c5⟩ := put_sim b4 b5 _ _ hl3
                  simp only [c1, c2]
                  split at e
                  · cases e
                  · rename_i l4 hl4
                    obtain ⟨s8, H8, f1, f2, f3, f4, f5⟩ := put_sim c4 c5 _ _ hl4
                    simp only [f1, f2]
                    split at e
                    · cases e
                    · rename_i l5 hl5
                      obtain ⟨s9, H9, k1, k2, k3, k4, k5⟩ := put_sim f4 f5 _ _ hl5
                      simp only [k1, k2]
                      cases e
                      have hoff : OffEq H3.length H4 H9 := (((a3.trans b3).trans c3).trans f3).trans k3
                      refine ⟨H9, d3, ?_, ?_, w3, ?_, k5⟩
                      · rw [rd_whole k4 k5]; rfl
                      · exact r4.congr (hoff.get _ (by omega))
                      · exact hoff.ext_new x4 (by omega)
      · cases hpad

/-! ### Append -/

/-- What `append` leaves alone. -/
theorem append_sim {H : Heap} (s : Sl) (bs : List Byte) (grow : Nat) (hs : (s.len = 0 ∧ s.cap = 0) ∨ Fits H s)
    (h0 : bs ≠ []) :
    ∃ H' r, appendSl H s bs grow = (H', r) ∧ rd H' r = rd H s ++ bs ∧
      ((s.len + bs.length ≤ s.cap ∧ r = { s with len := s.len + bs.length } ∧ OffEq s.arr H H' ∧
          ∃ a, H[s.arr]? = some a ∧ H'[s.arr]? = some (splice a (s.off + s.len) bs)) ∨
       (¬ s.len + bs.length ≤ s.cap ∧ r = ⟨H.length, 0, s.len + bs.length, s.len + bs.length + grow⟩ ∧
          H' = H ++ [rd H s ++ bs ++ List.replicate grow 0])) := by
  have hpos : 0 < bs.length := List.length_pos_iff.mpr h0
  unfold appendSl
  by_cases h : s.len + bs.length ≤ s.cap
  · rw [if_pos h]
    have hf : Fits H s := by
      rcases hs with hs | hs
      · omega
      · exact hs
    obtain ⟨a, ha, hl⟩ := hf.arr
    have hg : (wr H s.arr (s.off + s.len) bs)[s.arr]? = some (splice a (s.off + s.len) bs) := by
      rw [wr_get, if_pos rfl, ha]; rfl
    refine ⟨_, _, rfl, ?_, .inl ⟨h, rfl, OffEq.wr _ _ _ _, a, ha, hg⟩⟩
    rw [rd_eq (s := { s with len := s.len + bs.length }) hg, rd_eq ha]
    unfold splice
    rw [List.append_assoc, List.drop_append_of_le_length (by simp; omega)]
    rw [List.drop_take, show s.off + s.len - s.off = s.len by omega]
    rw [← List.append_assoc]
    apply List.take_left'
    simp; omega
  · rw [if_neg h]
    have hl : (rd H s).length = s.len := by
      rcases hs with hs | hs
      · unfold rd; simp [hs.1]
      · exact hs.rd_length
    refine ⟨_, _, rfl, ?_, .inr ⟨h, rfl, rfl⟩⟩
    rw [rd_eq (s := ⟨H.length, 0, s.len + bs.length, s.len + bs.length + grow⟩) (alloc_get _ _)]
    simp only [List.drop_zero]
    apply List.take_left'
    simp [hl]

/-- How `Sum` and `CollisionResistantSum` treat the memory of their caller: the digest `D` is placed after `inp` in its
array if there is room, and nothing else changes; else nothing changes and the result is in a new array. -/
structure Appended (x : Nat) (H : Heap) (inp : Sl) (D : List Byte) (H' : Heap) (r : Sl) : Prop where
  val : rd H' r = rd H inp ++ D
  len : H.length ≤ H'.length
  frame : ∀ i, i < H.length → i ≠ inp.arr → H'[i]? = H[i]?
  room : inp.len + 20 ≤ inp.cap → r = { inp with len := inp.len + 20 } ∧
    ∃ a, H[inp.arr]? = some a ∧ H'[inp.arr]? = some (splice a (inp.off + inp.len) D)
  full : ¬ inp.len + 20 ≤ inp.cap → H.length ≤ r.arr ∧ r.arr < H'.length ∧
    (∀ i, i < H.length → H'[i]? = H[i]?) ∧ r.off = 0 ∧ r.len = inp.len + 20

theorem crs_sim {H : Heap} {d : MDigest} {v v' : Digest} (block : BlockFn) (h : Rep H d v) (inp : Sl)
    (hi : Apart H d.x inp) (grow : Nat) (D : List Byte) (e : v.checkSum block = .ok (v', D)) :
    ∃ H' r, d.collisionResistantSum block H inp grow = .ok (H', r, v'.col) ∧ Appended d.x H inp D H' r := by
  obtain ⟨c1, c2⟩ := clone_sim h
  obtain ⟨H2, d2, k1, k2, k3, k4, k5⟩ := checkSum_sim block c2 D e
  unfold MDigest.collisionResistantSum
  simp only [c1, k1, bind, Except.bind, alloc]
  have hl2 : H.length + 1 ≤ H2.length := by have := k4.len; simpa using this
  have e2 : ∀ i, i < H.length → H2[i]? = H[i]? := by
    intro i hi
    rw [k4.get i (by simp; omega) (by simp only; omega), List.getElem?_append_left hi]
  have e3 : ∀ i, i < H.length → (H2 ++ [D])[i]? = H[i]? := by
    intro i hi
    rw [List.getElem?_append_left (by omega), e2 i hi]
  have hD : rd (H2 ++ [D]) (whole H2.length Size) = D := rd_whole (alloc_get _ _) k5
  rw [hD]
  have hi3 : (inp.len = 0 ∧ inp.cap = 0) ∨ Fits (H2 ++ [D]) inp := by
    rcases hi with hi | ⟨hi, _⟩
    · exact .inl hi
    · obtain ⟨a, ha, hl⟩ := hi.arr
      exact .inr ⟨hi.len, a, by rw [e3 _ (lt_of_get ha)]; exact ha, hl⟩
  have hrd : rd (H2 ++ [D]) inp = rd H inp := by
    rcases hi with hi | ⟨hi, _⟩
    · unfold rd; simp [hi.1]
    · obtain ⟨a, ha, hl⟩ := hi.arr
      exact rd_congr (e3 _ (lt_of_get ha))
  obtain ⟨H4, r, a1, a2, a3⟩ := append_sim inp D grow hi3 (by intro h; rw [h] at k5; cases k5)
  rw [a1]
  refine ⟨H4, r, ?_, ?_⟩
  · simp only [pure, Except.pure]; rw [k2.col]
  · rw [hrd] at a2
    rcases a3 with ⟨b1, b2, b3, a, b4, b5⟩ | ⟨b1, b2, b3⟩
    · rw [k5] at b1 b2
      have hin : inp.arr < H.length := by
        rcases hi with hi | ⟨hi, _⟩
        · omega
        · obtain ⟨a, ha, hl⟩ := hi.arr; exact lt_of_get ha
      refine ⟨a2, ?_, ?_, ?_, fun hc => absurd b1 hc⟩
      · rw [b3.len]; simp; omega
      · intro i hi hne
        rw [b3.get i hne, e3 i hi]
      · intro _
        exact ⟨b2, a, by rw [← e3 _ hin]; exact b4, b5⟩
    · rw [k5] at b1
      have hfr : ∀ i, i < H.length → H4[i]? = H[i]? := by
        intro i hi
        rw [b3, List.getElem?_append_left (by simp; omega), e3 i hi]
      refine ⟨a2, ?_, fun i hi _ => hfr i hi, fun hc => absurd hc b1, fun _ => ⟨?_, ?_, hfr, ?_, ?_⟩⟩
      · rw [b3]; simp; omega
      · rw [b2]; simp; omega
      · rw [b2, b3]; simp
      · rw [b2]
      · rw [b2, k5]

theorem sum_sim {H : Heap} {d : MDigest} {v v' : Digest} (block : BlockFn) (h : Rep H d v) (inp : Sl)
    (hi : Apart H d.x inp) (grow : Nat) (D : List Byte) (e : v.checkSum block = .ok (v', D)) :
    ∃ H' r, d.sum block H inp grow = .ok (H', r) ∧ Appended d.x H inp D H' r := by
  obtain ⟨H', r, h1, h2⟩ := crs_sim block h inp hi grow D e
  refine ⟨H', r, ?_, h2⟩
  unfold MDigest.collisionResistantSum at h1
  unfold MDigest.sum
  simp only [bind, Except.bind] at h1 ⊢
  split at h1
  · cases h1
  · rename_i w hw
    simp only [pure, Except.pure, Except.ok.injEq, Prod.mk.injEq] at h1 ⊢
    exact ⟨h1.1, h1.2.1⟩

/-! ### Checkpoints -/

theorem app_step {H : Heap} {id k : Nat} (data bs : List Byte) (grow : Nat)
    (hg : H[id]? = some (data ++ List.replicate k 0)) (hl : data.length + k = 98) (hb : bs.length ≤ k) :
    ∃ H', appendSl H ⟨id, 0, data.length, 98⟩ bs grow = (H', ⟨id, 0, (data ++ bs).length, 98⟩) ∧ OffEq id H H' ∧
      H'[id]? = some ((data ++ bs) ++ List.replicate (k - bs.length) 0) := by
  refine ⟨wr H id data.length bs, ?_, OffEq.wr _ _ _ _, ?_⟩
  · unfold appendSl
    rw [if_pos (by simp only; omega)]
    simp
  · rw [wr_get, if_pos rfl, hg]
    simp only [Option.map_some, Option.some.injEq, splice]
    rw [List.take_left, ← List.drop_drop, List.drop_left, List.drop_replicate]

theorem marshal_sim {H : Heap} {d : MDigest} {v : Digest} (h : Rep H d v) (hn : v.nx ≤ 64) (grow : Nat) :
    ∃ H' r, d.marshalBinary H grow = .ok (H', r) ∧
      rd H' r = encode v.h (v.x.1.take v.nx ++ List.replicate (64 - v.nx) 0) v.len ∧
      Ext H.length H H' ∧ r.arr = H.length ∧ r.off = 0 ∧ r.len = 98 ∧ r.cap = 98 ∧ H.length < H'.length := by
  have hx := lt_of_get h.x
  unfold MDigest.marshalBinary
  simp only [alloc, bind, Except.bind]
  rw [show MarshaledSize = 98 from rfl]
  have g0 : (H ++ [List.replicate 98 0])[H.length]? = some (([] : List Byte) ++ List.replicate 98 0) := alloc_get _ _
  have x0 : Ext H.length H (H ++ [List.replicate 98 0]) := Ext.alloc _ _ _
  have l0 : (H ++ [List.replicate 98 (0 : Byte)]).length = H.length + 1 := by simp
  generalize H ++ [List.replicate 98 0] = H0 at g0 x0 l0 ⊢
  obtain ⟨H1, e1, o1, g1⟩ := app_step [] Magic grow g0 rfl (by decide)
  rw [List.length_nil] at e1
  simp only [e1]
  obtain ⟨H2, e2, o2, g2⟩ := app_step _ (bytes32 d.h.a) grow g1 rfl (by simp only [bytes32_length]; decide)
  simp only [e2]
  obtain ⟨H3, e3, o3, g3⟩ := app_step _ (bytes32 d.h.b) grow g2 rfl (by simp only [bytes32_length]; decide)
  simp only [e3]
  obtain ⟨H4, e4, o4, g4⟩ := app_step _ (bytes32 d.h.c) grow g3 rfl (by simp only [bytes32_length]; decide)
  simp only [e4]
  obtain ⟨H5, e5, o5, g5⟩ := app_step _ (bytes32 d.h.d) grow g4 rfl (by simp only [bytes32_length]; decide)
  simp only [e5]
  obtain ⟨H6, e6, o6, g6⟩ := app_step _ (bytes32 d.h.e) grow g5 rfl (by simp only [bytes32_length]; decide)
  simp only [e6]
  have o : OffEq H.length H0 H6 := ((((o1.trans o2).trans o3).trans o4).trans o5).trans o6
  have x6 : Ext H.length H H6 := x0.trans o.ext
  have r6 : Rep H6 d v := h.congr (x6.get _ hx (by omega))
  generalize hdat : (([] : List Byte) ++ Magic ++ bytes32 d.h.a ++ bytes32 d.h.b ++ bytes32 d.h.c ++ bytes32 d.h.d ++
    bytes32 d.h.e) = dat at g6 ⊢
  have ldat : dat.length = 26 := by rw [← hdat]; rfl
  have hk : 98 - Magic.length - (bytes32 d.h.a).length - (bytes32 d.h.b).length - (bytes32 d.h.c).length -
      (bytes32 d.h.d).length - (bytes32 d.h.e).length = 72 := rfl
  rw [hk] at g6
  have hs : (whole d.x 64).slice 0 d.nx = .ok ⟨d.x, 0, v.nx, 64⟩ := by
    unfold Sl.slice whole
    rw [h.nx, if_pos ⟨Nat.zero_le _, hn⟩]; simp [pure, Except.pure]
  have hrd : rd H6 ⟨d.x, 0, v.nx, 64⟩ = v.x.1.take v.nx := by
    rw [rd_eq (s := ⟨d.x, 0, v.nx, 64⟩) r6.x]; simp
  have hxl : (v.x.1.take v.nx).length = v.nx := by have := v.x.2; simp; omega
  rw [hs]
  simp only [hrd]
  obtain ⟨H7, e7, o7, g7⟩ := app_step dat (v.x.1.take v.nx) grow g6 (by omega) (by omega)
  simp only [e7]
  have hs2 : (⟨H.length, 0, (dat ++ v.x.1.take v.nx).length, 98⟩ : Sl).slice 0
      ((dat ++ v.x.1.take v.nx).length + 64 - d.nx) =
      .ok ⟨H.length, 0, (dat ++ v.x.1.take v.nx ++ List.replicate (64 - v.nx) 0).length, 98⟩ := by
    unfold Sl.slice
    have : (dat ++ v.x.1.take v.nx).length = 26 + v.nx := by simp only [List.length_append, ldat, hxl]
    rw [List.length_append (bs := List.replicate _ _), this, h.nx, List.length_replicate, if_pos (by simp only; omega)]
    simp only [pure, Except.pure, Except.ok.injEq, Sl.mk.injEq, true_and, Nat.sub_zero, Nat.add_zero, and_true]
    omega
  rw [hs2]
  simp only
  have g7' : H7[H.length]? = some (dat ++ v.x.1.take v.nx ++ List.replicate (64 - v.nx) 0 ++ List.replicate 8 0) := by
    rw [g7, hxl, List.append_assoc _ (List.replicate (64 - v.nx) 0), List.replicate_append_replicate]
    rw [show 64 - v.nx + 8 = 72 - v.nx by omega]
  obtain ⟨H8, e8, o8, g8⟩ := app_step (dat ++ v.x.1.take v.nx ++ List.replicate (64 - v.nx) 0) (bytes64 d.len) grow g7'
    (by simp only [List.length_append, ldat, hxl, List.length_replicate]; omega) (by simp only [bytes64_length]; decide)
  simp only [e8]
  have hlen : (dat ++ v.x.1.take v.nx ++ List.replicate (64 - v.nx) 0 ++ bytes64 d.len).length = 98 := by
    simp only [List.length_append, ldat, hxl, List.length_replicate, bytes64_length]; omega
  refine ⟨H8, _, rfl, ?_, x6.trans (o7.trans o8).ext, rfl, rfl, hlen, rfl, ?_⟩
  · refine (rd_eq g8).trans ?_
    simp only [List.drop_zero]
    rw [List.take_left, h.len, bytes64_eq, ← hdat, h.h]
    simp only [bytes32_eq, encode, digestBytes, List.nil_append, List.append_assoc]
  · rw [(o7.trans o8).len, o.len, l0]; omega

theorem consume32_inv {l r : List Byte} {w : Word} (h : consumeUint32 l = .ok (r, w)) :
    4 ≤ l.length ∧ r = l.drop 4 := by
  unfold consumeUint32 at h
  split at h
  · cases h; simp
  · cases h

theorem consume64_inv {l r : List Byte} {w : Word64} (h : consumeUint64 l = .ok (r, w)) :
    8 ≤ l.length ∧ r = l.drop 8 := by
  unfold consumeUint64 at h
  split at h
  · cases h; simp
  · cases h

theorem mconsume32_sim {H : Heap} {b : Sl} (hb : Fits H b) {r : List Byte} {w : Word}
    (h : consumeUint32 (rd H b) = .ok (r, w)) :
    ∃ b', mconsume32 H b = .ok (b', w) ∧ Fits H b' ∧ b'.arr = b.arr ∧ rd H b' = r := by
  obtain ⟨h1, h2⟩ := consume32_inv h
  have hl := hb.rd_length
  obtain ⟨q, s1, s2, s3, s4, s5⟩ := hb.slice 4 b.len (by omega) (Nat.le_refl _)
  refine ⟨q, ?_, s2, s3, ?_⟩
  · unfold mconsume32; simp only [h, s1, bind, Except.bind]; rfl
  · rw [s5, h2]; exact List.take_of_length_le (by simp; omega)

theorem mconsume64_sim {H : Heap} {b : Sl} (hb : Fits H b) {r : List Byte} {w : Word64}
    (h : consumeUint64 (rd H b) = .ok (r, w)) : ∃ b', mconsume64 H b = .ok (b', w) := by
  obtain ⟨h1, h2⟩ := consume64_inv h
  have hl := hb.rd_length
  obtain ⟨q, s1, _⟩ := hb.slice 8 b.len (by omega) (Nat.le_refl _)
  refine ⟨q, ?_⟩
  unfold mconsume64; simp only [h, s1, bind, Except.bind]; rfl

theorem unmarshal_sim {H : Heap} {d : MDigest} {v v' : Digest} (h : Rep H d v) (b : Sl) (hb : Apart H d.x b)
    (er : Option Err) (e : v.unmarshalBinary (rd H b) = .ok (v', er)) :
    ∃ H' d', d.unmarshalBinary H b = .ok (H', d', er) ∧ Rep H' d' v' ∧ d'.x = d.x ∧ OffEq d.x H H' := by
  have hl := hb.rd_length
  unfold Digest.unmarshalBinary at e
  unfold MDigest.unmarshalBinary
  rw [hl] at e
  by_cases h1 : b.len < Magic.length ∨ (rd H b).take Magic.length ≠ Magic
  · rw [if_pos h1] at e ⊢
    cases e
    exact ⟨H, d, rfl, h, rfl, OffEq.refl _ _⟩
  · rw [if_neg h1] at e ⊢
    by_cases h2 : b.len ≠ MarshaledSize
    · rw [if_pos h2] at e ⊢
      cases e
      exact ⟨H, d, rfl, h, rfl, OffEq.refl _ _⟩
    · rw [if_neg h2] at e ⊢
      have h98 : b.len = 98 := Decidable.not_not.mp h2
      obtain ⟨hf, hne⟩ : Fits H b ∧ b.arr ≠ d.x := by
        rcases hb with hb | hb
        · omega
        · exact hb
      obtain ⟨b1, s1, s2, s3, s4, s5⟩ := hf.slice Magic.length b.len (by rw [h98]; decide) (Nat.le_refl _)
      have hb1 : (rd H b).drop Magic.length = rd H b1 := by
        rw [s5]; exact (List.take_of_length_le (by simp; omega)).symm
      rw [s1]
      simp only [bind, Except.bind] at e ⊢
      rw [hb1] at e
      split at e
      · cases e
      · rename_i r1 hr1
        obtain ⟨b2, t1, t2, t3, t4⟩ := mconsume32_sim s2 hr1
        rw [t1]
        simp only at e ⊢
        rw [← t4] at e
        split at e
        · cases e
        · rename_i r2 hr2
          obtain ⟨b3, u1, u2, u3, u4⟩ := mconsume32_sim t2 hr2
          rw [u1]
          simp only at e ⊢
          rw [← u4] at e
          split at e
          · cases e
          · rename_i r3 hr3
            obtain ⟨b4, w1, w2, w3, w4⟩ := mconsume32_sim u2 hr3
            rw [w1]
            simp only at e ⊢
            rw [← w4] at e
            split at e
            · cases e
            · rename_i r4 hr4
              obtain ⟨b5, y1, y2, y3, y4⟩ := mconsume32_sim w2 hr4
              rw [y1]
              simp only at e ⊢
              rw [← y4] at e
              split at e
              · cases e
              · rename_i r5 hr5
                obtain ⟨b6, z1, z2, z3, z4⟩ := mconsume32_sim y2 hr5
                rw [z1]
                simp only at e ⊢
                rw [← z4] at e
                have hne6 : b6.arr ≠ d.x := by rw [z3, y3, w3, u3, t3, s3]; exact hne
                obtain ⟨c1, c2, c3⟩ := copy_sim h 0 (Nat.zero_le _) b6 z2
                have hwh : (⟨d.x, 0, 64 - 0, 64 - 0⟩ : Sl) = whole d.x 64 := rfl
                rw [hwh] at c1 c2 c3
                generalize hc : copySl H (whole d.x 64) b6 = r at c1 c2 c3 ⊢
                obtain ⟨H7, n⟩ := r
                simp only at c1 c2 c3 ⊢
                subst c1
                have f7 : Fits H7 b6 := z2.congr (c2.get _ hne6)
                have q7 : rd H7 b6 = rd H b6 := rd_congr (c2.get _ hne6)
                have l6 := z2.rd_length
                obtain ⟨b7, k1, k2, k3, k4, k5⟩ := f7.slice (min (64 - 0) (rd H b6).length) b6.len (by omega)
                  (Nat.le_refl _)
                have hk : (rd H b6).drop (min 64 (rd H b6).length) = rd H7 b7 := by
                  rw [k5, q7]; exact (List.take_of_length_le (by simp; omega)).symm
                rw [k1]
                simp only
                rw [hk] at e
                split at e
                · cases e
                · rename_i r8 hr8
                  obtain ⟨b8, m1⟩ := mconsume64_sim k2 hr8
                  rw [m1]
                  cases e
                  exact ⟨H7, _, rfl, ⟨rfl, rfl, rfl, h.col, c3⟩, rfl, c2⟩

/-! ### Calls -/

/-- The slice a call appends to. -/
def dest : MOp → Option Sl
  | .sum inp _ => some inp
  | .collisionResistantSum inp _ => some inp
  | _ => none

/-- What a call does to the memory: it changes the object's own array, the array of the slice it appends to if there is
room, and new ones. -/
structure Frame (x : Nat) (op : MOp) (H H' : Heap) (r : Option Sl) : Prop where
  len : H.length ≤ H'.length
  keep : ∀ i, i < H.length → i ≠ x → (∀ inp, dest op = some inp → inp.len + 20 ≤ inp.cap → i ≠ inp.arr) →
    H'[i]? = H[i]?
  ret : ∀ q, r = some q → q.arr < H'.length ∧
    (H.length ≤ q.arr ∨ ∃ inp, dest op = some inp ∧ inp.len + 20 ≤ inp.cap ∧ q.arr = inp.arr)

theorem OffEq.toFrame {x : Nat} {H H' : Heap} (op : MOp) (h : OffEq x H H') : Frame x op H H' none :=
  ⟨Nat.le_of_eq h.len.symm, fun i _ hi _ => h.get i hi, fun _ h => by cases h⟩

theorem Appended.toFrame {x y : Nat} {H H' : Heap} {op : MOp} {inp r : Sl} {D : List Byte} (h : Appended x H inp D H' r)
    (hop : dest op = some inp) : Frame y op H H' (some r) := by
  refine ⟨h.len, ?_, ?_⟩
  · intro i hi _ hk
    by_cases hr : inp.len + 20 ≤ inp.cap
    · exact h.frame i hi (hk inp hop hr)
    · exact (h.full hr).2.2.1 i hi
  · intro q hq
    cases hq
    by_cases hr : inp.len + 20 ≤ inp.cap
    · obtain ⟨h1, a, h2, h3⟩ := h.room hr
      have : r.arr = inp.arr := by rw [h1]
      exact ⟨by rw [this]; exact lt_of_get h3, .inr ⟨inp, hop, hr, this⟩⟩
    · exact ⟨(h.full hr).2.1, .inl (h.full hr).1⟩

/-- The object's own array is not that of the slice appended to. -/
theorem Appended.self {x : Nat} {H H' : Heap} {inp r : Sl} {D : List Byte} (h : Appended x H inp D H' r)
    (ha : Apart H x inp) (hx : x < H.length) : H'[x]? = H[x]? := by
  by_cases hr : inp.len + 20 ≤ inp.cap
  · rcases ha with ha | ha
    · omega
    · exact h.frame x hx (Ne.symm ha.2)
  · exact (h.full hr).2.2.1 x hx

theorem mcall_sim (block : BlockFn) {H : Heap} {d : MDigest} {v v' : Digest} (h : Rep H d v) (hn : v.nx ≤ 64) (op : MOp)
    (ha : ∀ p, op.arg = some p → Apart H d.x p) (out : Out) (e : v.call block (op.val H) = .ok (v', out)) :
    ∃ H' d' r, d.call block H op = .ok (H', d', r, out) ∧ Rep H' d' v' ∧ d'.x = d.x ∧ Frame d.x op H H' r := by
  have hx := lt_of_get h.x
  cases op with
  | write p =>
    simp only [MOp.val, Digest.call, bind, Except.bind] at e
    split at e
    · cases e
    · rename_i w hw
      obtain ⟨v1, n, er⟩ := w
      simp only [pure, Except.pure, Except.ok.injEq, Prod.mk.injEq] at e
      obtain ⟨rfl, rfl⟩ := e
      obtain ⟨H', d', h1, h2, h3, h4⟩ := write_sim block h p (ha p rfl) n er hw
      exact ⟨H', d', none, by simp only [MDigest.call, h1, bind, Except.bind]; rfl, h2, h3, h4.toFrame _⟩
  | sum inp grow =>
    simp only [MOp.val, Digest.call, Digest.sum, bind, Except.bind] at e
    cases hc : v.checkSum block with
    | error _ => rw [hc] at e; cases e
    | ok w =>
      obtain ⟨v1, D⟩ := w
      rw [hc] at e
      simp only [pure, Except.pure, Except.ok.injEq, Prod.mk.injEq] at e
      obtain ⟨rfl, rfl⟩ := e
      obtain ⟨H', r, h1, h2⟩ := sum_sim block h inp (ha inp rfl) grow D hc
      exact ⟨H', d, some r, by simp only [MDigest.call, h1, bind, Except.bind, pure, Except.pure, h2.val],
        h.congr (h2.self (ha inp rfl) hx), rfl, h2.toFrame rfl⟩
  | collisionResistantSum inp grow =>
    simp only [MOp.val, Digest.call, Digest.collisionResistantSum, bind, Except.bind] at e
    cases hc : v.checkSum block with
    | error _ => rw [hc] at e; cases e
    | ok w =>
      obtain ⟨v1, D⟩ := w
      rw [hc] at e
      simp only [pure, Except.pure, Except.ok.injEq, Prod.mk.injEq] at e
      obtain ⟨rfl, rfl⟩ := e
      obtain ⟨H', r, h1, h2⟩ := crs_sim block h inp (ha inp rfl) grow D hc
      exact ⟨H', d, some r, by simp only [MDigest.call, h1, bind, Except.bind, pure, Except.pure, h2.val],
        h.congr (h2.self (ha inp rfl) hx), rfl, h2.toFrame rfl⟩
  | reset =>
    simp only [MOp.val, Digest.call, pure, Except.pure, Except.ok.injEq, Prod.mk.injEq] at e
    obtain ⟨rfl, rfl⟩ := e
    exact ⟨H, d.reset, none, rfl, ⟨rfl, rfl, rfl, rfl, h.x⟩, rfl, (OffEq.refl _ _).toFrame _⟩
  | size =>
    simp only [MOp.val, Digest.call, pure, Except.pure, Except.ok.injEq, Prod.mk.injEq] at e
    obtain ⟨rfl, rfl⟩ := e
    exact ⟨H, d, none, rfl, h, rfl, (OffEq.refl _ _).toFrame _⟩
  | blockSize =>
    simp only [MOp.val, Digest.call, pure, Except.pure, Except.ok.injEq, Prod.mk.injEq] at e
    obtain ⟨rfl, rfl⟩ := e
    exact ⟨H, d, none, rfl, h, rfl, (OffEq.refl _ _).toFrame _⟩
  | marshalBinary grow =>
    simp only [MOp.val, Digest.call, marshal_spec v hn, bind, Except.bind, pure, Except.pure, Except.ok.injEq,
      Prod.mk.injEq] at e
    obtain ⟨rfl, rfl⟩ := e
    obtain ⟨H', r, h1, h2, h3, h4, _, _, _, h5⟩ := marshal_sim h hn grow
    refine ⟨H', d, some r, ?_, h.congr (h3.get _ hx (by omega)), rfl, h3.len, fun i hi _ _ => h3.get i hi (by omega), ?_⟩
    · simp only [MDigest.call, h1, bind, Except.bind, pure, Except.pure, h2]
      rfl
    · intro q hq
      cases hq
      exact ⟨by omega, .inl (by omega)⟩
  | unmarshalBinary b =>
    simp only [MOp.val, Digest.call, bind, Except.bind] at e
    split at e
    · cases e
    · rename_i w hw
      obtain ⟨v1, er⟩ := w
      simp only [pure, Except.pure, Except.ok.injEq, Prod.mk.injEq] at e
      obtain ⟨rfl, rfl⟩ := e
      obtain ⟨H', d', h1, h2, h3, h4⟩ := unmarshal_sim h b (ha b rfl) er hw
      exact ⟨H', d', none, by simp only [MDigest.call, h1, bind, Except.bind]; rfl, h2, h3, h4.toFrame _⟩

/-- `Sum` of the package changes only new arrays. -/
theorem msumPkg_sim (block : BlockFn) {H : Heap} (data : Sl) (hd : (data.len = 0 ∧ data.cap = 0) ∨ Fits H data)
    (D : List Byte) (c : Bool) (e : sumPkg block .callFirst (rd H data) = .ok (D, c)) :
    ∃ H', msumPkg block H data = .ok (H', D, c) ∧ H.length ≤ H'.length ∧ ∀ i, i < H.length → H'[i]? = H[i]? := by
  obtain ⟨d, m1, m2, m3⟩ := make_sim H
  have hget : ∀ i, i < H.length → (H ++ [List.replicate 64 (0 : Byte)])[i]? = H[i]? :=
    fun i hi => List.getElem?_append_left hi
  have hrd : rd (H ++ [List.replicate 64 0]) data = rd H data := by
    rcases hd with hd | hd
    · unfold rd; simp [hd.1]
    · obtain ⟨a, ha, _⟩ := hd.arr
      exact rd_congr (hget _ (lt_of_get ha))
  have hap : Apart (H ++ [List.replicate 64 0]) d.x data := by
    rcases hd with hd | hd
    · exact .inl hd
    · obtain ⟨a, ha, _⟩ := hd.arr
      refine .inr ⟨hd.congr (hget _ (lt_of_get ha)), ?_⟩
      have := lt_of_get ha
      omega
  unfold sumPkg at e
  unfold msumPkg
  rw [m1]
  simp only [bind, Except.bind] at e ⊢
  rw [← hrd] at e
  cases hw : Digest.write block Digest.zero.reset (rd (H ++ [List.replicate 64 0]) data) with
  | error _ => rw [hw] at e; cases e
  | ok w =>
    obtain ⟨v1, n, er⟩ := w
    rw [hw] at e
    simp only at e
    obtain ⟨H1, d1, w1, w2, w3, w4⟩ := write_sim block m3 data hap n er hw
    rw [w1]
    simp only
    cases hc : v1.checkSum block with
    | error _ => rw [hc] at e; cases e
    | ok w =>
      obtain ⟨v2, D'⟩ := w
      rw [hc] at e
      simp only [pure, Except.pure, Except.ok.injEq, Prod.mk.injEq] at e
      obtain ⟨rfl, rfl⟩ := e
      obtain ⟨H2, d2, c1, c2, c3, c4, c5⟩ := checkSum_sim block w2 D' hc
      rw [c1]
      have hl : (H ++ [List.replicate 64 (0 : Byte)]).length = H.length + 1 := by simp
      have hl1 := w4.len
      have hl2 := c4.len
      refine ⟨H2, by simp only [c2.col]; rfl, by omega, fun i hi => ?_⟩
      rw [c4.get i (by omega) (by omega), w4.get i (by omega), hget i hi]

end Verif
