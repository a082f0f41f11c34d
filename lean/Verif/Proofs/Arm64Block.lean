import Verif.Proofs.Arm64Run

/-! sha1cdblock_arm64.s on one chunk. -/

namespace Verif.Model.Arm64

open Verif Verif.Model Verif.Spec

theorem rev_bytes (a b c d : Byte) : rev (a ++ b ++ c ++ d) = be32 d c b a := by
  unfold rev
  rw [byte0, byte1, byte2, byte3]
  rfl

/-- Four words of the chunk after byte reversal. -/
theorem msg_load (p : List Byte) (g : Nat) (hg : g < 4) :
    vrev32 (Vec.ofBytes fun i => p.getD (16 * g + i) 0) = msgv (sched (toBlock p)) (4 * g) := by
  unfold vrev32 Vec.ofBytes
  simp only [rev_bytes]
  unfold msgv
  rw [sched_lt _ _ (by omega), sched_lt _ _ (by omega), sched_lt _ _ (by omega), sched_lt _ _ (by omega)]
  simp only [toBlock]
  have e1 : 4 * (4 * g) = 16 * g := by omega
  have e2 : 4 * (4 * g + 1) = 16 * g + 4 := by omega
  have e3 : 4 * (4 * g + 2) = 16 * g + 8 := by omega
  have e4 : 4 * (4 * g + 3) = 16 * g + 12 := by omega
  simp only [e1, e2, e3, e4, Nat.add_assoc, Nat.reduceAdd]
  rfl

theorem vld_p (s : St) (k : Nat) (hk : k < 4) (p : List Byte) (hp : p.length = 64) (hm : s.mem.p = p)
    (h : s.g .r1 = .ptr .p (BitVec.ofNat 64 (16 * k))) (d : V)
    (r : List Instr) : execs s (.vld1P .r1 d :: r) = execs { s with
      v := setV s.v d (Vec.ofBytes fun i => p.getD (16 * k + i) 0)
      g := fun q => if q = .r1 then .ptr .p (BitVec.ofNat 64 (16 * (k + 1))) else s.g q } r := by
  have e : (BitVec.ofNat 64 (16 * k)).toNat = 16 * k := by simp; omega
  simp only [execs, exec, St.load, h, e, rdP, hm]
  rw [if_pos (by omega)]
  simp only [bind_ok, pure_ok, St.bump, h, Val.add, St.setG, St.setV]
  rw [show BitVec.ofNat 64 (16 * k) + 16 = BitVec.ofNat 64 (16 * (k + 1)) from ofNat_add (16 * k) 16]

/-- Before the branch. -/
structure Ready (H : Regs) (p : List Byte) (m1 : Fin 80 → Word) (cs : Fin 15 → Word) (r16 : Word64) (s : St) :
    Prop where
  r0 : s.g .r0 = .ptr .h 0
  r1 : s.g .r1 = .ptr .p 0
  r3 : s.g .r3 = .ptr .m1 0
  r4 : s.g .r4 = .ptr .cs 0
  end0 : s.g .r16 = .int r16
  r21 : s.g .r21 = .int (64 + r16)
  v0 : s.v .v0 = abcd H
  v20 : s.v .v20 = ⟨0, 0, 0, H.e⟩
  h : s.mem.h = flat5 H
  p : s.mem.p = p
  m1 : s.mem.m1 = m1
  cs : s.mem.cs = cs

theorem setup_ok (s : St) (H : Regs) (p : List Byte) (m1 : Fin 80 → Word) (cs : Fin 15 → Word) (r16 : Word64)
    (h0 : s.g .r0 = .ptr .h 0) (h1 : s.g .r1 = .ptr .p 0) (h2 : s.g .r2 = .int 64)
    (h3 : s.g .r3 = .ptr .m1 0) (h4 : s.g .r4 = .ptr .cs 0) (h16 : s.g .r16 = .int r16)
    (hh : s.mem.h = flat5 H) (hp : s.mem.p = p) (hm : s.mem.m1 = m1) (hc : s.mem.cs = cs) :
    ∃ s', execs s setup = .ok s' ∧ Ready H p m1 cs r16 s' := by
  have l4 : rdW s.mem.h ((0 : Word64) + 16).toNat = .ok H.e := by
    rw [hh]; exact rdW_ok (flat5 H) 4 (by decide)
  have l0 : rdV s.mem.h (0 : Word64).toNat = .ok ⟨H.d, H.c, H.b, H.a⟩ := by
    rw [hh]
    show rdV (flat5 H) 0 = _
    unfold rdV
    rw [show rdW (flat5 H) 0 = _ from rdW_ok (flat5 H) 0 (by decide),
      show rdW (flat5 H) (0 + 4) = _ from rdW_ok (flat5 H) 1 (by decide),
      show rdW (flat5 H) (0 + 8) = _ from rdW_ok (flat5 H) 2 (by decide),
      show rdW (flat5 H) (0 + 12) = _ from rdW_ok (flat5 H) 3 (by decide)]
    rfl
  refine ⟨?w, ?h, ?i⟩
  case h =>
    simp only [setup, execs, exec, bind_ok, pure_ok, St.setG, h2, Val.add, reduceCtorEq, if_false,
      if_true, h16, St.load, h0, l0, St.setV, St.bump, St.loadS, l4]
    rfl
  case i =>
    exact {
      r0 := rfl
      r1 := h1
      r3 := h3
      r4 := h4
      end0 := h16
      r21 := by
        show Val.int ((64 : Word64) >>> 6 <<< 6 + r16) = _
        rfl
      v0 := rfl
      v20 := rfl
      h := hh
      p := hp
      m1 := hm
      cs := hc }

theorem loads_ok (H : Regs) (p : List Byte) (hpl : p.length = 64) (m1 : Fin 80 → Word) (cs : Fin 15 → Word)
    (r16 : Word64) (s : St) (h : Ready H p m1 cs r16 s) :
    ∃ s', execs s loads = .ok s' ∧ Inv (toBlock p) H 0 s' := by
  have m0 := msg_load p 0 (by decide)
  have m1 := msg_load p 1 (by decide)
  have m2 := msg_load p 2 (by decide)
  have m3 := msg_load p 3 (by decide)
  refine ⟨_, (vld_p s 0 (by decide) p hpl h.p h.r1 .v4 _).trans <|
    (vld_p _ 1 (by decide) p hpl (by exact h.p) (by rfl) .v5 _).trans <|
    (vld_p _ 2 (by decide) p hpl (by exact h.p) (by rfl) .v6 _).trans <|
    (vld_p _ 3 (by decide) p hpl (by exact h.p) (by rfl) .v7 _).trans <|
    (execs_v [.vld1Ks .v19, .vmov .v0 .v2, .vmovS0 .v20 .v1, .vmov .v2 .v3, .vdup .v19 0 .v17,
      .vrev32 .v4 .v4, .vrev32 .v5 .v5, .vrev32 .v6 .v6, .vrev32 .v7 .v7]
      [.vst1P .v4 .r3, .vst1P .v5 .r3, .vst1P .v6 .r3, .vst1P .v7 .r3, .vst1P .v0 .r4, .vst1S0P .v1 .r4]
      _ (by decide)).trans <|
    (vst_m1 _ 0 (by decide) (by exact h.r3) _ _).trans <|
    (vst_m1 _ 1 (by decide) (by rfl) _ _).trans <|
    (vst_m1 _ 2 (by decide) (by rfl) _ _).trans <|
    (vst_m1 _ 3 (by decide) (by rfl) _ _).trans <|
    (vst_cs _ 0 (by decide) (by exact h.r4) _ _ _).trans rfl, ?_⟩
  exact {
    r0 := h.r0
    v0 := h.v0
    v20 := h.v20
    v19 := rfl
    v1 := congrArg Vec.l0 h.v20
    v2 := h.v0
    v3 := h.v0
    k0 := fun _ => rfl
    k1 := fun h => by omega
    k2 := fun h => by omega
    k3 := fun h => by omega
    w := fun j h1 h2 h3 => by
      have : j = 0 ∨ j = 1 ∨ j = 2 ∨ j = 3 := by omega
      rcases this with rfl | rfl | rfl | rfl
      · exact m0
      · exact m1
      · exact m2
      · exact m3
    r3 := rfl
    r4 := rfl
    m1 := put_m1 _ _ 3 (put_m1 _ _ 2 (put_m1 _ _ 1 (put_m1 _ _ 0 (fun i h => by omega) _ m0) _ m1) _ m2) _ m3
    cs0 := fun i => by
      have := put5_same s.mem.cs 0 H i (by omega)
      rw [← h.v0, show H.e = (s.v .v20).l0 by rw [h.v20]] at this
      exact (congrArg (put5 s.mem.cs 0 (s.v .v0) (s.v .v20).l0)
        (Fin.ext (Nat.zero_add _).symm)).trans this
    cs1 := fun h => by omega
    cs2 := fun h => by omega }

/-- After the last group and the addition. -/
structure Done (M : Block) (H : Regs) (s : St) : Prop where
  r0 : s.g .r0 = .ptr .h 0
  v0 : s.v .v0 = abcd (compress H M)
  v20 : (s.v .v20).l0 = (compress H M).e
  m1 : s.mem.m1 = fun i : Fin 80 => sched M i
  cs : unflat15 s.mem.cs = rawCs H M

theorem add_ok (M : Block) (H : Regs) (s : St) (h : Inv M H 20 s) :
    ∃ s', execs s addBack = .ok s' ∧ Done M H s' := by
  refine ⟨_, (execs_v addBack [] s (by decide)).trans rfl, ?_⟩
  exact {
    r0 := h.r0
    v0 := by
      show Vec.map2 (· + ·) (s.v .v0) (s.v .v2) = _
      rw [h.v0, h.v2]
      simp only [compress, abcd, Vec.map2, Vec.mk.injEq]
      refine ⟨?_, ?_, ?_, ?_⟩ <;> first | rfl | exact BitVec.add_comm _ _
    v20 := by
      show (s.v .v20).l0 + (s.v .v1).l0 = _
      rw [h.v20, h.v1]
      simp only [compress]
      first | rfl | exact BitVec.add_comm _ _
    m1 := funext fun i => h.m1 i (by rw [show cnt 20 = 20 by decide]; exact i.isLt)
    cs := by
      funext j
      match j with
      | 0 => exact unflat15_at _ 0 _ fun i => (congrArg s.mem.cs (Fin.ext (Nat.zero_add _))).trans (h.cs0 i)
      | 1 => exact unflat15_at _ 1 _ (h.cs1 (by decide))
      | 2 => exact unflat15_at _ 2 _ (h.cs2 (by decide)) }

theorem body_ok (H : Regs) (p : List Byte) (hpl : p.length = 64) (m1 : Fin 80 → Word) (cs : Fin 15 → Word)
    (r16 : Word64) (s : St) (h : Ready H p m1 cs r16 s) :
    ∃ s', execs s body = .ok s' ∧ Done (toBlock p) H s' := by
  obtain ⟨s, es, h⟩ := loads_ok H p hpl m1 cs r16 s h
  obtain ⟨s, e0, h⟩ := g0_ok _ _ s h
  obtain ⟨s, e1, h⟩ := g1_ok _ _ s h
  obtain ⟨s, e2, h⟩ := g2_ok _ _ s h
  obtain ⟨s, e3, h⟩ := g3_ok _ _ s h
  obtain ⟨s, e4, h⟩ := g4_ok _ _ s h
  obtain ⟨s, e5, h⟩ := g5_ok _ _ s h
  obtain ⟨s, e6, h⟩ := g6_ok _ _ s h
  obtain ⟨s, e7, h⟩ := g7_ok _ _ s h
  obtain ⟨s, e8, h⟩ := g8_ok _ _ s h
  obtain ⟨s, e9, h⟩ := g9_ok _ _ s h
  obtain ⟨s, e10, h⟩ := g10_ok _ _ s h
  obtain ⟨s, e11, h⟩ := g11_ok _ _ s h
  obtain ⟨s, e12, h⟩ := g12_ok _ _ s h
  obtain ⟨s, e13, h⟩ := g13_ok _ _ s h
  obtain ⟨s, e14, h⟩ := g14_ok _ _ s h
  obtain ⟨s, e15, h⟩ := g15_ok _ _ s h
  obtain ⟨s, e16, h⟩ := g16_ok _ _ s h
  obtain ⟨s, e17, h⟩ := g17_ok _ _ s h
  obtain ⟨s, e18, h⟩ := g18_ok _ _ s h
  obtain ⟨s, e19, h⟩ := g19_ok _ _ s h
  obtain ⟨s, ea, h⟩ := add_ok _ _ s h
  refine ⟨s, ?_, h⟩
  have := execs_seq es e0
  have := execs_seq this e1
  have := execs_seq this e2
  have := execs_seq this e3
  have := execs_seq this e4
  have := execs_seq this e5
  have := execs_seq this e6
  have := execs_seq this e7
  have := execs_seq this e8
  have := execs_seq this e9
  have := execs_seq this e10
  have := execs_seq this e11
  have := execs_seq this e12
  have := execs_seq this e13
  have := execs_seq this e14
  have := execs_seq this e15
  have := execs_seq this e16
  have := execs_seq this e17
  have := execs_seq this e18
  have := execs_seq this e19
  exact execs_seq this ea

/-- Writing the state back changes nothing but `h`. -/
theorem writeBack_ok (s : St) (r : Regs) (h0 : s.g .r0 = .ptr .h 0) (hv : s.v .v0 = abcd r)
    (he : (s.v .v20).l0 = r.e) : ∃ s', execs s writeBack = .ok s' ∧ unflat5 s'.mem.h = r ∧
      s'.mem.m1 = s.mem.m1 ∧ s'.mem.cs = s.mem.cs := by
  refine ⟨?w, ?h, ?i⟩
  case h =>
    simp only [writeBack, execs, exec, pure_ok, St.store, h0]
    rw [wrV_ok _ _ _ (by decide) (by decide)]
    simp only [bind_ok, St.bump, h0, Val.add, pure_ok, St.setG, St.storeS, if_true, wrW]
    rw [dif_pos (by decide)]
    simp only [bind_ok]
    rfl
  case i =>
    refine ⟨?_, rfl, rfl⟩
    show Regs.mk (s.v .v0).l0 (s.v .v0).l1 (s.v .v0).l2 (s.v .v0).l3 (s.v .v20).l0 = _
    rw [hv, he]
    rfl

theorem skips_eq (H : Regs) (p : List Byte) (m1 : Fin 80 → Word) (cs : Fin 15 → Word)
    (r16 : Word64) (s : St) (h : Ready H p m1 cs r16 s) :
    skips s = .ok (decide (2 ^ 64 ≤ r16.toNat + 64)) := by
  unfold skips
  rw [h.end0, h.r21]
  simp only [pure_ok, BitVec.toNat_add]
  congr 1
  refine decide_eq_decide.mpr ?_
  show (64 + r16.toNat) % 2 ^ 64 ≤ r16.toNat ↔ _
  have := r16.isLt
  omega

/-- The two ways through the routine. -/
theorem run_ok (s : St) (H : Regs) (p : List Byte) (hpl : p.length = 64) (m1 : Fin 80 → Word)
    (cs : Fin 15 → Word) (r16 : Word64)
    (h0 : s.g .r0 = .ptr .h 0) (h1 : s.g .r1 = .ptr .p 0) (h2 : s.g .r2 = .int 64)
    (h3 : s.g .r3 = .ptr .m1 0) (h4 : s.g .r4 = .ptr .cs 0) (h16 : s.g .r16 = .int r16)
    (hh : s.mem.h = flat5 H) (hp : s.mem.p = p) (hm : s.mem.m1 = m1) (hc : s.mem.cs = cs) :
    ∃ s', (∀ k : St → GoM AsmOut, (do
      let s ← execs s setup
      let skip ← skips s
      let s ← if skip then pure s else execs s body
      let s ← execs s writeBack
      k s) = k s') ∧
    (r16.toNat + 64 < 2 ^ 64 → unflat5 s'.mem.h = compress H (toBlock p) ∧
      s'.mem.m1 = (fun i : Fin 80 => sched (toBlock p) i) ∧ unflat15 s'.mem.cs = rawCs H (toBlock p)) ∧
    (2 ^ 64 ≤ r16.toNat + 64 → unflat5 s'.mem.h = H ∧ s'.mem.m1 = m1 ∧ s'.mem.cs = cs) := by
  obtain ⟨s1, e1, r1⟩ := setup_ok s H p m1 cs r16 h0 h1 h2 h3 h4 h16 hh hp hm hc
  have hsk := skips_eq H p m1 cs r16 s1 r1
  by_cases hr : 2 ^ 64 ≤ r16.toNat + 64
  · obtain ⟨s2, e2, w1, w2, w3⟩ := writeBack_ok s1 H r1.r0 r1.v0 (by rw [r1.v20])
    refine ⟨s2, fun k => ?_, fun h => by omega, fun _ => ⟨w1, w2.trans r1.m1, w3.trans r1.cs⟩⟩
    rw [e1, bind_ok, hsk, bind_ok, if_pos (decide_eq_true hr), pure_ok, bind_ok]; exact (congrArg (· >>= k) e2).trans (bind_ok _ _)
  · obtain ⟨s2, e2, d⟩ := body_ok H p hpl m1 cs r16 s1 r1
    obtain ⟨s3, e3, w1, w2, w3⟩ := writeBack_ok s2 _ d.r0 d.v0 d.v20
    refine ⟨s3, fun k => ?_, fun _ => ⟨w1, w2.trans d.m1, by rw [w3, d.cs]⟩, fun h => absurd h hr⟩
    rw [e1, bind_ok, hsk, bind_ok, if_neg (by simpa using hr), e2, bind_ok]; exact (congrArg (· >>= k) e3).trans (bind_ok _ _)

theorem unflat_flat15 (cs : Fin 3 → Regs) : unflat15 (flat15 cs) = cs := by
  funext j
  match j with
  | 0 => rfl
  | 1 => rfl
  | 2 => rfl

/-- The block function on one 64-byte chunk if R16 + 64 does not overflow. -/
theorem blockARM64_ok (s : St) (r16 : Word64) (hr : r16.toNat + 64 < 2 ^ 64) (H : Regs) (p : List Byte)
    (hp : p.length = 64) (m1 : Fin 80 → Word) (cs : Fin 3 → Regs) : blockARM64 s r16 H p m1 cs =
      .ok ⟨compress H (toBlock p), fun i => sched (toBlock p) i, rawCs H (toBlock p)⟩ := by
  unfold blockARM64
  simp only [argLoads, execs, exec, bind_ok, pure_ok, hp, St.setG]
  obtain ⟨s', e, h1, h2⟩ := run_ok
    { s with
      mem := { s.mem with h := flat5 H, p := p, m1 := m1, cs := flat15 cs }
      plen := 64
      g := fun q => if q = .r4 then .ptr .cs 0 else if q = .r3 then .ptr .m1 0 else if q = .r2 then .int 64
        else if q = .r1 then .ptr .p 0 else if q = .r0 then .ptr .h 0 else if q = .r16 then .int r16
        else s.g q } H p hp m1 (flat15 cs) r16 rfl rfl rfl rfl rfl rfl rfl rfl rfl rfl
  refine (e _).trans ?_
  obtain ⟨a, b, c⟩ := h1 hr
  rw [a, b, c]

/-- If it does overflow, nothing is hashed: the state, `m1` and `cs` are left as they were. -/
theorem blockARM64_skip (s : St) (r16 : Word64) (hr : 2 ^ 64 ≤ r16.toNat + 64) (H : Regs) (p : List Byte)
    (hp : p.length = 64) (m1 : Fin 80 → Word) (cs : Fin 3 → Regs) :
    blockARM64 s r16 H p m1 cs = .ok ⟨H, m1, cs⟩ := by
  unfold blockARM64
  simp only [argLoads, execs, exec, bind_ok, pure_ok, hp, St.setG]
  obtain ⟨s', e, h1, h2⟩ := run_ok
    { s with
      mem := { s.mem with h := flat5 H, p := p, m1 := m1, cs := flat15 cs }
      plen := 64
      g := fun q => if q = .r4 then .ptr .cs 0 else if q = .r3 then .ptr .m1 0 else if q = .r2 then .int 64
        else if q = .r1 then .ptr .p 0 else if q = .r0 then .ptr .h 0 else if q = .r16 then .int r16
        else s.g q } H p hp m1 (flat15 cs) r16 rfl rfl rfl rfl rfl rfl rfl rfl rfl rfl
  refine (e _).trans ?_
  obtain ⟨a, b, c⟩ := h2 hr
  rw [a, b, c, unflat_flat15]

end Verif.Model.Arm64
