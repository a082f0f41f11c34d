import Verif.Proofs.Arm64
import Verif.Proofs.Simd

/-! Running sha1cdblock_arm64.s: the registers and arrays before each group of four rounds. -/

namespace Verif.Model.Arm64

open Verif Verif.Model Verif.Spec

/-- The effect of the instructions that touch only vector registers. -/
def vexec (v : V → Vec) : Instr → V → Vec
  | .vld1Ks d => setV v d sha1Ks
  | .vmov a d => setV v d (v a)
  | .vmovS0 a d => setV v d ⟨0, 0, 0, (v a).l0⟩
  | .vdup a i d => setV v d (dup (v a) i)
  | .vrev32 a d => setV v d (vrev32 (v a))
  | .vadd a b d => setV v d (Vec.map2 (· + ·) (v b) (v a))
  | .sha1c m n d => setV v d (shaUpdate shaChoose (v d) (v n) (v m))
  | .sha1p m n d => setV v d (shaUpdate shaParity (v d) (v n) (v m))
  | .sha1m m n d => setV v d (shaUpdate shaMajority (v d) (v n) (v m))
  | .sha1h n d => setV v d (sha1h (v n))
  | .sha1su0 m n d => setV v d (sha1su0 (v d) (v n) (v m))
  | .sha1su1 n d => setV v d (sha1su1 (v d) (v n))
  | _ => v

def isV : Instr → Bool
  | .vld1Ks _ | .vmov _ _ | .vmovS0 _ _ | .vdup _ _ _ | .vrev32 _ _ | .vadd _ _ _ | .sha1c _ _ _ | .sha1p _ _ _
  | .sha1m _ _ _ | .sha1h _ _ | .sha1su0 _ _ _ | .sha1su1 _ _ => true
  | _ => false

def vexecs (v : V → Vec) : List Instr → V → Vec
  | [] => v
  | i :: is => vexecs (vexec v i) is

theorem exec_v (s : St) (i : Instr) (h : isV i = true) : exec s i = .ok { s with v := vexec s.v i } := by
  cases i <;> first
    | rfl
    | (simp only [isV, Bool.false_eq_true] at h; done)

theorem execs_append (s : St) (a b : List Instr) : execs s (a ++ b) = execs s a >>= fun s => execs s b := by
  induction a generalizing s with
  | nil => rfl
  | cons i is ih =>
    simp only [List.cons_append, execs]
    cases exec s i with
    | error e => rfl
    | ok s' => exact ih s'

theorem execs_seq {s t u : St} {a b : List Instr} (ha : execs s a = .ok t) (hb : execs t b = .ok u) :
    execs s (a ++ b) = .ok u := by rw [execs_append, ha, bind_ok, hb]

theorem execs_v (l r : List Instr) : ∀ (s : St), l.all isV = true →
    execs s (l ++ r) = execs { s with v := vexecs s.v l } r := by
  induction l with
  | nil => intro s _; rfl
  | cons i is ih =>
    intro s h
    rw [List.all_cons, Bool.and_eq_true] at h
    rw [List.cons_append, execs, exec_v s i h.1, bind_ok, ih _ h.2]
    rfl

theorem ofNat_add (a b : Nat) : BitVec.ofNat 64 a + BitVec.ofNat 64 b = BitVec.ofNat 64 (a + b) := by
  rw [BitVec.ofNat_add]

theorem vst_m1 (s : St) (k : Nat) (hk : k < 20) (h : s.g .r3 = .ptr .m1 (BitVec.ofNat 64 (16 * k))) (a : V)
    (r : List Instr) : execs s (.vst1P a .r3 :: r) = execs { s with
      mem := { s.mem with m1 := put4 s.mem.m1 (4 * k) (s.v a) }
      g := fun q => if q = .r3 then .ptr .m1 (BitVec.ofNat 64 (16 * (k + 1))) else s.g q } r := by
  have e : (BitVec.ofNat 64 (16 * k)).toNat = 16 * k := by simp; omega
  simp only [execs, exec, St.store, h, e]
  rw [wrV_ok _ _ _ (by omega) (by omega), show 16 * k / 4 = 4 * k by omega]
  simp only [bind_ok, pure_ok, St.bump, h, Val.add, St.setG]
  rw [show BitVec.ofNat 64 (16 * k) + 16 = BitVec.ofNat 64 (16 * (k + 1)) from ofNat_add (16 * k) 16]

theorem vst_cs (s : St) (i : Nat) (hi : i < 3) (h : s.g .r4 = .ptr .cs (BitVec.ofNat 64 (20 * i))) (a b : V)
    (r : List Instr) : execs s (.vst1P a .r4 :: .vst1S0P b .r4 :: r) = execs { s with
      mem := { s.mem with cs := put5 s.mem.cs (5 * i) (s.v a) (s.v b).l0 }
      g := fun q => if q = .r4 then .ptr .cs (BitVec.ofNat 64 (20 * (i + 1))) else s.g q } r := by
  have e : (BitVec.ofNat 64 (20 * i)).toNat = 20 * i := by simp; omega
  have e2 : (BitVec.ofNat 64 (20 * i) + 16).toNat = 20 * i + 16 := by
    rw [show BitVec.ofNat 64 (20 * i) + 16 = BitVec.ofNat 64 (20 * i + 16) from ofNat_add (20 * i) 16]
    simp; omega
  simp only [execs, exec, St.store, h, e]
  rw [wrV_ok _ _ _ (by omega) (by omega)]
  simp only [bind_ok, pure_ok, St.bump, h, Val.add, St.setG, St.storeS, if_true, e2, wrW]
  rw [dif_pos ⟨by omega, by omega⟩]
  simp only [bind_ok, if_true]
  congr 1
  rw [show BitVec.ofNat 64 (20 * i) + 16 + 4 = BitVec.ofNat 64 (20 * (i + 1)) from
    (congrArg (· + 4) (ofNat_add (20 * i) 16)).trans (ofNat_add (20 * i + 16) 4)]
  have hm : upd (put4 s.mem.cs (20 * i / 4) (s.v a)) ⟨(20 * i + 16) / 4, by omega⟩ (s.v b).l0 =
      put5 s.mem.cs (5 * i) (s.v a) (s.v b).l0 := by
    funext j
    simp only [upd, put5, Fin.ext_iff, show (20 * i + 16) / 4 = 5 * i + 4 by omega,
      show 20 * i / 4 = 5 * i by omega]
  have hg : (fun q => if q = G.r4 then Val.ptr .cs (BitVec.ofNat 64 (20 * (i + 1)))
      else if q = G.r4 then Val.ptr .cs (BitVec.ofNat 64 (20 * i) + 16) else s.g q) =
      fun q => if q = G.r4 then Val.ptr .cs (BitVec.ofNat 64 (20 * (i + 1))) else s.g q := by
    funext q
    by_cases hq : q = .r4
    · rw [if_pos hq, if_pos hq]
    · rw [if_neg hq, if_neg hq, if_neg hq]
  rw [hm, hg]

theorem put5_same (f : Fin 15 → Word) (k : Nat) (r : Regs) (i : Fin 5) (h : k + i.val < 15) :
    put5 f k (abcd r) r.e ⟨k + i, h⟩ = flat5 r i := by
  unfold put5 put4
  match i with
  | 0 => simp; rfl
  | 1 => simp; rfl
  | 2 => simp; rfl
  | 3 => simp; rfl
  | 4 => simp; rfl

theorem put_m1 (f : Fin 80 → Word) (W : Nat → Word) (k : Nat) (h : ∀ i : Fin 80, i.val < 4 * k → f i = W i)
    (v : Vec) (hv : v = msgv W (4 * k)) (i : Fin 80) (hi : i.val < 4 * (k + 1)) : put4 f (4 * k) v i = W i := by
  subst hv
  unfold put4
  by_cases h0 : i.val = 4 * k
  · rw [if_pos h0, h0]; rfl
  by_cases h1 : i.val = 4 * k + 1
  · rw [if_neg h0, if_pos h1, h1]; rfl
  by_cases h2 : i.val = 4 * k + 2
  · rw [if_neg h0, if_neg h1, if_pos h2, h2]; rfl
  by_cases h3 : i.val = 4 * k + 3
  · rw [if_neg h0, if_neg h1, if_neg h2, if_pos h3, h3]; rfl
  rw [if_neg h0, if_neg h1, if_neg h2, if_neg h3]
  exact h i (by omega)

/-- The register holding the message words of group `g`. -/
def mreg (g : Nat) : V :=
  match g % 4 with
  | 0 => .v4
  | 1 => .v5
  | 2 => .v6
  | _ => .v7

/-- How many vectors of `m1` are stored before group `g`. -/
def cnt (g : Nat) : Nat := if g ≤ 1 then 4 else if g ≤ 13 then g + 3 else if g ≤ 16 then 16 else 20

/-- How many entries of `cs` are stored before group `g`. -/
def ncs (g : Nat) : Nat := if g ≤ 13 then 1 else if g ≤ 15 then 2 else 3

/-- The state before group `g`. -/
structure Inv (M : Block) (H : Regs) (g : Nat) (s : St) : Prop where
  r0 : s.g .r0 = .ptr .h 0
  v0 : s.v .v0 = abcd H
  v20 : s.v .v20 = ⟨0, 0, 0, H.e⟩
  v19 : s.v .v19 = sha1Ks
  v1 : (s.v .v1).l0 = (steps (sched M) (4 * g) H).e
  v2 : s.v .v2 = abcd (steps (sched M) (4 * g) H)
  v3 : s.v .v3 = abcd (steps (sched M) (4 * g) H)
  k0 : g ≤ 5 → s.v .v17 = all4 0x5A827999
  k1 : 1 ≤ g → g ≤ 10 → s.v .v18 = all4 0x6ED9EBA1
  k2 : 6 ≤ g → s.v .v17 = all4 0x8F1BBCDC
  k3 : 11 ≤ g → s.v .v18 = all4 0xCA62C1D6
  w : ∀ j, g ≤ j → j < g + 4 → j < 20 → s.v (mreg j) = msgv (sched M) (4 * j)
  r3 : s.g .r3 = .ptr .m1 (BitVec.ofNat 64 (16 * cnt g))
  r4 : s.g .r4 = .ptr .cs (BitVec.ofNat 64 (20 * ncs g))
  m1 : ∀ i : Fin 80, i.val < 4 * cnt g → s.mem.m1 i = sched M i
  cs0 : ∀ i : Fin 5, s.mem.cs ⟨i, by omega⟩ = flat5 H i
  cs1 : 14 ≤ g → ∀ i : Fin 5, s.mem.cs ⟨5 + i, by omega⟩ = flat5 (steps (sched M) 56 H) i
  cs2 : 16 ≤ g → ∀ i : Fin 5, s.mem.cs ⟨10 + i, by omega⟩ = flat5 (steps (sched M) 64 H) i

theorem g0_ok (M : Block) (H : Regs) (s : St) (h : Inv M H 0 s) :
    ∃ s', execs s group0 = .ok s' ∧ Inv M H 1 s' := by
  have hw0 : s.v .v4 = _ := h.w 0 (by decide) (by decide) (by decide)
  have hw1 : s.v .v5 = _ := h.w 1 (by decide) (by decide) (by decide)
  have hw2 : s.v .v6 = _ := h.w 2 (by decide) (by decide) (by decide)
  have hw3 : s.v .v7 = _ := h.w 3 (by decide) (by decide) (by decide)
  have hsu : sha1su1 (sha1su0 (s.v .v4) (s.v .v5) (s.v .v6)) (s.v .v7) =
      msgv (sched M) (4 * 0 + 16) := by
    rw [hw0, hw1, hw2, hw3]; exact su_eq M (4 * 0)
  have hk : s.v .v17 = all4 (gk 0) := h.k0 (by decide)
  have hv2 : shaUpdate shaChoose (s.v .v2) (s.v .v1) (Vec.map2 (· + ·) (s.v .v4) (s.v .v17)) =
      abcd (steps (sched M) (4 * 0 + 4) H) := by
    rw [h.v2, hw0, hk]; exact update_eq 0 (by decide) (sched M) H _ h.v1
  have hv1 : (sha1h (s.v .v3)).l0 = (steps (sched M) (4 * 0 + 4) H).e := by
    rw [h.v3]; exact (e4 (sched M) (4 * 0) H).symm
  refine ⟨_, (execs_v
    [.vdup .v19 1 .v18, .vadd .v17 .v4 .v16, .sha1su0 .v6 .v5 .v4, .sha1c .v16 .v1 .v2, .sha1h .v3 .v1,
      .vmov .v2 .v3, .sha1su1 .v7 .v4]
    [] s (by decide)).trans (rfl), ?_⟩
  exact {
    r0 := h.r0
    v0 := h.v0
    v20 := h.v20
    v19 := h.v19
    v1 := hv1
    v2 := hv2
    v3 := hv2
    k0 := fun _ => h.k0 (by decide)
    k1 := fun _ _ => congrArg (fun v => dup v 1) h.v19
    k2 := fun h => by omega
    k3 := fun h => by omega
    w := fun j h1 h2 h3 => by
      have : j = 1 ∨ j = 2 ∨ j = 3 ∨ j = 4 := by omega
      rcases this with rfl | rfl | rfl | rfl
      · exact h.w 1 (by decide) (by decide) (by decide)
      · exact h.w 2 (by decide) (by decide) (by decide)
      · exact h.w 3 (by decide) (by decide) (by decide)
      · exact hsu
    r3 := h.r3
    r4 := h.r4
    m1 := h.m1
    cs0 := h.cs0
    cs1 := fun h => by omega
    cs2 := fun h => by omega }

theorem g1_ok (M : Block) (H : Regs) (s : St) (h : Inv M H 1 s) :
    ∃ s', execs s group1 = .ok s' ∧ Inv M H 2 s' := by
  have hw0 : s.v .v5 = _ := h.w 1 (by decide) (by decide) (by decide)
  have hw1 : s.v .v6 = _ := h.w 2 (by decide) (by decide) (by decide)
  have hw2 : s.v .v7 = _ := h.w 3 (by decide) (by decide) (by decide)
  have hw3 : s.v .v4 = _ := h.w 4 (by decide) (by decide) (by decide)
  have hsu : sha1su1 (sha1su0 (s.v .v5) (s.v .v6) (s.v .v7)) (s.v .v4) =
      msgv (sched M) (4 * 1 + 16) := by
    rw [hw0, hw1, hw2, hw3]; exact su_eq M (4 * 1)
  have hk : s.v .v17 = all4 (gk 1) := h.k0 (by decide)
  have hv2 : shaUpdate shaChoose (s.v .v2) (s.v .v1) (Vec.map2 (· + ·) (s.v .v5) (s.v .v17)) =
      abcd (steps (sched M) (4 * 1 + 4) H) := by
    rw [h.v2, hw0, hk]; exact update_eq 1 (by decide) (sched M) H _ h.v1
  have hv1 : (sha1h (s.v .v3)).l0 = (steps (sched M) (4 * 1 + 4) H).e := by
    rw [h.v3]; exact (e4 (sched M) (4 * 1) H).symm
  refine ⟨_, (execs_v
    [.vadd .v17 .v5 .v16, .sha1su0 .v7 .v6 .v5, .sha1c .v16 .v1 .v2, .sha1h .v3 .v1, .vmov .v2 .v3,
      .sha1su1 .v4 .v5]
    [.vst1P .v4 .r3] s (by decide)).trans ((vst_m1 _ 4 (by decide) (by first | exact h.r3 | rfl) _ _).trans (rfl)), ?_⟩
  exact {
    r0 := h.r0
    v0 := h.v0
    v20 := h.v20
    v19 := h.v19
    v1 := hv1
    v2 := hv2
    v3 := hv2
    k0 := fun _ => h.k0 (by decide)
    k1 := fun _ _ => h.k1 (by decide) (by decide)
    k2 := fun h => by omega
    k3 := fun h => by omega
    w := fun j h1 h2 h3 => by
      have : j = 2 ∨ j = 3 ∨ j = 4 ∨ j = 5 := by omega
      rcases this with rfl | rfl | rfl | rfl
      · exact h.w 2 (by decide) (by decide) (by decide)
      · exact h.w 3 (by decide) (by decide) (by decide)
      · exact h.w 4 (by decide) (by decide) (by decide)
      · exact hsu
    r3 := rfl
    r4 := h.r4
    m1 := put_m1 _ _ 4 h.m1 _ hw3
    cs0 := h.cs0
    cs1 := fun h => by omega
    cs2 := fun h => by omega }

theorem g2_ok (M : Block) (H : Regs) (s : St) (h : Inv M H 2 s) :
    ∃ s', execs s group2 = .ok s' ∧ Inv M H 3 s' := by
  have hw0 : s.v .v6 = _ := h.w 2 (by decide) (by decide) (by decide)
  have hw1 : s.v .v7 = _ := h.w 3 (by decide) (by decide) (by decide)
  have hw2 : s.v .v4 = _ := h.w 4 (by decide) (by decide) (by decide)
  have hw3 : s.v .v5 = _ := h.w 5 (by decide) (by decide) (by decide)
  have hsu : sha1su1 (sha1su0 (s.v .v6) (s.v .v7) (s.v .v4)) (s.v .v5) =
      msgv (sched M) (4 * 2 + 16) := by
    rw [hw0, hw1, hw2, hw3]; exact su_eq M (4 * 2)
  have hk : s.v .v17 = all4 (gk 2) := h.k0 (by decide)
  have hv2 : shaUpdate shaChoose (s.v .v2) (s.v .v1) (Vec.map2 (· + ·) (s.v .v6) (s.v .v17)) =
      abcd (steps (sched M) (4 * 2 + 4) H) := by
    rw [h.v2, hw0, hk]; exact update_eq 2 (by decide) (sched M) H _ h.v1
  have hv1 : (sha1h (s.v .v3)).l0 = (steps (sched M) (4 * 2 + 4) H).e := by
    rw [h.v3]; exact (e4 (sched M) (4 * 2) H).symm
  refine ⟨_, (execs_v
    [.vadd .v17 .v6 .v16, .sha1su0 .v4 .v7 .v6, .sha1c .v16 .v1 .v2, .sha1h .v3 .v1, .vmov .v2 .v3,
      .sha1su1 .v5 .v6]
    [.vst1P .v5 .r3] s (by decide)).trans ((vst_m1 _ 5 (by decide) (by first | exact h.r3 | rfl) _ _).trans (rfl)), ?_⟩
  exact {
    r0 := h.r0
    v0 := h.v0
    v20 := h.v20
    v19 := h.v19
    v1 := hv1
    v2 := hv2
    v3 := hv2
    k0 := fun _ => h.k0 (by decide)
    k1 := fun _ _ => h.k1 (by decide) (by decide)
    k2 := fun h => by omega
    k3 := fun h => by omega
    w := fun j h1 h2 h3 => by
      have : j = 3 ∨ j = 4 ∨ j = 5 ∨ j = 6 := by omega
      rcases this with rfl | rfl | rfl | rfl
      · exact h.w 3 (by decide) (by decide) (by decide)
      · exact h.w 4 (by decide) (by decide) (by decide)
      · exact h.w 5 (by decide) (by decide) (by decide)
      · exact hsu
    r3 := rfl
    r4 := h.r4
    m1 := put_m1 _ _ 5 h.m1 _ hw3
    cs0 := h.cs0
    cs1 := fun h => by omega
    cs2 := fun h => by omega }

theorem g3_ok (M : Block) (H : Regs) (s : St) (h : Inv M H 3 s) :
    ∃ s', execs s group3 = .ok s' ∧ Inv M H 4 s' := by
  have hw0 : s.v .v7 = _ := h.w 3 (by decide) (by decide) (by decide)
  have hw1 : s.v .v4 = _ := h.w 4 (by decide) (by decide) (by decide)
  have hw2 : s.v .v5 = _ := h.w 5 (by decide) (by decide) (by decide)
  have hw3 : s.v .v6 = _ := h.w 6 (by decide) (by decide) (by decide)
  have hsu : sha1su1 (sha1su0 (s.v .v7) (s.v .v4) (s.v .v5)) (s.v .v6) =
      msgv (sched M) (4 * 3 + 16) := by
    rw [hw0, hw1, hw2, hw3]; exact su_eq M (4 * 3)
  have hk : s.v .v17 = all4 (gk 3) := h.k0 (by decide)
  have hv2 : shaUpdate shaChoose (s.v .v2) (s.v .v1) (Vec.map2 (· + ·) (s.v .v7) (s.v .v17)) =
      abcd (steps (sched M) (4 * 3 + 4) H) := by
    rw [h.v2, hw0, hk]; exact update_eq 3 (by decide) (sched M) H _ h.v1
  have hv1 : (sha1h (s.v .v3)).l0 = (steps (sched M) (4 * 3 + 4) H).e := by
    rw [h.v3]; exact (e4 (sched M) (4 * 3) H).symm
  refine ⟨_, (execs_v
    [.vadd .v17 .v7 .v16, .sha1su0 .v5 .v4 .v7, .sha1c .v16 .v1 .v2, .sha1h .v3 .v1, .vmov .v2 .v3,
      .sha1su1 .v6 .v7]
    [.vst1P .v6 .r3] s (by decide)).trans ((vst_m1 _ 6 (by decide) (by first | exact h.r3 | rfl) _ _).trans (rfl)), ?_⟩
  exact {
    r0 := h.r0
    v0 := h.v0
    v20 := h.v20
    v19 := h.v19
    v1 := hv1
    v2 := hv2
    v3 := hv2
    k0 := fun _ => h.k0 (by decide)
    k1 := fun _ _ => h.k1 (by decide) (by decide)
    k2 := fun h => by omega
    k3 := fun h => by omega
    w := fun j h1 h2 h3 => by
      have : j = 4 ∨ j = 5 ∨ j = 6 ∨ j = 7 := by omega
      rcases this with rfl | rfl | rfl | rfl
      · exact h.w 4 (by decide) (by decide) (by decide)
      · exact h.w 5 (by decide) (by decide) (by decide)
      · exact h.w 6 (by decide) (by decide) (by decide)
      · exact hsu
    r3 := rfl
    r4 := h.r4
    m1 := put_m1 _ _ 6 h.m1 _ hw3
    cs0 := h.cs0
    cs1 := fun h => by omega
    cs2 := fun h => by omega }

theorem g4_ok (M : Block) (H : Regs) (s : St) (h : Inv M H 4 s) :
    ∃ s', execs s group4 = .ok s' ∧ Inv M H 5 s' := by
  have hw0 : s.v .v4 = _ := h.w 4 (by decide) (by decide) (by decide)
  have hw1 : s.v .v5 = _ := h.w 5 (by decide) (by decide) (by decide)
  have hw2 : s.v .v6 = _ := h.w 6 (by decide) (by decide) (by decide)
  have hw3 : s.v .v7 = _ := h.w 7 (by decide) (by decide) (by decide)
  have hsu : sha1su1 (sha1su0 (s.v .v4) (s.v .v5) (s.v .v6)) (s.v .v7) =
      msgv (sched M) (4 * 4 + 16) := by
    rw [hw0, hw1, hw2, hw3]; exact su_eq M (4 * 4)
  have hk : s.v .v17 = all4 (gk 4) := h.k0 (by decide)
  have hv2 : shaUpdate shaChoose (s.v .v2) (s.v .v1) (Vec.map2 (· + ·) (s.v .v4) (s.v .v17)) =
      abcd (steps (sched M) (4 * 4 + 4) H) := by
    rw [h.v2, hw0, hk]; exact update_eq 4 (by decide) (sched M) H _ h.v1
  have hv1 : (sha1h (s.v .v3)).l0 = (steps (sched M) (4 * 4 + 4) H).e := by
    rw [h.v3]; exact (e4 (sched M) (4 * 4) H).symm
  refine ⟨_, (execs_v
    [.vadd .v17 .v4 .v16, .sha1su0 .v6 .v5 .v4, .sha1c .v16 .v1 .v2, .sha1h .v3 .v1, .vmov .v2 .v3,
      .sha1su1 .v7 .v4]
    [.vst1P .v7 .r3] s (by decide)).trans ((vst_m1 _ 7 (by decide) (by first | exact h.r3 | rfl) _ _).trans (rfl)), ?_⟩
  exact {
    r0 := h.r0
    v0 := h.v0
    v20 := h.v20
    v19 := h.v19
    v1 := hv1
    v2 := hv2
    v3 := hv2
    k0 := fun _ => h.k0 (by decide)
    k1 := fun _ _ => h.k1 (by decide) (by decide)
    k2 := fun h => by omega
    k3 := fun h => by omega
    w := fun j h1 h2 h3 => by
      have : j = 5 ∨ j = 6 ∨ j = 7 ∨ j = 8 := by omega
      rcases this with rfl | rfl | rfl | rfl
      · exact h.w 5 (by decide) (by decide) (by decide)
      · exact h.w 6 (by decide) (by decide) (by decide)
      · exact h.w 7 (by decide) (by decide) (by decide)
      · exact hsu
    r3 := rfl
    r4 := h.r4
    m1 := put_m1 _ _ 7 h.m1 _ hw3
    cs0 := h.cs0
    cs1 := fun h => by omega
    cs2 := fun h => by omega }

theorem g5_ok (M : Block) (H : Regs) (s : St) (h : Inv M H 5 s) :
    ∃ s', execs s group5 = .ok s' ∧ Inv M H 6 s' := by
  have hw0 : s.v .v5 = _ := h.w 5 (by decide) (by decide) (by decide)
  have hw1 : s.v .v6 = _ := h.w 6 (by decide) (by decide) (by decide)
  have hw2 : s.v .v7 = _ := h.w 7 (by decide) (by decide) (by decide)
  have hw3 : s.v .v4 = _ := h.w 8 (by decide) (by decide) (by decide)
  have hsu : sha1su1 (sha1su0 (s.v .v5) (s.v .v6) (s.v .v7)) (s.v .v4) =
      msgv (sched M) (4 * 5 + 16) := by
    rw [hw0, hw1, hw2, hw3]; exact su_eq M (4 * 5)
  have hk : s.v .v18 = all4 (gk 5) := h.k1 (by decide) (by decide)
  have hv2 : shaUpdate shaParity (s.v .v2) (s.v .v1) (Vec.map2 (· + ·) (s.v .v5) (s.v .v18)) =
      abcd (steps (sched M) (4 * 5 + 4) H) := by
    rw [h.v2, hw0, hk]; exact update_eq 5 (by decide) (sched M) H _ h.v1
  have hv1 : (sha1h (s.v .v3)).l0 = (steps (sched M) (4 * 5 + 4) H).e := by
    rw [h.v3]; exact (e4 (sched M) (4 * 5) H).symm
  refine ⟨_, (execs_v
    [.vdup .v19 2 .v17, .vadd .v18 .v5 .v16, .sha1su0 .v7 .v6 .v5, .sha1p .v16 .v1 .v2, .sha1h .v3 .v1,
      .vmov .v2 .v3, .sha1su1 .v4 .v5]
    [.vst1P .v4 .r3] s (by decide)).trans ((vst_m1 _ 8 (by decide) (by first | exact h.r3 | rfl) _ _).trans (rfl)), ?_⟩
  exact {
    r0 := h.r0
    v0 := h.v0
    v20 := h.v20
    v19 := h.v19
    v1 := hv1
    v2 := hv2
    v3 := hv2
    k0 := fun h => by omega
    k1 := fun _ _ => h.k1 (by decide) (by decide)
    k2 := fun _ => congrArg (fun v => dup v 2) h.v19
    k3 := fun h => by omega
    w := fun j h1 h2 h3 => by
      have : j = 6 ∨ j = 7 ∨ j = 8 ∨ j = 9 := by omega
      rcases this with rfl | rfl | rfl | rfl
      · exact h.w 6 (by decide) (by decide) (by decide)
      · exact h.w 7 (by decide) (by decide) (by decide)
      · exact h.w 8 (by decide) (by decide) (by decide)
      · exact hsu
    r3 := rfl
    r4 := h.r4
    m1 := put_m1 _ _ 8 h.m1 _ hw3
    cs0 := h.cs0
    cs1 := fun h => by omega
    cs2 := fun h => by omega }

theorem g6_ok (M : Block) (H : Regs) (s : St) (h : Inv M H 6 s) :
    ∃ s', execs s group6 = .ok s' ∧ Inv M H 7 s' := by
  have hw0 : s.v .v6 = _ := h.w 6 (by decide) (by decide) (by decide)
  have hw1 : s.v .v7 = _ := h.w 7 (by decide) (by decide) (by decide)
  have hw2 : s.v .v4 = _ := h.w 8 (by decide) (by decide) (by decide)
  have hw3 : s.v .v5 = _ := h.w 9 (by decide) (by decide) (by decide)
  have hsu : sha1su1 (sha1su0 (s.v .v6) (s.v .v7) (s.v .v4)) (s.v .v5) =
      msgv (sched M) (4 * 6 + 16) := by
    rw [hw0, hw1, hw2, hw3]; exact su_eq M (4 * 6)
  have hk : s.v .v18 = all4 (gk 6) := h.k1 (by decide) (by decide)
  have hv2 : shaUpdate shaParity (s.v .v2) (s.v .v1) (Vec.map2 (· + ·) (s.v .v6) (s.v .v18)) =
      abcd (steps (sched M) (4 * 6 + 4) H) := by
    rw [h.v2, hw0, hk]; exact update_eq 6 (by decide) (sched M) H _ h.v1
  have hv1 : (sha1h (s.v .v3)).l0 = (steps (sched M) (4 * 6 + 4) H).e := by
    rw [h.v3]; exact (e4 (sched M) (4 * 6) H).symm
  refine ⟨_, (execs_v
    [.vadd .v18 .v6 .v16, .sha1su0 .v4 .v7 .v6, .sha1p .v16 .v1 .v2, .sha1h .v3 .v1, .vmov .v2 .v3,
      .sha1su1 .v5 .v6]
    [.vst1P .v5 .r3] s (by decide)).trans ((vst_m1 _ 9 (by decide) (by first | exact h.r3 | rfl) _ _).trans (rfl)), ?_⟩
  exact {
    r0 := h.r0
    v0 := h.v0
    v20 := h.v20
    v19 := h.v19
    v1 := hv1
    v2 := hv2
    v3 := hv2
    k0 := fun h => by omega
    k1 := fun _ _ => h.k1 (by decide) (by decide)
    k2 := fun _ => h.k2 (by decide)
    k3 := fun h => by omega
    w := fun j h1 h2 h3 => by
      have : j = 7 ∨ j = 8 ∨ j = 9 ∨ j = 10 := by omega
      rcases this with rfl | rfl | rfl | rfl
      · exact h.w 7 (by decide) (by decide) (by decide)
      · exact h.w 8 (by decide) (by decide) (by decide)
      · exact h.w 9 (by decide) (by decide) (by decide)
      · exact hsu
    r3 := rfl
    r4 := h.r4
    m1 := put_m1 _ _ 9 h.m1 _ hw3
    cs0 := h.cs0
    cs1 := fun h => by omega
    cs2 := fun h => by omega }

theorem g7_ok (M : Block) (H : Regs) (s : St) (h : Inv M H 7 s) :
    ∃ s', execs s group7 = .ok s' ∧ Inv M H 8 s' := by
  have hw0 : s.v .v7 = _ := h.w 7 (by decide) (by decide) (by decide)
  have hw1 : s.v .v4 = _ := h.w 8 (by decide) (by decide) (by decide)
  have hw2 : s.v .v5 = _ := h.w 9 (by decide) (by decide) (by decide)
  have hw3 : s.v .v6 = _ := h.w 10 (by decide) (by decide) (by decide)
  have hsu : sha1su1 (sha1su0 (s.v .v7) (s.v .v4) (s.v .v5)) (s.v .v6) =
      msgv (sched M) (4 * 7 + 16) := by
    rw [hw0, hw1, hw2, hw3]; exact su_eq M (4 * 7)
  have hk : s.v .v18 = all4 (gk 7) := h.k1 (by decide) (by decide)
  have hv2 : shaUpdate shaParity (s.v .v2) (s.v .v1) (Vec.map2 (· + ·) (s.v .v7) (s.v .v18)) =
      abcd (steps (sched M) (4 * 7 + 4) H) := by
    rw [h.v2, hw0, hk]; exact update_eq 7 (by decide) (sched M) H _ h.v1
  have hv1 : (sha1h (s.v .v3)).l0 = (steps (sched M) (4 * 7 + 4) H).e := by
    rw [h.v3]; exact (e4 (sched M) (4 * 7) H).symm
  refine ⟨_, (execs_v
    [.vadd .v18 .v7 .v16, .sha1su0 .v5 .v4 .v7, .sha1p .v16 .v1 .v2, .sha1h .v3 .v1, .vmov .v2 .v3,
      .sha1su1 .v6 .v7]
    [.vst1P .v6 .r3] s (by decide)).trans ((vst_m1 _ 10 (by decide) (by first | exact h.r3 | rfl) _ _).trans (rfl)), ?_⟩
  exact {
    r0 := h.r0
    v0 := h.v0
    v20 := h.v20
    v19 := h.v19
    v1 := hv1
    v2 := hv2
    v3 := hv2
    k0 := fun h => by omega
    k1 := fun _ _ => h.k1 (by decide) (by decide)
    k2 := fun _ => h.k2 (by decide)
    k3 := fun h => by omega
    w := fun j h1 h2 h3 => by
      have : j = 8 ∨ j = 9 ∨ j = 10 ∨ j = 11 := by omega
      rcases this with rfl | rfl | rfl | rfl
      · exact h.w 8 (by decide) (by decide) (by decide)
      · exact h.w 9 (by decide) (by decide) (by decide)
      · exact h.w 10 (by decide) (by decide) (by decide)
      · exact hsu
    r3 := rfl
    r4 := h.r4
    m1 := put_m1 _ _ 10 h.m1 _ hw3
    cs0 := h.cs0
    cs1 := fun h => by omega
    cs2 := fun h => by omega }

theorem g8_ok (M : Block) (H : Regs) (s : St) (h : Inv M H 8 s) :
    ∃ s', execs s group8 = .ok s' ∧ Inv M H 9 s' := by
  have hw0 : s.v .v4 = _ := h.w 8 (by decide) (by decide) (by decide)
  have hw1 : s.v .v5 = _ := h.w 9 (by decide) (by decide) (by decide)
  have hw2 : s.v .v6 = _ := h.w 10 (by decide) (by decide) (by decide)
  have hw3 : s.v .v7 = _ := h.w 11 (by decide) (by decide) (by decide)
  have hsu : sha1su1 (sha1su0 (s.v .v4) (s.v .v5) (s.v .v6)) (s.v .v7) =
      msgv (sched M) (4 * 8 + 16) := by
    rw [hw0, hw1, hw2, hw3]; exact su_eq M (4 * 8)
  have hk : s.v .v18 = all4 (gk 8) := h.k1 (by decide) (by decide)
  have hv2 : shaUpdate shaParity (s.v .v2) (s.v .v1) (Vec.map2 (· + ·) (s.v .v4) (s.v .v18)) =
      abcd (steps (sched M) (4 * 8 + 4) H) := by
    rw [h.v2, hw0, hk]; exact update_eq 8 (by decide) (sched M) H _ h.v1
  have hv1 : (sha1h (s.v .v3)).l0 = (steps (sched M) (4 * 8 + 4) H).e := by
    rw [h.v3]; exact (e4 (sched M) (4 * 8) H).symm
  refine ⟨_, (execs_v
    [.vadd .v18 .v4 .v16, .sha1su0 .v6 .v5 .v4, .sha1p .v16 .v1 .v2, .sha1h .v3 .v1, .vmov .v2 .v3,
      .sha1su1 .v7 .v4]
    [.vst1P .v7 .r3] s (by decide)).trans ((vst_m1 _ 11 (by decide) (by first | exact h.r3 | rfl) _ _).trans (rfl)), ?_⟩
  exact {
    r0 := h.r0
    v0 := h.v0
    v20 := h.v20
    v19 := h.v19
    v1 := hv1
    v2 := hv2
    v3 := hv2
    k0 := fun h => by omega
    k1 := fun _ _ => h.k1 (by decide) (by decide)
    k2 := fun _ => h.k2 (by decide)
    k3 := fun h => by omega
    w := fun j h1 h2 h3 => by
      have : j = 9 ∨ j = 10 ∨ j = 11 ∨ j = 12 := by omega
      rcases this with rfl | rfl | rfl | rfl
      · exact h.w 9 (by decide) (by decide) (by decide)
      · exact h.w 10 (by decide) (by decide) (by decide)
      · exact h.w 11 (by decide) (by decide) (by decide)
      · exact hsu
    r3 := rfl
    r4 := h.r4
    m1 := put_m1 _ _ 11 h.m1 _ hw3
    cs0 := h.cs0
    cs1 := fun h => by omega
    cs2 := fun h => by omega }

theorem g9_ok (M : Block) (H : Regs) (s : St) (h : Inv M H 9 s) :
    ∃ s', execs s group9 = .ok s' ∧ Inv M H 10 s' := by
  have hw0 : s.v .v5 = _ := h.w 9 (by decide) (by decide) (by decide)
  have hw1 : s.v .v6 = _ := h.w 10 (by decide) (by decide) (by decide)
  have hw2 : s.v .v7 = _ := h.w 11 (by decide) (by decide) (by decide)
  have hw3 : s.v .v4 = _ := h.w 12 (by decide) (by decide) (by decide)
  have hsu : sha1su1 (sha1su0 (s.v .v5) (s.v .v6) (s.v .v7)) (s.v .v4) =
      msgv (sched M) (4 * 9 + 16) := by
    rw [hw0, hw1, hw2, hw3]; exact su_eq M (4 * 9)
  have hk : s.v .v18 = all4 (gk 9) := h.k1 (by decide) (by decide)
  have hv2 : shaUpdate shaParity (s.v .v2) (s.v .v1) (Vec.map2 (· + ·) (s.v .v5) (s.v .v18)) =
      abcd (steps (sched M) (4 * 9 + 4) H) := by
    rw [h.v2, hw0, hk]; exact update_eq 9 (by decide) (sched M) H _ h.v1
  have hv1 : (sha1h (s.v .v3)).l0 = (steps (sched M) (4 * 9 + 4) H).e := by
    rw [h.v3]; exact (e4 (sched M) (4 * 9) H).symm
  refine ⟨_, (execs_v
    [.vadd .v18 .v5 .v16, .sha1su0 .v7 .v6 .v5, .sha1p .v16 .v1 .v2, .sha1h .v3 .v1, .vmov .v2 .v3,
      .sha1su1 .v4 .v5]
    [.vst1P .v4 .r3] s (by decide)).trans ((vst_m1 _ 12 (by decide) (by first | exact h.r3 | rfl) _ _).trans (rfl)), ?_⟩
  exact {
    r0 := h.r0
    v0 := h.v0
    v20 := h.v20
    v19 := h.v19
    v1 := hv1
    v2 := hv2
    v3 := hv2
    k0 := fun h => by omega
    k1 := fun _ _ => h.k1 (by decide) (by decide)
    k2 := fun _ => h.k2 (by decide)
    k3 := fun h => by omega
    w := fun j h1 h2 h3 => by
      have : j = 10 ∨ j = 11 ∨ j = 12 ∨ j = 13 := by omega
      rcases this with rfl | rfl | rfl | rfl
      · exact h.w 10 (by decide) (by decide) (by decide)
      · exact h.w 11 (by decide) (by decide) (by decide)
      · exact h.w 12 (by decide) (by decide) (by decide)
      · exact hsu
    r3 := rfl
    r4 := h.r4
    m1 := put_m1 _ _ 12 h.m1 _ hw3
    cs0 := h.cs0
    cs1 := fun h => by omega
    cs2 := fun h => by omega }

theorem g10_ok (M : Block) (H : Regs) (s : St) (h : Inv M H 10 s) :
    ∃ s', execs s group10 = .ok s' ∧ Inv M H 11 s' := by
  have hw0 : s.v .v6 = _ := h.w 10 (by decide) (by decide) (by decide)
  have hw1 : s.v .v7 = _ := h.w 11 (by decide) (by decide) (by decide)
  have hw2 : s.v .v4 = _ := h.w 12 (by decide) (by decide) (by decide)
  have hw3 : s.v .v5 = _ := h.w 13 (by decide) (by decide) (by decide)
  have hsu : sha1su1 (sha1su0 (s.v .v6) (s.v .v7) (s.v .v4)) (s.v .v5) =
      msgv (sched M) (4 * 10 + 16) := by
    rw [hw0, hw1, hw2, hw3]; exact su_eq M (4 * 10)
  have hk : s.v .v17 = all4 (gk 10) := h.k2 (by decide)
  have hv2 : shaUpdate shaMajority (s.v .v2) (s.v .v1) (Vec.map2 (· + ·) (s.v .v6) (s.v .v17)) =
      abcd (steps (sched M) (4 * 10 + 4) H) := by
    rw [h.v2, hw0, hk]; exact update_eq 10 (by decide) (sched M) H _ h.v1
  have hv1 : (sha1h (s.v .v3)).l0 = (steps (sched M) (4 * 10 + 4) H).e := by
    rw [h.v3]; exact (e4 (sched M) (4 * 10) H).symm
  refine ⟨_, (execs_v
    [.vdup .v19 3 .v18, .vadd .v17 .v6 .v16, .sha1su0 .v4 .v7 .v6, .sha1m .v16 .v1 .v2, .sha1h .v3 .v1,
      .vmov .v2 .v3, .sha1su1 .v5 .v6]
    [.vst1P .v5 .r3] s (by decide)).trans ((vst_m1 _ 13 (by decide) (by first | exact h.r3 | rfl) _ _).trans (rfl)), ?_⟩
  exact {
    r0 := h.r0
    v0 := h.v0
    v20 := h.v20
    v19 := h.v19
    v1 := hv1
    v2 := hv2
    v3 := hv2
    k0 := fun h => by omega
    k1 := fun _ h => by omega
    k2 := fun _ => h.k2 (by decide)
    k3 := fun _ => congrArg (fun v => dup v 3) h.v19
    w := fun j h1 h2 h3 => by
      have : j = 11 ∨ j = 12 ∨ j = 13 ∨ j = 14 := by omega
      rcases this with rfl | rfl | rfl | rfl
      · exact h.w 11 (by decide) (by decide) (by decide)
      · exact h.w 12 (by decide) (by decide) (by decide)
      · exact h.w 13 (by decide) (by decide) (by decide)
      · exact hsu
    r3 := rfl
    r4 := h.r4
    m1 := put_m1 _ _ 13 h.m1 _ hw3
    cs0 := h.cs0
    cs1 := fun h => by omega
    cs2 := fun h => by omega }

theorem g11_ok (M : Block) (H : Regs) (s : St) (h : Inv M H 11 s) :
    ∃ s', execs s group11 = .ok s' ∧ Inv M H 12 s' := by
  have hw0 : s.v .v7 = _ := h.w 11 (by decide) (by decide) (by decide)
  have hw1 : s.v .v4 = _ := h.w 12 (by decide) (by decide) (by decide)
  have hw2 : s.v .v5 = _ := h.w 13 (by decide) (by decide) (by decide)
  have hw3 : s.v .v6 = _ := h.w 14 (by decide) (by decide) (by decide)
  have hsu : sha1su1 (sha1su0 (s.v .v7) (s.v .v4) (s.v .v5)) (s.v .v6) =
      msgv (sched M) (4 * 11 + 16) := by
    rw [hw0, hw1, hw2, hw3]; exact su_eq M (4 * 11)
  have hk : s.v .v17 = all4 (gk 11) := h.k2 (by decide)
  have hv2 : shaUpdate shaMajority (s.v .v2) (s.v .v1) (Vec.map2 (· + ·) (s.v .v7) (s.v .v17)) =
      abcd (steps (sched M) (4 * 11 + 4) H) := by
    rw [h.v2, hw0, hk]; exact update_eq 11 (by decide) (sched M) H _ h.v1
  have hv1 : (sha1h (s.v .v3)).l0 = (steps (sched M) (4 * 11 + 4) H).e := by
    rw [h.v3]; exact (e4 (sched M) (4 * 11) H).symm
  refine ⟨_, (execs_v
    [.vadd .v17 .v7 .v16, .sha1su0 .v5 .v4 .v7, .sha1m .v16 .v1 .v2, .sha1h .v3 .v1, .vmov .v2 .v3,
      .sha1su1 .v6 .v7]
    [.vst1P .v6 .r3] s (by decide)).trans ((vst_m1 _ 14 (by decide) (by first | exact h.r3 | rfl) _ _).trans (rfl)), ?_⟩
  exact {
    r0 := h.r0
    v0 := h.v0
    v20 := h.v20
    v19 := h.v19
    v1 := hv1
    v2 := hv2
    v3 := hv2
    k0 := fun h => by omega
    k1 := fun _ h => by omega
    k2 := fun _ => h.k2 (by decide)
    k3 := fun _ => h.k3 (by decide)
    w := fun j h1 h2 h3 => by
      have : j = 12 ∨ j = 13 ∨ j = 14 ∨ j = 15 := by omega
      rcases this with rfl | rfl | rfl | rfl
      · exact h.w 12 (by decide) (by decide) (by decide)
      · exact h.w 13 (by decide) (by decide) (by decide)
      · exact h.w 14 (by decide) (by decide) (by decide)
      · exact hsu
    r3 := rfl
    r4 := h.r4
    m1 := put_m1 _ _ 14 h.m1 _ hw3
    cs0 := h.cs0
    cs1 := fun h => by omega
    cs2 := fun h => by omega }

theorem g12_ok (M : Block) (H : Regs) (s : St) (h : Inv M H 12 s) :
    ∃ s', execs s group12 = .ok s' ∧ Inv M H 13 s' := by
  have hw0 : s.v .v4 = _ := h.w 12 (by decide) (by decide) (by decide)
  have hw1 : s.v .v5 = _ := h.w 13 (by decide) (by decide) (by decide)
  have hw2 : s.v .v6 = _ := h.w 14 (by decide) (by decide) (by decide)
  have hw3 : s.v .v7 = _ := h.w 15 (by decide) (by decide) (by decide)
  have hsu : sha1su1 (sha1su0 (s.v .v4) (s.v .v5) (s.v .v6)) (s.v .v7) =
      msgv (sched M) (4 * 12 + 16) := by
    rw [hw0, hw1, hw2, hw3]; exact su_eq M (4 * 12)
  have hk : s.v .v17 = all4 (gk 12) := h.k2 (by decide)
  have hv2 : shaUpdate shaMajority (s.v .v2) (s.v .v1) (Vec.map2 (· + ·) (s.v .v4) (s.v .v17)) =
      abcd (steps (sched M) (4 * 12 + 4) H) := by
    rw [h.v2, hw0, hk]; exact update_eq 12 (by decide) (sched M) H _ h.v1
  have hv1 : (sha1h (s.v .v3)).l0 = (steps (sched M) (4 * 12 + 4) H).e := by
    rw [h.v3]; exact (e4 (sched M) (4 * 12) H).symm
  refine ⟨_, (execs_v
    [.vadd .v17 .v4 .v16, .sha1su0 .v6 .v5 .v4, .sha1m .v16 .v1 .v2, .sha1h .v3 .v1, .vmov .v2 .v3,
      .sha1su1 .v7 .v4]
    [.vst1P .v7 .r3] s (by decide)).trans ((vst_m1 _ 15 (by decide) (by first | exact h.r3 | rfl) _ _).trans (rfl)), ?_⟩
  exact {
    r0 := h.r0
    v0 := h.v0
    v20 := h.v20
    v19 := h.v19
    v1 := hv1
    v2 := hv2
    v3 := hv2
    k0 := fun h => by omega
    k1 := fun _ h => by omega
    k2 := fun _ => h.k2 (by decide)
    k3 := fun _ => h.k3 (by decide)
    w := fun j h1 h2 h3 => by
      have : j = 13 ∨ j = 14 ∨ j = 15 ∨ j = 16 := by omega
      rcases this with rfl | rfl | rfl | rfl
      · exact h.w 13 (by decide) (by decide) (by decide)
      · exact h.w 14 (by decide) (by decide) (by decide)
      · exact h.w 15 (by decide) (by decide) (by decide)
      · exact hsu
    r3 := rfl
    r4 := h.r4
    m1 := put_m1 _ _ 15 h.m1 _ hw3
    cs0 := h.cs0
    cs1 := fun h => by omega
    cs2 := fun h => by omega }

theorem g13_ok (M : Block) (H : Regs) (s : St) (h : Inv M H 13 s) :
    ∃ s', execs s group13 = .ok s' ∧ Inv M H 14 s' := by
  have hw0 : s.v .v5 = _ := h.w 13 (by decide) (by decide) (by decide)
  have hw1 : s.v .v6 = _ := h.w 14 (by decide) (by decide) (by decide)
  have hw2 : s.v .v7 = _ := h.w 15 (by decide) (by decide) (by decide)
  have hw3 : s.v .v4 = _ := h.w 16 (by decide) (by decide) (by decide)
  have hsu : sha1su1 (sha1su0 (s.v .v5) (s.v .v6) (s.v .v7)) (s.v .v4) =
      msgv (sched M) (4 * 13 + 16) := by
    rw [hw0, hw1, hw2, hw3]; exact su_eq M (4 * 13)
  have hk : s.v .v17 = all4 (gk 13) := h.k2 (by decide)
  have hv2 : shaUpdate shaMajority (s.v .v2) (s.v .v1) (Vec.map2 (· + ·) (s.v .v5) (s.v .v17)) =
      abcd (steps (sched M) (4 * 13 + 4) H) := by
    rw [h.v2, hw0, hk]; exact update_eq 13 (by decide) (sched M) H _ h.v1
  have hv1 : (sha1h (s.v .v3)).l0 = (steps (sched M) (4 * 13 + 4) H).e := by
    rw [h.v3]; exact (e4 (sched M) (4 * 13) H).symm
  refine ⟨_, (execs_v
    [.vadd .v17 .v5 .v16, .sha1su0 .v7 .v6 .v5, .sha1m .v16 .v1 .v2, .sha1h .v3 .v1, .vmov .v2 .v3,
      .sha1su1 .v4 .v5]
    [.vst1P .v3 .r4, .vst1S0P .v1 .r4] s (by decide)).trans ((vst_cs _ 1 (by decide) (by exact h.r4) _ _ _).trans (rfl)), ?_⟩
  exact {
    r0 := h.r0
    v0 := h.v0
    v20 := h.v20
    v19 := h.v19
    v1 := hv1
    v2 := hv2
    v3 := hv2
    k0 := fun h => by omega
    k1 := fun _ h => by omega
    k2 := fun _ => h.k2 (by decide)
    k3 := fun _ => h.k3 (by decide)
    w := fun j h1 h2 h3 => by
      have : j = 14 ∨ j = 15 ∨ j = 16 ∨ j = 17 := by omega
      rcases this with rfl | rfl | rfl | rfl
      · exact h.w 14 (by decide) (by decide) (by decide)
      · exact h.w 15 (by decide) (by decide) (by decide)
      · exact h.w 16 (by decide) (by decide) (by decide)
      · exact hsu
    r3 := h.r3
    r4 := rfl
    m1 := h.m1
    cs0 := fun i => (put5_other _ _ _ _ _ (by simp <;> omega)).trans (h.cs0 i)
    cs1 := fun _ i => by
      have := put5_same s.mem.cs 5 (steps (sched M) 56 H) i (by omega)
      rw [show abcd (steps (sched M) 56 H) = _ from hv2.symm,
        show (steps (sched M) 56 H).e = _ from hv1.symm] at this
      exact this
    cs2 := fun h => by omega }

theorem g14_ok (M : Block) (H : Regs) (s : St) (h : Inv M H 14 s) :
    ∃ s', execs s group14 = .ok s' ∧ Inv M H 15 s' := by
  have hw0 : s.v .v6 = _ := h.w 14 (by decide) (by decide) (by decide)
  have hw1 : s.v .v7 = _ := h.w 15 (by decide) (by decide) (by decide)
  have hw2 : s.v .v4 = _ := h.w 16 (by decide) (by decide) (by decide)
  have hw3 : s.v .v5 = _ := h.w 17 (by decide) (by decide) (by decide)
  have hsu : sha1su1 (sha1su0 (s.v .v6) (s.v .v7) (s.v .v4)) (s.v .v5) =
      msgv (sched M) (4 * 14 + 16) := by
    rw [hw0, hw1, hw2, hw3]; exact su_eq M (4 * 14)
  have hk : s.v .v17 = all4 (gk 14) := h.k2 (by decide)
  have hv2 : shaUpdate shaMajority (s.v .v2) (s.v .v1) (Vec.map2 (· + ·) (s.v .v6) (s.v .v17)) =
      abcd (steps (sched M) (4 * 14 + 4) H) := by
    rw [h.v2, hw0, hk]; exact update_eq 14 (by decide) (sched M) H _ h.v1
  have hv1 : (sha1h (s.v .v3)).l0 = (steps (sched M) (4 * 14 + 4) H).e := by
    rw [h.v3]; exact (e4 (sched M) (4 * 14) H).symm
  refine ⟨_, (execs_v
    [.vadd .v17 .v6 .v16, .sha1su0 .v4 .v7 .v6, .sha1m .v16 .v1 .v2, .sha1h .v3 .v1, .vmov .v2 .v3,
      .sha1su1 .v5 .v6]
    [] s (by decide)).trans (rfl), ?_⟩
  exact {
    r0 := h.r0
    v0 := h.v0
    v20 := h.v20
    v19 := h.v19
    v1 := hv1
    v2 := hv2
    v3 := hv2
    k0 := fun h => by omega
    k1 := fun _ h => by omega
    k2 := fun _ => h.k2 (by decide)
    k3 := fun _ => h.k3 (by decide)
    w := fun j h1 h2 h3 => by
      have : j = 15 ∨ j = 16 ∨ j = 17 ∨ j = 18 := by omega
      rcases this with rfl | rfl | rfl | rfl
      · exact h.w 15 (by decide) (by decide) (by decide)
      · exact h.w 16 (by decide) (by decide) (by decide)
      · exact h.w 17 (by decide) (by decide) (by decide)
      · exact hsu
    r3 := h.r3
    r4 := h.r4
    m1 := h.m1
    cs0 := h.cs0
    cs1 := fun _ => h.cs1 (by decide)
    cs2 := fun h => by omega }

theorem g15_ok (M : Block) (H : Regs) (s : St) (h : Inv M H 15 s) :
    ∃ s', execs s group15 = .ok s' ∧ Inv M H 16 s' := by
  have hw0 : s.v .v7 = _ := h.w 15 (by decide) (by decide) (by decide)
  have hw1 : s.v .v4 = _ := h.w 16 (by decide) (by decide) (by decide)
  have hw2 : s.v .v5 = _ := h.w 17 (by decide) (by decide) (by decide)
  have hw3 : s.v .v6 = _ := h.w 18 (by decide) (by decide) (by decide)
  have hsu : sha1su1 (sha1su0 (s.v .v7) (s.v .v4) (s.v .v5)) (s.v .v6) =
      msgv (sched M) (4 * 15 + 16) := by
    rw [hw0, hw1, hw2, hw3]; exact su_eq M (4 * 15)
  have hk : s.v .v18 = all4 (gk 15) := h.k3 (by decide)
  have hv2 : shaUpdate shaParity (s.v .v2) (s.v .v1) (Vec.map2 (· + ·) (s.v .v7) (s.v .v18)) =
      abcd (steps (sched M) (4 * 15 + 4) H) := by
    rw [h.v2, hw0, hk]; exact update_eq 15 (by decide) (sched M) H _ h.v1
  have hv1 : (sha1h (s.v .v3)).l0 = (steps (sched M) (4 * 15 + 4) H).e := by
    rw [h.v3]; exact (e4 (sched M) (4 * 15) H).symm
  refine ⟨_, (execs_v
    [.vadd .v18 .v7 .v16, .sha1su0 .v5 .v4 .v7, .sha1p .v16 .v1 .v2, .sha1h .v3 .v1, .vmov .v2 .v3,
      .sha1su1 .v6 .v7]
    [.vst1P .v3 .r4, .vst1S0P .v1 .r4] s (by decide)).trans ((vst_cs _ 2 (by decide) (by exact h.r4) _ _ _).trans (rfl)), ?_⟩
  exact {
    r0 := h.r0
    v0 := h.v0
    v20 := h.v20
    v19 := h.v19
    v1 := hv1
    v2 := hv2
    v3 := hv2
    k0 := fun h => by omega
    k1 := fun _ h => by omega
    k2 := fun _ => h.k2 (by decide)
    k3 := fun _ => h.k3 (by decide)
    w := fun j h1 h2 h3 => by
      have : j = 16 ∨ j = 17 ∨ j = 18 ∨ j = 19 := by omega
      rcases this with rfl | rfl | rfl | rfl
      · exact h.w 16 (by decide) (by decide) (by decide)
      · exact h.w 17 (by decide) (by decide) (by decide)
      · exact h.w 18 (by decide) (by decide) (by decide)
      · exact hsu
    r3 := h.r3
    r4 := rfl
    m1 := h.m1
    cs0 := fun i => (put5_other _ _ _ _ _ (by simp <;> omega)).trans (h.cs0 i)
    cs1 := fun _ i => (put5_other _ _ _ _ _ (by simp <;> omega)).trans (h.cs1 (by decide) i)
    cs2 := fun _ i => by
      have := put5_same s.mem.cs 10 (steps (sched M) 64 H) i (by omega)
      rw [show abcd (steps (sched M) 64 H) = _ from hv2.symm,
        show (steps (sched M) 64 H).e = _ from hv1.symm] at this
      exact this }

theorem g16_ok (M : Block) (H : Regs) (s : St) (h : Inv M H 16 s) :
    ∃ s', execs s group16 = .ok s' ∧ Inv M H 17 s' := by
  have hw0 : s.v .v4 = _ := h.w 16 (by decide) (by decide) (by decide)
  have hk : s.v .v18 = all4 (gk 16) := h.k3 (by decide)
  have hv2 : shaUpdate shaParity (s.v .v2) (s.v .v1) (Vec.map2 (· + ·) (s.v .v4) (s.v .v18)) =
      abcd (steps (sched M) (4 * 16 + 4) H) := by
    rw [h.v2, hw0, hk]; exact update_eq 16 (by decide) (sched M) H _ h.v1
  have hv1 : (sha1h (s.v .v3)).l0 = (steps (sched M) (4 * 16 + 4) H).e := by
    rw [h.v3]; exact (e4 (sched M) (4 * 16) H).symm
  refine ⟨_, (execs_v
    [.vadd .v18 .v4 .v16, .sha1p .v16 .v1 .v2, .sha1h .v3 .v1, .vmov .v2 .v3]
    [.vst1P .v4 .r3, .vst1P .v5 .r3, .vst1P .v6 .r3, .vst1P .v7 .r3] s (by decide)).trans ((vst_m1 _ 16 (by decide) (by first | exact h.r3 | rfl) _ _).trans ((vst_m1 _ 17 (by decide) (by first | exact h.r3 | rfl) _ _).trans ((vst_m1 _ 18 (by decide) (by first | exact h.r3 | rfl) _ _).trans ((vst_m1 _ 19 (by decide) (by first | exact h.r3 | rfl) _ _).trans (rfl))))), ?_⟩
  exact {
    r0 := h.r0
    v0 := h.v0
    v20 := h.v20
    v19 := h.v19
    v1 := hv1
    v2 := hv2
    v3 := hv2
    k0 := fun h => by omega
    k1 := fun _ h => by omega
    k2 := fun _ => h.k2 (by decide)
    k3 := fun _ => h.k3 (by decide)
    w := fun j h1 h2 h3 => by
      have : j = 17 ∨ j = 18 ∨ j = 19 := by omega
      rcases this with rfl | rfl | rfl
      · exact h.w 17 (by decide) (by decide) (by decide)
      · exact h.w 18 (by decide) (by decide) (by decide)
      · exact h.w 19 (by decide) (by decide) (by decide)
    r3 := rfl
    r4 := h.r4
    m1 := put_m1 _ _ 19 (put_m1 _ _ 18 (put_m1 _ _ 17 (put_m1 _ _ 16 h.m1 _ hw0) _
      (h.w 17 (by decide) (by decide) (by decide))) _ (h.w 18 (by decide) (by decide) (by decide))) _
      (h.w 19 (by decide) (by decide) (by decide))
    cs0 := h.cs0
    cs1 := fun _ => h.cs1 (by decide)
    cs2 := fun _ => h.cs2 (by decide) }

theorem g17_ok (M : Block) (H : Regs) (s : St) (h : Inv M H 17 s) :
    ∃ s', execs s group17 = .ok s' ∧ Inv M H 18 s' := by
  have hw0 : s.v .v5 = _ := h.w 17 (by decide) (by decide) (by decide)
  have hk : s.v .v18 = all4 (gk 17) := h.k3 (by decide)
  have hv2 : shaUpdate shaParity (s.v .v2) (s.v .v1) (Vec.map2 (· + ·) (s.v .v5) (s.v .v18)) =
      abcd (steps (sched M) (4 * 17 + 4) H) := by
    rw [h.v2, hw0, hk]; exact update_eq 17 (by decide) (sched M) H _ h.v1
  have hv1 : (sha1h (s.v .v3)).l0 = (steps (sched M) (4 * 17 + 4) H).e := by
    rw [h.v3]; exact (e4 (sched M) (4 * 17) H).symm
  refine ⟨_, (execs_v
    [.vadd .v18 .v5 .v16, .sha1p .v16 .v1 .v2, .sha1h .v3 .v1, .vmov .v2 .v3]
    [] s (by decide)).trans (rfl), ?_⟩
  exact {
    r0 := h.r0
    v0 := h.v0
    v20 := h.v20
    v19 := h.v19
    v1 := hv1
    v2 := hv2
    v3 := hv2
    k0 := fun h => by omega
    k1 := fun _ h => by omega
    k2 := fun _ => h.k2 (by decide)
    k3 := fun _ => h.k3 (by decide)
    w := fun j h1 h2 h3 => by
      have : j = 18 ∨ j = 19 := by omega
      rcases this with rfl | rfl
      · exact h.w 18 (by decide) (by decide) (by decide)
      · exact h.w 19 (by decide) (by decide) (by decide)
    r3 := h.r3
    r4 := h.r4
    m1 := h.m1
    cs0 := h.cs0
    cs1 := fun _ => h.cs1 (by decide)
    cs2 := fun _ => h.cs2 (by decide) }

theorem g18_ok (M : Block) (H : Regs) (s : St) (h : Inv M H 18 s) :
    ∃ s', execs s group18 = .ok s' ∧ Inv M H 19 s' := by
  have hw0 : s.v .v6 = _ := h.w 18 (by decide) (by decide) (by decide)
  have hk : s.v .v18 = all4 (gk 18) := h.k3 (by decide)
  have hv2 : shaUpdate shaParity (s.v .v2) (s.v .v1) (Vec.map2 (· + ·) (s.v .v6) (s.v .v18)) =
      abcd (steps (sched M) (4 * 18 + 4) H) := by
    rw [h.v2, hw0, hk]; exact update_eq 18 (by decide) (sched M) H _ h.v1
  have hv1 : (sha1h (s.v .v3)).l0 = (steps (sched M) (4 * 18 + 4) H).e := by
    rw [h.v3]; exact (e4 (sched M) (4 * 18) H).symm
  refine ⟨_, (execs_v
    [.vadd .v18 .v6 .v16, .sha1p .v16 .v1 .v2, .sha1h .v3 .v1, .vmov .v2 .v3]
    [] s (by decide)).trans (rfl), ?_⟩
  exact {
    r0 := h.r0
    v0 := h.v0
    v20 := h.v20
    v19 := h.v19
    v1 := hv1
    v2 := hv2
    v3 := hv2
    k0 := fun h => by omega
    k1 := fun _ h => by omega
    k2 := fun _ => h.k2 (by decide)
    k3 := fun _ => h.k3 (by decide)
    w := fun j h1 h2 h3 => by
      have : j = 19 := by omega
      rcases this with rfl
      · exact h.w 19 (by decide) (by decide) (by decide)
    r3 := h.r3
    r4 := h.r4
    m1 := h.m1
    cs0 := h.cs0
    cs1 := fun _ => h.cs1 (by decide)
    cs2 := fun _ => h.cs2 (by decide) }

theorem g19_ok (M : Block) (H : Regs) (s : St) (h : Inv M H 19 s) :
    ∃ s', execs s group19 = .ok s' ∧ Inv M H 20 s' := by
  have hw0 : s.v .v7 = _ := h.w 19 (by decide) (by decide) (by decide)
  have hk : s.v .v18 = all4 (gk 19) := h.k3 (by decide)
  have hv2 : shaUpdate shaParity (s.v .v2) (s.v .v1) (Vec.map2 (· + ·) (s.v .v7) (s.v .v18)) =
      abcd (steps (sched M) (4 * 19 + 4) H) := by
    rw [h.v2, hw0, hk]; exact update_eq 19 (by decide) (sched M) H _ h.v1
  have hv1 : (sha1h (s.v .v3)).l0 = (steps (sched M) (4 * 19 + 4) H).e := by
    rw [h.v3]; exact (e4 (sched M) (4 * 19) H).symm
  refine ⟨_, (execs_v
    [.vadd .v18 .v7 .v16, .sha1p .v16 .v1 .v2, .sha1h .v3 .v1, .vmov .v2 .v3]
    [] s (by decide)).trans (rfl), ?_⟩
  exact {
    r0 := h.r0
    v0 := h.v0
    v20 := h.v20
    v19 := h.v19
    v1 := hv1
    v2 := hv2
    v3 := hv2
    k0 := fun h => by omega
    k1 := fun _ h => by omega
    k2 := fun _ => h.k2 (by decide)
    k3 := fun _ => h.k3 (by decide)
    w := fun j h1 h2 h3 => by omega
    r3 := h.r3
    r4 := h.r4
    m1 := h.m1
    cs0 := h.cs0
    cs1 := fun _ => h.cs1 (by decide)
    cs2 := fun _ => h.cs2 (by decide) }

end Verif.Model.Arm64
