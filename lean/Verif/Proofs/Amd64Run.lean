import Verif.Proofs.Amd64
import Verif.Proofs.AsmMem

/-! Running sha1cdblock_amd64.s: the registers and arrays before each group of four rounds. -/

namespace Verif.Model.Amd64
open Verif Verif.Model Verif.Spec


/-- The effect of the instructions that touch only XMM registers and R12. -/
def vexec (x : X → Vec) (r : Word) : Instr → (X → Vec) × Word
  | .movdqa a d => (setV x d (x a), r)
  | .pshufd imm a d => (setV x d (pshufd imm (x a)), r)
  | .pshufb m d => (setV x d (pshufb (x d) (x m)), r)
  | .paddd a d => (setV x d (Vec.map2 (· + ·) (x d) (x a)), r)
  | .pxor a d => (setV x d (Vec.map2 (· ^^^ ·) (x d) (x a)), r)
  | .pextrd imm a .r12 => (x, (x a).lane imm)
  | .roll imm .r12 => (x, rol imm r)
  | .sha1rnds4 imm a d => (setV x d (sha1rnds4 imm (x d) (x a)), r)
  | .sha1nexte a d => (setV x d (sha1nexte (x d) (x a)), r)
  | .sha1msg1 a d => (setV x d (sha1msg1 (x d) (x a)), r)
  | .sha1msg2 a d => (setV x d (sha1msg2 (x d) (x a)), r)
  | _ => (x, r)

def isV : Instr → Bool
  | .movdqa _ _ | .pshufd _ _ _ | .pshufb _ _ | .paddd _ _ | .pxor _ _ | .pextrd _ _ _ | .roll _ _
  | .sha1rnds4 _ _ _ | .sha1nexte _ _ | .sha1msg1 _ _ | .sha1msg2 _ _ => true
  | _ => false

def vexecs (x : X → Vec) (r : Word) : List Instr → (X → Vec) × Word
  | [] => (x, r)
  | i :: is => vexecs (vexec x r i).1 (vexec x r i).2 is

theorem exec_v (s : St) (i : Instr) (h : isV i = true) :
    exec s i = .ok { s with x := (vexec s.x s.r12 i).1, r12 := (vexec s.x s.r12 i).2 } := by
  cases i <;> first
    | rfl
    | (simp only [isV, Bool.false_eq_true] at h; done)
    | (rename_i d; cases d; rfl)

theorem execs_v (l : List Instr) : ∀ (s : St), l.all isV = true →
    execs s l = .ok { s with x := (vexecs s.x s.r12 l).1, r12 := (vexecs s.x s.r12 l).2 } := by
  induction l with
  | nil => intro s _; rfl
  | cons i is ih =>
    intro s h
    rw [List.all_cons, Bool.and_eq_true] at h
    rw [execs, exec_v s i h.1, bind_ok, ih _ h.2]
    rfl

theorem execs_append (s : St) (a b : List Instr) : execs s (a ++ b) = execs s a >>= fun s => execs s b := by
  induction a generalizing s with
  | nil => rfl
  | cons i is ih =>
    simp only [List.cons_append, execs]
    cases exec s i with
    | error e => rfl
    | ok s' => exact ih s'

theorem storeM1 (s : St) (h : s.g .r13 = .ptr .m1 0) (i : Nat) (hi : i < 20) (v : Vec) :
    s.store v (i * 16 + 0) .r13 =
      .ok { s with mem := { s.mem with m1 := put4 s.mem.m1 (4 * i) v } } := by
  have e : ((0 : Word64) + BitVec.ofNat 64 (i * 16 + 0)).toNat = 16 * i := by simp; omega
  simp only [St.store, h, e]
  rw [wrV_ok _ _ _ (by omega) (by omega), show 16 * i / 4 = 4 * i by omega]
  rfl

/-- The common shape of the groups. -/
theorem group_ok (l : List Instr) (hl : l.all isV = true) (r : X) (i : Nat) (hi : i < 20) (s : St)
    (h : s.g .r13 = .ptr .m1 0) :
    execs s (l ++ loadM1 r i .r13) = .ok { s with
      x := setV (vexecs s.x s.r12 l).1 .x8 (pshufd 0x1b ((vexecs s.x s.r12 l).1 r)),
      r12 := (vexecs s.x s.r12 l).2,
      mem := { s.mem with m1 := put4 s.mem.m1 (4 * i) (pshufd 0x1b ((vexecs s.x s.r12 l).1 r)) } } := by
  rw [execs_append, execs_v l s hl, bind_ok]
  simp only [loadM1, execs, exec, pure_ok, bind_ok, St.setX]
  rw [storeM1 { s with
      x := setV (vexecs s.x s.r12 l).1 .x8 (pshufd 0x1b ((vexecs s.x s.r12 l).1 r)),
      r12 := (vexecs s.x s.r12 l).2 } h i hi]
  rfl

/-- The register holding the message words of group `g`. -/
def mreg (g : Nat) : X :=
  match g % 4 with
  | 0 => .x1
  | 1 => .x2
  | 2 => .x3
  | _ => .x4

/-- The register from which group `g` derives E. -/
def ereg (g : Nat) : X :=
  match g % 2 with
  | 0 => .x5
  | _ => .x6

/-- What one call works on. -/
structure Ctx where
  M : Block
  H : Regs
  p : List Byte
  A : Word64
  E : Vec

/-- The facts that no group changes. -/
structure Stat (c : Ctx) (s : St) : Prop where
  r13 : s.g .r13 = .ptr .m1 0
  r15 : s.g .r15 = .ptr .cs 0
  si : s.g .si = .ptr .p 0
  dx : s.g .dx = .ptr .p 64
  di : s.g .di = .ptr .h 0
  ax : s.g .ax = .ptr .stack c.A
  x7 : s.x .x7 = shuffleMask
  p : s.mem.p = c.p
  saveE : s.mem.stack c.A = c.E
  saveH : s.mem.stack (c.A + 16) = abcd c.H
  slot0 : s.slot c.A = .ok c.A
  slot1 : s.slot (c.A + 16) = .ok (c.A + 16)
  cs0 : ∀ i : Fin 5, s.mem.cs ⟨i, by omega⟩ = flat5 c.H i

/-- The state before group `g`. -/
structure Inv (c : Ctx) (g : Nat) (s : St) : Prop where
  stat : Stat c s
  x0 : s.x .x0 = abcd (steps (sched c.M) (4 * g) c.H)
  e0 : g = 0 → s.x .x5 = c.E
  e : 1 ≤ g → s.x (ereg g) = abcd (steps (sched c.M) (4 * (g - 1)) c.H)
  w0 : 4 ≤ g → g < 20 → s.x (mreg g) = msgv (sched c.M) (4 * g)
  w1 : 3 ≤ g → g < 19 → s.x (mreg (g + 1)) = Vec.map2 (· ^^^ ·)
    (sha1msg1 (msgv (sched c.M) (4 * (g - 3))) (msgv (sched c.M) (4 * (g - 2)))) (msgv (sched c.M) (4 * (g - 1)))
  w2 : 2 ≤ g → g < 18 → s.x (mreg (g + 2)) =
    sha1msg1 (msgv (sched c.M) (4 * (g - 2))) (msgv (sched c.M) (4 * (g - 1)))
  w3 : 1 ≤ g → g < 17 → s.x (mreg (g + 3)) = msgv (sched c.M) (4 * (g - 1))
  m1 : ∀ i : Fin 80, i.val < 4 * g → s.mem.m1 i = sched c.M i
  r12 : (g = 13 ∨ g = 15) → s.r12 = (steps (sched c.M) (4 * (g + 1)) c.H).e
  cs1 : 14 ≤ g → ∀ i : Fin 5, s.mem.cs ⟨5 + i, by omega⟩ = flat5 (steps (sched c.M) 56 c.H) i
  cs2 : 16 ≤ g → ∀ i : Fin 5, s.mem.cs ⟨10 + i, by omega⟩ = flat5 (steps (sched c.M) 64 c.H) i

theorem put_m1 (f : Fin 80 → Word) (W : Nat → Word) (g : Nat) (h : ∀ i : Fin 80, i.val < 4 * g → f i = W i) (i : Fin 80)
    (hi : i.val < 4 * (g + 1)) : put4 f (4 * g) (pshufd 0x1b (msgv W (4 * g))) i = W i := by
  unfold put4
  by_cases h0 : i.val = 4 * g
  · rw [if_pos h0, h0]; rfl
  by_cases h1 : i.val = 4 * g + 1
  · rw [if_neg h0, if_pos h1, h1]; rfl
  by_cases h2 : i.val = 4 * g + 2
  · rw [if_neg h0, if_neg h1, if_pos h2, h2]; rfl
  by_cases h3 : i.val = 4 * g + 3
  · rw [if_neg h0, if_neg h1, if_neg h2, if_pos h3, h3]; rfl
  rw [if_neg h0, if_neg h1, if_neg h2, if_neg h3]
  exact h i (by omega)


theorem put5_same (f : Fin 15 → Word) (k : Nat) (r : Regs) (i : Fin 5) (h : k + i.val < 15) :
    put5 f k (pshufd 0x1b (abcd r)) r.e ⟨k + i, h⟩ = flat5 r i := by
  unfold put5 put4
  match i with
  | 0 => simp; rfl
  | 1 => simp; rfl
  | 2 => simp; rfl
  | 3 => simp; rfl
  | 4 => simp; rfl

theorem loadCS_ok (s : St) (h : s.g .r15 = .ptr .cs 0) (i : Nat) (hi : i < 3) :
    execs s (loadCS .x0 .r12 i .r15) = .ok { s with
      x := setV s.x .x8 (pshufd 0x1b (s.x .x0)),
      mem := { s.mem with cs := put5 s.mem.cs (5 * i) (pshufd 0x1b (s.x .x0)) s.r12 } } := by
  have e : ((0 : Word64) + BitVec.ofNat 64 (i * 20 + 0)).toNat = 20 * i := by simp; omega
  have e2 : ((0 : Word64) + BitVec.ofNat 64 (i * 20 + 16)).toNat = 20 * i + 16 := by simp; omega
  simp only [loadCS, execs, exec, pure_ok, bind_ok, St.setX, St.store, h, e]
  rw [wrV_ok _ _ _ (by omega) (by omega)]
  simp only [bind_ok, St.storeL, h, e2, wrW]
  rw [dif_pos ⟨by omega, by omega⟩]
  simp only [bind_ok, pure_ok]
  congr 4
  funext j
  simp only [upd, put5, Fin.ext_iff, show (20 * i + 16) / 4 = 5 * i + 4 by omega,
    show 20 * i / 4 = 5 * i by omega]
  rfl

/-- `VPSHUFB` with the shuffle mask reverses the bytes of a register: byte `i` of the operand, counted from
the lowest address, becomes byte `15 - i`. -/
theorem pshufb_shuffle (b : Nat → Byte) : pshufb (Vec.ofBytes b) shuffleMask =
    ⟨be32 (b 0) (b 1) (b 2) (b 3), be32 (b 4) (b 5) (b 6) (b 7), be32 (b 8) (b 9) (b 10) (b 11),
      be32 (b 12) (b 13) (b 14) (b 15)⟩ := by
  have hm : ∀ i : Fin 16, shuffleMask.byte i = BitVec.ofNat 8 (15 - i) := by decide
  have h1 : ∀ i : Fin 16, (BitVec.ofNat 8 (15 - i.val)).getLsbD 7 = false := by decide
  have h2 : ∀ i : Fin 16, (BitVec.ofNat 8 (15 - i.val)).toNat % 16 = 15 - i.val := by decide
  refine (ofBytes_congr _ (fun i => b (15 - i)) fun i hi => ?_).trans (by unfold Vec.ofBytes be32; rfl)
  rw [hm ⟨i, hi⟩, h1 ⟨i, hi⟩, h2 ⟨i, hi⟩]
  exact ofBytes_byte b (15 - i) (by omega)

theorem load_p (s : St) (hsi : s.g .si = .ptr .p 0) (hp : s.mem.p.length = 64) (g : Nat) (hg : g < 4) :
    s.load (16 * g) .si = .ok (Vec.ofBytes fun i => s.mem.p.getD (16 * g + i) 0) := by
  have e : ((0 : Word64) + BitVec.ofNat 64 (16 * g)).toNat = 16 * g := by simp; omega
  simp only [St.load, hsi, e, rdP]
  rw [if_pos (by omega)]
  rfl

/-- Four words of the chunk after byte reversal. -/
theorem msg_load (p : List Byte) (g : Nat) (hg : g < 4) :
    pshufb (Vec.ofBytes fun i => p.getD (16 * g + i) 0) shuffleMask = msgv (sched (toBlock p)) (4 * g) := by
  rw [pshufb_shuffle]
  unfold msgv
  rw [sched_lt _ _ (by omega), sched_lt _ _ (by omega), sched_lt _ _ (by omega), sched_lt _ _ (by omega)]
  simp only [toBlock]
  have e1 : 4 * (4 * g) = 16 * g := by omega
  have e2 : 4 * (4 * g + 1) = 16 * g + 4 := by omega
  have e3 : 4 * (4 * g + 2) = 16 * g + 8 := by omega
  have e4 : 4 * (4 * g + 3) = 16 * g + 12 := by omega
  simp only [e1, e2, e3, e4, Nat.add_assoc, Nat.reduceAdd]
  rfl

/-- The facts about the chunk. -/
structure Ctx.Ok (c : Ctx) : Prop where
  len : c.p.length = 64
  M : c.M = toBlock c.p
  E : c.E = ⟨c.H.e, 0, 0, 0⟩

/-- The common shape of the first four groups. -/
theorem first_ok (c : Ctx) (hc : c.Ok) (s : St) (hs : Stat c s) (g : Nat) (hg : g < 4) (r : X)
    (hr : r ≠ .x7) (l : List Instr) :
    execs s ([.movdquLoad (16 * g) .si r, .pshufb .x7 r] ++ l) =
      execs (s.setX r (msgv (sched c.M) (4 * g))) l := by
  have := load_p s hs.si (by rw [hs.p]; exact hc.len) g hg
  simp only [List.cons_append, List.nil_append, execs, exec, this, bind_ok, pure_ok]
  congr 1
  simp only [St.setX]
  congr 1
  funext q
  unfold setV
  by_cases hq : q = r
  · rw [if_pos hq, if_pos hq, if_pos rfl, if_neg hr.symm, hs.x7, hs.p, msg_load _ _ hg, hc.M]
  · rw [if_neg hq, if_neg hq, if_neg hq]

theorem e_zero (g : Nat) (W : Nat → Word) (r : Regs) :
    Vec.map2 (· + ·) ⟨r.e, 0, 0, 0⟩ (msgv W g) = { msgv W g with l3 := W g + r.e } := by
  simp [Vec.map2, msgv, BitVec.add_comm]

theorem Stat.setX {c : Ctx} {s : St} (h : Stat c s) (r : X) (hr : r ≠ .x7) (v : Vec) : Stat c (s.setX r v) :=
  { h with x7 := (if_neg hr.symm).trans h.x7 }

theorem g0_ok (c : Ctx) (hc : c.Ok) (s : St) (h : Inv c 0 s) : ∃ s', execs s group0 = .ok s' ∧ Inv c 1 s' := by
  have hf := first_ok c hc s h.stat 0 (by decide) .x1 (by decide)
  refine ⟨_, (hf (_ ++ _)).trans (group_ok [.paddd .x1 .x5, .movdqa .x0 .x6, .sha1rnds4 0 .x5 .x0] (by decide) _ 0 (by decide) (s.setX .x1 (msgv (sched c.M) (4 * 0))) h.stat.r13), ?_⟩
  have he : s.x .x5 = _ := h.e0 rfl
  have hn : Vec.map2 (· + ·) (s.x .x5) (msgv (sched c.M) (4 * 0)) = _ :=
    (congrArg (fun v => Vec.map2 (· + ·) v _) (he.trans hc.E)).trans (e_zero (4 * 0) (sched c.M) c.H)
  have hr := rnds4_eq 0 (by decide) (sched c.M) c.H
  have hx0 := (congr (congrArg (sha1rnds4 0) h.x0) hn).trans hr
  exact {
    stat := { h.stat.setX .x1 (by decide) (msgv (sched c.M) (4 * 0)) with }
    x0 := hx0
    e0 := fun h => by omega
    e := fun _ => h.x0
    w0 := fun h => by omega
    w1 := fun h => by omega
    w2 := fun h => by omega
    w3 := fun _ _ => rfl
    m1 := fun i hi => put_m1 s.mem.m1 (sched c.M) 0 h.m1 i hi
    r12 := fun h => by omega
    cs1 := fun h => by omega
    cs2 := fun h => by omega }

theorem g1_ok (c : Ctx) (hc : c.Ok) (s : St) (h : Inv c 1 s) : ∃ s', execs s group1 = .ok s' ∧ Inv c 2 s' := by
  have hf := first_ok c hc s h.stat 1 (by decide) .x2 (by decide)
  refine ⟨_, (hf (_ ++ _)).trans (group_ok [.sha1nexte .x2 .x6, .movdqa .x0 .x5, .sha1rnds4 0 .x6 .x0, .sha1msg1 .x2 .x1] (by decide) _ 1 (by decide) (s.setX .x2 (msgv (sched c.M) (4 * 1))) h.stat.r13), ?_⟩
  have hw3 : s.x .x1 = _ := h.w3 (by decide) (by decide)
  have he : s.x .x6 = _ := h.e (by decide)
  have hn : sha1nexte (s.x .x6) (msgv (sched c.M) (4 * 1)) = _ :=
    (congr (congrArg sha1nexte he) rfl).trans (nexte_eq 0 (sched c.M) c.H)
  have hr := rnds4_eq 1 (by decide) (sched c.M) c.H
  have hx0 := (congr (congrArg (sha1rnds4 0) h.x0) hn).trans hr
  exact {
    stat := { h.stat.setX .x2 (by decide) (msgv (sched c.M) (4 * 1)) with }
    x0 := hx0
    e0 := fun h => by omega
    e := fun _ => h.x0
    w0 := fun h => by omega
    w1 := fun h => by omega
    w2 := fun _ _ => congr (congrArg sha1msg1 hw3) rfl
    w3 := fun _ _ => rfl
    m1 := fun i hi => put_m1 s.mem.m1 (sched c.M) 1 h.m1 i hi
    r12 := fun h => by omega
    cs1 := fun h => by omega
    cs2 := fun h => by omega }

theorem g2_ok (c : Ctx) (hc : c.Ok) (s : St) (h : Inv c 2 s) : ∃ s', execs s group2 = .ok s' ∧ Inv c 3 s' := by
  have hf := first_ok c hc s h.stat 2 (by decide) .x3 (by decide)
  refine ⟨_, (hf (_ ++ _)).trans (group_ok [.sha1nexte .x3 .x5, .movdqa .x0 .x6, .sha1rnds4 0 .x5 .x0, .sha1msg1 .x3 .x2, .pxor .x3 .x1] (by decide) _ 2 (by decide) (s.setX .x3 (msgv (sched c.M) (4 * 2))) h.stat.r13), ?_⟩
  have hw2 : s.x .x1 = _ := h.w2 (by decide) (by decide)
  have hw3 : s.x .x2 = _ := h.w3 (by decide) (by decide)
  have he : s.x .x5 = _ := h.e (by decide)
  have hn : sha1nexte (s.x .x5) (msgv (sched c.M) (4 * 2)) = _ :=
    (congr (congrArg sha1nexte he) rfl).trans (nexte_eq 1 (sched c.M) c.H)
  have hr := rnds4_eq 2 (by decide) (sched c.M) c.H
  have hx0 := (congr (congrArg (sha1rnds4 0) h.x0) hn).trans hr
  exact {
    stat := { h.stat.setX .x3 (by decide) (msgv (sched c.M) (4 * 2)) with }
    x0 := hx0
    e0 := fun h => by omega
    e := fun _ => h.x0
    w0 := fun h => by omega
    w1 := fun _ _ => congr (congrArg (Vec.map2 (· ^^^ ·)) hw2) rfl
    w2 := fun _ _ => congr (congrArg sha1msg1 hw3) rfl
    w3 := fun _ _ => rfl
    m1 := fun i hi => put_m1 s.mem.m1 (sched c.M) 2 h.m1 i hi
    r12 := fun h => by omega
    cs1 := fun h => by omega
    cs2 := fun h => by omega }

theorem g3_ok (c : Ctx) (hc : c.Ok) (s : St) (h : Inv c 3 s) : ∃ s', execs s group3 = .ok s' ∧ Inv c 4 s' := by
  have hf := first_ok c hc s h.stat 3 (by decide) .x4 (by decide)
  refine ⟨_, (hf (_ ++ _)).trans (group_ok [.sha1nexte .x4 .x6, .movdqa .x0 .x5, .sha1msg2 .x4 .x1, .sha1rnds4 0 .x6 .x0, .sha1msg1 .x4 .x3, .pxor .x4 .x2] (by decide) _ 3 (by decide) (s.setX .x4 (msgv (sched c.M) (4 * 3))) h.stat.r13), ?_⟩
  have hw1 : s.x .x1 = _ := h.w1 (by decide) (by decide)
  have hw2 : s.x .x2 = _ := h.w2 (by decide) (by decide)
  have hw3 : s.x .x3 = _ := h.w3 (by decide) (by decide)
  have he : s.x .x6 = _ := h.e (by decide)
  have hn : sha1nexte (s.x .x6) (msgv (sched c.M) (4 * 3)) = _ :=
    (congr (congrArg sha1nexte he) rfl).trans (nexte_eq 2 (sched c.M) c.H)
  have hr := rnds4_eq 3 (by decide) (sched c.M) c.H
  have hx0 := (congr (congrArg (sha1rnds4 0) h.x0) hn).trans hr
  exact {
    stat := { h.stat.setX .x4 (by decide) (msgv (sched c.M) (4 * 3)) with }
    x0 := hx0
    e0 := fun h => by omega
    e := fun _ => h.x0
    w0 := fun _ _ => (congr (congrArg sha1msg2 hw1) rfl).trans (msg_eq c.M (4 * 0))
    w1 := fun _ _ => congr (congrArg (Vec.map2 (· ^^^ ·)) hw2) rfl
    w2 := fun _ _ => congr (congrArg sha1msg1 hw3) rfl
    w3 := fun _ _ => rfl
    m1 := fun i hi => put_m1 s.mem.m1 (sched c.M) 3 h.m1 i hi
    r12 := fun h => by omega
    cs1 := fun h => by omega
    cs2 := fun h => by omega }

theorem g4_ok (c : Ctx) (s : St) (h : Inv c 4 s) : ∃ s', execs s group4 = .ok s' ∧ Inv c 5 s' := by
  refine ⟨_, group_ok _ (by decide) _ 4 (by decide) s h.stat.r13, ?_⟩
  have hw0 : s.x .x1 = msgv (sched c.M) (4 * 4) := h.w0 (by decide) (by decide)
  have hw1 : s.x .x2 = _ := h.w1 (by decide) (by decide)
  have hw2 : s.x .x3 = _ := h.w2 (by decide) (by decide)
  have hw3 : s.x .x4 = _ := h.w3 (by decide) (by decide)
  have he : s.x .x5 = _ := h.e (by decide)
  have hn : sha1nexte (s.x .x5) (s.x .x1) = _ :=
    (congr (congrArg sha1nexte he) hw0).trans (nexte_eq 3 (sched c.M) c.H)
  have hr := rnds4_eq 4 (by decide) (sched c.M) c.H
  have hx0 := (congr (congrArg (sha1rnds4 0) h.x0) hn).trans hr
  exact {
    stat := { h.stat with }
    x0 := hx0
    e0 := fun h => by omega
    e := fun _ => h.x0
    w0 := fun _ _ => (congr (congrArg sha1msg2 hw1) hw0).trans (msg_eq c.M (4 * 1))
    w1 := fun _ _ => congr (congrArg (Vec.map2 (· ^^^ ·)) hw2) hw0
    w2 := fun _ _ => congr (congrArg sha1msg1 hw3) hw0
    w3 := fun _ _ => hw0
    m1 := fun i hi => by
      have := put_m1 s.mem.m1 (sched c.M) 4 h.m1 i hi
      rw [← hw0] at this; exact this
    r12 := fun h => by omega
    cs1 := fun h => by omega
    cs2 := fun h => by omega }

theorem g5_ok (c : Ctx) (s : St) (h : Inv c 5 s) : ∃ s', execs s group5 = .ok s' ∧ Inv c 6 s' := by
  refine ⟨_, group_ok _ (by decide) _ 5 (by decide) s h.stat.r13, ?_⟩
  have hw0 : s.x .x2 = msgv (sched c.M) (4 * 5) := h.w0 (by decide) (by decide)
  have hw1 : s.x .x3 = _ := h.w1 (by decide) (by decide)
  have hw2 : s.x .x4 = _ := h.w2 (by decide) (by decide)
  have hw3 : s.x .x1 = _ := h.w3 (by decide) (by decide)
  have he : s.x .x6 = _ := h.e (by decide)
  have hn : sha1nexte (s.x .x6) (s.x .x2) = _ :=
    (congr (congrArg sha1nexte he) hw0).trans (nexte_eq 4 (sched c.M) c.H)
  have hr := rnds4_eq 5 (by decide) (sched c.M) c.H
  have hx0 := (congr (congrArg (sha1rnds4 1) h.x0) hn).trans hr
  exact {
    stat := { h.stat with }
    x0 := hx0
    e0 := fun h => by omega
    e := fun _ => h.x0
    w0 := fun _ _ => (congr (congrArg sha1msg2 hw1) hw0).trans (msg_eq c.M (4 * 2))
    w1 := fun _ _ => congr (congrArg (Vec.map2 (· ^^^ ·)) hw2) hw0
    w2 := fun _ _ => congr (congrArg sha1msg1 hw3) hw0
    w3 := fun _ _ => hw0
    m1 := fun i hi => by
      have := put_m1 s.mem.m1 (sched c.M) 5 h.m1 i hi
      rw [← hw0] at this; exact this
    r12 := fun h => by omega
    cs1 := fun h => by omega
    cs2 := fun h => by omega }

theorem g6_ok (c : Ctx) (s : St) (h : Inv c 6 s) : ∃ s', execs s group6 = .ok s' ∧ Inv c 7 s' := by
  refine ⟨_, group_ok _ (by decide) _ 6 (by decide) s h.stat.r13, ?_⟩
  have hw0 : s.x .x3 = msgv (sched c.M) (4 * 6) := h.w0 (by decide) (by decide)
  have hw1 : s.x .x4 = _ := h.w1 (by decide) (by decide)
  have hw2 : s.x .x1 = _ := h.w2 (by decide) (by decide)
  have hw3 : s.x .x2 = _ := h.w3 (by decide) (by decide)
  have he : s.x .x5 = _ := h.e (by decide)
  have hn : sha1nexte (s.x .x5) (s.x .x3) = _ :=
    (congr (congrArg sha1nexte he) hw0).trans (nexte_eq 5 (sched c.M) c.H)
  have hr := rnds4_eq 6 (by decide) (sched c.M) c.H
  have hx0 := (congr (congrArg (sha1rnds4 1) h.x0) hn).trans hr
  exact {
    stat := { h.stat with }
    x0 := hx0
    e0 := fun h => by omega
    e := fun _ => h.x0
    w0 := fun _ _ => (congr (congrArg sha1msg2 hw1) hw0).trans (msg_eq c.M (4 * 3))
    w1 := fun _ _ => congr (congrArg (Vec.map2 (· ^^^ ·)) hw2) hw0
    w2 := fun _ _ => congr (congrArg sha1msg1 hw3) hw0
    w3 := fun _ _ => hw0
    m1 := fun i hi => by
      have := put_m1 s.mem.m1 (sched c.M) 6 h.m1 i hi
      rw [← hw0] at this; exact this
    r12 := fun h => by omega
    cs1 := fun h => by omega
    cs2 := fun h => by omega }

theorem g7_ok (c : Ctx) (s : St) (h : Inv c 7 s) : ∃ s', execs s group7 = .ok s' ∧ Inv c 8 s' := by
  refine ⟨_, group_ok _ (by decide) _ 7 (by decide) s h.stat.r13, ?_⟩
  have hw0 : s.x .x4 = msgv (sched c.M) (4 * 7) := h.w0 (by decide) (by decide)
  have hw1 : s.x .x1 = _ := h.w1 (by decide) (by decide)
  have hw2 : s.x .x2 = _ := h.w2 (by decide) (by decide)
  have hw3 : s.x .x3 = _ := h.w3 (by decide) (by decide)
  have he : s.x .x6 = _ := h.e (by decide)
  have hn : sha1nexte (s.x .x6) (s.x .x4) = _ :=
    (congr (congrArg sha1nexte he) hw0).trans (nexte_eq 6 (sched c.M) c.H)
  have hr := rnds4_eq 7 (by decide) (sched c.M) c.H
  have hx0 := (congr (congrArg (sha1rnds4 1) h.x0) hn).trans hr
  exact {
    stat := { h.stat with }
    x0 := hx0
    e0 := fun h => by omega
    e := fun _ => h.x0
    w0 := fun _ _ => (congr (congrArg sha1msg2 hw1) hw0).trans (msg_eq c.M (4 * 4))
    w1 := fun _ _ => congr (congrArg (Vec.map2 (· ^^^ ·)) hw2) hw0
    w2 := fun _ _ => congr (congrArg sha1msg1 hw3) hw0
    w3 := fun _ _ => hw0
    m1 := fun i hi => by
      have := put_m1 s.mem.m1 (sched c.M) 7 h.m1 i hi
      rw [← hw0] at this; exact this
    r12 := fun h => by omega
    cs1 := fun h => by omega
    cs2 := fun h => by omega }

theorem g8_ok (c : Ctx) (s : St) (h : Inv c 8 s) : ∃ s', execs s group8 = .ok s' ∧ Inv c 9 s' := by
  refine ⟨_, group_ok _ (by decide) _ 8 (by decide) s h.stat.r13, ?_⟩
  have hw0 : s.x .x1 = msgv (sched c.M) (4 * 8) := h.w0 (by decide) (by decide)
  have hw1 : s.x .x2 = _ := h.w1 (by decide) (by decide)
  have hw2 : s.x .x3 = _ := h.w2 (by decide) (by decide)
  have hw3 : s.x .x4 = _ := h.w3 (by decide) (by decide)
  have he : s.x .x5 = _ := h.e (by decide)
  have hn : sha1nexte (s.x .x5) (s.x .x1) = _ :=
    (congr (congrArg sha1nexte he) hw0).trans (nexte_eq 7 (sched c.M) c.H)
  have hr := rnds4_eq 8 (by decide) (sched c.M) c.H
  have hx0 := (congr (congrArg (sha1rnds4 1) h.x0) hn).trans hr
  exact {
    stat := { h.stat with }
    x0 := hx0
    e0 := fun h => by omega
    e := fun _ => h.x0
    w0 := fun _ _ => (congr (congrArg sha1msg2 hw1) hw0).trans (msg_eq c.M (4 * 5))
    w1 := fun _ _ => congr (congrArg (Vec.map2 (· ^^^ ·)) hw2) hw0
    w2 := fun _ _ => congr (congrArg sha1msg1 hw3) hw0
    w3 := fun _ _ => hw0
    m1 := fun i hi => by
      have := put_m1 s.mem.m1 (sched c.M) 8 h.m1 i hi
      rw [← hw0] at this; exact this
    r12 := fun h => by omega
    cs1 := fun h => by omega
    cs2 := fun h => by omega }

theorem g9_ok (c : Ctx) (s : St) (h : Inv c 9 s) : ∃ s', execs s group9 = .ok s' ∧ Inv c 10 s' := by
  refine ⟨_, group_ok _ (by decide) _ 9 (by decide) s h.stat.r13, ?_⟩
  have hw0 : s.x .x2 = msgv (sched c.M) (4 * 9) := h.w0 (by decide) (by decide)
  have hw1 : s.x .x3 = _ := h.w1 (by decide) (by decide)
  have hw2 : s.x .x4 = _ := h.w2 (by decide) (by decide)
  have hw3 : s.x .x1 = _ := h.w3 (by decide) (by decide)
  have he : s.x .x6 = _ := h.e (by decide)
  have hn : sha1nexte (s.x .x6) (s.x .x2) = _ :=
    (congr (congrArg sha1nexte he) hw0).trans (nexte_eq 8 (sched c.M) c.H)
  have hr := rnds4_eq 9 (by decide) (sched c.M) c.H
  have hx0 := (congr (congrArg (sha1rnds4 1) h.x0) hn).trans hr
  exact {
    stat := { h.stat with }
    x0 := hx0
    e0 := fun h => by omega
    e := fun _ => h.x0
    w0 := fun _ _ => (congr (congrArg sha1msg2 hw1) hw0).trans (msg_eq c.M (4 * 6))
    w1 := fun _ _ => congr (congrArg (Vec.map2 (· ^^^ ·)) hw2) hw0
    w2 := fun _ _ => congr (congrArg sha1msg1 hw3) hw0
    w3 := fun _ _ => hw0
    m1 := fun i hi => by
      have := put_m1 s.mem.m1 (sched c.M) 9 h.m1 i hi
      rw [← hw0] at this; exact this
    r12 := fun h => by omega
    cs1 := fun h => by omega
    cs2 := fun h => by omega }

theorem g10_ok (c : Ctx) (s : St) (h : Inv c 10 s) : ∃ s', execs s group10 = .ok s' ∧ Inv c 11 s' := by
  refine ⟨_, group_ok _ (by decide) _ 10 (by decide) s h.stat.r13, ?_⟩
  have hw0 : s.x .x3 = msgv (sched c.M) (4 * 10) := h.w0 (by decide) (by decide)
  have hw1 : s.x .x4 = _ := h.w1 (by decide) (by decide)
  have hw2 : s.x .x1 = _ := h.w2 (by decide) (by decide)
  have hw3 : s.x .x2 = _ := h.w3 (by decide) (by decide)
  have he : s.x .x5 = _ := h.e (by decide)
  have hn : sha1nexte (s.x .x5) (s.x .x3) = _ :=
    (congr (congrArg sha1nexte he) hw0).trans (nexte_eq 9 (sched c.M) c.H)
  have hr := rnds4_eq 10 (by decide) (sched c.M) c.H
  have hx0 := (congr (congrArg (sha1rnds4 2) h.x0) hn).trans hr
  exact {
    stat := { h.stat with }
    x0 := hx0
    e0 := fun h => by omega
    e := fun _ => h.x0
    w0 := fun _ _ => (congr (congrArg sha1msg2 hw1) hw0).trans (msg_eq c.M (4 * 7))
    w1 := fun _ _ => congr (congrArg (Vec.map2 (· ^^^ ·)) hw2) hw0
    w2 := fun _ _ => congr (congrArg sha1msg1 hw3) hw0
    w3 := fun _ _ => hw0
    m1 := fun i hi => by
      have := put_m1 s.mem.m1 (sched c.M) 10 h.m1 i hi
      rw [← hw0] at this; exact this
    r12 := fun h => by omega
    cs1 := fun h => by omega
    cs2 := fun h => by omega }

theorem g11_ok (c : Ctx) (s : St) (h : Inv c 11 s) : ∃ s', execs s group11 = .ok s' ∧ Inv c 12 s' := by
  refine ⟨_, group_ok _ (by decide) _ 11 (by decide) s h.stat.r13, ?_⟩
  have hw0 : s.x .x4 = msgv (sched c.M) (4 * 11) := h.w0 (by decide) (by decide)
  have hw1 : s.x .x1 = _ := h.w1 (by decide) (by decide)
  have hw2 : s.x .x2 = _ := h.w2 (by decide) (by decide)
  have hw3 : s.x .x3 = _ := h.w3 (by decide) (by decide)
  have he : s.x .x6 = _ := h.e (by decide)
  have hn : sha1nexte (s.x .x6) (s.x .x4) = _ :=
    (congr (congrArg sha1nexte he) hw0).trans (nexte_eq 10 (sched c.M) c.H)
  have hr := rnds4_eq 11 (by decide) (sched c.M) c.H
  have hx0 := (congr (congrArg (sha1rnds4 2) h.x0) hn).trans hr
  exact {
    stat := { h.stat with }
    x0 := hx0
    e0 := fun h => by omega
    e := fun _ => h.x0
    w0 := fun _ _ => (congr (congrArg sha1msg2 hw1) hw0).trans (msg_eq c.M (4 * 8))
    w1 := fun _ _ => congr (congrArg (Vec.map2 (· ^^^ ·)) hw2) hw0
    w2 := fun _ _ => congr (congrArg sha1msg1 hw3) hw0
    w3 := fun _ _ => hw0
    m1 := fun i hi => by
      have := put_m1 s.mem.m1 (sched c.M) 11 h.m1 i hi
      rw [← hw0] at this; exact this
    r12 := fun h => by omega
    cs1 := fun h => by omega
    cs2 := fun h => by omega }

theorem g12_ok (c : Ctx) (s : St) (h : Inv c 12 s) : ∃ s', execs s group12 = .ok s' ∧ Inv c 13 s' := by
  refine ⟨_, (execs_append s (_ ++ loadM1 _ _ _) _).trans ((congrArg (fun x => x >>= _)
    (group_ok _ (by decide) _ 12 (by decide) s h.stat.r13)).trans ((bind_ok _ _).trans (execs_v _ _ (by decide)))), ?_⟩
  have hw0 : s.x .x1 = msgv (sched c.M) (4 * 12) := h.w0 (by decide) (by decide)
  have hw1 : s.x .x2 = _ := h.w1 (by decide) (by decide)
  have hw2 : s.x .x3 = _ := h.w2 (by decide) (by decide)
  have hw3 : s.x .x4 = _ := h.w3 (by decide) (by decide)
  have he : s.x .x5 = _ := h.e (by decide)
  have hn : sha1nexte (s.x .x5) (s.x .x1) = _ :=
    (congr (congrArg sha1nexte he) hw0).trans (nexte_eq 11 (sched c.M) c.H)
  have hr := rnds4_eq 12 (by decide) (sched c.M) c.H
  have hx0 := (congr (congrArg (sha1rnds4 2) h.x0) hn).trans hr
  exact {
    stat := { h.stat with }
    x0 := hx0
    e0 := fun h => by omega
    e := fun _ => h.x0
    w0 := fun _ _ => (congr (congrArg sha1msg2 hw1) hw0).trans (msg_eq c.M (4 * 9))
    w1 := fun _ _ => congr (congrArg (Vec.map2 (· ^^^ ·)) hw2) hw0
    w2 := fun _ _ => congr (congrArg sha1msg1 hw3) hw0
    w3 := fun _ _ => hw0
    m1 := fun i hi => by
      have := put_m1 s.mem.m1 (sched c.M) 12 h.m1 i hi
      rw [← hw0] at this; exact this
    r12 := fun _ => (congrArg (fun v : Vec => rol 30 v.l3) hx0).trans (e4 (sched c.M) 52 c.H).symm
    cs1 := fun h => by omega
    cs2 := fun h => by omega }

theorem g13_ok (c : Ctx) (s : St) (h : Inv c 13 s) : ∃ s', execs s group13 = .ok s' ∧ Inv c 14 s' := by
  refine ⟨_, (execs_append s (_ ++ loadM1 _ _ _) _).trans ((congrArg (fun x => x >>= _)
    (group_ok _ (by decide) _ 13 (by decide) s h.stat.r13)).trans ((bind_ok _ _).trans
      (loadCS_ok _ (by exact h.stat.r15) 1 (by decide)))), ?_⟩
  have hw0 : s.x .x2 = msgv (sched c.M) (4 * 13) := h.w0 (by decide) (by decide)
  have hw1 : s.x .x3 = _ := h.w1 (by decide) (by decide)
  have hw2 : s.x .x4 = _ := h.w2 (by decide) (by decide)
  have hw3 : s.x .x1 = _ := h.w3 (by decide) (by decide)
  have he : s.x .x6 = _ := h.e (by decide)
  have hn : sha1nexte (s.x .x6) (s.x .x2) = _ :=
    (congr (congrArg sha1nexte he) hw0).trans (nexte_eq 12 (sched c.M) c.H)
  have hr := rnds4_eq 13 (by decide) (sched c.M) c.H
  have hx0 := (congr (congrArg (sha1rnds4 2) h.x0) hn).trans hr
  exact {
    stat := { h.stat with cs0 := fun i => (put5_other _ _ _ _ _ (by simp <;> omega)).trans (h.stat.cs0 i) }
    x0 := hx0
    e0 := fun h => by omega
    e := fun _ => h.x0
    w0 := fun _ _ => (congr (congrArg sha1msg2 hw1) hw0).trans (msg_eq c.M (4 * 10))
    w1 := fun _ _ => congr (congrArg (Vec.map2 (· ^^^ ·)) hw2) hw0
    w2 := fun _ _ => congr (congrArg sha1msg1 hw3) hw0
    w3 := fun _ _ => hw0
    m1 := fun i hi => by
      have := put_m1 s.mem.m1 (sched c.M) 13 h.m1 i hi
      rw [← hw0] at this; exact this
    r12 := fun h => by omega
    cs1 := fun _ i => by
      have := put5_same s.mem.cs 5 (steps (sched c.M) 56 c.H) i (by omega)
      rw [show abcd (steps (sched c.M) 56 c.H) = _ from hx0.symm, ← h.r12 (by decide)] at this; exact this
    cs2 := fun h => by omega }

theorem g14_ok (c : Ctx) (s : St) (h : Inv c 14 s) : ∃ s', execs s group14 = .ok s' ∧ Inv c 15 s' := by
  refine ⟨_, (execs_append s (_ ++ loadM1 _ _ _) _).trans ((congrArg (fun x => x >>= _)
    (group_ok _ (by decide) _ 14 (by decide) s h.stat.r13)).trans ((bind_ok _ _).trans (execs_v _ _ (by decide)))), ?_⟩
  have hw0 : s.x .x3 = msgv (sched c.M) (4 * 14) := h.w0 (by decide) (by decide)
  have hw1 : s.x .x4 = _ := h.w1 (by decide) (by decide)
  have hw2 : s.x .x1 = _ := h.w2 (by decide) (by decide)
  have hw3 : s.x .x2 = _ := h.w3 (by decide) (by decide)
  have he : s.x .x5 = _ := h.e (by decide)
  have hn : sha1nexte (s.x .x5) (s.x .x3) = _ :=
    (congr (congrArg sha1nexte he) hw0).trans (nexte_eq 13 (sched c.M) c.H)
  have hr := rnds4_eq 14 (by decide) (sched c.M) c.H
  have hx0 := (congr (congrArg (sha1rnds4 2) h.x0) hn).trans hr
  exact {
    stat := { h.stat with }
    x0 := hx0
    e0 := fun h => by omega
    e := fun _ => h.x0
    w0 := fun _ _ => (congr (congrArg sha1msg2 hw1) hw0).trans (msg_eq c.M (4 * 11))
    w1 := fun _ _ => congr (congrArg (Vec.map2 (· ^^^ ·)) hw2) hw0
    w2 := fun _ _ => congr (congrArg sha1msg1 hw3) hw0
    w3 := fun _ _ => hw0
    m1 := fun i hi => by
      have := put_m1 s.mem.m1 (sched c.M) 14 h.m1 i hi
      rw [← hw0] at this; exact this
    r12 := fun _ => (congrArg (fun v : Vec => rol 30 v.l3) hx0).trans (e4 (sched c.M) 60 c.H).symm
    cs1 := fun _ => h.cs1 (by decide)
    cs2 := fun h => by omega }

theorem g15_ok (c : Ctx) (s : St) (h : Inv c 15 s) : ∃ s', execs s group15 = .ok s' ∧ Inv c 16 s' := by
  refine ⟨_, (execs_append s (_ ++ loadM1 _ _ _) _).trans ((congrArg (fun x => x >>= _)
    (group_ok _ (by decide) _ 15 (by decide) s h.stat.r13)).trans ((bind_ok _ _).trans
      (loadCS_ok _ (by exact h.stat.r15) 2 (by decide)))), ?_⟩
  have hw0 : s.x .x4 = msgv (sched c.M) (4 * 15) := h.w0 (by decide) (by decide)
  have hw1 : s.x .x1 = _ := h.w1 (by decide) (by decide)
  have hw2 : s.x .x2 = _ := h.w2 (by decide) (by decide)
  have hw3 : s.x .x3 = _ := h.w3 (by decide) (by decide)
  have he : s.x .x6 = _ := h.e (by decide)
  have hn : sha1nexte (s.x .x6) (s.x .x4) = _ :=
    (congr (congrArg sha1nexte he) hw0).trans (nexte_eq 14 (sched c.M) c.H)
  have hr := rnds4_eq 15 (by decide) (sched c.M) c.H
  have hx0 := (congr (congrArg (sha1rnds4 3) h.x0) hn).trans hr
  exact {
    stat := { h.stat with cs0 := fun i => (put5_other _ _ _ _ _ (by simp <;> omega)).trans (h.stat.cs0 i) }
    x0 := hx0
    e0 := fun h => by omega
    e := fun _ => h.x0
    w0 := fun _ _ => (congr (congrArg sha1msg2 hw1) hw0).trans (msg_eq c.M (4 * 12))
    w1 := fun _ _ => congr (congrArg (Vec.map2 (· ^^^ ·)) hw2) hw0
    w2 := fun _ _ => congr (congrArg sha1msg1 hw3) hw0
    w3 := fun _ _ => hw0
    m1 := fun i hi => by
      have := put_m1 s.mem.m1 (sched c.M) 15 h.m1 i hi
      rw [← hw0] at this; exact this
    r12 := fun h => by omega
    cs1 := fun _ i => (put5_other _ _ _ _ _ (by simp <;> omega)).trans (h.cs1 (by decide) i)
    cs2 := fun _ i => by
      have := put5_same s.mem.cs 10 (steps (sched c.M) 64 c.H) i (by omega)
      rw [show abcd (steps (sched c.M) 64 c.H) = _ from hx0.symm, ← h.r12 (by decide)] at this; exact this }

theorem g16_ok (c : Ctx) (s : St) (h : Inv c 16 s) : ∃ s', execs s group16 = .ok s' ∧ Inv c 17 s' := by
  refine ⟨_, group_ok _ (by decide) _ 16 (by decide) s h.stat.r13, ?_⟩
  have hw0 : s.x .x1 = msgv (sched c.M) (4 * 16) := h.w0 (by decide) (by decide)
  have hw1 : s.x .x2 = _ := h.w1 (by decide) (by decide)
  have hw2 : s.x .x3 = _ := h.w2 (by decide) (by decide)
  have hw3 : s.x .x4 = _ := h.w3 (by decide) (by decide)
  have he : s.x .x5 = _ := h.e (by decide)
  have hn : sha1nexte (s.x .x5) (s.x .x1) = _ :=
    (congr (congrArg sha1nexte he) hw0).trans (nexte_eq 15 (sched c.M) c.H)
  have hr := rnds4_eq 16 (by decide) (sched c.M) c.H
  have hx0 := (congr (congrArg (sha1rnds4 3) h.x0) hn).trans hr
  exact {
    stat := { h.stat with }
    x0 := hx0
    e0 := fun h => by omega
    e := fun _ => h.x0
    w0 := fun _ _ => (congr (congrArg sha1msg2 hw1) hw0).trans (msg_eq c.M (4 * 13))
    w1 := fun _ _ => congr (congrArg (Vec.map2 (· ^^^ ·)) hw2) hw0
    w2 := fun _ _ => congr (congrArg sha1msg1 hw3) hw0
    w3 := fun _ h => by omega
    m1 := fun i hi => by
      have := put_m1 s.mem.m1 (sched c.M) 16 h.m1 i hi
      rw [← hw0] at this; exact this
    r12 := fun h => by omega
    cs1 := fun _ => h.cs1 (by decide)
    cs2 := fun _ => h.cs2 (by decide) }

theorem g17_ok (c : Ctx) (s : St) (h : Inv c 17 s) : ∃ s', execs s group17 = .ok s' ∧ Inv c 18 s' := by
  refine ⟨_, group_ok _ (by decide) _ 17 (by decide) s h.stat.r13, ?_⟩
  have hw0 : s.x .x2 = msgv (sched c.M) (4 * 17) := h.w0 (by decide) (by decide)
  have hw1 : s.x .x3 = _ := h.w1 (by decide) (by decide)
  have hw2 : s.x .x4 = _ := h.w2 (by decide) (by decide)
  have he : s.x .x6 = _ := h.e (by decide)
  have hn : sha1nexte (s.x .x6) (s.x .x2) = _ :=
    (congr (congrArg sha1nexte he) hw0).trans (nexte_eq 16 (sched c.M) c.H)
  have hr := rnds4_eq 17 (by decide) (sched c.M) c.H
  have hx0 := (congr (congrArg (sha1rnds4 3) h.x0) hn).trans hr
  exact {
    stat := { h.stat with }
    x0 := hx0
    e0 := fun h => by omega
    e := fun _ => h.x0
    w0 := fun _ _ => (congr (congrArg sha1msg2 hw1) hw0).trans (msg_eq c.M (4 * 14))
    w1 := fun _ _ => congr (congrArg (Vec.map2 (· ^^^ ·)) hw2) hw0
    w2 := fun _ h => by omega
    w3 := fun _ h => by omega
    m1 := fun i hi => by
      have := put_m1 s.mem.m1 (sched c.M) 17 h.m1 i hi
      rw [← hw0] at this; exact this
    r12 := fun h => by omega
    cs1 := fun _ => h.cs1 (by decide)
    cs2 := fun _ => h.cs2 (by decide) }

theorem g18_ok (c : Ctx) (s : St) (h : Inv c 18 s) : ∃ s', execs s group18 = .ok s' ∧ Inv c 19 s' := by
  refine ⟨_, group_ok _ (by decide) _ 18 (by decide) s h.stat.r13, ?_⟩
  have hw0 : s.x .x3 = msgv (sched c.M) (4 * 18) := h.w0 (by decide) (by decide)
  have hw1 : s.x .x4 = _ := h.w1 (by decide) (by decide)
  have he : s.x .x5 = _ := h.e (by decide)
  have hn : sha1nexte (s.x .x5) (s.x .x3) = _ :=
    (congr (congrArg sha1nexte he) hw0).trans (nexte_eq 17 (sched c.M) c.H)
  have hr := rnds4_eq 18 (by decide) (sched c.M) c.H
  have hx0 := (congr (congrArg (sha1rnds4 3) h.x0) hn).trans hr
  exact {
    stat := { h.stat with }
    x0 := hx0
    e0 := fun h => by omega
    e := fun _ => h.x0
    w0 := fun _ _ => (congr (congrArg sha1msg2 hw1) hw0).trans (msg_eq c.M (4 * 15))
    w1 := fun _ h => by omega
    w2 := fun _ h => by omega
    w3 := fun _ h => by omega
    m1 := fun i hi => by
      have := put_m1 s.mem.m1 (sched c.M) 18 h.m1 i hi
      rw [← hw0] at this; exact this
    r12 := fun h => by omega
    cs1 := fun _ => h.cs1 (by decide)
    cs2 := fun _ => h.cs2 (by decide) }

theorem g19_ok (c : Ctx) (s : St) (h : Inv c 19 s) : ∃ s', execs s group19 = .ok s' ∧ Inv c 20 s' := by
  refine ⟨_, group_ok _ (by decide) _ 19 (by decide) s h.stat.r13, ?_⟩
  have hw0 : s.x .x4 = msgv (sched c.M) (4 * 19) := h.w0 (by decide) (by decide)
  have he : s.x .x6 = _ := h.e (by decide)
  have hn : sha1nexte (s.x .x6) (s.x .x4) = _ :=
    (congr (congrArg sha1nexte he) hw0).trans (nexte_eq 18 (sched c.M) c.H)
  have hr := rnds4_eq 19 (by decide) (sched c.M) c.H
  have hx0 := (congr (congrArg (sha1rnds4 3) h.x0) hn).trans hr
  exact {
    stat := { h.stat with }
    x0 := hx0
    e0 := fun h => by omega
    e := fun _ => h.x0
    w0 := fun _ h => by omega
    w1 := fun _ h => by omega
    w2 := fun _ h => by omega
    w3 := fun _ h => by omega
    m1 := fun i hi => by
      have := put_m1 s.mem.m1 (sched c.M) 19 h.m1 i hi
      rw [← hw0] at this; exact this
    r12 := fun h => by omega
    cs1 := fun _ => h.cs1 (by decide)
    cs2 := fun _ => h.cs2 (by decide) }

end Verif.Model.Amd64
