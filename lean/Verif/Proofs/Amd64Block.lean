import Verif.Proofs.Amd64Run
import Verif.Proofs.Simd

/-! sha1cdblock_amd64.s on one chunk. -/

namespace Verif.Model.Amd64
open Verif Verif.Model Verif.Spec

theorem bit15 : ∀ i : Fin 64, (15 : Word64).getLsbD i = decide (i.val < 4) := by decide

theorem align16 (v : Word64) : v &&& ~~~(15 : Word64) = (v >>> 4) <<< 4 := by
  ext i hi
  have := bit15 ⟨i, hi⟩
  simp only [BitVec.getLsbD_eq_getElem hi] at this
  rw [BitVec.getElem_and, BitVec.getElem_not, this, BitVec.getElem_shiftLeft]
  by_cases h : i < 4
  · simp [h]
  · simp [h]
    rw [BitVec.getLsbD_eq_getElem (by omega)]
    congr 1; omega

theorem align16_toNat (v : Word64) : (v &&& ~~~(15 : Word64)).toNat = v.toNat / 16 * 16 := by
  rw [align16, BitVec.toNat_shiftLeft, BitVec.toNat_ushiftRight, Nat.shiftRight_eq_div_pow, Nat.shiftLeft_eq]
  have := v.isLt
  omega

/-- The aligned save area for a frame at `f`. -/
def saveArea (f : Word64) : Word64 := (f + 15) &&& ~~~(15 : Word64)

theorem slot_ok (s : St) (f : Word64) (hs : s.frame = f) (hf : f.toNat + 80 ≤ 2 ^ 64) :
    s.slot (saveArea f) = .ok (saveArea f) ∧ s.slot (saveArea f + 16) = .ok (saveArea f + 16) := by
  have h1 : (saveArea f).toNat = (f.toNat + 15) / 16 * 16 := by
    unfold saveArea
    rw [align16_toNat, BitVec.toNat_add]
    show (f.toNat + 15) % 2 ^ 64 / 16 * 16 = _
    rw [Nat.mod_eq_of_lt (by omega)]
  have h2 : (saveArea f + 16).toNat = (f.toNat + 15) / 16 * 16 + 16 := by
    rw [BitVec.toNat_add, h1]
    show (_ + 16) % 2 ^ 64 = _
    rw [Nat.mod_eq_of_lt (by omega)]
  unfold St.slot
  rw [h1, h2, hs]
  refine ⟨if_pos ⟨by omega, by omega, by omega⟩, if_pos ⟨by omega, by omega, by omega⟩⟩

/-- After the argument loads and `setup`. -/
structure Ready (c : Ctx) (s : St) : Prop where
  r13 : s.g .r13 = .ptr .m1 0
  r15 : s.g .r15 = .ptr .cs 0
  si : s.g .si = .ptr .p 0
  dx : s.g .dx = .ptr .p 64
  di : s.g .di = .ptr .h 0
  ax : s.g .ax = .ptr .stack c.A
  x7 : s.x .x7 = shuffleMask
  p : s.mem.p = c.p
  x0 : s.x .x0 = abcd c.H
  x5 : s.x .x5 = ⟨c.H.e, 0, 0, 0⟩
  slot0 : s.slot c.A = .ok c.A
  slot1 : s.slot (c.A + 16) = .ok (c.A + 16)

theorem setup_ok (s : St) (H : Regs) (p : List Byte) (f : Word64)
    (hdi : s.g .di = .ptr .h 0) (hsi : s.g .si = .ptr .p 0) (hdx : s.g .dx = .int 64)
    (h13 : s.g .r13 = .ptr .m1 0) (h15 : s.g .r15 = .ptr .cs 0) (hsp : s.g .sp = .ptr .stack f)
    (hh : s.mem.h = flat5 H) (hp : s.mem.p = p) (hfr : s.frame = f) (hf : f.toNat + 80 ≤ 2 ^ 64) :
    ∃ s', execs s setup = .ok s' ∧ Ready ⟨toBlock p, H, p, saveArea f, ⟨H.e, 0, 0, 0⟩⟩ s' := by
  have e16 : (0 : Word64) + BitVec.ofNat 64 16 = 16 := by decide
  have l4 : rdW s.mem.h ((0 : Word64) + BitVec.ofNat 64 16).toNat = .ok H.e := by
    rw [hh]; exact rdW_ok (flat5 H) 4 (by decide)
  have l0 : rdV s.mem.h ((0 : Word64) + BitVec.ofNat 64 0).toNat = .ok ⟨H.d, H.c, H.b, H.a⟩ := by
    rw [hh]
    show rdV (flat5 H) 0 = _
    unfold rdV
    rw [show rdW (flat5 H) 0 = _ from rdW_ok (flat5 H) 0 (by decide),
      show rdW (flat5 H) (0 + 4) = _ from rdW_ok (flat5 H) 1 (by decide),
      show rdW (flat5 H) (0 + 8) = _ from rdW_ok (flat5 H) 2 (by decide),
      show rdW (flat5 H) (0 + 12) = _ from rdW_ok (flat5 H) 3 (by decide)]
    rfl
  refine ⟨?w, ?h, ?i⟩
  case h =>
    simp only [setup, execs, exec, bind_ok, pure_ok, St.setG, hdx, hsi, hsp, Val.add, reduceCtorEq, if_false,
      if_true, St.loadL, hdi, l4, St.setX, St.load, l0]
    rfl
  case i =>
    refine ⟨?_, ?_, ?_, ?_, ?_, ?_, ?_, ?_, ?_, ?_, ?_, ?_⟩
    · exact h13
    · exact h15
    · exact hsi
    · rfl
    · exact hdi
    · rfl
    · rfl
    · exact hp
    · rfl
    · have hu : upperMask = ⟨0xffffffff, 0, 0, 0⟩ := by decide
      show Vec.map2 (· &&& ·) ⟨H.e, (s.x .x5).l2, (s.x .x5).l1, (s.x .x5).l0⟩ upperMask = _
      have ho : H.e &&& (0xffffffff : Word) = H.e := by
        rw [show (0xffffffff : Word) = BitVec.allOnes 32 by decide, BitVec.and_allOnes]
      have hz : ∀ x : Word, x &&& (0 : Word) = 0 := fun x => BitVec.and_zero
      rw [hu]
      simp only [Vec.map2, ho, hz]
    · exact (slot_ok _ f hfr hf).1
    · exact (slot_ok _ f hfr hf).2

theorem store_stack (s : St) (v : Vec) (off : Nat) (a b : Word64) (h : s.g .ax = .ptr .stack a)
    (hb : s.slot (a + BitVec.ofNat 64 off) = .ok b) : s.storeA v off .ax =
    .ok { s with mem := { s.mem with stack := fun q => if q = b then v else s.mem.stack q } } := by
  simp only [St.storeA, St.store, h, hb]
  rfl

theorem save_ok (c : Ctx) (hc : c.Ok) (s : St) (h : Ready c s) : ∃ s', execs s save = .ok s' ∧ Inv c 0 s' := by
  have h0 : s.slot (c.A + BitVec.ofNat 64 0) = .ok c.A := by
    rw [show c.A + BitVec.ofNat 64 0 = c.A from BitVec.add_zero _]; exact h.slot0
  have h1 : s.slot (c.A + BitVec.ofNat 64 16) = .ok (c.A + 16) := h.slot1
  have hne : c.A ≠ c.A + 16 := by
    intro e
    have := congrArg BitVec.toNat e
    rw [BitVec.toNat_add] at this
    change _ = (_ + 16) % 2 ^ 64 at this
    omega
  have s0 := store_stack s (s.x .x5) 0 c.A c.A h.ax h0
  have s1 := store_stack { s with mem := { s.mem with stack := fun q => if q = c.A then s.x .x5 else s.mem.stack q } }
    (s.x .x0) 16 c.A (c.A + 16) h.ax h1
  refine ⟨?w, ?h, ?i⟩
  case h =>
    unfold save
    rw [execs_append]
    simp only [execs, exec, bind_ok, pure_ok, s0, s1]
    refine loadCS_ok _ ?_ 0 (by decide)
    exact h.r15
  case i =>
    exact {
      stat := {
        r13 := h.r13
        r15 := h.r15
        si := h.si
        dx := h.dx
        di := h.di
        ax := h.ax
        x7 := h.x7
        p := h.p
        saveE := (if_neg hne).trans ((if_pos rfl).trans (h.x5.trans hc.E.symm))
        saveH := (if_pos rfl).trans h.x0
        slot0 := h.slot0
        slot1 := h.slot1
        cs0 := fun i => by
          have := put5_same s.mem.cs 0 c.H i (by omega)
          rw [← h.x0, show c.H.e = (s.x .x5).l3 by rw [h.x5]] at this
          exact (congrArg (put5 s.mem.cs 0 (pshufd 0x1b (s.x .x0)) (s.x .x5).l3)
            (Fin.ext (Nat.zero_add _).symm)).trans this }
      x0 := h.x0
      e0 := fun _ => h.x5.trans hc.E.symm
      e := fun h => by omega
      w0 := fun h => by omega
      w1 := fun h => by omega
      w2 := fun h => by omega
      w3 := fun h => by omega
      m1 := fun i h => by omega
      r12 := fun h => by omega
      cs1 := fun h => by omega
      cs2 := fun h => by omega }

theorem execs_seq {s t u : St} {a b : List Instr} (ha : execs s a = .ok t) (hb : execs t b = .ok u) :
    execs s (a ++ b) = .ok u := by rw [execs_append, ha, bind_ok, hb]

/-- What is left in the machine after the loop. -/
structure Done (c : Ctx) (s : St) : Prop where
  si : s.g .si = .ptr .p 64
  dx : s.g .dx = .ptr .p 64
  di : s.g .di = .ptr .h 0
  x0 : s.x .x0 = abcd (compress c.H c.M)
  x5 : (s.x .x5).l3 = (compress c.H c.M).e
  m1 : ∀ i : Fin 80, s.mem.m1 i = sched c.M i
  cs0 : ∀ i : Fin 5, s.mem.cs ⟨i, by omega⟩ = flat5 c.H i
  cs1 : ∀ i : Fin 5, s.mem.cs ⟨5 + i, by omega⟩ = flat5 (steps (sched c.M) 56 c.H) i
  cs2 : ∀ i : Fin 5, s.mem.cs ⟨10 + i, by omega⟩ = flat5 (steps (sched c.M) 64 c.H) i

theorem load_stack (s : St) (off : Nat) (a b : Word64) (h : s.g .ax = .ptr .stack a)
    (hb : s.slot (a + BitVec.ofNat 64 off) = .ok b) : s.loadA off .ax = .ok (s.mem.stack b) := by
  simp only [St.loadA, St.load, h, hb]
  rfl

theorem end_ok (c : Ctx) (hc : c.Ok) (s : St) (h : Inv c 20 s) :
    ∃ s', execs s (addBack ++ advance) = .ok s' ∧ Done c s' := by
  have h0 : s.slot (c.A + BitVec.ofNat 64 0) = .ok c.A := by
    rw [show c.A + BitVec.ofNat 64 0 = c.A from BitVec.add_zero _]; exact h.stat.slot0
  have h1 : s.slot (c.A + BitVec.ofNat 64 16) = .ok (c.A + 16) := h.stat.slot1
  have l0 := (load_stack s 0 c.A c.A h.stat.ax h0).trans (congrArg _ h.stat.saveE)
  have l1 := (load_stack (s.setX .x5 (sha1nexte (s.x .x5) c.E)) 16 c.A (c.A + 16) h.stat.ax h1).trans
    (congrArg _ h.stat.saveH)
  have hx5 : s.x .x5 = _ := h.e (by decide)
  refine ⟨?w, ?h, ?i⟩
  case h =>
    simp only [addBack, advance, List.cons_append, List.nil_append, execs, exec, bind_ok, pure_ok, l0,
      St.setX, St.setG]
    simp only [St.setX] at l1
    simp only [l1, bind_ok, h.stat.si, Val.add, pure_ok]
    rfl
  case i =>
    exact {
      si := rfl
      dx := h.stat.dx
      di := h.stat.di
      x0 := (congrArg (fun v => Vec.map2 (· + ·) v (abcd c.H)) h.x0).trans (by
        show _ = abcd (compress c.H c.M)
        simp only [compress, abcd, Vec.map2, Vec.mk.injEq]
        refine ⟨?_, ?_, ?_, ?_⟩ <;> first | rfl | exact BitVec.add_comm _ _)
      x5 := by
        show (sha1nexte (s.x .x5) c.E).l3 = _
        rw [hx5, hc.E]
        have := e4 (sched c.M) 76 c.H
        simp only [compress, sha1nexte, abcd, rol_eq]
        first
          | exact congrArg (fun x => c.H.e + x) this.symm
          | exact (BitVec.add_comm _ _).trans (congrArg (fun x => x + c.H.e) this.symm)
      m1 := fun i => h.m1 i (by omega)
      cs0 := h.stat.cs0
      cs1 := h.cs1 (by decide)
      cs2 := h.cs2 (by decide) }

theorem body_ok (c : Ctx) (hc : c.Ok) (s : St) (h : Ready c s) : ∃ s', execs s body = .ok s' ∧ Done c s' := by
  obtain ⟨s, es, h⟩ := save_ok c hc s h
  obtain ⟨s, e0, h⟩ := g0_ok c hc s h
  obtain ⟨s, e1, h⟩ := g1_ok c hc s h
  obtain ⟨s, e2, h⟩ := g2_ok c hc s h
  obtain ⟨s, e3, h⟩ := g3_ok c hc s h
  obtain ⟨s, e4, h⟩ := g4_ok c s h
  obtain ⟨s, e5, h⟩ := g5_ok c s h
  obtain ⟨s, e6, h⟩ := g6_ok c s h
  obtain ⟨s, e7, h⟩ := g7_ok c s h
  obtain ⟨s, e8, h⟩ := g8_ok c s h
  obtain ⟨s, e9, h⟩ := g9_ok c s h
  obtain ⟨s, e10, h⟩ := g10_ok c s h
  obtain ⟨s, e11, h⟩ := g11_ok c s h
  obtain ⟨s, e12, h⟩ := g12_ok c s h
  obtain ⟨s, e13, h⟩ := g13_ok c s h
  obtain ⟨s, e14, h⟩ := g14_ok c s h
  obtain ⟨s, e15, h⟩ := g15_ok c s h
  obtain ⟨s, e16, h⟩ := g16_ok c s h
  obtain ⟨s, e17, h⟩ := g17_ok c s h
  obtain ⟨s, e18, h⟩ := g18_ok c s h
  obtain ⟨s, e19, h⟩ := g19_ok c s h
  obtain ⟨s, ea, h⟩ := end_ok c hc s h
  refine ⟨s, ?_, h⟩
  have := execs_seq es e0
  have := execs_seq this e1
  have := execs_seq this e2
  have := execs_seq this e3
  have := execs_seq this e4
  have := execs_seq this e5
  have := execs_seq this e6
  have := execs_seq this e7
  have := execs_seq this e8
  have := execs_seq this e9
  have := execs_seq this e10
  have := execs_seq this e11
  have := execs_seq this e12
  have := execs_seq this e13
  have := execs_seq this e14
  have := execs_seq this e15
  have := execs_seq this e16
  have := execs_seq this e17
  have := execs_seq this e18
  have := execs_seq this e19
  have := execs_seq this ea
  rw [← List.append_assoc] at this
  exact this

theorem writeBack_ok (c : Ctx) (s : St) (h : Done c s) : ∃ s', execs s writeBack = .ok s' ∧
    unflat5 s'.mem.h = compress c.H c.M ∧ s'.mem.m1 = (fun i : Fin 80 => sched c.M i) ∧
    unflat15 s'.mem.cs = fun j => match j with
      | 0 => c.H
      | 1 => steps (sched c.M) 56 c.H
      | 2 => steps (sched c.M) 64 c.H := by
  refine ⟨?w, ?h, ?i⟩
  case h =>
    simp only [writeBack, execs, exec, bind_ok, pure_ok, St.setX, St.store, h.di]
    rw [wrV_ok _ _ _ (by decide) (by decide)]
    simp only [bind_ok, St.storeL, h.di, wrW]
    rw [dif_pos (by decide)]
    simp only [bind_ok, pure_ok]
    rfl
  case i =>
    refine ⟨?_, funext h.m1, ?_⟩
    · show Regs.mk (s.x .x0).l3 (s.x .x0).l2 (s.x .x0).l1 (s.x .x0).l0 (s.x .x5).l3 = _
      rw [h.x0, h.x5]
      rfl
    · funext j
      match j with
      | 0 => exact unflat15_at _ 0 _ fun i => (congrArg s.mem.cs (Fin.ext (Nat.zero_add _))).trans (h.cs0 i)
      | 1 => exact unflat15_at _ 1 _ h.cs1
      | 2 => exact unflat15_at _ 2 _ h.cs2

/-- From the argument loads to the end. -/
theorem run_ok (s : St) (H : Regs) (p : List Byte) (hpl : p.length = 64) (f : Word64)
    (hdi : s.g .di = .ptr .h 0) (hsi : s.g .si = .ptr .p 0) (hdx : s.g .dx = .int 64)
    (h13 : s.g .r13 = .ptr .m1 0) (h15 : s.g .r15 = .ptr .cs 0) (hsp : s.g .sp = .ptr .stack f)
    (hh : s.mem.h = flat5 H) (hp : s.mem.p = p) (hfr : s.frame = f) (hf : f.toNat + 80 ≤ 2 ^ 64) :
    ∃ s', (∀ k : St → GoM AsmOut, (do
      let s ← execs s setup
      let s ← loop 1 s
      let s ← execs s writeBack
      k s) = k s') ∧
    unflat5 s'.mem.h = compress H (toBlock p) ∧ s'.mem.m1 = (fun i : Fin 80 => sched (toBlock p) i) ∧
    unflat15 s'.mem.cs = fun j => match j with
      | 0 => H
      | 1 => steps (sched (toBlock p)) 56 H
      | 2 => steps (sched (toBlock p)) 64 H := by
  obtain ⟨s1, e1, h1⟩ := setup_ok s H p f hdi hsi hdx h13 h15 hsp hh hp hfr hf
  obtain ⟨s2, e2, h2⟩ := body_ok _ ⟨hpl, rfl, rfl⟩ s1 h1
  obtain ⟨s3, e3, h3⟩ := writeBack_ok _ s2 h2
  refine ⟨s3, fun k => ?_, h3⟩
  rw [e1, bind_ok, loop, e2, bind_ok, if_pos (h2.si.trans h2.dx.symm), pure_ok, bind_ok, e3, bind_ok]

/-- The block function on one 64-byte chunk: whatever the registers and the stack contain beforehand, the
hash state is compressed, `m1` receives the message schedule, and `cs` the chaining value and the states before
steps 56 and 64. -/
theorem blockAMD64_ok (s : St) (hf : s.frame.toNat + 80 ≤ 2 ^ 64) (H : Regs) (p : List Byte) (hp : p.length = 64)
    (m1 : Fin 80 → Word) (cs : Fin 3 → Regs) : blockAMD64 s H p m1 cs = .ok ⟨compress H (toBlock p),
      fun i => sched (toBlock p) i, rawCs H (toBlock p)⟩ := by
  unfold blockAMD64
  simp only [argLoads, execs, exec, bind_ok, pure_ok, hp, St.setG]
  rw [if_neg (by simp)]
  obtain ⟨s', e, h1, h2, h3⟩ := run_ok
    { s with
      mem := { s.mem with h := flat5 H, p := p, m1 := m1, cs := flat15 cs }
      plen := 64
      g := fun q => if q = .r15 then .ptr .cs 0 else if q = .r13 then .ptr .m1 0 else if q = .dx then .int 64
        else if q = .si then .ptr .p 0 else if q = .di then .ptr .h 0 else if q = .sp then .ptr .stack s.frame
        else s.g q } H p hp s.frame rfl rfl rfl rfl rfl rfl rfl rfl rfl hf
  refine (e _).trans ?_
  rw [h1, h2, h3]
  rfl

end Verif.Model.Amd64
