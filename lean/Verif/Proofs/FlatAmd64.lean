import Verif.Proofs.FlatMem
import Verif.Proofs.Amd64Block

/-! The amd64 machine with a flat memory follows the one with separate arrays. -/

namespace Verif.Model.Flat.Amd64

open Verif Verif.Model Verif.Spec
open Verif.Model.Amd64 (X G R Arg Instr St)

theorem bind_inv {α β : Type} {x : GoM α} {f : α → GoM β} {r : β} (h : (x >>= f) = .ok r) :
    ∃ a, x = .ok a ∧ f a = .ok r := by
  cases hx : x with
  | error _ => rw [hx] at h; cases h
  | ok a => rw [hx] at h; exact ⟨a, rfl, h⟩

/-- The two machines agree. -/
structure Rel (L : Layout) (m0 : FMem) (s : St) (t : FSt) : Prop where
  x : t.x = s.x
  g : ∀ r, t.g r = addr L (s.g r)
  r12 : t.r12 = s.r12
  mem : MemRel 80 L 64 m0 s.mem t.mem
  plen : s.plen = 64
  frame : s.frame = L .frame
  fp : t.fp = L .args
  sym : t.sym = symAt L
  consts : Consts 80 L m0.b

theorem Rel.setX {L : Layout} {m0 : FMem} {s : St} {t : FSt} (h : Rel L m0 s t) (r : X) (v : Vec) :
    Rel L m0 (s.setX r v) (t.setX r v) :=
  { x := by show Amd64.setV t.x r v = Amd64.setV s.x r v; rw [h.x]
    g := h.g, r12 := h.r12, mem := h.mem, plen := h.plen, frame := h.frame, fp := h.fp, sym := h.sym, consts := h.consts }

theorem Rel.setG {L : Layout} {m0 : FMem} {s : St} {t : FSt} (h : Rel L m0 s t) (r : G) (v : Val) (w : Word64)
    (hv : w = addr L v) : Rel L m0 (s.setG r v) (t.setG r w) :=
  { x := h.x
    g := fun q => by
      show (if q = r then w else t.g q) = addr L (if q = r then v else s.g q)
      split
      · exact hv
      · exact h.g q
    r12 := h.r12, mem := h.mem, plen := h.plen, frame := h.frame, fp := h.fp, sym := h.sym, consts := h.consts }

theorem Rel.setMem {L : Layout} {m0 : FMem} {s : St} {t : FSt} (h : Rel L m0 s t) {m : Mem} {fm : FMem}
    (hm : MemRel 80 L 64 m0 m fm) : Rel L m0 { s with mem := m } { t with mem := fm } :=
  { x := h.x, g := h.g, r12 := h.r12, mem := hm, plen := h.plen, frame := h.frame, fp := h.fp, sym := h.sym, consts := h.consts }

section
variable {L : Layout} {m0 : FMem} {s s' : St} {t : FSt}

theorem ea_eq (h : Rel L m0 s t) (off : Nat) (r : G) : t.ea off r = addr L (s.g r) + BitVec.ofNat 64 off := by
  unfold FSt.ea
  rw [h.g r]

theorem slot_inv {a b : Word64} (e : s.slot a = .ok b) :
    b = a ∧ a.toNat % 16 = 0 ∧ s.frame.toNat ≤ a.toNat ∧ a.toNat + 16 ≤ s.frame.toNat + 80 := by
  unfold St.slot at e
  split at e
  · cases e
    exact ⟨rfl, by assumption⟩
  · cases e

theorem load_sim (ok : L.Ok 80) (h : Rel L m0 s t) (off : Nat) (r : G) (v : Vec) (e : s.load off r = .ok v) :
    t.load off r = .ok v := by
  have key : ∃ w, t.mem.rd 16 (t.ea off r) = .ok w ∧ Vec.ofBytes w = v := by
    rw [ea_eq h]
    unfold St.load at e
    split at e
    · rename_i o hr
      rw [hr]; show ∃ w, t.mem.rd 16 (L .h + o + _) = _ ∧ _
      rw [BitVec.add_assoc]
      exact rdV_flat L _ h.mem.al .h _ (show _ ≤ 20 by decide) h.mem.h _ _ e
    · rename_i o hr
      rw [hr]; show ∃ w, t.mem.rd 16 (L .p + o + _) = _ ∧ _
      rw [BitVec.add_assoc]
      exact rdP_flat h.mem _ _ e
    · rename_i o hr
      rw [hr]; show ∃ w, t.mem.rd 16 (L .m1 + o + _) = _ ∧ _
      rw [BitVec.add_assoc]
      exact rdV_flat L _ h.mem.al .m1 _ (show _ ≤ 320 by decide) h.mem.m1 _ _ e
    · rename_i o hr
      rw [hr]; show ∃ w, t.mem.rd 16 (L .cs + o + _) = _ ∧ _
      rw [BitVec.add_assoc]
      exact rdV_flat L _ h.mem.al .cs _ (show _ ≤ 60 by decide) h.mem.cs _ _ e
    · rename_i o hr
      obtain ⟨b, e1, e2⟩ := bind_inv e
      cases e2
      obtain ⟨rfl, h16, h1, h2⟩ := slot_inv e1
      rw [hr]; show ∃ w, t.mem.rd 16 (o + _) = _ ∧ _
      rw [h.frame] at h1 h2
      exact rdS_flat ok h.mem _ h1 h2 h16
    · cases e
  obtain ⟨w, e1, e2⟩ := key
  unfold FSt.load
  rw [e1, bind_ok, e2]
  rfl

theorem store_sim (ok : L.Ok 80) (h : Rel L m0 s t) (v : Vec) (off : Nat) (r : G) (e : s.store v off r = .ok s') :
    ∃ t', t.store v off r = .ok t' ∧ Rel L m0 s' t' := by
  have key : ∃ m' fm', s' = { s with mem := m' } ∧ t.mem.wr 16 (t.ea off r) v.byte = .ok fm' ∧
      MemRel 80 L 64 m0 m' fm' := by
    rw [ea_eq h]
    unfold St.store at e
    split at e
    · rename_i o hr
      obtain ⟨f, e1, e2⟩ := bind_inv e
      cases e2
      obtain ⟨fm', e3, al, w, k⟩ := wrV_flat L ok _ h.mem.al .h rfl _ _ (show _ ≤ 20 by decide) h.mem.h _ _ e1
      rw [hr]; show ∃ m' fm', _ ∧ t.mem.wr 16 (L .h + o + _) _ = _ ∧ _
      rw [BitVec.add_assoc]
      exact ⟨_, fm', rfl, e3, h.mem.set_h ok _ al w k⟩
    · rename_i o hr
      obtain ⟨f, e1, e2⟩ := bind_inv e
      cases e2
      obtain ⟨fm', e3, al, w, k⟩ := wrV_flat L ok _ h.mem.al .m1 rfl _ _ (show _ ≤ 320 by decide) h.mem.m1 _ _ e1
      rw [hr]; show ∃ m' fm', _ ∧ t.mem.wr 16 (L .m1 + o + _) _ = _ ∧ _
      rw [BitVec.add_assoc]
      exact ⟨_, fm', rfl, e3, h.mem.set_m1 ok _ al w k⟩
    · rename_i o hr
      obtain ⟨f, e1, e2⟩ := bind_inv e
      cases e2
      obtain ⟨fm', e3, al, w, k⟩ := wrV_flat L ok _ h.mem.al .cs rfl _ _ (show _ ≤ 60 by decide) h.mem.cs _ _ e1
      rw [hr]; show ∃ m' fm', _ ∧ t.mem.wr 16 (L .cs + o + _) _ = _ ∧ _
      rw [BitVec.add_assoc]
      exact ⟨_, fm', rfl, e3, h.mem.set_cs ok _ al w k⟩
    · rename_i o hr
      obtain ⟨b, e1, e2⟩ := bind_inv e
      cases e2
      obtain ⟨rfl, h16, h1, h2⟩ := slot_inv e1
      rw [h.frame] at h1 h2
      obtain ⟨fm', e3, m⟩ := wrS_flat ok h.mem _ h1 h2 h16 v
      rw [hr]; show ∃ m' fm', _ ∧ t.mem.wr 16 (o + _) _ = _ ∧ _
      exact ⟨_, fm', rfl, e3, m⟩
    · cases e
    · cases e
  obtain ⟨m', fm', rfl, e1, hm⟩ := key
  unfold FSt.store
  rw [e1, bind_ok]
  exact ⟨_, rfl, h.setMem hm⟩

theorem stack_aligned (h : Rel L m0 s t) (off : Nat) (r : G) (o : Word64) (hr : s.g r = .ptr .stack o) (b : Word64)
    (e : s.slot (o + BitVec.ofNat 64 off) = .ok b) : (t.ea off r).toNat % 16 = 0 := by
  rw [ea_eq h, hr]
  exact (slot_inv e).2.1

theorem loadA_sim (ok : L.Ok 80) (h : Rel L m0 s t) (off : Nat) (r : G) (v : Vec) (e : s.loadA off r = .ok v) :
    t.loadA off r = .ok v := by
  unfold St.loadA at e
  split at e
  · rename_i o hr
    have e' := e
    unfold St.load at e'
    rw [hr] at e'
    obtain ⟨b, e1, _⟩ := bind_inv e'
    unfold FSt.loadA
    rw [if_pos (stack_aligned h off r o hr b e1)]
    exact load_sim ok h off r v e
  · cases e

theorem storeA_sim (ok : L.Ok 80) (h : Rel L m0 s t) (v : Vec) (off : Nat) (r : G) (e : s.storeA v off r = .ok s') :
    ∃ t', t.storeA v off r = .ok t' ∧ Rel L m0 s' t' := by
  unfold St.storeA at e
  split at e
  · rename_i o hr
    have e' := e
    unfold St.store at e'
    rw [hr] at e'
    obtain ⟨b, e1, _⟩ := bind_inv e'
    unfold FSt.storeA
    rw [if_pos (stack_aligned h off r o hr b e1)]
    exact store_sim ok h v off r e
  · cases e

theorem loadL_sim (h : Rel L m0 s t) (off : Nat) (r : G) (v : Word) (e : s.loadL off r = .ok v) :
    t.loadL off r = .ok v := by
  have key : ∃ w, t.mem.rd 4 (t.ea off r) = .ok w ∧ leWord w = v := by
    rw [ea_eq h]
    unfold St.loadL at e
    split at e
    · rename_i o hr
      rw [hr]; show ∃ w, t.mem.rd 4 (L .h + o + _) = _ ∧ _
      rw [BitVec.add_assoc]
      exact rdW_flat L _ h.mem.al .h _ (show _ ≤ 20 by decide) h.mem.h _ _ e
    · rename_i o hr
      rw [hr]; show ∃ w, t.mem.rd 4 (L .m1 + o + _) = _ ∧ _
      rw [BitVec.add_assoc]
      exact rdW_flat L _ h.mem.al .m1 _ (show _ ≤ 320 by decide) h.mem.m1 _ _ e
    · rename_i o hr
      rw [hr]; show ∃ w, t.mem.rd 4 (L .cs + o + _) = _ ∧ _
      rw [BitVec.add_assoc]
      exact rdW_flat L _ h.mem.al .cs _ (show _ ≤ 60 by decide) h.mem.cs _ _ e
    · cases e
  obtain ⟨w, e1, e2⟩ := key
  unfold FSt.loadL
  rw [e1, bind_ok, e2]
  rfl

theorem storeL_sim (ok : L.Ok 80) (h : Rel L m0 s t) (v : Word) (off : Nat) (r : G) (e : s.storeL v off r = .ok s') :
    ∃ t', t.storeL v off r = .ok t' ∧ Rel L m0 s' t' := by
  have key : ∃ m' fm', s' = { s with mem := m' } ∧ t.mem.wr 4 (t.ea off r) (wordBytes v) = .ok fm' ∧
      MemRel 80 L 64 m0 m' fm' := by
    rw [ea_eq h]
    unfold St.storeL at e
    split at e
    · rename_i o hr
      obtain ⟨f, e1, e2⟩ := bind_inv e
      cases e2
      obtain ⟨fm', e3, al, w, k⟩ := wrW_flat L ok _ h.mem.al .h rfl _ _ (show _ ≤ 20 by decide) h.mem.h _ _ e1
      rw [hr]; show ∃ m' fm', _ ∧ t.mem.wr 4 (L .h + o + _) _ = _ ∧ _
      rw [BitVec.add_assoc]
      exact ⟨_, fm', rfl, e3, h.mem.set_h ok _ al w k⟩
    · rename_i o hr
      obtain ⟨f, e1, e2⟩ := bind_inv e
      cases e2
      obtain ⟨fm', e3, al, w, k⟩ := wrW_flat L ok _ h.mem.al .m1 rfl _ _ (show _ ≤ 320 by decide) h.mem.m1 _ _ e1
      rw [hr]; show ∃ m' fm', _ ∧ t.mem.wr 4 (L .m1 + o + _) _ = _ ∧ _
      rw [BitVec.add_assoc]
      exact ⟨_, fm', rfl, e3, h.mem.set_m1 ok _ al w k⟩
    · rename_i o hr
      obtain ⟨f, e1, e2⟩ := bind_inv e
      cases e2
      obtain ⟨fm', e3, al, w, k⟩ := wrW_flat L ok _ h.mem.al .cs rfl _ _ (show _ ≤ 60 by decide) h.mem.cs _ _ e1
      rw [hr]; show ∃ m' fm', _ ∧ t.mem.wr 4 (L .cs + o + _) _ = _ ∧ _
      rw [BitVec.add_assoc]
      exact ⟨_, fm', rfl, e3, h.mem.set_cs ok _ al w k⟩
    · cases e
  obtain ⟨m', fm', rfl, e1, hm⟩ := key
  unfold FSt.storeL
  rw [e1, bind_ok]
  exact ⟨_, rfl, h.setMem hm⟩

theorem arg_sim (h : Rel L m0 s t) (a : Arg) (d : G) (v : Val) (hv : argVal L 64 (argOff a) = addr L v)
    (e' : .ok (s.setG d v) = (.ok s' : GoM St)) :
    ∃ t', exec t (.movqArg a d) = .ok t' ∧ Rel L m0 s' t' := by
  cases e'
  obtain ⟨w, e1, e2⟩ := arg_flat h.mem (argOff a)
  unfold exec
  simp only [h.fp, e1, bind_ok]
  exact ⟨_, rfl, h.setG d v _ (e2.trans hv)⟩

theorem loadC_sim (ok : L.Ok 80) (h : Rel L m0 s t) (c : Model.Amd64.Sym) : t.loadC c = .ok c.val := by
  have al := h.consts.aligned (by decide)
  unfold FSt.loadC
  rw [h.sym]
  cases c with
  | upperMask =>
    obtain ⟨v, e1, e2⟩ := const_flat ok h.consts h.mem .k0 (.inl rfl) rfl
    rw [show symAt L .upperMask = L .k0 from rfl, if_pos al.1, e1, bind_ok, e2]
    rfl
  | shuffleMask =>
    obtain ⟨v, e1, e2⟩ := const_flat ok h.consts h.mem .k1 (.inr rfl) rfl
    rw [show symAt L .shuffleMask = L .k1 from rfl, if_pos al.2, e1, bind_ok, e2]
    rfl

/-- One instruction. -/
theorem exec_sim (ok : L.Ok 80) (h : Rel L m0 s t) (i : Instr) (e : Model.Amd64.exec s i = .ok s') :
    ∃ t', exec t i = .ok t' ∧ Rel L m0 s' t' := by
  cases i with
  | movqArg a d =>
    cases a with
    | hbase => exact arg_sim h _ d (.ptr .h 0) (BitVec.add_zero _).symm e
    | pbase => exact arg_sim h _ d (.ptr .p 0) (BitVec.add_zero _).symm e
    | plen => exact arg_sim h _ d (.int s.plen) h.plen.symm e
    | m1base => exact arg_sim h _ d (.ptr .m1 0) (BitVec.add_zero _).symm e
    | csbase => exact arg_sim h _ d (.ptr .cs 0) (BitVec.add_zero _).symm e
  | movqImm v d => cases e; exact ⟨_, rfl, h.setG d _ _ rfl⟩
  | addq a d =>
    obtain ⟨v, e1, e2⟩ := bind_inv e
    cases e2
    exact ⟨_, rfl, h.setG d _ _ (by rw [h.g, h.g, addr_add L _ _ _ e1])⟩
  | addqImm w d =>
    obtain ⟨v, e1, e2⟩ := bind_inv e
    cases e2
    exact ⟨_, rfl, h.setG d _ _ (by rw [h.g, addr_add L _ _ _ e1]; rfl)⟩
  | leaq off a d =>
    obtain ⟨v, e1, e2⟩ := bind_inv e
    cases e2
    exact ⟨_, rfl, h.setG d _ _ (by rw [ea_eq h, addr_add L _ _ _ e1]; rfl)⟩
  | notq d =>
    unfold Model.Amd64.exec at e
    simp only at e
    split at e
    · rename_i v hv
      cases e
      exact ⟨_, rfl, h.setG d _ _ (by rw [h.g, hv]; rfl)⟩
    · cases e
  | andq a d =>
    unfold Model.Amd64.exec at e
    simp only at e
    split at e
    · rename_i m v hm hv
      cases e
      exact ⟨_, rfl, h.setG d _ _ (by rw [h.g, h.g, hm, hv]; rfl)⟩
    · rename_i m v hm hv
      cases e
      exact ⟨_, rfl, h.setG d _ _ (by rw [h.g, h.g, hm, hv]; rfl)⟩
    · cases e
  | movdquLoad off a d =>
    obtain ⟨v, e1, e2⟩ := bind_inv e
    cases e2
    simp only [exec, load_sim ok h off a v e1, bind_ok]
    exact ⟨_, rfl, h.setX d v⟩
  | movdquStore a off d =>
    simp only [exec, h.x]
    exact store_sim ok h _ off d e
  | movdqa a d => cases e; simp only [exec, h.x]; exact ⟨_, rfl, h.setX _ _⟩
  | movdqaConst c d =>
    cases e
    simp only [exec, loadC_sim ok h c, bind_ok]
    exact ⟨_, rfl, h.setX d _⟩
  | movdqaStore a off d =>
    simp only [exec, h.x]
    exact storeA_sim ok h _ off d e
  | movlStore a off d =>
    cases a
    simp only [exec, h.r12]
    exact storeL_sim ok h _ off d e
  | pshufd imm a d => cases e; simp only [exec, h.x]; exact ⟨_, rfl, h.setX _ _⟩
  | pshufb m d => cases e; simp only [exec, h.x]; exact ⟨_, rfl, h.setX _ _⟩
  | paddd a d => cases e; simp only [exec, h.x]; exact ⟨_, rfl, h.setX _ _⟩
  | padddMem off a d =>
    obtain ⟨v, e1, e2⟩ := bind_inv e
    cases e2
    simp only [exec, loadA_sim ok h off a v e1, bind_ok, h.x]
    exact ⟨_, rfl, h.setX d _⟩
  | pxor a d => cases e; simp only [exec, h.x]; exact ⟨_, rfl, h.setX _ _⟩
  | pandConst c d =>
    cases e
    simp only [exec, loadC_sim ok h c, bind_ok, h.x]
    exact ⟨_, rfl, h.setX d _⟩
  | pinsrd imm off a d =>
    obtain ⟨v, e1, e2⟩ := bind_inv e
    cases e2
    simp only [exec, loadL_sim h off a v e1, bind_ok, h.x]
    exact ⟨_, rfl, h.setX d _⟩
  | pextrd imm a d =>
    cases d; cases e; simp only [exec, h.x]
    exact ⟨_, rfl, { x := rfl, g := h.g, r12 := rfl, mem := h.mem, plen := h.plen, frame := h.frame, fp := h.fp, sym := h.sym, consts := h.consts }⟩
  | pextrdStore imm a off d =>
    simp only [exec, h.x]
    exact storeL_sim ok h _ off d e
  | roll imm d =>
    cases d; cases e; simp only [exec, h.r12]
    exact ⟨_, rfl, { x := h.x, g := h.g, r12 := rfl, mem := h.mem, plen := h.plen, frame := h.frame, fp := h.fp, sym := h.sym, consts := h.consts }⟩
  | sha1rnds4 imm a d => cases e; simp only [exec, h.x]; exact ⟨_, rfl, h.setX _ _⟩
  | sha1nexte a d => cases e; simp only [exec, h.x]; exact ⟨_, rfl, h.setX _ _⟩
  | sha1nexteMem off a d =>
    obtain ⟨v, e1, e2⟩ := bind_inv e
    cases e2
    simp only [exec, loadA_sim ok h off a v e1, bind_ok, h.x]
    exact ⟨_, rfl, h.setX d _⟩
  | sha1msg1 a d => cases e; simp only [exec, h.x]; exact ⟨_, rfl, h.setX _ _⟩
  | sha1msg2 a d => cases e; simp only [exec, h.x]; exact ⟨_, rfl, h.setX _ _⟩

end

theorem execs_sim {L : Layout} {m0 : FMem} (ok : L.Ok 80) (is : List Instr) : ∀ {s s' : St} {t : FSt}, Rel L m0 s t →
    Model.Amd64.execs s is = .ok s' → ∃ t', execs t is = .ok t' ∧ Rel L m0 s' t' := by
  induction is with
  | nil => intro s s' t h e; cases e; exact ⟨t, rfl, h⟩
  | cons i is ih =>
    intro s s' t h e
    obtain ⟨s1, e1, e2⟩ := bind_inv e
    obtain ⟨t1, f1, h1⟩ := exec_sim ok h i e1
    obtain ⟨t2, f2, h2⟩ := ih h1 e2
    refine ⟨t2, ?_, h2⟩
    rw [execs, f1, bind_ok, f2]

/-- An instruction that does not write SP. -/
def keepsSp : Instr → Bool
  | .movqArg _ d | .movqImm _ d | .addq _ d | .addqImm _ d | .leaq _ _ d | .notq d | .andq _ d => d ≠ .sp
  | _ => true

theorem exec_sp {t t' : FSt} (i : Instr) (h : keepsSp i = true) (e : exec t i = .ok t') : t'.g .sp = t.g .sp := by
  have set : ∀ (d : G) (v : Word64), decide (d ≠ G.sp) = true → (t.setG d v).g .sp = t.g .sp := fun d v hd => by
    show (if G.sp = d then v else t.g .sp) = _
    rw [if_neg (Ne.symm (of_decide_eq_true hd))]
  have st : ∀ v off r, t.store v off r = .ok t' → t'.g .sp = t.g .sp := fun v off r e => by
    obtain ⟨_, _, e2⟩ := bind_inv e
    cases e2; rfl
  have stL : ∀ v off r, t.storeL v off r = .ok t' → t'.g .sp = t.g .sp := fun v off r e => by
    obtain ⟨_, _, e2⟩ := bind_inv e
    cases e2; rfl
  cases i with
  | movqArg a d => obtain ⟨_, _, e2⟩ := bind_inv e; cases e2; exact set _ _ h
  | movqImm v d => cases e; exact set _ _ h
  | addq a d => cases e; exact set _ _ h
  | addqImm w d => cases e; exact set _ _ h
  | leaq off a d => cases e; exact set _ _ h
  | notq d => cases e; exact set _ _ h
  | andq a d => cases e; exact set _ _ h
  | movdquLoad off a d => obtain ⟨_, _, e2⟩ := bind_inv e; cases e2; rfl
  | movdquStore a off d => exact st _ _ _ e
  | movdqa a d => cases e; rfl
  | movdqaConst c d => obtain ⟨_, _, e2⟩ := bind_inv e; cases e2; rfl
  | movdqaStore a off d =>
    unfold exec FSt.storeA at e
    simp only at e
    split at e
    · exact st _ _ _ e
    · cases e
  | movlStore a off d => cases a; exact stL _ _ _ e
  | pshufd imm a d => cases e; rfl
  | pshufb m d => cases e; rfl
  | paddd a d => cases e; rfl
  | padddMem off a d => obtain ⟨_, _, e2⟩ := bind_inv e; cases e2; rfl
  | pxor a d => cases e; rfl
  | pandConst c d => obtain ⟨_, _, e2⟩ := bind_inv e; cases e2; rfl
  | pinsrd imm off a d => obtain ⟨_, _, e2⟩ := bind_inv e; cases e2; rfl
  | pextrd imm a d => cases d; cases e; rfl
  | pextrdStore imm a off d => exact stL _ _ _ e
  | roll imm d => cases d; cases e; rfl
  | sha1rnds4 imm a d => cases e; rfl
  | sha1nexte a d => cases e; rfl
  | sha1nexteMem off a d => obtain ⟨_, _, e2⟩ := bind_inv e; cases e2; rfl
  | sha1msg1 a d => cases e; rfl
  | sha1msg2 a d => cases e; rfl

theorem execs_sp (is : List Instr) : ∀ {t t' : FSt}, is.all keepsSp = true → execs t is = .ok t' →
    t'.g .sp = t.g .sp := by
  induction is with
  | nil => intro t t' _ e; cases e; rfl
  | cons i is ih =>
    intro t t' h e
    simp only [List.all_cons, Bool.and_eq_true] at h
    obtain ⟨t1, e1, e2⟩ := bind_inv e
    rw [ih h.2 e2, exec_sp i h.1 e1]

/-- The region machine before the run. -/
def start (L : Layout) (t : FSt) : St :=
  { x := t.x, g := fun q => if q = .sp then .ptr .stack (L .frame) else .int (t.g q), r12 := t.r12,
    mem := regions L t.mem, frame := L .frame, plen := 64 }

/-- The whole function on one chunk, with the states between its parts. -/
theorem run_trace (L : Layout) (t : FSt) (g : Given 80 L t.mem) (hfp : t.fp = L .args) (hsp : t.g .sp = L .frame)
    (hsym : t.sym = symAt L) (n : Nat) : ∃ t' mem t1 t2 t3, run (n + 1) t = .ok t' ∧ MemRel 80 L 64 t.mem mem t'.mem ∧
      t'.g .sp = t.g .sp ∧ t'.fp = t.fp ∧
      unflat5 mem.h = compress (regsAt t.mem (L .h)) (toBlock (bytesAt t.mem (L .p) 64)) ∧
      mem.m1 = (fun i : Fin 80 => sched (toBlock (bytesAt t.mem (L .p) 64)) i) ∧
      unflat15 mem.cs = (fun j => match j with
        | 0 => regsAt t.mem (L .h)
        | 1 => steps (sched (toBlock (bytesAt t.mem (L .p) 64))) 56 (regsAt t.mem (L .h))
        | 2 => steps (sched (toBlock (bytesAt t.mem (L .p) 64))) 64 (regsAt t.mem (L .h))) ∧
      execs t Amd64.argLoads = .ok t1 ∧ ¬ t1.g .dx = 0 ∧ execs t1 Amd64.setup = .ok t2 ∧ execs t2 Amd64.body = .ok t3 ∧
      t3.g .si = t3.g .dx ∧ execs t3 Amd64.writeBack = .ok t' := by
  have r0 : Rel L t.mem (start L t) t :=
    { x := rfl
      g := fun r => by
        show t.g r = addr L (if r = .sp then .ptr .stack (L .frame) else .int (t.g r))
        split
        · rename_i h; rw [h, hsp]; rfl
        · rfl
      r12 := rfl, mem := memRel_start g, plen := rfl, frame := rfl, fp := hfp, sym := hsym, consts := g.consts }
  have ea : ∃ s1, Model.Amd64.execs (start L t) Amd64.argLoads = .ok s1 ∧ s1.g .di = .ptr .h 0 ∧ s1.g .si = .ptr .p 0 ∧
      s1.g .dx = .int 64 ∧ s1.g .r13 = .ptr .m1 0 ∧ s1.g .r15 = .ptr .cs 0 ∧ s1.g .sp = .ptr .stack (L .frame) ∧
      s1.mem = regions L t.mem ∧ s1.frame = L .frame ∧ s1.plen = 64 :=
    ⟨_, rfl, rfl, rfl, rfl, rfl, rfl, rfl, rfl, rfl, rfl⟩
  obtain ⟨s1, e1, a1, a2, a3, a4, a5, a6, a7, a8, a9⟩ := ea
  have hh : s1.mem.h = flat5 (regsAt t.mem (L .h)) := by
    rw [a7]
    funext i
    match i with
    | 0 => rfl
    | 1 => rfl
    | 2 => rfl
    | 3 => rfl
    | 4 => rfl
  obtain ⟨s2, e2, h2⟩ := Model.Amd64.setup_ok s1 (regsAt t.mem (L .h)) (bytesAt t.mem (L .p) 64) (L .frame) a1 a2 a3 a4 a5 a6
    hh (by rw [a7]; rfl) a8 (g.ok.fits .frame)
  obtain ⟨s3, e3, h3⟩ := Model.Amd64.body_ok _ ⟨by simp [bytesAt], rfl, rfl⟩ s2 h2
  obtain ⟨s4, e4, h4, h5, h6⟩ := Model.Amd64.writeBack_ok _ s3 h3
  obtain ⟨t1, f1, r1⟩ := execs_sim g.ok _ r0 e1
  obtain ⟨t2, f2, r2⟩ := execs_sim g.ok _ r1 e2
  obtain ⟨t3, f3, r3⟩ := execs_sim g.ok _ r2 e3
  obtain ⟨t4, f4, r4⟩ := execs_sim g.ok _ r3 e4
  have hdx : ¬ t1.g .dx = 0 := by
    rw [r1.g, a3]
    show ¬ (64 : Word64) = 0
    decide
  have heq : t3.g .si = t3.g .dx := by rw [r3.g, r3.g, h3.si, h3.dx]
  refine ⟨t4, s4.mem, t1, t2, t3, ?_, r4.mem, ?_, r4.fp.trans hfp.symm, h4, h5, h6, f1, hdx, f2, f3, heq, f4⟩
  · unfold run
    rw [f1, bind_ok, if_neg hdx, f2, bind_ok, loop, f3, bind_ok, if_pos heq, pure_ok, bind_ok, f4]
  · rw [execs_sp _ (by decide) f4, execs_sp _ (by decide) f3, execs_sp _ (by decide) f2, execs_sp _ (by decide) f1]

/-- The whole function on one chunk. -/
theorem run_flat (L : Layout) (t : FSt) (g : Given 80 L t.mem) (hfp : t.fp = L .args) (hsp : t.g .sp = L .frame)
    (hsym : t.sym = symAt L) (n : Nat) : ∃ t' mem, run (n + 1) t = .ok t' ∧ MemRel 80 L 64 t.mem mem t'.mem ∧
      t'.g .sp = t.g .sp ∧ t'.fp = t.fp ∧
      unflat5 mem.h = compress (regsAt t.mem (L .h)) (toBlock (bytesAt t.mem (L .p) 64)) ∧
      mem.m1 = (fun i : Fin 80 => sched (toBlock (bytesAt t.mem (L .p) 64)) i) ∧
      unflat15 mem.cs = fun j => match j with
        | 0 => regsAt t.mem (L .h)
        | 1 => steps (sched (toBlock (bytesAt t.mem (L .p) 64))) 56 (regsAt t.mem (L .h))
        | 2 => steps (sched (toBlock (bytesAt t.mem (L .p) 64))) 64 (regsAt t.mem (L .h)) :=
  have ⟨t', mem, _, _, _, e, r, a, b, h1, h2, h3, _⟩ := run_trace L t g hfp hsp hsym n
  ⟨t', mem, e, r, a, b, h1, h2, h3⟩

end Verif.Model.Flat.Amd64
