import Verif.Proofs.FlatAmd64
import Verif.Proofs.Arm64Block

/-! The arm64 machine with a flat memory follows the one with separate arrays. -/

namespace Verif.Model.Flat.Arm64

open Verif Verif.Model Verif.Spec
open Verif.Model.Arm64 (V G Arg Instr St)
open Verif.Model.Flat.Amd64 (bind_inv)

/-- The two machines agree. -/
structure Rel (L : Layout) (m0 : FMem) (s : St) (t : FSt) : Prop where
  v : t.v = s.v
  g : ∀ r, t.g r = addr L (s.g r)
  mem : MemRel 0 L 64 m0 s.mem t.mem
  plen : s.plen = 64
  fp : t.fp = L .args
  ks : t.ks = L .k0
  consts : Consts 0 L m0.b

section
variable {L : Layout} {m0 : FMem} {s s' : St} {t : FSt}

theorem Rel.setV (h : Rel L m0 s t) (r : V) (x : Vec) : Rel L m0 (s.setV r x) (t.setV r x) :=
  { v := by show Arm64.setV t.v r x = Arm64.setV s.v r x; rw [h.v]
    g := h.g, mem := h.mem, plen := h.plen, fp := h.fp, ks := h.ks, consts := h.consts }

theorem Rel.setG (h : Rel L m0 s t) (r : G) (x : Val) (w : Word64) (hv : w = addr L x) :
    Rel L m0 (s.setG r x) (t.setG r w) :=
  { v := h.v
    g := fun q => by
      show (if q = r then w else t.g q) = addr L (if q = r then x else s.g q)
      split
      · exact hv
      · exact h.g q
    mem := h.mem, plen := h.plen, fp := h.fp, ks := h.ks, consts := h.consts }

theorem Rel.setMem (h : Rel L m0 s t) {m : Mem} {fm : FMem} (hm : MemRel 0 L 64 m0 m fm) :
    Rel L m0 { s with mem := m } { t with mem := fm } :=
  { v := h.v, g := h.g, mem := hm, plen := h.plen, fp := h.fp, ks := h.ks, consts := h.consts }

theorem load_sim (h : Rel L m0 s t) (r : G) (x : Vec) (e : s.load r = .ok x) : t.load r = .ok x := by
  have key : ∃ w, t.mem.rd 16 (t.g r) = .ok w ∧ Vec.ofBytes w = x := by
    rw [h.g]
    unfold St.load at e
    split at e
    · rename_i o hr
      rw [hr]
      exact rdV_flat L _ h.mem.al .h _ (show _ ≤ 20 by decide) h.mem.h _ _ e
    · rename_i o hr
      rw [hr]
      exact rdP_flat h.mem _ _ e
    · rename_i o hr
      rw [hr]
      exact rdV_flat L _ h.mem.al .m1 _ (show _ ≤ 320 by decide) h.mem.m1 _ _ e
    · rename_i o hr
      rw [hr]
      exact rdV_flat L _ h.mem.al .cs _ (show _ ≤ 60 by decide) h.mem.cs _ _ e
    · cases e
  obtain ⟨w, e1, e2⟩ := key
  unfold FSt.load
  rw [e1, bind_ok, e2]
  rfl

theorem loadS_sim (h : Rel L m0 s t) (r : G) (x : Word) (e : s.loadS r = .ok x) : t.loadS r = .ok x := by
  have key : ∃ w, t.mem.rd 4 (t.g r) = .ok w ∧ leWord w = x := by
    rw [h.g]
    unfold St.loadS at e
    split at e
    · rename_i o hr
      rw [hr]
      exact rdW_flat L _ h.mem.al .h _ (show _ ≤ 20 by decide) h.mem.h _ _ e
    · rename_i o hr
      rw [hr]
      exact rdW_flat L _ h.mem.al .m1 _ (show _ ≤ 320 by decide) h.mem.m1 _ _ e
    · rename_i o hr
      rw [hr]
      exact rdW_flat L _ h.mem.al .cs _ (show _ ≤ 60 by decide) h.mem.cs _ _ e
    · cases e
  obtain ⟨w, e1, e2⟩ := key
  unfold FSt.loadS
  rw [e1, bind_ok, e2]
  rfl

theorem store_sim (ok : L.Ok 0) (h : Rel L m0 s t) (x : Vec) (r : G) (e : s.store x r = .ok s') :
    ∃ t', t.store x r = .ok t' ∧ Rel L m0 s' t' := by
  have key : ∃ m' fm', s' = { s with mem := m' } ∧ t.mem.wr 16 (t.g r) x.byte = .ok fm' ∧
      MemRel 0 L 64 m0 m' fm' := by
    rw [h.g]
    unfold St.store at e
    split at e
    · rename_i o hr
      obtain ⟨f, e1, e2⟩ := bind_inv e
      cases e2
      obtain ⟨fm', e3, al, w, k⟩ := wrV_flat L ok _ h.mem.al .h rfl _ _ (show _ ≤ 20 by decide) h.mem.h _ _ e1
      rw [hr]
      exact ⟨_, fm', rfl, e3, h.mem.set_h ok _ al w k⟩
    · rename_i o hr
      obtain ⟨f, e1, e2⟩ := bind_inv e
      cases e2
      obtain ⟨fm', e3, al, w, k⟩ := wrV_flat L ok _ h.mem.al .m1 rfl _ _ (show _ ≤ 320 by decide) h.mem.m1 _ _ e1
      rw [hr]
      exact ⟨_, fm', rfl, e3, h.mem.set_m1 ok _ al w k⟩
    · rename_i o hr
      obtain ⟨f, e1, e2⟩ := bind_inv e
      cases e2
      obtain ⟨fm', e3, al, w, k⟩ := wrV_flat L ok _ h.mem.al .cs rfl _ _ (show _ ≤ 60 by decide) h.mem.cs _ _ e1
      rw [hr]
      exact ⟨_, fm', rfl, e3, h.mem.set_cs ok _ al w k⟩
    · cases e
  obtain ⟨m', fm', rfl, e1, hm⟩ := key
  unfold FSt.store
  rw [e1, bind_ok]
  exact ⟨_, rfl, h.setMem hm⟩

theorem storeS_sim (ok : L.Ok 0) (h : Rel L m0 s t) (x : Word) (r : G) (e : s.storeS x r = .ok s') :
    ∃ t', t.storeS x r = .ok t' ∧ Rel L m0 s' t' := by
  have key : ∃ m' fm', s' = { s with mem := m' } ∧ t.mem.wr 4 (t.g r) (wordBytes x) = .ok fm' ∧
      MemRel 0 L 64 m0 m' fm' := by
    rw [h.g]
    unfold St.storeS at e
    split at e
    · rename_i o hr
      obtain ⟨f, e1, e2⟩ := bind_inv e
      cases e2
      obtain ⟨fm', e3, al, w, k⟩ := wrW_flat L ok _ h.mem.al .h rfl _ _ (show _ ≤ 20 by decide) h.mem.h _ _ e1
      rw [hr]
      exact ⟨_, fm', rfl, e3, h.mem.set_h ok _ al w k⟩
    · rename_i o hr
      obtain ⟨f, e1, e2⟩ := bind_inv e
      cases e2
      obtain ⟨fm', e3, al, w, k⟩ := wrW_flat L ok _ h.mem.al .m1 rfl _ _ (show _ ≤ 320 by decide) h.mem.m1 _ _ e1
      rw [hr]
      exact ⟨_, fm', rfl, e3, h.mem.set_m1 ok _ al w k⟩
    · rename_i o hr
      obtain ⟨f, e1, e2⟩ := bind_inv e
      cases e2
      obtain ⟨fm', e3, al, w, k⟩ := wrW_flat L ok _ h.mem.al .cs rfl _ _ (show _ ≤ 60 by decide) h.mem.cs _ _ e1
      rw [hr]
      exact ⟨_, fm', rfl, e3, h.mem.set_cs ok _ al w k⟩
    · cases e
  obtain ⟨m', fm', rfl, e1, hm⟩ := key
  unfold FSt.storeS
  rw [e1, bind_ok]
  exact ⟨_, rfl, h.setMem hm⟩

theorem bump_sim (h : Rel L m0 s t) (r : G) (n : Word64) (e : s.bump r n = .ok s') :
    Rel L m0 s' (t.setG r (t.g r + n)) := by
  obtain ⟨v, e1, e2⟩ := bind_inv e
  cases e2
  exact h.setG r _ _ (by rw [h.g, addr_add L _ _ _ e1]; rfl)

theorem arg_sim (h : Rel L m0 s t) (a : Arg) (d : G) (v : Val) (hv : argVal L 64 (argOff a) = addr L v)
    (e' : .ok (s.setG d v) = (.ok s' : GoM St)) :
    ∃ t', exec t (.movdArg a d) = .ok t' ∧ Rel L m0 s' t' := by
  cases e'
  obtain ⟨w, e1, e2⟩ := arg_flat h.mem (argOff a)
  unfold exec
  simp only [h.fp, e1, bind_ok]
  exact ⟨_, rfl, h.setG d v _ (e2.trans hv)⟩

/-- One instruction. -/
theorem exec_sim (ok : L.Ok 0) (h : Rel L m0 s t) (i : Instr) (e : Model.Arm64.exec s i = .ok s') :
    ∃ t', exec t i = .ok t' ∧ Rel L m0 s' t' := by
  cases i with
  | movdArg a d =>
    cases a with
    | hbase => exact arg_sim h _ d (.ptr .h 0) (BitVec.add_zero _).symm e
    | pbase => exact arg_sim h _ d (.ptr .p 0) (BitVec.add_zero _).symm e
    | plen => exact arg_sim h _ d (.int s.plen) h.plen.symm e
    | m1base => exact arg_sim h _ d (.ptr .m1 0) (BitVec.add_zero _).symm e
    | csbase => exact arg_sim h _ d (.ptr .cs 0) (BitVec.add_zero _).symm e
  | lsr n a d =>
    unfold Model.Arm64.exec at e
    simp only at e
    split at e
    · rename_i v hv
      cases e
      exact ⟨_, rfl, h.setG d _ _ (by rw [h.g, hv]; rfl)⟩
    · cases e
  | lsl n a d =>
    unfold Model.Arm64.exec at e
    simp only at e
    split at e
    · rename_i v hv
      cases e
      exact ⟨_, rfl, h.setG d _ _ (by rw [h.g, hv]; rfl)⟩
    · cases e
  | add a b d =>
    obtain ⟨v, e1, e2⟩ := bind_inv e
    cases e2
    exact ⟨_, rfl, h.setG d _ _ (by rw [h.g, h.g, addr_add L _ _ _ e1])⟩
  | subImm n a d =>
    obtain ⟨v, e1, e2⟩ := bind_inv e
    cases e2
    exact ⟨_, rfl, h.setG d _ _ (by rw [h.g, addr_add L _ _ _ e1, BitVec.sub_eq_add_neg]; rfl)⟩
  | vld1P a d =>
    obtain ⟨x, e1, e2⟩ := bind_inv e
    simp only [exec, load_sim h a x e1, bind_ok]
    exact ⟨_, rfl, bump_sim (h.setV d x) a 16 e2⟩
  | vld1Ks d =>
    cases e
    obtain ⟨v, e1, e2⟩ := const_flat ok h.consts h.mem .k0 (.inl rfl) rfl
    simp only [exec, h.ks, e1, bind_ok, e2]
    exact ⟨_, rfl, h.setV d _⟩
  | fmovsLoad a d =>
    obtain ⟨x, e1, e2⟩ := bind_inv e
    cases e2
    simp only [exec, loadS_sim h a x e1, bind_ok]
    exact ⟨_, rfl, h.setV _ _⟩
  | fmovsStore a d =>
    simp only [exec, h.v]
    exact storeS_sim ok h _ d e
  | vmov a d => cases e; simp only [exec, h.v]; exact ⟨_, rfl, h.setV _ _⟩
  | vmovS0 a d => cases e; simp only [exec, h.v]; exact ⟨_, rfl, h.setV _ _⟩
  | vdup a i d => cases e; simp only [exec, h.v]; exact ⟨_, rfl, h.setV _ _⟩
  | vrev32 a d => cases e; simp only [exec, h.v]; exact ⟨_, rfl, h.setV _ _⟩
  | vst1P a d =>
    obtain ⟨s1, e1, e2⟩ := bind_inv e
    obtain ⟨t1, f1, h1⟩ := store_sim ok h _ d e1
    simp only [exec, h.v, f1, bind_ok]
    exact ⟨_, rfl, bump_sim h1 d 16 e2⟩
  | vst1S0P a d =>
    obtain ⟨s1, e1, e2⟩ := bind_inv e
    obtain ⟨t1, f1, h1⟩ := storeS_sim ok h _ d e1
    simp only [exec, h.v, f1, bind_ok]
    exact ⟨_, rfl, bump_sim h1 d 4 e2⟩
  | vadd a b d => cases e; simp only [exec, h.v]; exact ⟨_, rfl, h.setV _ _⟩
  | sha1c m n d => cases e; simp only [exec, h.v]; exact ⟨_, rfl, h.setV _ _⟩
  | sha1p m n d => cases e; simp only [exec, h.v]; exact ⟨_, rfl, h.setV _ _⟩
  | sha1m m n d => cases e; simp only [exec, h.v]; exact ⟨_, rfl, h.setV _ _⟩
  | sha1h n d => cases e; simp only [exec, h.v]; exact ⟨_, rfl, h.setV _ _⟩
  | sha1su0 m n d => cases e; simp only [exec, h.v]; exact ⟨_, rfl, h.setV _ _⟩
  | sha1su1 n d => cases e; simp only [exec, h.v]; exact ⟨_, rfl, h.setV _ _⟩

end

theorem execs_sim {L : Layout} {m0 : FMem} (ok : L.Ok 0) (is : List Instr) : ∀ {s s' : St} {t : FSt}, Rel L m0 s t →
    Model.Arm64.execs s is = .ok s' → ∃ t', execs t is = .ok t' ∧ Rel L m0 s' t' := by
  induction is with
  | nil => intro s s' t h e; cases e; exact ⟨t, rfl, h⟩
  | cons i is ih =>
    intro s s' t h e
    obtain ⟨s1, e1, e2⟩ := bind_inv e
    obtain ⟨t1, f1, h1⟩ := exec_sim ok h i e1
    obtain ⟨t2, f2, h2⟩ := ih h1 e2
    refine ⟨t2, ?_, h2⟩
    rw [execs, f1, bind_ok, f2]

/-- The region machine before the run. -/
def start (L : Layout) (t : FSt) : St :=
  { v := t.v, g := fun q => .int (t.g q), mem := regions L t.mem, plen := 64 }

/-- The whole function on one chunk, with the states between its parts. -/
theorem run_trace (L : Layout) (t : FSt) (g : Given 0 L t.mem) (hfp : t.fp = L .args)
    (hks : t.ks = L .k0) :
    ∃ t' mem t1 t2 t3, run t = .ok t' ∧ MemRel 0 L 64 t.mem mem t'.mem ∧ t'.fp = t.fp ∧
      ((t.g .r16).toNat + 64 < 2 ^ 64 →
        unflat5 mem.h = compress (regsAt t.mem (L .h)) (toBlock (bytesAt t.mem (L .p) 64)) ∧
        mem.m1 = (fun i : Fin 80 => sched (toBlock (bytesAt t.mem (L .p) 64)) i) ∧
        unflat15 mem.cs = rawCs (regsAt t.mem (L .h)) (toBlock (bytesAt t.mem (L .p) 64))) ∧
      (2 ^ 64 ≤ (t.g .r16).toNat + 64 → unflat5 mem.h = regsAt t.mem (L .h) ∧
        mem.m1 = (regions L t.mem).m1 ∧ mem.cs = (regions L t.mem).cs) ∧
      execs t Arm64.argLoads = .ok t1 ∧ execs t1 Arm64.setup = .ok t2 ∧
      ((t2.g .r21).toNat ≤ (t2.g .r16).toNat ↔ 2 ^ 64 ≤ (t.g .r16).toNat + 64) ∧
      (2 ^ 64 ≤ (t.g .r16).toNat + 64 → t3 = t2) ∧
      ((t.g .r16).toNat + 64 < 2 ^ 64 → execs t2 Arm64.body = .ok t3) ∧ execs t3 Arm64.writeBack = .ok t' := by
  have r0 : Rel L t.mem (start L t) t :=
    { v := rfl, g := fun r => rfl, mem := memRel_start g, plen := rfl, fp := hfp, ks := hks, consts := g.consts }
  have ea : ∃ s1, Model.Arm64.execs (start L t) Arm64.argLoads = .ok s1 ∧ s1.g .r0 = .ptr .h 0 ∧ s1.g .r1 = .ptr .p 0 ∧
      s1.g .r2 = .int 64 ∧ s1.g .r3 = .ptr .m1 0 ∧ s1.g .r4 = .ptr .cs 0 ∧ s1.g .r16 = .int (t.g .r16) ∧
      s1.mem = regions L t.mem :=
    ⟨_, rfl, rfl, rfl, rfl, rfl, rfl, rfl, rfl⟩
  obtain ⟨s1, e1, a1, a2, a3, a4, a5, a6, a7⟩ := ea
  have hh : s1.mem.h = flat5 (regsAt t.mem (L .h)) := by
    rw [a7]
    funext i
    match i with
    | 0 => rfl
    | 1 => rfl
    | 2 => rfl
    | 3 => rfl
    | 4 => rfl
  obtain ⟨s2, e2, h2⟩ := Model.Arm64.setup_ok s1 (regsAt t.mem (L .h)) (bytesAt t.mem (L .p) 64)
    (regions L t.mem).m1 (regions L t.mem).cs (t.g .r16) a1 a2 a3 a4 a5 a6
    hh (by rw [a7]; rfl) (by rw [a7]) (by rw [a7])
  obtain ⟨t1, f1, r1⟩ := execs_sim g.ok _ r0 e1
  obtain ⟨t2, f2, r2⟩ := execs_sim g.ok _ r1 e2
  have cmp : (t2.g .r21).toNat ≤ (t2.g .r16).toNat ↔ 2 ^ 64 ≤ (t.g .r16).toNat + 64 := by
    rw [r2.g, r2.g, h2.end0, h2.r21]
    show ((64 : Word64) + t.g .r16).toNat ≤ (t.g .r16).toNat ↔ _
    rw [BitVec.toNat_add]
    have := (t.g .r16).isLt
    show (64 + _) % 2 ^ 64 ≤ _ ↔ _
    omega
  by_cases hr : 2 ^ 64 ≤ (t.g .r16).toNat + 64
  · obtain ⟨s3, e3, w1, w2, w3⟩ := Model.Arm64.writeBack_ok s2 _ h2.r0 h2.v0 (by rw [h2.v20])
    obtain ⟨t3, f3, r3⟩ := execs_sim g.ok _ r2 e3
    refine ⟨t3, s3.mem, t1, t2, t2, ?_, r3.mem, r3.fp.trans hfp.symm, fun h => by omega,
      fun _ => ⟨w1, w2.trans h2.m1, w3.trans h2.cs⟩, f1, f2, cmp, fun _ => rfl, fun h => by omega, f3⟩
    unfold run
    rw [f1, bind_ok, f2, bind_ok, if_pos (cmp.mpr hr), pure_ok, bind_ok]
    exact f3
  · obtain ⟨s3, e3, d⟩ := Model.Arm64.body_ok _ _ (by simp [bytesAt]) _ _ _ s2 h2
    obtain ⟨s4, e4, w1, w2, w3⟩ := Model.Arm64.writeBack_ok s3 _ d.r0 d.v0 d.v20
    obtain ⟨t3, f3, r3⟩ := execs_sim g.ok _ r2 e3
    obtain ⟨t4, f4, r4⟩ := execs_sim g.ok _ r3 e4
    refine ⟨t4, s4.mem, t1, t2, t3, ?_, r4.mem, r4.fp.trans hfp.symm, fun _ => ⟨w1, w2.trans d.m1, by rw [w3, d.cs]⟩,
      fun h => absurd h hr, f1, f2, cmp, fun h => absurd h hr, fun _ => f3, f4⟩
    unfold run
    rw [f1, bind_ok, f2, bind_ok, if_neg (fun h => hr (cmp.mp h)), f3, bind_ok]
    exact f4

/-- The whole function on one chunk. -/
theorem run_flat (L : Layout) (t : FSt) (g : Given 0 L t.mem) (hfp : t.fp = L .args)
    (hks : t.ks = L .k0) :
    ∃ t' mem, run t = .ok t' ∧ MemRel 0 L 64 t.mem mem t'.mem ∧ t'.fp = t.fp ∧
      ((t.g .r16).toNat + 64 < 2 ^ 64 →
        unflat5 mem.h = compress (regsAt t.mem (L .h)) (toBlock (bytesAt t.mem (L .p) 64)) ∧
        mem.m1 = (fun i : Fin 80 => sched (toBlock (bytesAt t.mem (L .p) 64)) i) ∧
        unflat15 mem.cs = rawCs (regsAt t.mem (L .h)) (toBlock (bytesAt t.mem (L .p) 64))) ∧
      (2 ^ 64 ≤ (t.g .r16).toNat + 64 → unflat5 mem.h = regsAt t.mem (L .h) ∧
        mem.m1 = (regions L t.mem).m1 ∧ mem.cs = (regions L t.mem).cs) :=
  have ⟨t', mem, _, _, _, e, r, a, h1, h2, _⟩ := run_trace L t g hfp hks
  ⟨t', mem, e, r, a, h1, h2⟩

end Verif.Model.Flat.Arm64
