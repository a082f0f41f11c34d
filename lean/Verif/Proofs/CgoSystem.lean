import Verif.Proofs.CgoMemory
import Verif.Proofs.System
import Verif.Spec.CgoSystem

/-! Programs with several objects of package cgo: the objects do not share memory with each other or with the client. -/

namespace Verif

open Verif.Model Verif.Model.C Verif.Spec Verif.C

namespace CgoMem

open Verif.Model.Cgo

theorem copsOf_append (o : Nat) (xs ys : List CEv) : copsOf o (xs ++ ys) = copsOf o xs ++ copsOf o ys := by
  simp [copsOf]

theorem coutsOf_append (o : Nat) (xs ys : List CEv) : coutsOf o (xs ++ ys) = coutsOf o xs ++ coutsOf o ys := by
  simp [coutsOf]

theorem crun_append (cfg : Plat) (xs ys : List Cgo.Op) (d : Cgo.Digest) :
    d.run cfg (xs ++ ys) = (do
      let (d, os) ← d.run cfg xs
      let (d, os') ← d.run cfg ys
      pure (d, os ++ os')) := by
  induction xs generalizing d with
  | nil =>
    simp only [List.nil_append, Cgo.Digest.run, bind, Except.bind, pure, Except.pure]
    cases Cgo.Digest.run cfg d ys <;> rfl
  | cons x xs ih =>
    simp only [List.cons_append, Cgo.Digest.run, bind, Except.bind, pure, Except.pure]
    cases Cgo.Digest.call cfg d x with
    | error _ => rfl
    | ok w =>
      simp only [ih, bind, Except.bind, pure, Except.pure]
      cases Cgo.Digest.run cfg w.1 xs with
      | error _ => rfl
      | ok w2 =>
        simp only
        cases Cgo.Digest.run cfg w2.1 ys <;> rfl

/-- The object has absorbed some message. -/
def Alive (v : Cgo.Digest) : Prop := ∃ m, HoldsCgo v m

/-- The objects are the values `vs`, and no array of an object is shared. -/
structure CInv (s : CSys) (vs : List Cgo.Digest) : Prop where
  len : vs.length = s.objs.length
  rep : ∀ (o : Nat) (d : MCgo) (v : Cgo.Digest), s.objs[o]? = some d → vs[o]? = some v → CRep s.heap d v ∧ Alive v
  own : ∀ (o : Nat) (d : MCgo), s.objs[o]? = some d →
    ∀ x, x = d.buf ∨ x = d.h → x ∉ s.known ∧ x < s.heap.length
  dis : ∀ (o o' : Nat) (d d' : MCgo), o ≠ o' → s.objs[o]? = some d → s.objs[o']? = some d' →
    ∀ x, x = d.buf ∨ x = d.h → x ≠ d'.buf ∧ x ≠ d'.h
  known : ∀ a ∈ s.known, a < s.heap.length

theorem CInv.init : CInv CSys.init [] :=
  ⟨rfl, fun _ _ _ h => by simp [CSys.init] at h, fun _ _ h => by simp [CSys.init] at h,
    fun _ _ _ _ _ h => by simp [CSys.init] at h, fun _ h => by simp [CSys.init] at h⟩

/-- A slice the client has. -/
theorem clegal_fits {s : CSys} {p : Sl} (h : s.legal p = true) :
    (p.len = 0 ∧ p.cap = 0) ∨ (Fits s.heap p ∧ p.arr ∈ s.known) := legal_fits (s := ⟨s.heap, [], [], s.known⟩) h

theorem CInv.apart {s : CSys} {vs : List Cgo.Digest} (h : CInv s vs) {o : Nat} {d : MCgo} (hd : s.objs[o]? = some d)
    {p : Sl} (hp : s.legal p = true) : Apart2 s.heap d p := by
  rcases clegal_fits hp with hp | ⟨h1, h2⟩
  · exact .inl hp
  · exact .inr ⟨h1, fun e => (h.own o d hd _ (.inl rfl)).1 (e ▸ h2), fun e => (h.own o d hd _ (.inr rfl)).1 (e ▸ h2)⟩

/-- Commands that only add to memory, or change arrays of the client. -/
theorem CInv.mem {s : CSys} {vs : List Cgo.Digest} (h : CInv s vs) (H' : Heap) (known' : List Nat)
    (hl : s.heap.length ≤ H'.length) (hk : ∀ i, i < s.heap.length → i ∉ s.known → H'[i]? = s.heap[i]?)
    (hn : ∀ a ∈ known', a < H'.length ∧ (a ∈ s.known ∨ s.heap.length ≤ a)) :
    CInv { s with heap := H', known := known' } vs := by
  refine ⟨h.len, ?_, ?_, h.dis, fun a ha => (hn a ha).1⟩
  · intro o d v h1 h2
    obtain ⟨r1, r2⟩ := h.rep o d v h1 h2
    obtain ⟨o1, o2⟩ := h.own o d h1 _ (.inl rfl)
    obtain ⟨o3, o4⟩ := h.own o d h1 _ (.inr rfl)
    exact ⟨r1.congr (hk _ o2 o1) (hk _ o4 o3), r2⟩
  · intro o d h1 x hx
    obtain ⟨o1, o2⟩ := h.own o d h1 x hx
    refine ⟨fun hm => ?_, Nat.lt_of_lt_of_le o2 hl⟩
    rcases (hn _ hm).2 with h3 | h3
    · exact o1 h3
    · omega

theorem cgetD_of {vs : List Cgo.Digest} {o : Nat} {v : Cgo.Digest} (h : vs[o]? = some v) :
    vs.getD o Cgo.new = v := by
  rw [List.getD_eq_getElem?_getD, h]; rfl

/-- One command. -/
theorem cstep_spec (cfg : Cfg) {s : CSys} {vs : List Cgo.Digest} (h : CInv s vs) (c : CCmd) :
    ∃ s' es vs', s.step cfg c = .ok (s', es) ∧ CInv s' vs' ∧
      (∀ o, (vs.getD o Cgo.new).run cfg (copsOf o es) = .ok (vs'.getD o Cgo.new, coutsOf o es)) ∧
      (∀ data D c, CEv.sumPkg data D c ∈ es → Cgo.sumPkg cfg data = .ok (D, c)) := by
  have nil : ∀ o, (vs.getD o Cgo.new).run cfg (copsOf o []) = .ok (vs.getD o Cgo.new, coutsOf o []) := fun o => rfl
  have nil' : ∀ data D c, CEv.sumPkg data D c ∈ ([] : List CEv) → Cgo.sumPkg cfg data = .ok (D, c) :=
    fun _ _ _ h => by cases h
  cases c with
  | new =>
    obtain ⟨H', d, m1, m2, m3, m4, m5⟩ := make_sim s.heap
    have hl : s.heap.length ≤ H'.length := by have := lt_of_get m2.buf; omega
    refine ⟨{ s with heap := H', objs := s.objs ++ [d] }, [], vs ++ [Cgo.new], ?_, ?_, ?_, nil'⟩
    · simp only [CSys.step, m1]; rfl
    · have hobj : ∀ (o : Nat) d', (s.objs ++ [d])[o]? = some d' →
          (o < s.objs.length ∧ s.objs[o]? = some d') ∨ (o = s.objs.length ∧ d' = d) := by
        intro o d' h1
        by_cases ho : o < s.objs.length
        · exact .inl ⟨ho, by rw [List.getElem?_append_left ho] at h1; exact h1⟩
        · rw [List.getElem?_append_right (by omega)] at h1
          obtain ⟨h3, h4⟩ := List.getElem?_eq_some_iff.mp h1
          simp at h3
          have : o = s.objs.length := by omega
          subst this
          simp at h4
          exact .inr ⟨rfl, h4.symm⟩
      have hnew : ∀ x, x = d.buf ∨ x = d.h → s.heap.length ≤ x ∧ x < H'.length := by
        intro x hx
        rcases hx with rfl | rfl
        · exact ⟨m4, lt_of_get m2.buf⟩
        · exact ⟨m5, lt_of_get m2.h⟩
      refine ⟨by simp [h.len], ?_, ?_, ?_, fun a ha => Nat.lt_of_lt_of_le (h.known a ha) hl⟩
      · intro o d' v h1 h2
        rcases hobj o d' h1 with ⟨ho, h3⟩ | ⟨ho, rfl⟩
        · rw [List.getElem?_append_left (by rw [h.len]; exact ho)] at h2
          obtain ⟨r1, r2⟩ := h.rep o d' v h3 h2
          exact ⟨r1.congr (m3 _ (h.own o d' h3 _ (.inl rfl)).2) (m3 _ (h.own o d' h3 _ (.inr rfl)).2), r2⟩
        · rw [List.getElem?_append_right (by rw [h.len]; omega), ho, h.len] at h2
          simp at h2
          subst h2
          exact ⟨m2, [], holdsCgo_new⟩
      · intro o d' h1 x hx
        rcases hobj o d' h1 with ⟨ho, h3⟩ | ⟨ho, rfl⟩
        · exact ⟨(h.own o d' h3 x hx).1, Nat.lt_of_lt_of_le (h.own o d' h3 x hx).2 hl⟩
        · obtain ⟨n1, n2⟩ := hnew x hx
          refine ⟨fun hm => ?_, n2⟩
          have := h.known _ hm
          omega
      · intro o o' d1 d2 hne h1 h2 x hx
        rcases hobj o d1 h1 with ⟨ho, h3⟩ | ⟨ho, rfl⟩
        · rcases hobj o' d2 h2 with ⟨ho', h4⟩ | ⟨ho', rfl⟩
          · exact h.dis o o' d1 d2 hne h3 h4 x hx
          · have := (h.own o d1 h3 x hx).2
            omega
        · rcases hobj o' d2 h2 with ⟨ho', h4⟩ | ⟨ho', rfl⟩
          · have := (h.own o' d2 h4 _ (.inl rfl)).2
            have := (h.own o' d2 h4 _ (.inr rfl)).2
            have := (hnew x hx).1
            omega
          · omega
    · intro o
      have : (vs ++ [Cgo.new]).getD o Cgo.new = vs.getD o Cgo.new := by
        rw [List.getD_eq_getElem?_getD, List.getD_eq_getElem?_getD, List.getElem?_append]
        split
        · rfl
        · rename_i hn
          rw [List.getElem?_eq_none (l := vs) (by omega)]
          by_cases h0 : o - vs.length = 0
          · rw [h0]; rfl
          · rw [List.getElem?_eq_none (by simp; omega)]
      rw [this]
      exact nil o
  | call o op =>
    cases hd : s.objs[o]? with
    | none => exact ⟨s, [], vs, by simp only [CSys.step, hd]; rfl, h, nil, nil'⟩
    | some d =>
      by_cases hleg : op.arg.all s.legal
      · have ho : o < vs.length := by rw [h.len]; exact (List.getElem?_eq_some_iff.mp hd).1
        have hv : vs[o]? = some vs[o] := List.getElem?_eq_getElem ho
        generalize vs[o] = v at hv
        obtain ⟨r1, m, r2⟩ := h.rep o d v hd hv
        have hap : ∀ p, op.arg = some p → Apart2 s.heap d p := by
          intro p hp
          rw [hp] at hleg
          exact h.apart hd hleg
        have hdest : ∀ inp, cdest op = some inp → inp.len + 20 ≤ inp.cap → inp.arr ∈ s.known := by
          intro inp hi hr
          have : op.arg = some inp := by cases op <;> simp_all [cdest, CMOp.arg]
          rw [this] at hleg
          rcases clegal_fits hleg with h1 | h1
          · omega
          · exact h1.2
        obtain ⟨v', c1, hm'⟩ := r2.call cfg (op.val s.heap)
        generalize result cVerdict m (op.val s.heap).toGo = out at c1
        obtain ⟨H', d', r, k1, k2, k3, k3', k4⟩ := call_sim cfg r1 op hap c1
        have hid : ∀ x, (x = d'.buf ∨ x = d'.h) → (x = d.buf ∨ x = d.h) := by rw [k3, k3']; exact fun _ h => h
        have hother : ∀ (o' : Nat) d'', o' ≠ o → s.objs[o']? = some d'' → ∀ x, x = d''.buf ∨ x = d''.h →
            H'[x]? = s.heap[x]? := by
          intro o' d'' hne hd'' x hx
          obtain ⟨q1, q2⟩ := h.own o' d'' hd'' x hx
          refine k4.keep _ q2 (h.dis o' o d'' d hne hd'' hd x hx).1 ?_
          intro inp hi hr e
          exact q1 (e ▸ hdest inp hi hr)
        have hobj : ∀ (o' : Nat) d'', (s.objs.set o d')[o']? = some d'' →
            (o' ≠ o ∧ s.objs[o']? = some d'') ∨ (o' = o ∧ d'' = d') := by
          intro o' d'' h1
          rw [List.getElem?_set] at h1
          split at h1
          · rename_i e
            subst e
            split at h1
            · simp at h1; exact .inr ⟨rfl, h1.symm⟩
            · cases h1
          · rename_i e
            exact .inl ⟨fun e' => e e'.symm, h1⟩
        have hvs : ∀ (o' : Nat) v'', (vs.set o v')[o']? = some v'' →
            (o' ≠ o ∧ vs[o']? = some v'') ∨ (o' = o ∧ v'' = v') := by
          intro o' d'' h1
          rw [List.getElem?_set] at h1
          split at h1
          · rename_i e
            subst e
            simp at h1; exact .inr ⟨rfl, h1.symm⟩
          · rename_i e
            exact .inl ⟨fun e' => e e'.symm, h1⟩
        refine ⟨{ s with heap := H', objs := s.objs.set o d', known := (r.map Sl.arr).toList ++ s.known },
          [.call o (op.val s.heap) out], vs.set o v', ?_, ?_, ?_, ?_⟩
        · simp only [CSys.step, hd, hleg, if_true, k1, bind, Except.bind]; rfl
        · refine ⟨by simp [h.len], ?_, ?_, ?_, ?_⟩
          · intro o' d'' v'' h1 h2
            rcases hobj o' d'' h1 with ⟨ne, h3⟩ | ⟨e, rfl⟩
            · rcases hvs o' v'' h2 with ⟨_, h4⟩ | ⟨e, _⟩
              · obtain ⟨q1, q2⟩ := h.rep o' d'' v'' h3 h4
                exact ⟨q1.congr (hother o' d'' ne h3 _ (.inl rfl)) (hother o' d'' ne h3 _ (.inr rfl)), q2⟩
              · exact absurd e ne
            · rcases hvs o' v'' h2 with ⟨ne, _⟩ | ⟨_, rfl⟩
              · exact absurd e ne
              · exact ⟨k2, _, hm'⟩
          · have hnew : ∀ x, x ∉ s.known → x < s.heap.length → x ∉ (r.map Sl.arr).toList ++ s.known ∧ x < H'.length := by
              intro x h1 h2
              refine ⟨fun hm => ?_, Nat.lt_of_lt_of_le h2 k4.len⟩
              rcases List.mem_append.mp hm with hm | hm
              · cases r with
                | none => simp at hm
                | some q =>
                  simp at hm
                  obtain ⟨_, h4⟩ := k4.ret q rfl
                  rcases h4 with h4 | ⟨inp, i1, i2, i3⟩
                  · omega
                  · exact h1 (by rw [hm, i3]; exact hdest inp i1 i2)
              · exact h1 hm
            intro o' d'' h1 x hx
            rcases hobj o' d'' h1 with ⟨ne, h3⟩ | ⟨e, rfl⟩
            · obtain ⟨q1, q2⟩ := h.own o' d'' h3 x hx
              exact hnew _ q1 q2
            · obtain ⟨q1, q2⟩ := h.own o d hd x (hid x hx)
              exact hnew _ q1 q2
          · intro i j d1 d2 hne h1 h2 x hx
            rcases hobj i d1 h1 with ⟨ni, h3⟩ | ⟨ei, rfl⟩
            · rcases hobj j d2 h2 with ⟨nj, h4⟩ | ⟨ej, rfl⟩
              · exact h.dis i j d1 d2 hne h3 h4 x hx
              · rw [k3, k3']; exact h.dis i o d1 d ni h3 hd x hx
            · rcases hobj j d2 h2 with ⟨nj, h4⟩ | ⟨ej, rfl⟩
              · exact h.dis o j d d2 (Ne.symm nj) hd h4 x (hid x hx)
              · omega
          · intro a ha
            rcases List.mem_append.mp ha with ha | ha
            · cases r with
              | none => simp at ha
              | some q =>
                simp at ha
                rw [ha]; exact (k4.ret q rfl).1
            · exact Nat.lt_of_lt_of_le (h.known a ha) k4.len
        · intro o'
          by_cases e : o = o'
          · subst e
            have e1 : copsOf o [.call o (op.val s.heap) out] = [op.val s.heap] := by simp [copsOf]
            have e2 : coutsOf o [.call o (op.val s.heap) out] = [out] := by simp [coutsOf]
            rw [cgetD_of hv, cgetD_of (v := v') (by rw [List.getElem?_set]; simp [ho]), e1, e2]
            simp only [Cgo.Digest.run, c1, bind, Except.bind]; rfl
          · have e1 : copsOf o' [.call o (op.val s.heap) out] = [] := by simp [copsOf, e]
            have e2 : coutsOf o' [.call o (op.val s.heap) out] = [] := by simp [coutsOf, e]
            rw [e1, e2, List.getD_eq_getElem?_getD (l := vs.set o v'), List.getElem?_set_ne e,
              ← List.getD_eq_getElem?_getD]
            rfl
        · intro data D c hm
          simp at hm
      · exact ⟨s, [], vs, by simp only [CSys.step, hd, hleg]; rfl, h, nil, nil'⟩
  | sumPkg data =>
    by_cases hleg : s.legal data
    · have hd : (data.len = 0 ∧ data.cap = 0) ∨ Fits s.heap data := (clegal_fits hleg).imp id And.left
      have hs := cgo_sumPkg cfg (Model.rd s.heap data)
      generalize safeHash cVerdict (Model.rd s.heap data) = w at hs
      obtain ⟨D, c⟩ := w
      obtain ⟨H', r, m1, m2, m3, m4, _, _, _, _, m5⟩ := sumPkg_sim cfg data hd hs
      have hl : s.heap.length ≤ H'.length := by omega
      refine ⟨{ s with heap := H', known := r.arr :: s.known }, [.sumPkg (Model.rd s.heap data) (Model.rd H' r) c], vs,
        ?_, ?_, nil, ?_⟩
      · simp only [CSys.step, hleg, if_true, m1, bind, Except.bind]; rfl
      · refine h.mem H' (r.arr :: s.known) hl (fun i hi _ => m5 i hi) fun a ha => ?_
        rcases List.mem_cons.mp ha with rfl | ha
        · exact ⟨m4, .inr m3⟩
        · exact ⟨Nat.lt_of_lt_of_le (h.known a ha) hl, .inl ha⟩
      · intro data' D' c' hm
        simp only [List.mem_cons, List.not_mem_nil, or_false, CEv.sumPkg.injEq] at hm
        obtain ⟨rfl, rfl, rfl⟩ := hm
        rw [m2]
        exact hs
    · exact ⟨s, [], vs, by simp only [CSys.step, hleg]; rfl, h, nil, nil'⟩
  | make bs =>
    refine ⟨{ s with heap := s.heap ++ [bs], known := s.heap.length :: s.known }, [], vs, rfl, ?_, nil, nil'⟩
    refine h.mem (s.heap ++ [bs]) (s.heap.length :: s.known) (by simp) (fun i hi _ => List.getElem?_append_left hi) ?_
    intro a ha
    rcases List.mem_cons.mp ha with rfl | ha
    · exact ⟨by simp, .inr (Nat.le_refl _)⟩
    · have := h.known a ha
      exact ⟨by simp; omega, .inl ha⟩
  | poke a i b =>
    by_cases ha : a ∈ s.known
    · refine ⟨{ s with heap := s.heap.modify a fun l => l.set i b }, [], vs, by simp only [CSys.step, ha, if_true]; rfl,
        ?_, nil, nil'⟩
      refine h.mem _ s.known (by simp) ?_ (fun x hx => ⟨by simp; exact h.known x hx, .inl hx⟩)
      intro j _ hj
      have hne : ¬ a = j := fun e => hj (e ▸ ha)
      rw [List.getElem?_modify]
      simp [hne]
    · exact ⟨s, [], vs, by simp only [CSys.step, ha]; rfl, h, nil, nil'⟩

theorem crun_spec (cfg : Cfg) : ∀ (cs : List CCmd) {s : CSys} {vs : List Cgo.Digest}, CInv s vs →
    ∃ s' es vs', s.run cfg cs = .ok (s', es) ∧ CInv s' vs' ∧
      (∀ o, (vs.getD o Cgo.new).run cfg (copsOf o es) = .ok (vs'.getD o Cgo.new, coutsOf o es)) ∧
      (∀ data D c, CEv.sumPkg data D c ∈ es → Cgo.sumPkg cfg data = .ok (D, c))
  | [], s, vs, h => ⟨s, [], vs, rfl, h, fun _ => rfl, fun _ _ _ h => by cases h⟩
  | c :: cs, s, vs, h => by
    obtain ⟨s1, es1, vs1, a1, a2, a3, a4⟩ := cstep_spec cfg h c
    obtain ⟨s2, es2, vs2, b1, b2, b3, b4⟩ := crun_spec cfg cs a2
    refine ⟨s2, es1 ++ es2, vs2, ?_, b2, ?_, ?_⟩
    · simp only [CSys.run, a1, b1, bind, Except.bind]; rfl
    · intro o
      rw [copsOf_append, coutsOf_append, crun_append]
      simp only [a3 o, b3 o, bind, Except.bind]; rfl
    · intro data D c hm
      rcases List.mem_append.mp hm with hm | hm
      · exact a4 _ _ _ hm
      · exact b4 _ _ _ hm

end CgoMem

end Verif
