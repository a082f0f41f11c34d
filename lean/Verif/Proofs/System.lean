import Verif.Proofs.Memory
import Verif.Proofs.Sim
import Verif.Spec.System

/-! Programs with several objects: the objects do not share memory with each other or with the client. -/

namespace Verif

open Verif.Model Verif.Spec

theorem opsOf_append (o : Nat) (xs ys : List Ev) : opsOf o (xs ++ ys) = opsOf o xs ++ opsOf o ys := by
  simp [opsOf]

theorem outsOf_append (o : Nat) (xs ys : List Ev) : outsOf o (xs ++ ys) = outsOf o xs ++ outsOf o ys := by
  simp [outsOf]

/-- The objects are the values `vs`, and no array of an object is shared. -/
structure SInv (s : Sys) (vs : List Digest) : Prop where
  dvs : s.dvs = sha1Dvs
  len : vs.length = s.objs.length
  rep : ∀ (o : Nat) (d : MDigest) (v : Digest), s.objs[o]? = some d → vs[o]? = some v → Rep s.heap d v ∧ DInv v
  own : ∀ (o : Nat) (d : MDigest), s.objs[o]? = some d → d.x ∉ s.known ∧ d.x < s.heap.length
  dis : ∀ (o o' : Nat) (d d' : MDigest), o ≠ o' → s.objs[o]? = some d → s.objs[o']? = some d' → d.x ≠ d'.x
  known : ∀ a ∈ s.known, a < s.heap.length

theorem SInv.init : SInv Sys.init [] :=
  ⟨rfl, rfl, fun _ _ _ h => by simp [Sys.init] at h, fun _ _ h => by simp [Sys.init] at h,
    fun _ _ _ _ _ h => by simp [Sys.init] at h, fun _ h => by simp [Sys.init] at h⟩

/-- A slice the client has. -/
theorem legal_fits {s : Sys} {p : Sl} (h : s.legal p = true) :
    (p.len = 0 ∧ p.cap = 0) ∨ (Fits s.heap p ∧ p.arr ∈ s.known) := by
  unfold Sys.legal at h
  simp only [Bool.and_eq_true, Bool.or_eq_true, decide_eq_true_eq] at h
  obtain ⟨h1, h2⟩ := h
  rcases h2 with h2 | ⟨h2, h3⟩
  · exact .inl ⟨by omega, h2⟩
  · by_cases hc : p.cap = 0
    · exact .inl ⟨by omega, hc⟩
    · refine .inr ⟨⟨h1, ?_⟩, h2⟩
      rw [List.getD_eq_getElem?_getD] at h3
      cases hg : s.heap[p.arr]? with
      | none => rw [hg] at h3; simp at h3; omega
      | some a => rw [hg] at h3; exact ⟨a, rfl, h3⟩

theorem SInv.apart {s : Sys} {vs : List Digest} (h : SInv s vs) {o : Nat} {d : MDigest} (hd : s.objs[o]? = some d)
    {p : Sl} (hp : s.legal p = true) : Apart s.heap d.x p := by
  rcases legal_fits hp with hp | ⟨h1, h2⟩
  · exact .inl hp
  · refine .inr ⟨h1, fun e => (h.own o d hd).1 (e ▸ h2)⟩

/-- Commands that only add to memory, or change arrays of the client. -/
theorem SInv.mem {s : Sys} {vs : List Digest} (h : SInv s vs) (H' : Heap) (known' : List Nat)
    (hl : s.heap.length ≤ H'.length) (hk : ∀ i, i < s.heap.length → i ∉ s.known → H'[i]? = s.heap[i]?)
    (hn : ∀ a ∈ known', a < H'.length ∧ (a ∈ s.known ∨ s.heap.length ≤ a)) :
    SInv { s with heap := H', known := known' } vs := by
  refine ⟨h.dvs, h.len, ?_, ?_, h.dis, fun a ha => (hn a ha).1⟩
  · intro o d v h1 h2
    obtain ⟨r1, r2⟩ := h.rep o d v h1 h2
    obtain ⟨o1, o2⟩ := h.own o d h1
    exact ⟨r1.congr (hk _ o2 o1), r2⟩
  · intro o d h1
    obtain ⟨o1, o2⟩ := h.own o d h1
    refine ⟨fun hm => ?_, Nat.lt_of_lt_of_le o2 hl⟩
    rcases (hn _ hm).2 with h3 | h3
    · exact o1 h3
    · omega

theorem getD_of {vs : List Digest} {o : Nat} {v : Digest} (h : vs[o]? = some v) : vs.getD o new = v := by
  rw [List.getD_eq_getElem?_getD, h]; rfl

/-- One command. -/
theorem step_spec (blk : List DvInfo → BlockFn) (det : Regs → Block → Bool) (hb : BlockImpl (blk sha1Dvs) det)
    {s : Sys} {vs : List Digest} (h : SInv s vs) (c : Cmd) (hc : isSetDv c = false) :
    ∃ s' es vs', s.step blk c = .ok (s', es) ∧ SInv s' vs' ∧
      (∀ o, (vs.getD o new).run (blk sha1Dvs) (opsOf o es) = .ok (vs'.getD o new, outsOf o es)) ∧
      (∀ data D c, Ev.sumPkg data D c ∈ es → sumPkg (blk sha1Dvs) .callFirst data = .ok (D, c)) := by
  have nil : ∀ o, (vs.getD o new).run (blk sha1Dvs) (opsOf o []) = .ok (vs.getD o new, outsOf o []) := fun o => rfl
  have nil' : ∀ data D c, Ev.sumPkg data D c ∈ ([] : List Ev) → sumPkg (blk sha1Dvs) .callFirst data = .ok (D, c) :=
    fun _ _ _ h => by cases h
  cases c with
  | new =>
    obtain ⟨d, m1, m2, m3⟩ := make_sim s.heap
    refine ⟨{ s with heap := s.heap ++ [List.replicate 64 0], objs := s.objs ++ [d] }, [], vs ++ [new], ?_, ?_, ?_, nil'⟩
    · simp only [Sys.step, m1]; rfl
    · have hobj : ∀ (o : Nat) d', (s.objs ++ [d])[o]? = some d' →
          (o < s.objs.length ∧ s.objs[o]? = some d') ∨ (o = s.objs.length ∧ d' = d) := by
        intro o d' h1
        by_cases ho : o < s.objs.length
        · exact .inl ⟨ho, by rw [List.getElem?_append_left ho] at h1; exact h1⟩
        · rw [List.getElem?_append_right (by omega)] at h1
          obtain ⟨h3, h4⟩ := List.getElem?_eq_some_iff.mp h1
          simp at h3
          have : o = s.objs.length := by omega
          subst this
          simp at h4
          exact .inr ⟨rfl, h4.symm⟩
      refine ⟨h.dvs, by simp [h.len], ?_, ?_, ?_, ?_⟩
      · intro o d' v h1 h2
        rcases hobj o d' h1 with ⟨ho, h3⟩ | ⟨ho, rfl⟩
        · rw [List.getElem?_append_left (by rw [h.len]; exact ho)] at h2
          obtain ⟨r1, r2⟩ := h.rep o d' v h3 h2
          exact ⟨r1.congr (List.getElem?_append_left (h.own o d' h3).2), r2⟩
        · rw [List.getElem?_append_right (by rw [h.len]; omega), ho, h.len] at h2
          simp at h2
          subst h2
          exact ⟨m3, new_inv⟩
      · intro o d' h1
        rcases hobj o d' h1 with ⟨ho, h3⟩ | ⟨ho, rfl⟩
        · exact ⟨(h.own o d' h3).1, by have := (h.own o d' h3).2; simp; omega⟩
        · refine ⟨fun hm => ?_, by rw [m2]; simp⟩
          have := h.known _ hm
          omega
      · intro o o' d1 d2 hne h1 h2
        rcases hobj o d1 h1 with ⟨ho, h3⟩ | ⟨ho, rfl⟩
        · rcases hobj o' d2 h2 with ⟨ho', h4⟩ | ⟨ho', rfl⟩
          · exact h.dis o o' d1 d2 hne h3 h4
          · have := (h.own o d1 h3).2
            omega
        · rcases hobj o' d2 h2 with ⟨ho', h4⟩ | ⟨ho', rfl⟩
          · have := (h.own o' d2 h4).2
            omega
          · omega
      · intro a ha
        have := h.known a ha
        simp; omega
    · intro o
      have : (vs ++ [new]).getD o new = vs.getD o new := by
        rw [List.getD_eq_getElem?_getD, List.getD_eq_getElem?_getD, List.getElem?_append]
        split
        · rfl
        · rename_i hn
          rw [List.getElem?_eq_none (l := vs) (by omega)]
          by_cases h0 : o - vs.length = 0
          · rw [h0]; rfl
          · rw [List.getElem?_eq_none (by simp; omega)]
      rw [this]
      exact nil o
  | call o op =>
    cases hd : s.objs[o]? with
    | none => exact ⟨s, [], vs, by simp only [Sys.step, hd]; rfl, h, nil, nil'⟩
    | some d =>
      by_cases hleg : op.arg.all s.legal
      · have ho : o < vs.length := by rw [h.len]; exact (List.getElem?_eq_some_iff.mp hd).1
        have hv : vs[o]? = some vs[o] := List.getElem?_eq_getElem ho
        generalize vs[o] = v at hv
        obtain ⟨r1, r2⟩ := h.rep o d v hd hv
        obtain ⟨o1, o2⟩ := h.own o d hd
        have hap : ∀ p, op.arg = some p → Apart s.heap d.x p := by
          intro p hp
          rw [hp] at hleg
          exact h.apart hd hleg
        have hdest : ∀ inp, dest op = some inp → inp.len + 20 ≤ inp.cap → inp.arr ∈ s.known := by
          intro inp hi hr
          have : op.arg = some inp := by cases op <;> simp_all [dest, MOp.arg]
          rw [this] at hleg
          rcases legal_fits hleg with h1 | h1
          · omega
          · exact h1.2
        obtain ⟨v', v2, out, out2, c1, _, hs, _, _⟩ := call_sim (blk sha1Dvs) (blk sha1Dvs) det hb hb (Sim.refl r2).1
          (op.val s.heap)
        obtain ⟨H', d', r, k1, k2, k3, k4⟩ := mcall_sim (blk sha1Dvs) r1 (Nat.le_of_lt r2.lt) op hap out c1
        have hother : ∀ (o' : Nat) d'', o' ≠ o → s.objs[o']? = some d'' → H'[d''.x]? = s.heap[d''.x]? := by
          intro o' d'' hne hd''
          obtain ⟨q1, q2⟩ := h.own o' d'' hd''
          refine k4.keep _ q2 (h.dis o' o d'' d hne hd'' hd) ?_
          intro inp hi hr e
          exact q1 (e ▸ hdest inp hi hr)
        have hobj : ∀ (o' : Nat) d'', (s.objs.set o d')[o']? = some d'' →
            (o' ≠ o ∧ s.objs[o']? = some d'') ∨ (o' = o ∧ d'' = d') := by
          intro o' d'' h1
          rw [List.getElem?_set] at h1
          split at h1
          · rename_i e
            subst e
            split at h1
            · simp at h1; exact .inr ⟨rfl, h1.symm⟩
            · cases h1
          · rename_i e
            exact .inl ⟨fun e' => e e'.symm, h1⟩
        have hvs : ∀ (o' : Nat) v'', (vs.set o v')[o']? = some v'' →
            (o' ≠ o ∧ vs[o']? = some v'') ∨ (o' = o ∧ v'' = v') := by
          intro o' d'' h1
          rw [List.getElem?_set] at h1
          split at h1
          · rename_i e
            subst e
            simp at h1; exact .inr ⟨rfl, h1.symm⟩
          · rename_i e
            exact .inl ⟨fun e' => e e'.symm, h1⟩
        refine ⟨{ s with heap := H', objs := s.objs.set o d', known := (r.map Sl.arr).toList ++ s.known },
          [.call o (op.val s.heap) out], vs.set o v', ?_, ?_, ?_, ?_⟩
        · simp only [Sys.step, hd, hleg, if_true, h.dvs, k1, bind, Except.bind]; rfl
        · refine ⟨h.dvs, by simp [h.len], ?_, ?_, ?_, ?_⟩
          · intro o' d'' v'' h1 h2
            rcases hobj o' d'' h1 with ⟨ne, h3⟩ | ⟨e, rfl⟩
            · rcases hvs o' v'' h2 with ⟨_, h4⟩ | ⟨e, _⟩
              · obtain ⟨q1, q2⟩ := h.rep o' d'' v'' h3 h4
                exact ⟨q1.congr (hother o' d'' ne h3), q2⟩
              · exact absurd e ne
            · rcases hvs o' v'' h2 with ⟨ne, _⟩ | ⟨_, rfl⟩
              · exact absurd e ne
              · exact ⟨k2, hs.inv1⟩
          · have hnew : ∀ x, x ∉ s.known → x < s.heap.length → x ∉ (r.map Sl.arr).toList ++ s.known ∧ x < H'.length := by
              intro x h1 h2
              refine ⟨fun hm => ?_, Nat.lt_of_lt_of_le h2 k4.len⟩
              rcases List.mem_append.mp hm with hm | hm
              · cases r with
                | none => simp at hm
                | some q =>
                  simp at hm
                  obtain ⟨_, h4⟩ := k4.ret q rfl
                  rcases h4 with h4 | ⟨inp, i1, i2, i3⟩
                  · omega
                  · exact h1 (by rw [hm, i3]; exact hdest inp i1 i2)
              · exact h1 hm
            intro o' d'' h1
            rcases hobj o' d'' h1 with ⟨ne, h3⟩ | ⟨e, rfl⟩
            · obtain ⟨q1, q2⟩ := h.own o' d'' h3
              exact hnew _ q1 q2
            · rw [k3]; exact hnew _ o1 o2
          · intro i j d1 d2 hne h1 h2
            rcases hobj i d1 h1 with ⟨ni, h3⟩ | ⟨ei, rfl⟩
            · rcases hobj j d2 h2 with ⟨nj, h4⟩ | ⟨ej, rfl⟩
              · exact h.dis i j d1 d2 hne h3 h4
              · rw [k3]; exact h.dis i o d1 d ni h3 hd
            · rcases hobj j d2 h2 with ⟨nj, h4⟩ | ⟨ej, rfl⟩
              · rw [k3]; exact h.dis o j d d2 (Ne.symm nj) hd h4
              · omega
          · intro a ha
            rcases List.mem_append.mp ha with ha | ha
            · cases r with
              | none => simp at ha
              | some q =>
                simp at ha
                rw [ha]; exact (k4.ret q rfl).1
            · exact Nat.lt_of_lt_of_le (h.known a ha) k4.len
        · intro o'
          by_cases e : o = o'
          · subst e
            have e1 : opsOf o [.call o (op.val s.heap) out] = [op.val s.heap] := by simp [opsOf]
            have e2 : outsOf o [.call o (op.val s.heap) out] = [out] := by simp [outsOf]
            rw [getD_of hv, getD_of (v := v') (by rw [List.getElem?_set]; simp [ho]), e1, e2]
            simp only [Digest.run, c1, bind, Except.bind]; rfl
          · have e1 : opsOf o' [.call o (op.val s.heap) out] = [] := by simp [opsOf, e]
            have e2 : outsOf o' [.call o (op.val s.heap) out] = [] := by simp [outsOf, e]
            rw [e1, e2, List.getD_eq_getElem?_getD (l := vs.set o v'), List.getElem?_set_ne e,
              ← List.getD_eq_getElem?_getD]
            rfl
        · intro data D c hm
          simp at hm
      · exact ⟨s, [], vs, by simp only [Sys.step, hd, hleg]; rfl, h, nil, nil'⟩
  | sumPkg data =>
    by_cases hleg : s.legal data
    · have hd : (data.len = 0 ∧ data.cap = 0) ∨ Fits s.heap data := (legal_fits hleg).imp id And.left
      obtain ⟨D, c, hs⟩ : ∃ D c, sumPkg (blk sha1Dvs) .callFirst (rd s.heap data) = .ok (D, c) :=
        ⟨_, _, sumPkg_call hb _⟩
      obtain ⟨H', m1, m2, m3⟩ := msumPkg_sim (blk sha1Dvs) data hd D c hs
      refine ⟨{ s with heap := H' }, [.sumPkg (rd s.heap data) D c], vs, ?_, ?_, nil, ?_⟩
      · simp only [Sys.step, hleg, if_true, h.dvs, m1, bind, Except.bind]; rfl
      · exact h.mem H' s.known m2 (fun i hi _ => m3 i hi) fun a ha =>
          ⟨Nat.lt_of_lt_of_le (h.known a ha) m2, .inl ha⟩
      · intro data' D' c' hm
        simp at hm
        obtain ⟨rfl, rfl, rfl⟩ := hm
        exact hs
    · exact ⟨s, [], vs, by simp only [Sys.step, hleg]; rfl, h, nil, nil'⟩
  | make bs =>
    refine ⟨{ s with heap := s.heap ++ [bs], known := s.heap.length :: s.known }, [], vs, rfl, ?_, nil, nil'⟩
    refine h.mem (s.heap ++ [bs]) (s.heap.length :: s.known) (by simp) (fun i hi _ => List.getElem?_append_left hi) ?_
    intro a ha
    rcases List.mem_cons.mp ha with rfl | ha
    · exact ⟨by simp, .inr (Nat.le_refl _)⟩
    · have := h.known a ha
      exact ⟨by simp; omega, .inl ha⟩
  | poke a i b =>
    by_cases ha : a ∈ s.known
    · refine ⟨{ s with heap := s.heap.modify a fun l => l.set i b }, [], vs, by simp only [Sys.step, ha, if_true]; rfl,
        ?_, nil, nil'⟩
      refine h.mem _ s.known (by simp) ?_ (fun x hx => ⟨by simp; exact h.known x hx, .inl hx⟩)
      intro j _ hj
      have hne : ¬ a = j := fun e => hj (e ▸ ha)
      rw [List.getElem?_modify]
      simp [hne]
    · exact ⟨s, [], vs, by simp only [Sys.step, ha]; rfl, h, nil, nil'⟩
  | setDv i e => simp [isSetDv] at hc

theorem sys_run_spec (blk : List DvInfo → BlockFn) (det : Regs → Block → Bool) (hb : BlockImpl (blk sha1Dvs) det) :
    ∀ (cs : List Cmd) {s : Sys} {vs : List Digest}, SInv s vs → (∀ c ∈ cs, isSetDv c = false) →
    ∃ s' es vs', s.run blk cs = .ok (s', es) ∧ SInv s' vs' ∧
      (∀ o, (vs.getD o new).run (blk sha1Dvs) (opsOf o es) = .ok (vs'.getD o new, outsOf o es)) ∧
      (∀ data D c, Ev.sumPkg data D c ∈ es → sumPkg (blk sha1Dvs) .callFirst data = .ok (D, c))
  | [], s, vs, h, _ => ⟨s, [], vs, rfl, h, fun _ => rfl, fun _ _ _ h => by cases h⟩
  | c :: cs, s, vs, h, hc => by
    obtain ⟨s1, es1, vs1, a1, a2, a3, a4⟩ := step_spec blk det hb h c (hc c (List.mem_cons_self ..))
    obtain ⟨s2, es2, vs2, b1, b2, b3, b4⟩ := sys_run_spec blk det hb cs a2 fun c h => hc c (List.mem_cons_of_mem _ h)
    refine ⟨s2, es1 ++ es2, vs2, ?_, b2, ?_, ?_⟩
    · simp only [Sys.run, a1, b1, bind, Except.bind]; rfl
    · intro o
      rw [opsOf_append, outsOf_append, run_append]
      simp only [a3 o, b3 o, bind, Except.bind]; rfl
    · intro data D c hm
      rcases List.mem_append.mp hm with hm | hm
      · exact a4 _ _ _ hm
      · exact b4 _ _ _ hm

/-- A program that leaves the table alone only depends on the block function for that table. -/
theorem sys_run_congr (blk blk' : List DvInfo → BlockFn) (hb : blk sha1Dvs = blk' sha1Dvs) :
    ∀ (cs : List Cmd) (s : Sys), s.dvs = sha1Dvs → (∀ c ∈ cs, isSetDv c = false) → s.run blk cs = s.run blk' cs
  | [], _, _, _ => rfl
  | c :: cs, s, hd, hc => by
    have hstep : s.step blk c = s.step blk' c := by
      cases c <;> simp only [Sys.step, hd, hb]
    have hdvs : ∀ s' es, s.step blk' c = .ok (s', es) → s'.dvs = sha1Dvs := by
      have h0 := hc c (List.mem_cons_self ..)
      intro s' es hs
      cases c with
      | setDv => simp [isSetDv] at h0
      | new => simp only [Sys.step, pure, Except.pure, Except.ok.injEq, Prod.mk.injEq] at hs; rw [← hs.1]; exact hd
      | make => simp only [Sys.step, pure, Except.pure, Except.ok.injEq, Prod.mk.injEq] at hs; rw [← hs.1]; exact hd
      | poke =>
        simp only [Sys.step, pure, Except.pure] at hs
        split at hs <;> (simp only [Except.ok.injEq, Prod.mk.injEq] at hs; rw [← hs.1]; exact hd)
      | sumPkg =>
        simp only [Sys.step, pure, Except.pure, bind, Except.bind] at hs
        split at hs
        · split at hs
          · cases hs
          · simp only [Except.ok.injEq, Prod.mk.injEq] at hs; rw [← hs.1]; exact hd
        · simp only [Except.ok.injEq, Prod.mk.injEq] at hs; rw [← hs.1]; exact hd
      | call =>
        simp only [Sys.step, pure, Except.pure, bind, Except.bind] at hs
        split at hs
        · simp only [Except.ok.injEq, Prod.mk.injEq] at hs; rw [← hs.1]; exact hd
        · split at hs
          · split at hs
            · cases hs
            · simp only [Except.ok.injEq, Prod.mk.injEq] at hs; rw [← hs.1]; exact hd
          · simp only [Except.ok.injEq, Prod.mk.injEq] at hs; rw [← hs.1]; exact hd
    simp only [Sys.run, hstep, bind, Except.bind]
    cases hs : s.step blk' c with
    | error _ => rfl
    | ok w =>
      obtain ⟨s', es⟩ := w
      simp only
      rw [sys_run_congr blk blk' hb cs s' (hdvs s' es hs) fun c h => hc c (List.mem_cons_of_mem _ h)]

end Verif
