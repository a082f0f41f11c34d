import Verif.Props.Par
import Verif.Proofs.Sync
import Mathlib.Data.List.Permutation

/-!
Goroutines that synchronise, on a memory that does not keep the order of accesses: C64.

`exec B cfg M gs es` is the state after the events `es` when goroutine `i` executes the sections `gs i` and memory is `M`
at the start; `done i` are the results of the sections of goroutine `i` that are over.
-/

namespace Verif.Props

open Verif Verif.Model Verif.Model.C Verif.Model.Par Verif.Model.Sync Verif.Par Verif.Sync Verif.Spec Verif.Spec.Par
  Verif.Spec.Sync

/-- C64.  Any memory, any number of goroutines doing anything, any events: if the program is synchronised, the results
of the sections that are over are those that the sections have when they are executed one after the other
on one memory, in an order in which each goroutine has executed its sections and nothing is executed before what it has to wait for. -/
theorem C64_one_by_one (B : Build) (cfg : Plat) (M : Memory) (gs : Nat → List Section) (hs : Synced gs)
    (es : List SEv) :
    ∃ τ S outs, Order gs (fun i => ((exec B cfg M gs es).done i).length) τ ∧
      oneByOne B cfg gs M τ = .ok (S, outs) ∧ ∀ i, (exec B cfg M gs es).done i = resultsOf i outs := by
  obtain ⟨_, _, _, S, τ, outs, _, h⟩ := inv_exec B cfg hs M es
  exact ⟨τ, S, outs, h.order, h.one, fun i => (h.res i).symm⟩

/-- Execution one after the other gives what the specification says. -/
theorem oneByOne_spec (B : Build) (cfg : Cfg) (gs : Nat → List Section)
    (hgs : ∀ i, ∀ s ∈ gs i, ∀ a ∈ s.acts, Covered a = true) (τ : List (Nat × Nat)) :
    ∀ {M : Memory} {w : World}, Agrees goVerdict M w →
      ∃ S, oneByOne B cfg gs M τ = .ok (S, (serial goVerdict (verdict Detected) gs w τ).2) ∧
        Agrees goVerdict S (serial goVerdict (verdict Detected) gs w τ).1 := by
  induction τ with
  | nil => intro M w h; exact ⟨M, rfl, h⟩
  | cons x τ ih =>
    intro M w h
    have hc : ∀ a ∈ actsOf gs x, Covered a = true := by
      intro a ha
      unfold actsOf at ha
      cases hx : (gs x.1)[x.2]? with
      | none => rw [hx] at ha; cases ha
      | some s => rw [hx] at ha; exact hgs x.1 s (List.mem_of_getElem? hx) a ha
    obtain ⟨M', r, h'⟩ := acts_spec (blk := fun t => B.blockWith t) (build_impl B) cfg (actsOf gs x) h hc
    obtain ⟨S, r', h''⟩ := ih h'
    refine ⟨S, ?_, h''⟩
    rw [oneByOne_cons, whole_eq, r]
    show (oneByOne B cfg gs M' τ >>= fun rs => pure (rs.1, (x.1, _) :: rs.2)) = _
    rw [r']
    rfl

theorem agrees_of (B : Build) (cfg : Cfg) (M : Memory)
    (pre : Nat → List Op) (hpre : ∀ o, ∀ op ∈ pre o, isRestore op = false)
    (hgo : ∀ o, ∃ outs, new.run B.block (pre o) = .ok (M.go o, outs))
    (preC : Nat → List Cgo.Op) (hcgo : ∀ o, ∃ outs, Cgo.new.run cfg (preC o) = .ok (M.cgo o, outs))
    (hdv : ∀ i e, sha1Dvs[i]? = some e → M.dv i = e) :
    Agrees goVerdict M ⟨fun o => msgOf (pre o), fun o => msgOf ((preC o).map Cgo.Op.toGo), M.arr⟩ := by
  refine ⟨fun o => ?_, fun o => ?_, rfl, hdv⟩
  · obtain ⟨os, hr⟩ := hgo o
    obtain ⟨d, r, hh⟩ := (holds_new goVerdict).run (build_impl B) (pre o) (hpre o)
    rw [hr] at r
    simp only [Except.ok.injEq, Prod.mk.injEq] at r
    obtain ⟨rfl, _⟩ := r
    exact hh
  · obtain ⟨os, hr⟩ := hcgo o
    obtain ⟨d, r, hh⟩ := holdsCgo_new.run cfg (preC o)
    rw [hr] at r
    simp only [Except.ok.injEq, Prod.mk.injEq] at r
    obtain ⟨rfl, _⟩ := r
    exact hh

/-- C64, the results: with objects made by writes, resets and looks (as in `C53_results`) and sections that restore
nothing and leave the table of package `ubc` alone, the results are those that the specification gives for the
sections one after the other, and nobody panics. -/
theorem C64_results (B : Build) (cfg : Cfg) (M : Memory)
    (pre : Nat → List Op) (hpre : ∀ o, ∀ op ∈ pre o, isRestore op = false)
    (hgo : ∀ o, ∃ outs, new.run B.block (pre o) = .ok (M.go o, outs))
    (preC : Nat → List Cgo.Op) (hcgo : ∀ o, ∃ outs, Cgo.new.run cfg (preC o) = .ok (M.cgo o, outs))
    (hdv : ∀ i e, sha1Dvs[i]? = some e → M.dv i = e)
    (gs : Nat → List Section) (hs : Synced gs) (hgs : ∀ i, ∀ s ∈ gs i, ∀ a ∈ s.acts, Covered a = true)
    (es : List SEv) :
    (∃ τ, Order gs (fun i => ((exec B cfg M gs es).done i).length) τ ∧
      ∀ i, (exec B cfg M gs es).done i = resultsOf i (serial goVerdict (verdict Detected) gs
        ⟨fun o => msgOf (pre o), fun o => msgOf ((preC o).map Cgo.Op.toGo), M.arr⟩ τ).2) ∧
    ∀ i e, (exec B cfg M gs es).now i ≠ some (.panic e) := by
  have hA := agrees_of B cfg M pre hpre hgo preC hcgo hdv
  obtain ⟨hc, _, _, S, τ, outs, _, h⟩ := inv_exec B cfg hs M es
  obtain ⟨S', r, hS⟩ := oneByOne_spec B cfg gs hgs τ hA
  have e := h.one.symm.trans r
  simp only [Except.ok.injEq, Prod.mk.injEq] at e
  obtain ⟨rfl, rfl⟩ := e
  refine ⟨⟨τ, h.order, fun i => (h.res i).symm⟩, fun i e hp => ?_⟩
  obtain ⟨s, hsec⟩ := hc.sec i (by rw [hp]; simp)
  obtain ⟨_, n, hn, _⟩ := h.code i _ s hp ⟨by rw [hp]; simp, hsec⟩
  have hw := whole_panic_of_solo n _ _ _ hn
  obtain ⟨M', r', _⟩ := acts_spec (blk := fun t => B.blockWith t) (build_impl B) cfg s.acts hS
    (hgs i s (List.mem_of_getElem? hsec))
  rw [whole_eq, r'] at hw
  cases hw

/-- C64, no data race. -/
theorem C64_race_free (B : Build) (cfg : Plat) (M : Memory) (gs : Nat → List Section) (hs : Synced gs)
    (es : List SEv) : ¬ (exec B cfg M gs es).Race := by
  rintro ⟨i, j, p, q, l, w, hij, hp, hq, hpn, hqn⟩
  obtain ⟨hc, _, _, _, _, _, _, h⟩ := inv_exec B cfg hs M es
  obtain ⟨s, hs1⟩ := hc.sec i (by rw [hp]; simp)
  obtain ⟨s', hs2⟩ := hc.sec j (by rw [hq]; simp)
  have ii : In gs (exec B cfg M gs es) i s := ⟨by rw [hp]; simp, hs1⟩
  have ij : In gs (exec B cfg M gs es) j s' := ⟨by rw [hq]; simp, hs2⟩
  have ti := (h.code i p s hp ii).1
  have tj := (h.code j q s' hq ij).1
  have ci : ChangesL s.acts l.thing := by
    cases p with
    | wr l' v k => cases hpn; exact ti.1
    | _ => cases hpn
  have uj : UsesL s'.acts l.thing := by
    cases q with
    | rd l' k => cases hqn; exact tj.1
    | wr l' v k => cases hqn; exact ChangesL.uses tj.1
    | _ => cases hqn
  exact hc.apart hs hij ii ij ci uj

/-- C64, nobody waits for ever: if only finitely many goroutines have something to do, every section waited for exists, and
there is an order of the sections in which none comes before one it waits for, then from every state that is
reached all goroutines can get to their ends. -/
theorem C64_ends (B : Build) (cfg : Cfg) (M : Memory)
    (pre : Nat → List Op) (hpre : ∀ o, ∀ op ∈ pre o, isRestore op = false)
    (hgo : ∀ o, ∃ outs, new.run B.block (pre o) = .ok (M.go o, outs))
    (preC : Nat → List Cgo.Op) (hcgo : ∀ o, ∃ outs, Cgo.new.run cfg (preC o) = .ok (M.cgo o, outs))
    (hdv : ∀ i e, sha1Dvs[i]? = some e → M.dv i = e)
    (gs : Nat → List Section) (hs : Synced gs) (hgs : ∀ i, ∀ s ∈ gs i, ∀ a ∈ s.acts, Covered a = true)
    (n : Nat) (hn : ∀ i, n ≤ i → gs i = []) (hw : ∀ i s x, s ∈ gs i → x ∈ s.waits → x.2 < (gs x.1).length)
    (r : Nat × Nat → Nat) (hr : ∀ x y, Direct gs x y → r x < r y) (es : List SEv) :
    ∃ es', ∀ i, ((exec B cfg M gs (es ++ es')).done i).length = (gs i).length ∧
      (exec B cfg M gs (es ++ es')).now i = none :=
  finishes hs n hn r hr hw (fun es i e => (C64_results B cfg M pre hpre hgo preC hcgo hdv gs hs hgs es).2 i e) es

/-- C64 without synchronisation: if no goroutine changes a thing that another one uses (as in C53), they need none,
on this memory too: what a goroutine returns, or the panic it ends in, is what it would be with nothing else running. -/
theorem C64_separate (B : Build) (cfg : Plat) (M : Memory) (gs : Nat → List Act) (hd : Separate gs) (es : List SEv)
    (i : Nat) :
    (∀ rs, (exec B cfg M (fun i => [⟨none, [], gs i⟩]) es).done i = [rs] →
      (whole M (goroutine (fun t => B.blockWith t) cfg (gs i))).map (·.2) = .ok rs) ∧
    ∀ e, (exec B cfg M (fun i => [⟨none, [], gs i⟩]) es).now i = some (.panic e) →
      whole M (goroutine (fun t => B.blockWith t) cfg (gs i)) = .error e := by
  have sec : ∀ (x : Nat × Nat) (s : Section), ([⟨none, [], gs x.1⟩] : List Section)[x.2]? = some s → s.acts = gs x.1 := by
    rintro ⟨j, k⟩ s h
    match k with
    | 0 => cases h; rfl
    | k + 1 => cases h
  have hs : Synced fun i => [⟨none, [], gs i⟩] := by
    intro x y s s' t hxy h1 h2 hc hu
    rw [sec x s h1] at hc
    rw [sec y s' h2] at hu
    exact absurd hu (hd _ _ t hxy hc)
  have hacts : ∀ x t, ChangesL (actsOf (fun i => [⟨none, [], gs i⟩]) x) t → ChangesL (gs x.1) t := by
    rintro ⟨j, k⟩ t h
    match k with
    | 0 => exact h
    | k + 1 => obtain ⟨_, h, _⟩ := h; cases h
  have ht := touches_goroutine (fun t => B.blockWith t) cfg (gs i)
  obtain ⟨hc, _, _, S, τ, outs, _, h⟩ := inv_exec B cfg hs M es
  constructor
  · intro rs hrs
    have hf := h.order.1 i
    dsimp only at hf
    rw [hrs] at hf
    have hmem : (i, 0) ∈ τ := mem_order h.order (by show 0 < List.length _; rw [hrs]; exact Nat.one_pos)
    obtain ⟨a, b, hab⟩ := List.append_of_mem hmem
    have ho := h.one
    rw [hab] at ho hf
    have ha : ∀ x ∈ a, x.1 ≠ i := by
      intro x hx e
      have hlen := congrArg List.length hf
      rw [List.filter_append, List.filter_cons_of_pos (by simp), List.length_append] at hlen
      have : 0 < (a.filter fun x => x.1 = i).length := List.length_pos_of_mem (List.mem_filter.2 ⟨hx, by simpa using e⟩)
      simp only [List.length_cons, List.length_map, List.length_range, List.length_nil] at hlen
      omega
    obtain ⟨S1, outs1, S2, rs', outs2, h1, h2, h3⟩ := oneByOne_split B cfg _ _ _ _ ho
    have hr := h.res i
    rw [hrs, h3] at hr
    have e : rs' = rs := by
      have : rs' ∈ resultsOf i (outs1 ++ (i, rs') :: outs2) := by simp [resultsOf]
      rw [hr, List.mem_singleton] at this
      exact this
    subst e
    have hsame := whole_same (M := S1) (M' := M) _ ht fun t hu =>
      oneByOne_frame B cfg _ a h1 fun x hx hch => hd _ _ t (ha x hx) (hacts x t hch) hu
    rw [← hsame]
    exact congrArg (Except.map (·.2)) h2
  · intro e he
    obtain ⟨s, hsec⟩ := hc.sec i (by rw [he]; simp)
    obtain ⟨_, n, hn, _⟩ := h.code i _ s he ⟨by rw [he]; simp, hsec⟩
    have hlen : ((exec B cfg M (fun i => [⟨none, [], gs i⟩]) es).done i).length = 0 := by
      have := (List.getElem?_eq_some_iff.1 hsec).1
      simpa using this
    have hw := whole_panic_of_solo n _ _ _ hn
    unfold secCode at hw
    rw [show s.acts = gs i from sec (i, _) s hsec] at hw
    have hsame := whole_same (M := S) (M' := M) _ ht fun t hu =>
      oneByOne_frame B cfg _ τ h.one fun x hx hch => by
        by_cases e : x.1 = i
        · have := h.order.1 i
          dsimp only at this
          rw [hlen] at this
          have hx' : x ∈ τ.filter fun x => x.1 = i := List.mem_filter.2 ⟨hx, by simpa using e⟩
          rw [this] at hx'
          cases hx'
        · exact hd _ _ t e (hacts x t hch) hu
    rw [hw] at hsame
    cases hM : whole M (goroutine (fun t => B.blockWith t) cfg (gs i)) with
    | ok r => rw [hM] at hsame; cases hsame
    | error e' => rw [hM] at hsame; cases hsame; rfl

/-! ### Instances -/

/-- Goroutines 0 and 1 write "ab" and "c" to one object, holding a mutex.  Goroutine 2 waits for both, appends the digest to
an empty slice, which takes new memory, and then looks at the first byte of it.  Goroutine 3 waits for that and looks at the
second byte. -/
def gs64 : Nat → List Section
  | 0 => [⟨some 0, [], [.go 0 (.write ⟨0, 0, 2, 2⟩) 0]⟩]
  | 1 => [⟨some 0, [], [.go 0 (.write ⟨0, 2, 1, 1⟩) 0]⟩]
  | 2 => [⟨none, [(0, 0), (1, 0)], [.go 0 (.sum ⟨9, 0, 0, 0⟩ 0) 10]⟩, ⟨none, [], [.peek 10 0]⟩]
  | 3 => [⟨none, [(2, 1)], [.peek 10 1]⟩]
  | _ => []

theorem gs64_direct : Direct gs64 (0, 0) (2, 0) ∧ Direct gs64 (1, 0) (2, 0) ∧ Direct gs64 (2, 0) (2, 1) ∧
    Direct gs64 (2, 1) (3, 0) :=
  ⟨.inr ⟨_, rfl, by simp⟩, .inr ⟨_, rfl, by simp⟩, .inl ⟨rfl, rfl⟩, .inr ⟨_, rfl, by simp⟩⟩

theorem gs64_synced : Synced gs64 := by
  obtain ⟨d02, d12, d22, d23⟩ := gs64_direct
  have b20 : Before gs64 (2, 0) (3, 0) := .tail (.single d22) d23
  have b21 : Before gs64 (2, 1) (3, 0) := .single d23
  have b0 : Before gs64 (0, 0) (2, 1) := .tail (.single d02) d22
  have b1 : Before gs64 (1, 0) (2, 1) := .tail (.single d12) d22
  have c0 : Before gs64 (0, 0) (3, 0) := .tail b0 d23
  have c1 : Before gs64 (1, 0) (3, 0) := .tail b1 d23
  rintro ⟨i, k⟩ ⟨j, k'⟩ s s' t hij hs hs' ⟨a, ha, hc⟩ ⟨b, hb, hu⟩
  dsimp only at hij hs hs'
  have len : ∀ i k s, (gs64 i)[k]? = some s →
      (i, k) = (0, 0) ∨ (i, k) = (1, 0) ∨ (i, k) = (2, 0) ∨ (i, k) = (2, 1) ∨ (i, k) = (3, 0) := by
    intro i k s h
    match i, k with
    | 0, 0 | 1, 0 | 2, 0 | 2, 1 | 3, 0 => simp
    | 0, k + 1 | 1, k + 1 | 2, k + 2 | 3, k + 1 => cases h
    | n + 4, _ => cases h
  rcases len _ _ _ hs with e | e | e | e | e <;> rcases len _ _ _ hs' with e' | e' | e' | e' | e' <;> cases e <;> cases e' <;>
    first
    | exact absurd rfl hij
    | exact .inr (.inl (by assumption))
    | exact .inr (.inr (by assumption))
    | exact .inr (.inl (.single (by assumption)))
    | exact .inr (.inr (.single (by assumption)))
    | exact .inl ⟨0, by cases hs; rfl, by cases hs'; rfl⟩

theorem gs64_covered : ∀ i, ∀ s ∈ gs64 i, ∀ a ∈ s.acts, Covered a = true := by
  intro i s hs a ha
  match i with
  | 0 | 1 => simp [gs64] at hs; subst hs; simp at ha; subst ha; rfl
  | 2 =>
    simp [gs64] at hs
    rcases hs with rfl | rfl <;> · simp at ha; subst ha; rfl
  | 3 => simp [gs64] at hs; subst hs; simp at ha; subst ha; rfl
  | n + 4 => cases hs

/-- Instance of `C64_results` and `C64_ends`: from every state the goroutines of `gs64` can get to their ends, and
goroutines 2 and 3 have then seen the first two bytes of the hash of "abc" or of "cab". -/
example (B : Build) (cfg : Cfg) (es : List SEv) :
    (∃ es', ∀ i, ((exec B cfg (M53 new) gs64 (es ++ es')).done i).length = (gs64 i).length) ∧
    ((∀ i, ((exec B cfg (M53 new) gs64 es).done i).length = (gs64 i).length) → ∃ b b',
      (exec B cfg (M53 new) gs64 es).done 2 = [[.slice ⟨10, 0, 20, 20⟩], [.byte b]] ∧
      (exec B cfg (M53 new) gs64 es).done 3 = [[.byte b']] ∧
      ((b = 0xa9 ∧ b' = 0x99) ∨ [b, b'] = (safeHash goVerdict [0x63, 0x61, 0x62]).1.take 2)) := by
  have hgo : ∀ o, ∃ outs, new.run B.block ((fun _ => []) o : List Op) = .ok ((M53 new).go o, outs) := by
    intro o
    refine ⟨[], ?_⟩
    show _ = Except.ok (if o = 1 then new else new, _)
    rw [ite_self]; rfl
  constructor
  · obtain ⟨es', h⟩ := C64_ends B cfg (M53 new) (fun _ => []) (by simp) hgo (fun _ => []) (fun _ => ⟨[], rfl⟩)
      (M53_dv new) gs64 gs64_synced gs64_covered 4
      (fun i hi => by
        match i, hi with
        | n + 4, _ => rfl)
      (by
        intro i s x hs hx
        match i with
        | 0 | 1 => simp [gs64] at hs; subst hs; simp at hx
        | 2 =>
          simp [gs64] at hs
          rcases hs with rfl | rfl
          · simp at hx
            rcases hx with rfl | rfl <;> decide
          · simp at hx
        | 3 => simp [gs64] at hs; subst hs; simp at hx; subst hx; decide
        | n + 4 => cases hs)
      (fun x => x.2 + if x.1 = 2 then 1 else if x.1 = 3 then 3 else 0)
      (by
        rintro ⟨i, k⟩ ⟨j, k'⟩ (⟨h1, h2⟩ | ⟨s, hs, hx⟩)
        · dsimp only at h1 h2 ⊢
          subst h1
          omega
        · dsimp only at hs ⊢
          match j, k' with
          | 0, 0 | 1, 0 | 2, 1 => cases hs; cases hx
          | 0, k' + 1 | 1, k' + 1 | 2, k' + 2 | 3, k' + 1 => cases hs
          | 3, 0 =>
            cases hs
            simp at hx
            rcases hx with ⟨rfl, rfl⟩
            decide
          | 2, 0 =>
            cases hs
            simp at hx
            rcases hx with ⟨rfl, rfl⟩ | ⟨rfl, rfl⟩ <;> decide
          | n + 4, _ => cases hs)
      es
    exact ⟨es', fun i => (h i).1⟩
  · intro hall
    obtain ⟨⟨τ, ho, hd⟩, _⟩ := C64_results B cfg (M53 new) (fun _ => []) (by simp) hgo (fun _ => []) (fun _ => ⟨[], rfl⟩)
      (M53_dv new) gs64 gs64_synced gs64_covered es
    have hn : (fun i => ((exec B cfg (M53 new) gs64 es).done i).length) = fun i => (gs64 i).length := funext hall
    rw [hn] at ho
    have hperm : τ.Perm [(0, 0), (1, 0), (2, 0), (2, 1), (3, 0)] := by
      rw [List.perm_iff_count]
      rintro ⟨i, k⟩
      rw [count_order ho]
      match i, k with
      | 0, 0 | 1, 0 | 2, 0 | 2, 1 | 3, 0 => rfl
      | 0, k + 1 | 1, k + 1 | 2, k + 2 | 3, k + 1 => simp [gs64]
      | n + 4, k => simp [gs64]
    have hmem := List.mem_permutations'.2 hperm
    have hbef : ∀ x y, Direct gs64 x y → y ∈ τ → x ∈ τ.takeWhile (fun z => z ≠ y) := by
      intro x y hxy hy
      have e : τ = τ.takeWhile (fun z => z ≠ y) ++ y :: (τ.dropWhile (fun z => z ≠ y)).tail := by
        have h1 := List.takeWhile_append_dropWhile (p := fun z => decide (z ≠ y)) (l := τ)
        have h2 : τ.dropWhile (fun z => z ≠ y) ≠ [] := by
          intro h0
          rw [h0, List.append_nil] at h1
          rw [← h1] at hy
          have := List.all_takeWhile (p := fun z => decide (z ≠ y)) (l := τ)
          rw [List.all_eq_true] at this
          simpa using this y hy
        have h3 : (τ.dropWhile (fun z => z ≠ y)).head h2 = y := by
          have := List.head_dropWhile_not (fun z => decide (z ≠ y)) h2
          simpa using this
        exact h1.symm.trans (congrArg _ ((List.cons_head_tail h2).symm.trans (congrArg (· :: _) h3)))
      exact ho.2 _ y _ e x (.single hxy)
    have m20 : (2, 0) ∈ τ := hperm.mem_iff.2 (by simp)
    have m21 : (2, 1) ∈ τ := hperm.mem_iff.2 (by simp)
    have m30 : (3, 0) ∈ τ := hperm.mem_iff.2 (by simp)
    have b1 := hbef (0, 0) (2, 0) gs64_direct.1 m20
    have b2 := hbef (1, 0) (2, 0) gs64_direct.2.1 m20
    have b3 := hbef (2, 0) (2, 1) gs64_direct.2.2.1 m21
    have b4 := hbef (2, 1) (3, 0) gs64_direct.2.2.2 m30
    have hτ : τ = [(0, 0), (1, 0), (2, 0), (2, 1), (3, 0)] ∨ τ = [(1, 0), (0, 0), (2, 0), (2, 1), (3, 0)] := by
      have key : ∀ τ ∈ [((0 : Nat), (0 : Nat)), (1, 0), (2, 0), (2, 1), (3, 0)].permutations',
          (0, 0) ∈ τ.takeWhile (fun z => z ≠ (2, 0)) → (1, 0) ∈ τ.takeWhile (fun z => z ≠ (2, 0)) →
          (2, 0) ∈ τ.takeWhile (fun z => z ≠ (2, 1)) → (2, 1) ∈ τ.takeWhile (fun z => z ≠ (3, 0)) →
          τ = [(0, 0), (1, 0), (2, 0), (2, 1), (3, 0)] ∨ τ = [(1, 0), (0, 0), (2, 0), (2, 1), (3, 0)] := by
        decide +kernel
      exact key τ hmem b1 b2 b3 b4
    have l20 : ∀ m, (safeHash goVerdict m).1.length = 20 := fun m => rfl
    rw [hd 2, hd 3]
    have eb : ∀ w : World, w.arr = (M53 new).arr →
        w.bytes ⟨0, 0, 2, 2⟩ = [0x61, 0x62] ∧ w.bytes ⟨0, 2, 1, 1⟩ = [0x63] := by
      intro w hw
      unfold World.bytes
      rw [hw]
      exact ⟨rfl, rfl⟩
    have m1 : msgOf [] ++ [0x61, 0x62] ++ [0x63] = abc := rfl
    have m2 : msgOf [] ++ [0x63] ++ [0x61, 0x62] = [0x63, 0x61, 0x62] := rfl
    rcases hτ with rfl | rfl
    · refine ⟨0xa9, 0x99, ?_, ?_, .inl ⟨rfl, rfl⟩⟩ <;>
      · simp only [serial, actsOf, gs64, List.getElem?_cons_zero, List.getElem?_cons_succ, Option.map_some,
          Option.getD_some, Spec.Par.steps, Spec.Par.step, goStep, eb, if_true, World.append, m1, abc_hash]
        rfl
    · simp only [serial, actsOf, gs64, List.getElem?_cons_zero, List.getElem?_cons_succ, Option.map_some, Option.getD_some,
        Spec.Par.steps, Spec.Par.step, goStep, eb, if_true, World.append, l20, m2]
      have l := l20 [0x63, 0x61, 0x62]
      revert l
      generalize (safeHash goVerdict [0x63, 0x61, 0x62]).1 = D
      intro l
      match D, l with
      | b :: b' :: D, l =>
        refine ⟨b, b', ?_, ?_, .inr rfl⟩ <;>
        simp [resultsOf, World.store, World.bytes]

/-- Instance of `C64_separate`: the goroutines of `gs53` on the weak memory. -/
example (B : Build) (cfg : Cfg) (o1 : Digest) (outs : List Out) (h1 : new.run B.block [.write abc] = .ok (o1, outs))
    (es : List SEv) (rs : List Res) (h : (exec B cfg (M53 o1) (fun i => [⟨none, [], gs53 i⟩]) es).done 2 = [rs]) :
    rs = [.value abcDigest false, .byte 0x62, .slice ⟨12, 0, 23, 28⟩] := by
  have hw := (C64_separate B cfg (M53 o1) gs53 gs53_ok es 2).1 rs h
  have hA := agrees_of B cfg (M53 o1) pre53 pre53_ok (M53_go B o1 outs h1) (fun _ => []) (fun _ => ⟨[], rfl⟩) (M53_dv o1)
  obtain ⟨M', r, _⟩ := acts_spec (blk := fun t => B.blockWith t) (build_impl B) cfg (gs53 2) hA (by simp [gs53, Covered])
  rw [whole_eq, r] at hw
  have e := Except.ok.inj hw
  have eb : ∀ w : World, w.arr = (M53 o1).arr → w.bytes ⟨0, 0, 3, 3⟩ = abc := by
    intro w hw
    unfold World.bytes
    rw [hw]
    rfl
  rw [← e]
  simp only [gs53, Spec.Par.steps, Spec.Par.step, goStep, World.append, eb, abc_hash]
  rfl

/-! ### The memory is weaker than interleaving -/

/-- Goroutine 0 writes a byte and then a flag; goroutine 1 looks at the flag and then at the byte. -/
def flag64 : Nat → List Act
  | 0 => [.poke 0 0 1, .poke 0 1 1]
  | 1 => [.peek 0 1, .peek 0 0]
  | _ => []

theorem step_plain (blk : List DvInfo → BlockFn) (cfg : Plat) (gs : Nat → List Section) (c : State) (i : Nat)
    (acts : List Act) (hs : (gs i)[(c.done i).length]? = some ⟨none, [], acts⟩) (h : c.now i = none) :
    c.step blk cfg gs i =
      { c with view := setAt c.view i (c.view i), now := setAt c.now i (some (goroutine blk cfg acts)) } := by
  unfold State.step
  rw [hs]
  simp only [h]
  rfl

theorem step_rd (blk : List DvInfo → BlockFn) (cfg : Plat) (gs : Nat → List Section) (c : State) (i : Nat)
    (s : Section) (hs : (gs i)[(c.done i).length]? = some s) (l : Loc) (k : l.ty → Prog (List Res))
    (h : c.now i = some (.rd l k)) :
    c.step blk cfg gs i = { c with now := setAt c.now i (some (k (c.view i l).2)) } := by
  unfold State.step
  rw [hs]
  simp only [h]

theorem step_wr (blk : List DvInfo → BlockFn) (cfg : Plat) (gs : Nat → List Section) (c : State) (i : Nat)
    (s : Section) (hs : (gs i)[(c.done i).length]? = some s) (l : Loc) (v : l.ty) (k : Prog (List Res))
    (h : c.now i = some (.wr l v k)) :
    c.step blk cfg gs i = { c with
        clock := c.clock + 1
        log := c.log ++ [⟨l, c.clock + 1, v⟩]
        view := setAt c.view i ((c.view i).set l (c.clock + 1, v))
        now := setAt c.now i (some k) } := by
  unfold State.step
  rw [hs]
  simp only [h]

theorem step_ret (blk : List DvInfo → BlockFn) (cfg : Plat) (gs : Nat → List Section) (c : State) (i : Nat)
    (s : Section) (hs : (gs i)[(c.done i).length]? = some s) (rs : List Res) (h : c.now i = some (.ret rs)) :
    c.step blk cfg gs i = c.finish i s rs := by
  unfold State.step
  rw [hs]
  simp only [h]

/-- The code of `flag64`. -/
theorem flag64_code (blk : List DvInfo → BlockFn) (cfg : Plat) :
    goroutine blk cfg (flag64 0) = .wr (.byte 0 0) (1 : Byte) (.wr (.byte 0 1) (1 : Byte) (.ret [.none, .none])) ∧
    goroutine blk cfg (flag64 1) = .rd (.byte 0 1) fun b => .rd (.byte 0 0) fun a => .ret [.byte b, .byte a] :=
  ⟨rfl, rfl⟩

/-- The states of `flag64` under interleaving. -/
def Flag (c : Conf) : Prop :=
  ((c.gos 0 = .wr (.byte 0 0) (1 : Byte) (.wr (.byte 0 1) (1 : Byte) (.ret [.none, .none])) ∧ c.mem.arr 0 1 = 0) ∨
    (c.gos 0 = .wr (.byte 0 1) (1 : Byte) (.ret [.none, .none]) ∧ c.mem.arr 0 0 = 1 ∧ c.mem.arr 0 1 = 0) ∨
    (c.gos 0 = .ret [.none, .none] ∧ c.mem.arr 0 0 = 1)) ∧
  ((c.gos 1 = .rd (.byte 0 1) fun b => .rd (.byte 0 0) fun a => .ret [.byte b, .byte a]) ∨
    (∃ b, (c.gos 1 = .rd (.byte 0 0) fun a => .ret [.byte b, .byte a]) ∧ (b = 1 → c.mem.arr 0 0 = 1)) ∨
    ∃ a b, c.gos 1 = .ret [.byte b, .byte a] ∧ (b = 1 → a = 1)) ∧
  ∀ j, 2 ≤ j → c.gos j = .ret []

theorem Flag.step {c : Conf} (h : Flag c) (i : Nat) : Flag (c.step i) := by
  obtain ⟨h0, h1, h2⟩ := h
  have hrest : ∀ j, 2 ≤ j → (c.step i).gos j = .ret [] := by
    intro j hj
    show (if j = i then ((c.gos i).step c.mem).2 else c.gos j) = _
    split
    · rename_i e; subst e; rw [h2 j hj]; rfl
    · exact h2 j hj
  match i with
  | 0 =>
    have e1 : (c.step 0).gos 1 = c.gos 1 := rfl
    have e0 : (c.step 0).gos 0 = ((c.gos 0).step c.mem).2 := rfl
    have em : (c.step 0).mem = ((c.gos 0).step c.mem).1 := rfl
    rcases h0 with ⟨a, b⟩ | ⟨a, b, d⟩ | ⟨a, b⟩
    · rw [a] at e0 em
      have m00 : (c.step 0).mem.arr 0 0 = 1 := by rw [em]; rfl
      have m01 : (c.step 0).mem.arr 0 1 = 0 := by rw [em]; exact b
      refine ⟨.inr (.inl ⟨e0, m00, m01⟩), ?_, hrest⟩
      rw [e1]
      exact h1.imp id fun h => h.imp (fun ⟨b, x, _⟩ => ⟨b, x, fun _ => m00⟩) id
    · rw [a] at e0 em
      have m00 : (c.step 0).mem.arr 0 0 = 1 := by rw [em]; exact b
      refine ⟨.inr (.inr ⟨e0, m00⟩), ?_, hrest⟩
      rw [e1]
      exact h1.imp id fun h => h.imp (fun ⟨b, x, _⟩ => ⟨b, x, fun _ => m00⟩) id
    · rw [a] at e0 em
      have m00 : (c.step 0).mem.arr 0 0 = 1 := by rw [em]; exact b
      refine ⟨.inr (.inr ⟨e0, m00⟩), ?_, hrest⟩
      rw [e1]
      exact h1.imp id fun h => h.imp (fun ⟨b, x, _⟩ => ⟨b, x, fun _ => m00⟩) id
  | 1 =>
    have e0 : (c.step 1).gos 0 = c.gos 0 := rfl
    have e1 : (c.step 1).gos 1 = ((c.gos 1).step c.mem).2 := rfl
    have em : (c.step 1).mem = ((c.gos 1).step c.mem).1 := rfl
    have hm : (c.step 1).mem = c.mem := by
      rw [em]
      rcases h1 with a | ⟨b, a, _⟩ | ⟨_, _, a, _⟩ <;> rw [a] <;> rfl
    refine ⟨by rw [e0, hm]; exact h0, ?_, hrest⟩
    rw [hm]
    rcases h1 with a | ⟨b, a, hb⟩ | ⟨x, b, a, hb⟩
    · refine .inr (.inl ⟨c.mem.arr 0 1, by rw [e1, a]; rfl, fun h => ?_⟩)
      rcases h0 with ⟨_, d⟩ | ⟨_, d, _⟩ | ⟨_, d⟩
      · rw [d] at h; exact absurd h (by decide)
      · exact d
      · exact d
    · exact .inr (.inr ⟨c.mem.arr 0 0, b, by rw [e1, a]; rfl, hb⟩)
    · exact .inr (.inr ⟨x, b, by rw [e1, a]; rfl, hb⟩)
  | i + 2 =>
    have hs : (c.step (i + 2)).mem = c.mem := by
      show ((c.gos (i + 2)).step c.mem).1 = _
      rw [h2 _ (by omega)]; rfl
    have e0 : (c.step (i + 2)).gos 0 = c.gos 0 := rfl
    have e1 : (c.step (i + 2)).gos 1 = c.gos 1 := by
      show (if 1 = i + 2 then ((c.gos (i + 2)).step c.mem).2 else c.gos 1) = c.gos 1
      rw [if_neg (by omega)]
    exact ⟨by rw [e0, hs]; exact h0, by rw [e1, hs]; exact h1, hrest⟩

theorem Flag.run (σ : List Nat) : ∀ {c : Conf}, Flag c → Flag (c.run σ) := by
  induction σ with
  | nil => intro c h; exact h
  | cons i σ ih => intro c h; exact ih (h.step i)

theorem flag64_run (blk : List DvInfo → BlockFn) (cfg : Plat) (M : Memory) (h0 : M.arr 0 0 = 0)
    (gs : Nat → List Section) (hgs : ∀ i, gs i = [⟨none, [], flag64 i⟩]) :
    ((State.init M).run blk cfg gs [.go 0, .go 0, .go 0, .reach 1 1, .go 1, .go 1, .go 1, .go 1]).done 1 =
      [[.byte 1, .byte 0]] := by
  obtain ⟨f0, f1⟩ := flag64_code blk cfg
  have sec : ∀ (c : State) i, c.done = (fun _ => []) → (gs i)[(c.done i).length]? = some ⟨none, [], flag64 i⟩ := by
    intro c i h
    rw [h, hgs]; rfl
  simp only [State.run]
  obtain ⟨c1, hc1⟩ : ∃ c, c = (State.init M).next blk cfg gs (.go 0) := ⟨_, rfl⟩
  rw [← hc1]
  unfold State.next at hc1
  simp only at hc1
  rw [step_plain blk cfg gs _ 0 (flag64 0) (sec _ 0 rfl) rfl, f0] at hc1
  have a1 : c1.done = fun _ => [] := by rw [hc1]; rfl
  have a2 : c1.now 0 = some (.wr (.byte 0 0) (1 : Byte) (.wr (.byte 0 1) (1 : Byte) (.ret [.none, .none]))) := by
    rw [hc1]; rfl
  have a3 : c1.now 1 = none := by rw [hc1]; rfl
  have a4 : c1.log = [] := by rw [hc1]; rfl
  have a5 : c1.view 1 = fun l => (0, M.get l) := by rw [hc1]; rfl
  clear hc1
  obtain ⟨c2, hc2⟩ : ∃ c, c = c1.next blk cfg gs (.go 0) := ⟨_, rfl⟩
  rw [← hc2]
  unfold State.next at hc2
  simp only at hc2
  rw [step_wr blk cfg gs c1 0 ⟨none, [], flag64 0⟩ (sec _ _ a1) _ _ _ a2] at hc2
  have b1 : c2.done = fun _ => [] := by rw [hc2]; exact a1
  have b2 : c2.now 0 = some (.wr (.byte 0 1) (1 : Byte) (.ret [.none, .none])) := by rw [hc2]; rfl
  have b3 : c2.now 1 = none := by rw [hc2]; exact a3
  have b4 : c2.log = [⟨.byte 0 0, c1.clock + 1, (1 : Byte)⟩] := by rw [hc2]; show c1.log ++ _ = _; rw [a4]; rfl
  have b5 : c2.view 1 = fun l => (0, M.get l) := by rw [hc2]; exact a5
  clear hc2 a1 a2 a3 a4 a5
  obtain ⟨c3, hc3⟩ : ∃ c, c = c2.next blk cfg gs (.go 0) := ⟨_, rfl⟩
  rw [← hc3]
  unfold State.next at hc3
  simp only at hc3
  rw [step_wr blk cfg gs c2 0 ⟨none, [], flag64 0⟩ (sec _ _ b1) _ _ _ b2] at hc3
  have d1 : c3.done = fun _ => [] := by rw [hc3]; exact b1
  have d3 : c3.now 1 = none := by rw [hc3]; exact b3
  have d4 : c3.log[1]? = some ⟨.byte 0 1, c2.clock + 1, (1 : Byte)⟩ := by
    rw [hc3]; show (c2.log ++ _)[1]? = _; rw [b4]; rfl
  have d5 : c3.view 1 = fun l => (0, M.get l) := by rw [hc3]; exact b5
  clear hc3 b1 b2 b3 b4 b5
  -- the second write reaches goroutine 1
  obtain ⟨c4, hc4⟩ : ∃ c, c = c3.next blk cfg gs (.reach 1 1) := ⟨_, rfl⟩
  rw [← hc4]
  unfold State.next at hc4
  simp only [d4, d5, Nat.succ_pos, if_true] at hc4
  have e1 : c4.done = fun _ => [] := by rw [hc4]; exact d1
  have e3 : c4.now 1 = none := by rw [hc4]; exact d3
  have e5 : (c4.view 1 (.byte 0 1)).2 = (1 : Byte) := by rw [hc4]; rfl
  have e6 : (c4.view 1 (.byte 0 0)).2 = (0 : Byte) := by rw [hc4]; exact h0
  clear hc4 d1 d3 d4 d5
  -- goroutine 1 looks
  obtain ⟨c5, hc5⟩ : ∃ c, c = c4.next blk cfg gs (.go 1) := ⟨_, rfl⟩
  rw [← hc5]
  unfold State.next at hc5
  simp only at hc5
  rw [step_plain blk cfg gs c4 1 (flag64 1) (sec _ _ e1) e3, f1] at hc5
  have g1 : c5.done = fun _ => [] := by rw [hc5]; exact e1
  have g2 : c5.now 1 = some (.rd (.byte 0 1) fun b => .rd (.byte 0 0) fun a => .ret [.byte b, .byte a]) := by
    rw [hc5]; rfl
  have g5 : (c5.view 1 (.byte 0 1)).2 = (1 : Byte) := by rw [hc5]; exact e5
  have g6 : (c5.view 1 (.byte 0 0)).2 = (0 : Byte) := by rw [hc5]; exact e6
  clear hc5 e1 e3 e5 e6
  obtain ⟨c6, hc6⟩ : ∃ c, c = c5.next blk cfg gs (.go 1) := ⟨_, rfl⟩
  rw [← hc6]
  unfold State.next at hc6
  simp only at hc6
  rw [step_rd blk cfg gs c5 1 ⟨none, [], flag64 1⟩ (sec _ _ g1) _ _ g2, g5] at hc6
  have i1 : c6.done = fun _ => [] := by rw [hc6]; exact g1
  have i2 : c6.now 1 = some (.rd (.byte 0 0) fun a => .ret [.byte 1, .byte a]) := by rw [hc6]; rfl
  have i6 : (c6.view 1 (.byte 0 0)).2 = (0 : Byte) := by rw [hc6]; exact g6
  clear hc6 g1 g2 g5 g6
  obtain ⟨c7, hc7⟩ : ∃ c, c = c6.next blk cfg gs (.go 1) := ⟨_, rfl⟩
  rw [← hc7]
  unfold State.next at hc7
  simp only at hc7
  rw [step_rd blk cfg gs c6 1 ⟨none, [], flag64 1⟩ (sec _ _ i1) _ _ i2, i6] at hc7
  have j1 : c7.done = fun _ => [] := by rw [hc7]; exact i1
  have j2 : c7.now 1 = some (.ret [.byte 1, .byte 0]) := by rw [hc7]; rfl
  unfold State.next
  simp only
  rw [step_ret blk cfg gs c7 1 ⟨none, [], flag64 1⟩ (sec _ _ j1) _ j2]
  show setAt c7.done 1 (c7.done 1 ++ _) 1 = _
  rw [setAt_same, j1]
  rfl

/-- C64, the other way: a section that waits for itself in a circle is never over, nor is any after it. -/
theorem C64_circle (B : Build) (cfg : Plat) (M : Memory) (gs : Nat → List Section) (hs : Synced gs) (i k : Nat)
    (h : Before gs (i, k) (i, k)) (es : List SEv) : ((exec B cfg M gs es).done i).length ≤ k := by
  by_contra hk
  obtain ⟨τ, _, _, ho, _, _⟩ := C64_one_by_one B cfg M gs hs es
  have hm : (i, k) ∈ τ := by
    have : (i, k) ∈ τ.filter fun x => x.1 = i := by
      rw [ho.1 i]
      exact List.mem_map.2 ⟨k, List.mem_range.2 (Nat.lt_of_not_le hk), rfl⟩
    exact (List.mem_filter.1 this).1
  obtain ⟨a, b, e, hna⟩ := List.eq_append_cons_of_mem hm
  exact hna (ho.2 a (i, k) b e (i, k) h)

/-- Instance: two goroutines that wait for each other. -/
example (B : Build) (cfg : Plat) (M : Memory) (es : List SEv) :
    (exec B cfg M (fun i => if i = 0 then [⟨none, [(1, 0)], []⟩] else if i = 1 then [⟨none, [(0, 0)], []⟩] else []) es).done 0
      = [] := by
  have h := C64_circle B cfg M
    (fun i => if i = 0 then [⟨none, [(1, 0)], []⟩] else if i = 1 then [⟨none, [(0, 0)], []⟩] else [])
    (by
      rintro ⟨i, k⟩ ⟨j, k'⟩ s s' t hij hs hs' ⟨a, ha, _⟩ _
      dsimp only at hs
      split at hs
      · match k with
        | 0 => cases hs; cases ha
        | k + 1 => cases hs
      · split at hs
        · match k with
          | 0 => cases hs; cases ha
          | k + 1 => cases hs
        · cases hs) 0 0
    (.tail (b := (1, 0)) (.single (.inr ⟨⟨none, [(0, 0)], []⟩, rfl, by simp⟩)) (.inr ⟨⟨none, [(1, 0)], []⟩, rfl, by simp⟩)) es
  exact List.length_eq_zero_iff.1 (Nat.le_zero.1 h)

/-- C64, why synchronisation matters: goroutine 0 writes a byte and then a flag, goroutine 1 looks at the flag and then at the
byte.  If both were 0, goroutine 1 may find the flag set and the byte not; no interleaving of the accesses (C53) gives
that. -/
theorem C64_weaker (B : Build) (cfg : Plat) (M : Memory) (h0 : M.arr 0 0 = 0) (h1 : M.arr 0 1 = 0) :
    (∃ es, (exec B cfg M (fun i => [⟨none, [], flag64 i⟩]) es).done 1 = [[.byte 1, .byte 0]]) ∧
    ∀ σ, ((start B cfg M flag64).run σ).gos 1 ≠ .ret [.byte 1, .byte 0] := by
  constructor
  · refine ⟨[.go 0, .go 0, .go 0, .reach 1 1, .go 1, .go 1, .go 1, .go 1], ?_⟩
    unfold exec
    exact flag64_run (fun t => B.blockWith t) cfg M h0 (fun i => [⟨none, [], flag64 i⟩]) fun _ => rfl
  · intro σ h
    have hF : Flag ((start B cfg M flag64).run σ) := by
      refine Flag.run σ ⟨.inl ⟨rfl, h1⟩, .inl rfl, fun j hj => ?_⟩
      match j, hj with
      | j + 2, _ => rfl
    rcases hF.2.1 with a | ⟨b, a, _⟩ | ⟨x, b, a, hb⟩
    · rw [h] at a; cases a
    · rw [h] at a; cases a
    · rw [h] at a
      injection a with a
      simp only [List.cons.injEq, Res.byte.injEq] at a
      have := hb a.1.symm
      rw [this] at a
      exact absurd a.2.1 (by decide)

/-- Two goroutines write the same byte. -/
def poke64 : Nat → List Act
  | 0 => [.poke 0 0 1]
  | 1 => [.poke 0 0 2]
  | _ => []

/-- C64, races do happen without synchronisation: one goroutine about to write and another about to read, or both about to write. -/
theorem C64_races (B : Build) (cfg : Plat) (M : Memory) :
    (∃ es, (exec B cfg M (fun i => [⟨none, [], flag64 i⟩]) es).Race) ∧
    ∃ es, (exec B cfg M (fun i => [⟨none, [], poke64 i⟩]) es).Race := by
  constructor
  · exact ⟨[.go 0, .go 0, .go 1], 0, 1, _, _, .byte 0 1, false, by decide, rfl, rfl, rfl, rfl⟩
  · exact ⟨[.go 0, .go 1], 0, 1, _, _, .byte 0 0, true, by decide, rfl, rfl, rfl, rfl⟩

end Verif.Props
