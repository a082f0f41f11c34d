import Verif.Proofs.CTextStates

/-!
Calls of the functions of cgo/sha1.c and cgo/ubc_check.c that change only what their parameters point to.
-/

namespace Verif.Source.C

open Verif Verif.Source Verif.Source.Go Verif.Model
open Verif.Model.C (Plat stepsStates)

/-- Places by their numbers. -/
def spots (ls : List Loc) (k : Nat) : Loc := ls[k]?.getD ⟨0, 0, []⟩

/-- What the arguments of a call point to. -/
structure Meets (m : Mem) (D : List (Option Val)) (B : Nat → Loc) (vs : List Val) : Prop where
  places : Places D B m.frame m.next
  points : Points D B vs
  hold : ∀ k v, view D k = some v → look m.frame (B k) = .ok v

theorem meets_nil {m : Mem} {B : Nat → Loc} {vs : List Val} : Meets m [] B vs := by
  have h : ∀ k (v : Val), view [] k ≠ some v := fun k v h => by simp [view] at h
  exact ⟨⟨fun k v hv => absurd hv (h k v), fun k _ v _ hv => absurd hv (h k v), fun k v hv => absurd hv (h k v),
    fun k v hv => absurd hv (h k v)⟩, fun k v hv => absurd hv (h k v), fun k v hv => absurd hv (h k v)⟩

theorem Meets.cons {m : Mem} {D : List (Option Val)} {B : Nat → Loc} {vs : List Val} {v x : Val}
    (h : look m.frame (B 0) = .ok v) (hf : Fixed v) (hn : (B 0).frame ≠ m.next)
    (hp : x = .ptr (B 0) ∨ ∃ n g len c, v = .arr n g ∧ n ≤ len ∧ x = .slice (B 0) 0 len c)
    (ha : ∀ k v', view D k = some v' → Apart (B 0) (B (k + 1))) (t : Meets m D (fun k => B (k + 1)) vs) :
    Meets m (some v :: D) B (x :: vs) := by
  have h0 : ∀ u, view (some v :: D) 0 = some u → u = v := fun u hu => by
    simp only [view, List.getElem?_cons_zero] at hu
    exact (Option.some.inj hu).symm
  refine ⟨⟨?_, ?_, ?_, ?_⟩, ?_, ?_⟩
  · intro k u hk
    cases k with
    | zero => exact ⟨_, h⟩
    | succ k => exact t.places.there k u hk
  · intro k k' u u' hk hk' hne
    cases k with
    | zero =>
      cases k' with
      | zero => exact absurd rfl hne
      | succ k' => exact ha k' u' hk'
    | succ k =>
      cases k' with
      | zero => exact (ha k u hk).symm
      | succ k' => exact t.places.apart k k' u u' hk hk' (fun e => hne (by rw [e]))
  · intro k u hk
    cases k with
    | zero => rw [h0 u hk]; exact hf
    | succ k => exact t.places.fixed k u hk
  · intro k u hk
    cases k with
    | zero => exact hn
    | succ k => exact t.places.frame k u hk
  · intro k u hk
    cases k with
    | zero =>
      rw [h0 u hk]
      rcases hp with hp | ⟨n, g, len, c, e, hl, hp⟩
      · exact .inl (by rw [hp]; rfl)
      · exact .inr ⟨n, g, len, c, e, hl, by rw [hp]; rfl⟩
    | succ k => exact t.points k u hk
  · intro k u hk
    cases k with
    | zero => rw [h0 u hk]; exact h
    | succ k => exact t.hold k u hk

/-- A function that changes only what its parameters point to. -/
theorem run_leaf {X : World} {N : Nat} {f : Func} {b : Stmt} {vs C' : List Val} {D D' : List (Option Val)}
    {B : Nat → Loc} {m : Mem} (hb : f.body = some b) (hlen : ¬vs.length < f.params.length) (hp : passed f.params vs = vs)
    (hn : f.named = false) (hres : f.results = []) (ha : b.addrs = false) (h : rexec noPure b (D, vs) = some (D', C'))
    (hm : Meets m D B vs) : runFunc X N f vs m = .ok ([], m.having (puts B D' m.frame)) :=
  runFunc_leaf (rights_none X) hb hlen hp hn hres ha h hm.places hm.points hm.hold

section
variable {X : World} {N : Nat} {m : Mem}

/-- A slice of all of the array at a place. -/
abbrev whole (l : Loc) (n : Nat) : Val := .slice l 0 n n

theorem w_addrs : ∀ b, wFunc.body = some b → b.addrs = false := by
  intro b hb
  rw [wFunc_eq] at hb
  cases hb
  by_kernel

/-- A call of `sha1_compression_W` (cgo/sha1.c:364-457). -/
theorem w_run {l l' : Loc} {r r' : Regs} {W : Fin 80 → Word} (h : Model.C.sha1_compression_W r W = .ok r')
    (h0 : look m.frame l = .ok (quint r)) (h1 : look m.frame l' = .ok (words 80 W)) (ha : Apart l l')
    (hn : l.frame ≠ m.next) (hn' : l'.frame ≠ m.next) :
    runFunc X N wFunc [whole l 5, whole l' 80] m = .ok ([], m.having (putAt m.frame l (quint r'))) := by
  have hb : wFunc.body = some (.block 2 (seqs ([locals 0] ++ (wSteps ++ adds 2)))) := by rw [wFunc_eq]
  have hm : Meets m [some (quint r), some (words 80 W)] (spots [l, l']) [whole l 5, whole l' 80] := by
    refine Meets.cons h0 (fixed_arr _ _) hn (.inr ⟨5, _, 5, 5, rfl, Nat.le_refl _, rfl⟩) ?_
      (Meets.cons h1 (fixed_arr _ _) hn' (.inr ⟨80, _, 80, 80, rfl, Nat.le_refl _, rfl⟩) ?_ meets_nil)
    · intro k v hk
      match k with
      | 0 => exact ha
      | k + 1 => simp [view] at hk
    · intro k v hk
      simp [view] at hk
  refine (run_leaf hb (by rw [wFunc_eq]; exact Nat.lt_irrefl _) (by rw [wFunc_eq]; rfl) (by rw [wFunc_eq]) (by rw [wFunc_eq])
    (w_addrs _ hb) (w_body (p := (l, 0, 5, 5)) (q := (l', 0, 80, 80)) hb h) hm).trans ?_
  simp only [puts]
  have e : look (putAt m.frame l (quint r')) l' = .ok (words 80 W) := by rw [look_other ha, h1]
  exact congrArg (fun x => Except.ok (([] : List Val), m.having x)) (putAt_self e)

/-- A call of `sha1recompress_fast_t` (cgo/sha1.c:871-1210). -/
theorem fast_run {l0 l1 l2 l3 : Loc} {i o r i' o' : Regs} {W : Fin 80 → Word} {t : Nat} {f : Func} {back forw : List Stmt}
    {n : Nat} (hf : f = ⟨name! "C", n, [.slice .u32, .slice .u32, .slice .u32, .slice .u32], [], false,
      some (fastBody back forw)⟩) (hb : BackSteps t back Model.C.stepsBack) (hw : ForwSteps t forw Model.C.stepsForw)
    (had : (fastBody back forw).addrs = false)
    (h : Model.C.sha1recompress_fast t W r = .ok (i', o'))
    (h0 : look m.frame l0 = .ok (quint i)) (h1 : look m.frame l1 = .ok (quint o))
    (h2 : look m.frame l2 = .ok (words 80 W)) (h3 : look m.frame l3 = .ok (quint r))
    (a01 : Apart l0 l1) (a02 : Apart l0 l2) (a03 : Apart l0 l3) (a12 : Apart l1 l2) (a13 : Apart l1 l3)
    (a23 : Apart l2 l3) (n0 : l0.frame ≠ m.next) (n1 : l1.frame ≠ m.next) (n2 : l2.frame ≠ m.next)
    (n3 : l3.frame ≠ m.next) :
    runFunc X N f [whole l0 5, whole l1 5, whole l2 80, whole l3 5] m =
      .ok ([], m.having (putAt (putAt m.frame l0 (quint i')) l1 (quint o'))) := by
  subst hf
  have hm : Meets m (fD i o W r) (spots [l0, l1, l2, l3]) [whole l0 5, whole l1 5, whole l2 80, whole l3 5] := by
    refine Meets.cons h0 (fixed_arr _ _) n0 (.inr ⟨5, _, 5, 5, rfl, Nat.le_refl _, rfl⟩) ?_
      (Meets.cons h1 (fixed_arr _ _) n1 (.inr ⟨5, _, 5, 5, rfl, Nat.le_refl _, rfl⟩) ?_
      (Meets.cons h2 (fixed_arr _ _) n2 (.inr ⟨80, _, 80, 80, rfl, Nat.le_refl _, rfl⟩) ?_
      (Meets.cons h3 (fixed_arr _ _) n3 (.inr ⟨5, _, 5, 5, rfl, Nat.le_refl _, rfl⟩) ?_ meets_nil)))
    · intro k v hk
      match k with
      | 0 => exact a01
      | 1 => exact a02
      | 2 => exact a03
      | k + 3 => simp [view] at hk
    · intro k v hk
      match k with
      | 0 => exact a12
      | 1 => exact a13
      | k + 2 => simp [view] at hk
    · intro k v hk
      match k with
      | 0 => exact a23
      | k + 1 => simp [view] at hk
    · intro k v hk
      simp [view] at hk
  refine (run_leaf rfl (Nat.lt_irrefl _) rfl rfl rfl had
    (fast_body (p := (l0, 0, 5, 5)) (q := (l1, 0, 5, 5)) (p' := (l2, 0, 80, 80)) (q' := (l3, 0, 5, 5)) hb hw h) hm).trans ?_
  simp only [puts, fD]
  generalize hg : putAt (putAt m.frame l0 (quint i')) l1 (quint o') = fr
  have e2 : look fr l2 = .ok (words 80 W) := by rw [← hg, look_other a12, look_other a02, h2]
  have e3 : look fr l3 = .ok (quint r) := by rw [← hg, look_other a13, look_other a03, h3]
  have : putAt (putAt fr l2 (words 80 W)) l3 (quint r) = fr := by rw [putAt_self e2, putAt_self e3]
  exact congrArg (fun x => Except.ok (([] : List Val), m.having x)) ((by rw [← hg]; rfl :
    _ = putAt (putAt fr l2 (words 80 W)) l3 (quint r)).trans this)

/-- A call of `sha1_compression_states` (cgo/sha1.c:459-869). -/
theorem states_run {l0 l1 l2 l3 : Loc} {be : Bool} {f : Func} {items : List Stmt}
    (hf : f = ⟨name! "C", name! "sha1_compression_states", [.slice .u32, .slice .u32, .slice .u32, .slice (.arr 5 .u32)],
      [], false, some (statesBody items)⟩) (hi : Items be items stepsStates) (had : (statesBody items).addrs = false)
    {cfg : Plat} (hc : cfg.bigEndian = be) {B : List Byte} {b : Fin 16 → Word} (hB : Loads cfg B b)
    {r : Regs} {W : Fin 80 → Word} {S : Fin 80 → Regs}
    (h0 : look m.frame l0 = .ok (quint r)) (h1 : look m.frame l1 = .ok (words 16 b))
    (h2 : look m.frame l2 = .ok (words 80 W)) (h3 : look m.frame l3 = .ok (statesV S))
    (a01 : Apart l0 l1) (a02 : Apart l0 l2) (a03 : Apart l0 l3) (a12 : Apart l1 l2) (a13 : Apart l1 l3)
    (a23 : Apart l2 l3) (n0 : l0.frame ≠ m.next) (n1 : l1.frame ≠ m.next) (n2 : l2.frame ≠ m.next)
    (n3 : l3.frame ≠ m.next) : ∃ r' W' S', Model.C.sha1_compression_states cfg r B W S = .ok (r', W', S') ∧
    runFunc X N f [whole l0 5, whole l1 16, whole l2 80, whole l3 80] m =
      .ok ([], m.having (putAt (putAt (putAt m.frame l0 (quint r')) l2 (words 80 W')) l3 (statesV S'))) := by
  subst hf
  obtain ⟨r', W', S', hm', hbody⟩ := states_body hi hc hB r W S (l0, 0, 5, 5) (l1, 0, 16, 16) (l2, 0, 80, 80) (l3, 0, 80, 80)
  refine ⟨r', W', S', hm', ?_⟩
  have hm : Meets m (sD r b W S) (spots [l0, l1, l2, l3]) [whole l0 5, whole l1 16, whole l2 80, whole l3 80] := by
    refine Meets.cons h0 (fixed_arr _ _) n0 (.inr ⟨5, _, 5, 5, rfl, Nat.le_refl _, rfl⟩) ?_
      (Meets.cons h1 (fixed_arr _ _) n1 (.inr ⟨16, _, 16, 16, rfl, Nat.le_refl _, rfl⟩) ?_
      (Meets.cons h2 (fixed_arr _ _) n2 (.inr ⟨80, _, 80, 80, rfl, Nat.le_refl _, rfl⟩) ?_
      (Meets.cons h3 (fixed_arr _ _) n3 (.inr ⟨80, _, 80, 80, rfl, Nat.le_refl _, rfl⟩) ?_ meets_nil)))
    · intro k v hk
      match k with
      | 0 => exact a01
      | 1 => exact a02
      | 2 => exact a03
      | k + 3 => simp [view] at hk
    · intro k v hk
      match k with
      | 0 => exact a12
      | 1 => exact a13
      | k + 2 => simp [view] at hk
    · intro k v hk
      match k with
      | 0 => exact a23
      | k + 1 => simp [view] at hk
    · intro k v hk
      simp [view] at hk
  refine (run_leaf rfl (Nat.lt_irrefl _) rfl rfl rfl had hbody hm).trans ?_
  simp only [puts, sD]
  have e : putAt (putAt m.frame l0 (quint r')) l1 (words 16 b) = putAt m.frame l0 (quint r') :=
    putAt_self (by rw [look_other a01, h1])
  exact congrArg (fun x => Except.ok (([] : List Val), m.having (putAt (putAt x l2 (words 80 W')) l3 (statesV S')))) e

end

theorem fast58_addrs : (fastBody back58 forw58).addrs = false := by by_kernel
theorem fast65_addrs : (fastBody back65 forw65).addrs = false := by by_kernel
theorem statesLe_addrs : (statesBody itemsLe).addrs = false := by by_kernel
theorem statesBe_addrs : (statesBody itemsBe).addrs = false := by by_kernel

end Verif.Source.C
