import Verif.Props.Stream
import Verif.Props.Cgo
import Verif.Proofs.Par

/-!
Goroutines that share hash objects of both packages, byte arrays and the table of package `ubc`: C53.

`(start B cfg M gs).run σ` is the state after the accesses of schedule `σ` (which goroutine makes each access to memory)
when goroutine `j` does `gs j` and memory is `M` at the start.
-/

namespace Verif.Props

open Verif Verif.Model Verif.Model.C Verif.Model.Par Verif.Par Verif.Spec Verif.Spec.Par

/-- C53.  Any memory, any number of goroutines doing anything, in any order of their accesses: if no goroutine changes a
thing that another one uses, then every goroutine is at every moment where it would be if it had made as many
accesses with nothing else running, and the things it uses are as they would be then. -/
theorem C53_goroutines (B : Build) (cfg : Plat) (M : Memory) (gs : Nat → List Act) (hd : Separate gs) (i : Nat)
    (σ : List Nat) :
    ((start B cfg M gs).run σ).gos i = ((start B cfg M fun j => if j = i then gs i else []).run σ).gos i ∧
    ∀ t, UsesL (gs i) t →
      SameAt ((start B cfg M gs).run σ).mem ((start B cfg M fun j => if j = i then gs i else []).run σ).mem t := by
  have h := same_run (fun t => B.blockWith t) cfg M gs hd σ
  have h' := same_run (fun t => B.blockWith t) cfg M (fun j => if j = i then gs i else [])
    (fun j k t hjk ⟨c, hc, _⟩ ⟨c', hc', _⟩ => by
      dsimp only at hc hc'
      by_cases e : j = i
      · rw [if_neg (fun e' : k = i => hjk (e.trans e'.symm))] at hc'
        cases hc'
      · rw [if_neg e] at hc
        cases hc) σ
  refine ⟨(h.gos i).trans (Eq.trans ?_ (h'.gos i).symm), fun t ht => ?_⟩
  · simp only [if_pos]
  · refine sameAt_trans (h.mem i t ht) (sameAt_symm (sameAt_trans (h'.mem i t ?_) ?_))
    · simp only [if_pos]; exact ht
    · simp only [if_pos]; exact sameAt_refl _ _

/-- C53, nothing waits: every goroutine has ended, with results or a panic that do not depend on the schedule, once it has
made some number of accesses. -/
theorem C53_ends (B : Build) (cfg : Plat) (M : Memory) (gs : Nat → List Act) (hd : Separate gs) (i : Nat) :
    ∃ (N : Nat) (r : Except Panic (List Res)), ∀ σ : List Nat, N ≤ σ.count i →
      ((start B cfg M gs).run σ).gos i = (match r with | .ok rs => .ret rs | .error e => .panic e) := by
  obtain ⟨N, hN⟩ := solo_ends (goroutine (fun t => B.blockWith t) cfg (gs i)) M
  refine ⟨N, (alone M (goroutine (fun t => B.blockWith t) cfg (gs i))).map (·.2), fun σ hσ => ?_⟩
  refine ((same_run (fun t => B.blockWith t) cfg M gs hd σ).gos i).trans ?_
  have := hN _ hσ
  revert this
  cases alone M (goroutine (fun t => B.blockWith t) cfg (gs i)) with
  | ok r => intro h; exact congrArg Prod.snd h
  | error e => intro h; exact h

/-- C53, the results: if object `o` of package sha1cd was made by writes, resets and looks, so that it holds
`msgOf (pre o)`, object `o` of package cgo holds `msgOf (preC o)`, and the table of package `ubc` is as it is in the
source, then every goroutine that restores nothing and leaves the table alone ends without panic with the results that
its actions have by the specification when they are executed one after the other, and leaves the bytes it
uses as the specification says. -/
theorem C53_results (B : Build) (cfg : Cfg) (M : Memory)
    (pre : Nat → List Op) (hpre : ∀ o, ∀ op ∈ pre o, isRestore op = false)
    (hgo : ∀ o, ∃ outs, new.run B.block (pre o) = .ok (M.go o, outs))
    (preC : Nat → List Cgo.Op) (hcgo : ∀ o, ∃ outs, Cgo.new.run cfg (preC o) = .ok (M.cgo o, outs))
    (hdv : ∀ i e, sha1Dvs[i]? = some e → M.dv i = e)
    (gs : Nat → List Act) (hd : Separate gs) (i : Nat) (hgs : ∀ a ∈ gs i, Covered a = true) :
    let r := steps goVerdict (verdict Detected)
      ⟨fun o => msgOf (pre o), fun o => msgOf ((preC o).map Cgo.Op.toGo), M.arr⟩ (gs i)
    ∃ N, ∀ σ : List Nat, N ≤ σ.count i →
      ((start B cfg M gs).run σ).gos i = .ret r.2 ∧
      ∀ a j, UsesL (gs i) (.byte a j) → ((start B cfg M gs).run σ).mem.arr a j = r.1.arr a j := by
  intro r
  have hA : Agrees goVerdict M ⟨fun o => msgOf (pre o), fun o => msgOf ((preC o).map Cgo.Op.toGo), M.arr⟩ := by
    refine ⟨fun o => ?_, fun o => ?_, rfl, hdv⟩
    · obtain ⟨os, hr⟩ := hgo o
      obtain ⟨d, r, hh⟩ := (holds_new goVerdict).run (build_impl B) (pre o) (hpre o)
      rw [hr] at r
      simp only [Except.ok.injEq, Prod.mk.injEq] at r
      obtain ⟨rfl, _⟩ := r
      exact hh
    · obtain ⟨os, hr⟩ := hcgo o
      obtain ⟨d, r, hh⟩ := holdsCgo_new.run cfg (preC o)
      rw [hr] at r
      simp only [Except.ok.injEq, Prod.mk.injEq] at r
      obtain ⟨rfl, _⟩ := r
      exact hh
  obtain ⟨M', ha, hA'⟩ := acts_spec (blk := fun t => B.blockWith t) (build_impl B) cfg (gs i) hA hgs
  obtain ⟨N, hN⟩ := solo_ends (goroutine (fun t => B.blockWith t) cfg (gs i)) M
  rw [ha] at hN
  refine ⟨N, fun σ hσ => ?_⟩
  have h := same_run (fun t => B.blockWith t) cfg M gs hd σ
  have h1 := h.gos i
  have h2 := h.mem i
  simp only [hN _ hσ] at h1 h2
  exact ⟨h1, fun a j hu => (h2 _ hu).trans (congrFun (congrFun hA'.arr a) j)⟩

/-- C53, what nobody changes: whatever the goroutines do, with or without races, an object, byte or entry that none of
them changes stays as it is. -/
theorem C53_untouched (B : Build) (cfg : Plat) (M : Memory) (gs : Nat → List Act) (t : Thing)
    (ht : ∀ j, ¬ ChangesL (gs j) t) (σ : List Nat) : SameAt ((start B cfg M gs).run σ).mem M t :=
  untouched (fun t => ∃ j, ChangesL (gs j) t) σ (start B cfg M gs)
    (fun j => (touches_goroutine (fun t => B.blockWith t) cfg (gs j)).mono (fun _ _ => trivial) (fun _ h => ⟨j, h⟩)
      fun _ h => h) t fun ⟨j, h⟩ => ht j h

/-- C53, no data race: under the same discipline no schedule reaches a state in which one goroutine is about to write a
location that another is about to access. -/
theorem C53_race_free (B : Build) (cfg : Plat) (M : Memory) (gs : Nat → List Act) (hd : Separate gs) (σ : List Nat) :
    ¬ ((start B cfg M gs).run σ).Race := by
  rintro ⟨i, j, l, w, hij, hi, hj⟩
  have h := same_run (fun t => B.blockWith t) cfg M gs hd σ
  have ti : Touches (UsesL (gs i)) (ChangesL (gs i)) Any (((start B cfg M gs).run σ).gos i) := h.touches i
  have tj : Touches (UsesL (gs j)) (ChangesL (gs j)) Any (((start B cfg M gs).run σ).gos j) := h.touches j
  have ci : ChangesL (gs i) l.thing := by
    revert ti hi
    cases ((start B cfg M gs).run σ).gos i with
    | wr l' v k => intro hi ti; cases hi; exact ti.1
    | _ => intro hi; cases hi
  have uj : UsesL (gs j) l.thing := by
    revert tj hj
    cases ((start B cfg M gs).run σ).gos j with
    | rd l' k => intro hj tj; cases hj; exact tj.1
    | wr l' v k =>
      intro hj tj; cases hj
      obtain ⟨c, hc, h1⟩ := tj.1
      exact ⟨c, hc, .inr h1⟩
    | _ => intro hj; cases hj
  exact hd i j _ hij ci uj

/-- C53, why appending counts as a change: two goroutines that call `Sum(inp)` on different objects, of the same or
of different packages, with the same `inp` that has room for a digest, write to the same bytes, and for every `k` there is a
schedule after which both have got the same slice and it ends in the first `k` bytes of one digest and the other bytes
of the other. -/
theorem C53_append_race (B : Build) (cfg : Cfg) (M : Memory)
    (pre : Nat → List Op) (hpre : ∀ o, ∀ op ∈ pre o, isRestore op = false)
    (hgo : ∀ o, ∃ outs, new.run B.block (pre o) = .ok (M.go o, outs))
    (preC : Nat → List Cgo.Op) (hcgo : ∀ o, ∃ outs, Cgo.new.run cfg (preC o) = .ok (M.cgo o, outs))
    (hdv : ∀ i e, sha1Dvs[i]? = some e → M.dv i = e) (inp : Sl) (hroom : inp.len + 20 ≤ inp.cap)
    (a : Fin 2 → Act) (D : Fin 2 → List Byte)
    (ha : ∀ j, (∃ o grow fresh, a j = .go o (.sum inp grow) fresh ∧ D j = (safeHash goVerdict (msgOf (pre o))).1) ∨
      (∃ o grow fresh, a j = .cgo o (.sum inp grow) fresh ∧
        D j = (safeHash (verdict Detected) (msgOf ((preC o).map Cgo.Op.toGo))).1))
    (k : Nat) (hk : k ≤ 20) :
    ∃ σ, let c := (start B cfg M fun j => if h : j < 2 then [a ⟨j, h⟩] else []).run σ
      c.gos 0 = .ret [.slice ⟨inp.arr, inp.off, inp.len + 20, inp.cap⟩] ∧
      c.gos 1 = .ret [.slice ⟨inp.arr, inp.off, inp.len + 20, inp.cap⟩] ∧
      (List.range 20).map (fun x => c.mem.arr inp.arr (inp.off + inp.len + x)) = (D 0).take k ++ (D 1).drop k := by
  have hA : Agrees goVerdict M ⟨fun o => msgOf (pre o), fun o => msgOf ((preC o).map Cgo.Op.toGo), M.arr⟩ := by
    refine ⟨fun o => ?_, fun o => ?_, rfl, hdv⟩
    · obtain ⟨os, hr⟩ := hgo o
      obtain ⟨d, r, hh⟩ := (holds_new goVerdict).run (build_impl B) (pre o) (hpre o)
      rw [hr] at r
      simp only [Except.ok.injEq, Prod.mk.injEq] at r
      obtain ⟨rfl, _⟩ := r
      exact hh
    · obtain ⟨os, hr⟩ := hcgo o
      obtain ⟨d, r, hh⟩ := holdsCgo_new.run cfg (preC o)
      rw [hr] at r
      simp only [Except.ok.injEq, Prod.mk.injEq] at r
      obtain ⟨rfl, _⟩ := r
      exact hh
  obtain ⟨l0, n0, r0⟩ := sum_in_place (blk := fun t => B.blockWith t) (build_impl B) cfg hA inp hroom (a 0) (D 0) (ha 0)
  obtain ⟨l1, n1, r1⟩ := sum_in_place (blk := fun t => B.blockWith t) (build_impl B) cfg hA inp hroom (a 1) (D 1) (ha 1)
  refine ⟨List.replicate n0 0 ++ (List.replicate n1 1 ++ (List.replicate k 1 ++ (List.replicate 20 0 ++
    List.replicate (20 - k) 1))), ?_⟩
  intro c
  have hc : c = (start B cfg M fun j => if h : j < 2 then [a ⟨j, h⟩] else []).run (List.replicate n0 0 ++
    (List.replicate n1 1 ++ (List.replicate k 1 ++ (List.replicate 20 0 ++ List.replicate (20 - k) 1)))) := rfl
  clear_value c
  rw [run_cat, run_cat, run_cat, run_cat, run_solo, run_solo, run_solo, run_solo, run_solo] at hc
  have n10 : (1 : Nat) ≠ 0 := by decide
  have n01 : (0 : Nat) ≠ 1 := by decide
  have g0 : (start B cfg M fun j => if h : j < 2 then [a ⟨j, h⟩] else []).gos 0 =
    goroutine (fun t => B.blockWith t) cfg [a 0] := rfl
  have g1 : (start B cfg M fun j => if h : j < 2 then [a ⟨j, h⟩] else []).gos 1 =
    goroutine (fun t => B.blockWith t) cfg [a 1] := rfl
  have gm : (start B cfg M fun j => if h : j < 2 then [a ⟨j, h⟩] else []).mem = M := rfl
  simp only [if_true, if_neg n10, if_neg n01, g0, g1, gm, r0, r1] at hc
  rw [solo_wrBytes _ _ k _ _ _ (by omega)] at hc
  rw [solo_wrBytes _ _ 20 _ _ _ (by omega)] at hc
  rw [solo_wrBytes _ _ (20 - k) _ _ _ (by simp; omega)] at hc
  have e0 : (D 0).drop 20 = [] := List.drop_eq_nil_of_le (by omega)
  have e1 : ((D 1).drop k).drop (20 - k) = [] := List.drop_eq_nil_of_le (by simp; omega)
  have e2 : (D 0).take 20 = D 0 := List.take_of_length_le (by omega)
  have e3 : ((D 1).drop k).take (20 - k) = (D 1).drop k := List.take_of_length_le (by simp; omega)
  rw [e0, e1, e2, e3] at hc
  refine ⟨by rw [hc]; rfl, by rw [hc]; rfl, ?_⟩
  rw [hc]
  apply List.ext_getElem
  · simp; omega
  · intro x h1 h2
    simp only [List.length_map, List.length_range] at h1
    simp only [List.getElem_map, List.getElem_range, stored]
    by_cases hx : x < k
    · rw [if_neg (by omega), if_pos ⟨trivial, by omega, by omega⟩, List.getElem_append_left (by simp; omega)]
      simp [List.getD_eq_getElem?_getD, show x < (D 0).length by omega]
    · rw [if_pos ⟨trivial, by omega, by simp; omega⟩, List.getElem_append_right (by simp; omega)]
      simp only [List.getD_eq_getElem?_getD, List.getElem_drop, List.length_take, List.getElem?_drop]
      rw [show k + (inp.off + inp.len + x - (inp.off + inp.len + k)) = x by omega,
        List.getElem?_eq_getElem (by omega : x < (D 1).length)]
      simp only [Option.getD_some]
      congr 1
      omega

/-- Three goroutines.  The first two hash array 0 with an object of their own, of package sha1cd and of package cgo, and put
the digests next to each other into array 1; the third hashes array 0 as well, looks at a byte of it, and appends to
it the digest of an object that holds "abc", which moves it to array 12. -/
def gs53 : Nat → List Act
  | 0 => [.go 0 (.write ⟨0, 0, 3, 3⟩) 10, .go 0 (.sum ⟨1, 0, 0, 64⟩ 0) 10]
  | 1 => [.cgo 0 (.write ⟨0, 0, 3, 3⟩) 11, .cgo 0 (.sum ⟨1, 0, 20, 64⟩ 0) 11]
  | 2 => [.goSum ⟨0, 0, 3, 3⟩, .peek 0 1, .go 1 (.sum ⟨0, 0, 3, 3⟩ 5) 12]
  | _ => []

theorem gs53_ok : Separate gs53 := by
  rintro i j t hij ⟨c, hc, h⟩ ⟨c', hc', h'⟩
  match i, j, hij with
  | 0, 1, _ | 0, 2, _ | 1, 0, _ | 1, 2, _ | 2, 0, _ | 2, 1, _ =>
    simp only [gs53, List.mem_cons, List.not_mem_nil, or_false] at hc hc'
    rcases hc with rfl | rfl | rfl <;> rcases hc' with rfl | rfl | rfl <;> cases t <;>
      simp_all [Looks, Spec.Par.Changes, InSlice, AppendLooks, AppendChanges, InTable] <;> omega
  | i + 3, _, _ => simp [gs53] at hc
  | 0, j + 3, _ | 1, j + 3, _ | 2, j + 3, _ => simp [gs53] at hc'
  | 0, 0, h | 1, 1, h | 2, 2, h => exact (h rfl).elim

/-- The memory for the instances: array 0 starts with "abc", object 1 of package sha1cd holds "abc", the other objects are
new. -/
def M53 (o1 : Digest) : Memory where
  go o := if o = 1 then o1 else new
  cgo _ := Cgo.new
  arr a i := if a = 0 then abc.getD i 0 else 0
  dv i := (sha1Dvs[i]?).getD (sha1Dvs.head (by decide))

theorem M53_dv (o1 : Digest) : ∀ i e, sha1Dvs[i]? = some e → (M53 o1).dv i = e := by
  intro i e h
  show (sha1Dvs[i]?).getD _ = e
  rw [h]
  rfl

/-- The histories of the objects of `M53`. -/
def pre53 (o : Nat) : List Op := if o = 1 then [.write abc] else []

theorem pre53_ok : ∀ o, ∀ op ∈ pre53 o, isRestore op = false := by
  intro o op h
  unfold pre53 at h
  split at h
  · rw [List.mem_singleton.mp h]; rfl
  · cases h

theorem M53_go (B : Build) (o1 : Digest) (outs : List Out) (h1 : new.run B.block [.write abc] = .ok (o1, outs)) :
    ∀ o, ∃ outs, new.run B.block (pre53 o) = .ok ((M53 o1).go o, outs) := by
  intro o
  show ∃ outs, new.run B.block (if o = 1 then [.write abc] else []) = .ok (if o = 1 then o1 else new, outs)
  split
  · exact ⟨outs, h1⟩
  · exact ⟨[], rfl⟩

/-- Instance, with the goroutines of `gs53`: whatever the schedule, the goroutines end with these results, and array 1 then
has the digest of "abc" twice. -/
example (B : Build) (cfg : Cfg) (o1 : Digest) (outs : List Out) (h1 : new.run B.block [.write abc] = .ok (o1, outs)) :
    ∃ N, ∀ σ : List Nat, (∀ i, i < 3 → N ≤ σ.count i) →
      ((start B cfg (M53 o1) gs53).run σ).gos 0 = .ret [.write 3 none, .slice ⟨1, 0, 20, 64⟩] ∧
      ((start B cfg (M53 o1) gs53).run σ).gos 1 = .ret [.write 3 none, .slice ⟨1, 0, 40, 64⟩] ∧
      ((start B cfg (M53 o1) gs53).run σ).gos 2 = .ret [.value abcDigest false, .byte 0x62, .slice ⟨12, 0, 23, 28⟩] ∧
      (List.range 40).map (((start B cfg (M53 o1) gs53).run σ).mem.arr 1) = abcDigest ++ abcDigest := by
  have R := fun i hc => C53_results B cfg (M53 o1) pre53 pre53_ok (M53_go B o1 outs h1) (fun _ => [])
    (fun _ => ⟨[], rfl⟩) (M53_dv o1) gs53 gs53_ok i hc
  have eb : ∀ w : World, w.arr = (M53 o1).arr → w.bytes ⟨0, 0, 3, 3⟩ = abc := by
    intro w hw
    unfold World.bytes
    rw [hw]
    rfl
  obtain ⟨N0, r0⟩ := R 0 (by simp [gs53, Covered])
  obtain ⟨N1, r1⟩ := R 1 (by simp [gs53, Covered])
  obtain ⟨N2, r2⟩ := R 2 (by simp [gs53, Covered])
  refine ⟨max N0 (max N1 N2), fun σ hσ => ?_⟩
  have s0 := r0 σ (by have := hσ 0 (by omega); omega)
  have s1 := r1 σ (by have := hσ 1 (by omega); omega)
  have s2 := r2 σ (by have := hσ 2 (by omega); omega)
  clear r0 r1 r2
  have u0 : ∀ j, j < 20 → UsesL (gs53 0) (.byte 1 j) := fun j hj =>
    ⟨.go 0 (.sum ⟨1, 0, 0, 64⟩ 0) 10, by simp [gs53], .inr (by
      simp [Spec.Par.Changes, AppendChanges]; omega)⟩
  have u1 : ∀ j, 20 ≤ j → j < 40 → UsesL (gs53 1) (.byte 1 j) := fun j hj hj' =>
    ⟨.cgo 0 (.sum ⟨1, 0, 20, 64⟩ 0) 11, by simp [gs53], .inr (by
      simp [Spec.Par.Changes, AppendChanges]; omega)⟩
  have m0 : msgOf (pre53 0) = [] := rfl
  have m1 : msgOf (pre53 1) = abc := rfl
  have mc : msgOf (([] : List Cgo.Op).map Cgo.Op.toGo) = [] := rfl
  have la : abcDigest.length = 20 := rfl
  simp only [gs53, Spec.Par.steps, Spec.Par.step, goStep, cgoStep, World.append, eb, if_true, m0, m1, mc, List.nil_append, abc_hash,
    abc_hash_c, la] at s0 s1 s2
  refine ⟨s0.1, s1.1, s2.1, ?_⟩
  apply List.ext_getElem
  · rfl
  · intro j hj _
    simp only [List.length_map, List.length_range] at hj
    simp only [List.getElem_map, List.getElem_range]
    by_cases h20 : j < 20
    · rw [s0.2 1 j (u0 j h20), List.getElem_append_left (by rw [la]; exact h20)]
      simp [World.store, la, h20, List.getD_eq_getElem?_getD]
    · rw [s1.2 1 j (u1 j (by omega) hj), List.getElem_append_right (by rw [la]; omega)]
      have : j - 20 < abcDigest.length := by rw [la]; omega
      simp [World.store, la, show 20 ≤ j by omega, hj, List.getD_eq_getElem?_getD]
      rw [List.getElem?_eq_getElem this]
      rfl

/-- Two calls of `Sum` with the same argument. -/
def race53 : Fin 2 → Act
  | 0 => .go 1 (.sum ⟨1, 0, 0, 64⟩ 0) 10
  | 1 => .cgo 0 (.sum ⟨1, 0, 0, 64⟩ 0) 11

/-- Instance of the race: an object of package sha1cd that holds "abc" and a new object of package cgo, appending to an
empty slice of array 1 with capacity 64: 10 bytes of the digest of "abc" and 10 bytes of the digest of the empty message. -/
example (B : Build) (cfg : Cfg) (o1 : Digest) (outs : List Out) (h1 : new.run B.block [.write abc] = .ok (o1, outs)) :
    ∃ σ, let c := (start B cfg (M53 o1) fun j => if h : j < 2 then [race53 ⟨j, h⟩] else []).run σ
      c.gos 0 = .ret [.slice ⟨1, 0, 20, 64⟩] ∧ c.gos 1 = .ret [.slice ⟨1, 0, 20, 64⟩] ∧
      (List.range 20).map (fun x => c.mem.arr 1 (0 + 0 + x)) =
        abcDigest.take 10 ++ (safeHash (verdict Detected) []).1.drop 10 :=
  C53_append_race B cfg (M53 o1) pre53 pre53_ok (M53_go B o1 outs h1) (fun _ => []) (fun _ => ⟨[], rfl⟩) (M53_dv o1)
    ⟨1, 0, 0, 64⟩ (by decide) race53
    (fun j => if j = 0 then abcDigest else (safeHash (verdict Detected) []).1) (fun j => match j with
      | 0 => .inl ⟨1, 0, 10, rfl, (congrArg Prod.fst abc_hash).symm⟩
      | 1 => .inr ⟨0, 0, 11, rfl, rfl⟩) 10 (by decide)

end Verif.Props
