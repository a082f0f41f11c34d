import Verif.Proofs.CObject
import Verif.Proofs.CTable
import Verif.Proofs.GoWrite

/-!
`sha1_recompression_step` as it is read from the text of cgo/sha1.c, and rules for running the statements of the functions
that call others.
-/

namespace Verif.Source.C

open Verif Verif.Source Verif.Source.Go Verif.Model
open Verif.Model.C (Ctx)

/-- The memory with other contents of the frames, the running function's own being given. -/
theorem having_eq {i next : Nat} {C C' : List Val} {old old' fr : Nat → List Val} (h1 : fr i = C') (h2 : ∀ g, g ≠ i → fr g = old' g)
    (h3 : old' i = old i) : (⟨i, C, old, next⟩ : Mem).having fr = ⟨i, C', old', next⟩ := by
  simp only [Mem.having, Mem.mk.injEq, true_and, and_true]
  refine ⟨h1, ?_⟩
  funext g
  by_cases hg : g = i
  · subst hg
    rw [if_pos rfl, h3]
  · rw [if_neg hg, h2 g hg]

section
variable {i next : Nat} {C : List Val} {old : Nat → List Val}

theorem frame_old {g : Nat} (h : g ≠ i) : Mem.frame ⟨i, C, old, next⟩ g = old g := by simp [Mem.frame, h]

theorem frame_own : Mem.frame ⟨i, C, old, next⟩ i = C := by simp [Mem.frame]

theorem look_old {l : Loc} (h : l.frame ≠ i) : look (Mem.frame ⟨i, C, old, next⟩) l = look old l := by
  unfold look
  rw [frame_old h]

theorem look_own {k : Nat} {v : Val} (h : C[k]? = some v) : look (Mem.frame ⟨i, C, old, next⟩) ⟨i, k, []⟩ = .ok v := by
  unfold look
  simp only [frame_own, h]
  cases v <;> rfl

theorem putAt_congr {fr fr' : Nat → List Val} {l : Loc} {v : Val} {g : Nat} (h : fr g = fr' g) :
    Go.putAt fr l v g = Go.putAt fr' l v g := by
  unfold Go.putAt
  rw [h]

/-- A call has changed what is at a place of another frame. -/
theorem having_other {l : Loc} {v : Val} (h : l.frame ≠ i) :
    (⟨i, C, old, next⟩ : Mem).having (Go.putAt (Mem.frame ⟨i, C, old, next⟩) l v) = ⟨i, C, Go.putAt old l v, next⟩ := by
  refine having_eq ?_ (fun g hg => putAt_congr (frame_old hg)) (putAt_of_ne (Ne.symm h))
  rw [putAt_of_ne (Ne.symm h), frame_own]

/-- A call has changed a variable of the function itself. -/
theorem having_own {k : Nat} {u v : Val} (h : C[k]? = some u) (hv : Fixed v) :
    (⟨i, C, old, next⟩ : Mem).having (Go.putAt (Mem.frame ⟨i, C, old, next⟩) ⟨i, k, []⟩ v) = ⟨i, C.set k v, old, next⟩ := by
  refine having_eq ?_ (fun g hg => ?_) rfl
  · unfold Go.putAt
    simp only [if_true, frame_own]
    apply List.ext_getElem?
    intro q
    rw [modify_get, List.getElem?_set]
    have hk : k < C.length := (List.getElem?_eq_some_iff.1 h).1
    by_cases hq : k = q
    · subst hq
      have hp : u.put [] v = v := by
        unfold Val.put
        cases u <;> simp only [Val.set, hv _]
      rw [if_pos rfl, if_pos rfl, if_pos hk, h]
      simp only [Option.map_some, hp]
    · rw [if_neg hq, if_neg hq]
  · rw [putAt_of_ne (l := ⟨i, k, []⟩) hg, frame_old hg]

/-- Two changes are one after the other. -/
theorem having_two {m : Mem} {l l' : Loc} {v v' : Val} :
    m.having (Go.putAt (Go.putAt m.frame l v) l' v') =
      (m.having (Go.putAt m.frame l v)).having (Go.putAt (m.having (Go.putAt m.frame l v)).frame l' v') := by
  rw [Mem.having_frame, Mem.having_having]

end

/-- cgo/sha1.c:1541-1948. -/
def stepFunc : Func := evaluated! funcOf funcs5U (name! "sha1_recompression_step")

/-- The call of `sha1recompress_fast_t` with what `sha1_recompression_step` was given (cgo/sha1.c:1837,1872). -/
def fastCall (n : Nat) : Stmt :=
  .expr (.call (name! "C") n (.cons (.loc 1) (.cons (.loc 2) (.cons (.loc 3) (.cons (.loc 4) .nil)))))

theorem stepFunc_eq : stepFunc = ⟨name! "C", name! "sha1_recompression_step",
    [.u32, .slice .u32, .slice .u32, .slice .u32, .slice .u32], [], false,
    some (.block 5 (.seq (.block 5 (.seq (.define 1 (.cons (.loc 0) .nil)) (.ite (.bin .eq (.loc 5) (.num 58))
      (fastCall (name! "sha1recompress_fast_58")) (.ite (.bin .eq (.loc 5) (.num 65))
        (fastCall (name! "sha1recompress_fast_65")) (.expr (.panic (.str (chars! "abort")))))))) .skip))⟩ := by by_kernel

/-- The functions that the ones of this file and the next call are those that were read from the text
(cgo/sha1.c:364-2139, cgo/ubc_check.c:70-293). -/
structure HasC (P : Program) (be : Bool) : Prop where
  ubc : findFunc (name! "C") (name! "ubc_check") P.funcs = some ubcFunc
  w : findFunc (name! "C") (name! "sha1_compression_W") P.funcs = some wFunc
  states : ∃ items, Items be items Model.C.stepsStates ∧ (statesBody items).addrs = false ∧
    findFunc (name! "C") (name! "sha1_compression_states") P.funcs = some ⟨name! "C", name! "sha1_compression_states",
      [.slice .u32, .slice .u32, .slice .u32, .slice (.arr 5 .u32)], [], false, some (statesBody items)⟩
  fast58 : findFunc (name! "C") (name! "sha1recompress_fast_58") P.funcs = some fast58Func
  fast65 : findFunc (name! "C") (name! "sha1recompress_fast_65") P.funcs = some fast65Func
  step : findFunc (name! "C") (name! "sha1_recompression_step") P.funcs = some stepFunc
  dvs : P.glob (name! "C") (name! "sha1_dvs") = some 0
  pad : P.glob (name! "C") (name! "sha1_padding") = some 1

section
variable {P : Program} {be : Bool} {N d : Nat} {m : Mem}

theorem fast_call {l0 l1 l2 l3 : Loc} {i o r i' o' : Regs} {W : Fin 80 → Word} {t : Nat} {f : Func} {back forw : List Stmt}
    {n : Nat} (hP : findFunc (name! "C") n P.funcs = some f) (he : ∀ vs, extern (name! "C") n vs = none)
    (hf : f = ⟨name! "C", n, [.slice .u32, .slice .u32, .slice .u32, .slice .u32], [], false,
      some (fastBody back forw)⟩) (hb : BackSteps t back Model.C.stepsBack) (hw : ForwSteps t forw Model.C.stepsForw)
    (had : (fastBody back forw).addrs = false)
    (h : Model.C.sha1recompress_fast t W r = .ok (i', o'))
    (h0 : look m.frame l0 = .ok (quint i)) (h1 : look m.frame l1 = .ok (quint o))
    (h2 : look m.frame l2 = .ok (words 80 W)) (h3 : look m.frame l3 = .ok (quint r))
    (a01 : Apart l0 l1) (a02 : Apart l0 l2) (a03 : Apart l0 l3) (a12 : Apart l1 l2) (a13 : Apart l1 l3)
    (a23 : Apart l2 l3) (n0 : l0.frame < m.next) (n1 : l1.frame < m.next) (n2 : l2.frame < m.next)
    (n3 : l3.frame < m.next) (x y : Val) :
    exec (P.world N (d + 1)) N (fastCall n)
        ⟨m.next, [x, whole l0 5, whole l1 5, whole l2 80, whole l3 5, y], m.frame, m.next + 1⟩ =
      .ok (.normal, ⟨m.next, [x, whole l0 5, whole l1 5, whole l2 80, whole l3 5, y],
        Go.putAt (Go.putAt m.frame l0 (quint i')) l1 (quint o'), m.next + 1⟩) := by
  refine exec_expr (vs := []) ((evs_call (vs := [whole l0 5, whole l1 5, whole l2 80, whole l3 5])
    (evs_cons (evs_loc rfl) (evs_cons (evs_loc rfl) (evs_cons (evs_loc rfl) (evs_cons (evs_loc rfl) evs_nil))))).trans ?_)
  refine (call_of (he _) hP (by rw [hf])).trans ?_
  refine (fast_run hf hb hw had h (l0 := l0) (l1 := l1) (l2 := l2) (l3 := l3) (i := i) (o := o)
    (by rwa [look_old (Nat.ne_of_lt n0)]) (by rwa [look_old (Nat.ne_of_lt n1)])
    (by rwa [look_old (Nat.ne_of_lt n2)]) (by rwa [look_old (Nat.ne_of_lt n3)]) a01 a02 a03 a12 a13 a23
    (Nat.ne_of_lt (Nat.lt_succ_of_lt n0)) (Nat.ne_of_lt (Nat.lt_succ_of_lt n1))
    (Nat.ne_of_lt (Nat.lt_succ_of_lt n2)) (Nat.ne_of_lt (Nat.lt_succ_of_lt n3))).trans ?_
  rw [having_two, having_other (Nat.ne_of_lt n0), having_other (Nat.ne_of_lt n1)]

/-- A call of `sha1_recompression_step` (cgo/sha1.c:1541-1948). -/
theorem step_run (hP : HasC P be) {l0 l1 l2 l3 : Loc} {i o r i' o' : Regs} {W : Fin 80 → Word} {t : Nat} (ht : t < 80)
    (h : Model.C.sha1_recompression_step t W r = .ok (i', o'))
    (h0 : look m.frame l0 = .ok (quint i)) (h1 : look m.frame l1 = .ok (quint o))
    (h2 : look m.frame l2 = .ok (words 80 W)) (h3 : look m.frame l3 = .ok (quint r))
    (a01 : Apart l0 l1) (a02 : Apart l0 l2) (a03 : Apart l0 l3) (a12 : Apart l1 l2) (a13 : Apart l1 l3)
    (a23 : Apart l2 l3) (n0 : l0.frame < m.next) (n1 : l1.frame < m.next) (n2 : l2.frame < m.next)
    (n3 : l3.frame < m.next) :
    runFunc (P.world N (d + 1)) N stepFunc [.u32 (BitVec.ofNat 32 t), whole l0 5, whole l1 5, whole l2 80, whole l3 5] m =
      .ok ([], m.having (Go.putAt (Go.putAt m.frame l0 (quint i')) l1 (quint o'))) := by
  have hc : ∀ (k : Nat) (vs : List Val), ev (P.world N (d + 1)) (.bin .eq (.loc 5) (.num k))
      ⟨m.next, [.u32 (BitVec.ofNat 32 t), whole l0 5, whole l1 5, whole l2 80, whole l3 5, .u32 (BitVec.ofNat 32 t)],
        m.frame, m.next + 1⟩ = .ok (.bool (decide (BitVec.ofNat 32 t = BitVec.ofInt 32 (k : Int))), _) := fun k vs =>
    ev_of (evs_bin (evs_loc rfl) evs_num rfl)
  have hx : exec (P.world N (d + 1)) N (.ite (.bin .eq (.loc 5) (.num 58))
      (fastCall (name! "sha1recompress_fast_58")) (.ite (.bin .eq (.loc 5) (.num 65))
        (fastCall (name! "sha1recompress_fast_65")) (.expr (.panic (.str (chars! "abort"))))))
      ⟨m.next, [.u32 (BitVec.ofNat 32 t), whole l0 5, whole l1 5, whole l2 80, whole l3 5, .u32 (BitVec.ofNat 32 t)],
        m.frame, m.next + 1⟩ = .ok (.normal, ⟨m.next,
        [.u32 (BitVec.ofNat 32 t), whole l0 5, whole l1 5, whole l2 80, whole l3 5, .u32 (BitVec.ofNat 32 t)],
        Go.putAt (Go.putAt m.frame l0 (quint i')) l1 (quint o'), m.next + 1⟩) := by
    unfold Model.C.sha1_recompression_step at h
    by_cases e58 : t = 58
    · rw [if_pos e58] at h
      subst e58
      rw [exec_ite_true (hc 58 [])]
      exact fast_call hP.fast58 (fun _ => rfl) fast58Func_eq back58_do forw58_do fast58_addrs h h0 h1 h2 h3
        a01 a02 a03 a12 a13 a23 n0 n1 n2 n3 _ _
    · rw [if_neg e58] at h
      by_cases e65 : t = 65
      · rw [if_pos e65] at h
        subst e65
        rw [exec_ite_false (hc 58 []), exec_ite_true (hc 65 [])]
        exact fast_call hP.fast65 (fun _ => rfl) fast65Func_eq back65_do forw65_do fast65_addrs h h0 h1 h2 h3
          a01 a02 a03 a12 a13 a23 n0 n1 n2 n3 _ _
      · rw [if_neg e65] at h
        cases h
  have hd : exec (P.world N (d + 1)) N (.define 1 (.cons (.loc 0) .nil))
      ⟨m.next, [.u32 (BitVec.ofNat 32 t), whole l0 5, whole l1 5, whole l2 80, whole l3 5], m.frame, m.next + 1⟩ =
      .ok (.normal, ⟨m.next, [.u32 (BitVec.ofNat 32 t), whole l0 5, whole l1 5, whole l2 80, whole l3 5,
        .u32 (BitVec.ofNat 32 t)], m.frame, m.next + 1⟩) :=
    exec_define (vs := [.u32 (BitVec.ofNat 32 t)]) (evs_one (evs_loc rfl)) rfl
  have hs := exec_block (n := 5) (exec_last (exec_block (n := 5) ((exec_seq hd).trans hx)))
  have he : m.enter [.u32 (BitVec.ofNat 32 t), whole l0 5, whole l1 5, whole l2 80, whole l3 5] =
      ⟨m.next, [.u32 (BitVec.ofNat 32 t), whole l0 5, whole l1 5, whole l2 80, whole l3 5], m.frame, m.next + 1⟩ := by
    rw [← Mem.enter_old m [.u32 (BitVec.ofNat 32 t), whole l0 5, whole l1 5, whole l2 80, whole l3 5]]
    rfl
  rw [← he] at hs
  rw [stepFunc_eq]
  refine (runFunc_of rfl (Nat.lt_irrefl _) hs rfl).trans ?_
  exact congrArg (fun x => Except.ok (([] : List Val), x)) (leave_having m _ _)

end

end Verif.Source.C
