import Verif.Proofs.GoRead
import Verif.Proofs.GoPure
import Verif.Model.Ubc
import Lean.Elab.Tactic.Basic

/-!
`CalculateDvMask` as it is read from the text of ubc/ubc.go is `Model.Ubc.calculateDvMask`.
-/

namespace Verif.Source.Go

open Verif Verif.Source Verif.Model

open Lean Elab Tactic Meta in
/-- Close `a = b` by `Eq.refl a`, leaving it to the kernel to check that it fits. -/
elab "by_kernel" : tactic => do
  let g ← getMainGoal
  let t ← instantiateMVars (← g.getType)
  let some (_, a, _) := t.eq? | throwError "not an equation"
  g.assign (← mkExpectedTypeHint (← mkEqRefl a) t)
  replaceMainGoal []

/-- An array of 32-bit words. -/
def words (n : Nat) (W : Fin n → Word) : Val := .arr n fun j => .u32 (if h : j < n then W ⟨j, h⟩ else 0)

/-- The statements of a sequence. -/
def flat : Stmt → List Stmt
  | .seq a b => a :: flat b
  | _ => []

/-- The sequence of some statements. -/
def seqs : List Stmt → Stmt
  | [] => .skip
  | s :: ss => .seq s (seqs ss)

/-- The statements of a block. -/
def inside : Stmt → List Stmt
  | .block _ s => flat s
  | _ => []

/-- A function of a program; a function without a name if there is none. -/
def getFunc (g : Prog) (p n : Nat) : Func :=
  (findFunc p n (g.funcs ++ g.lits)).getD { pkg := 0, name := 0, params := [], named := false, results := [], body := none }

/-- ubc/ubc.go:32-363. -/
def maskFunc : Func := evaluated! getFunc progUbc (name! "ubc") (name! "CalculateDvMask")
/-- ubc/ubc.go:365-370. -/
def notFunc : Func := evaluated! getFunc progUbc (name! "ubc") (name! "not")
/-- ubc/const.go:36-38. -/
def dvsFunc : Func := evaluated! getFunc progUbc (name! "ubc") (name! "SHA1_dvs")

/-- The statements of ubc/ubc.go:33-362. -/
def maskBody : List Stmt := evaluated! inside (maskFunc.body.getD .skip)

/-- The statements of ubc/ubc.go:37-204. -/
def outerStmts : List Stmt := evaluated! (maskBody.drop 2).take 87
/-- The statements of ubc/ubc.go:207-359. -/
def innerStmts : List Stmt := evaluated! (match maskBody.getD 89 .skip with
  | .ite _ a _ => inside a
  | _ => [])

theorem maskFunc_eq : maskFunc = ⟨name! "ubc", name! "CalculateDvMask", [.ptr (.arr 80 .u32)], [.u32], false,
    some (.block 1 (seqs (
      [.ite (.bin .eq (.loc 0) .null) (.block 1 (.seq (.ret (.cons (.num 0) .nil)) .skip)) .skip,
       .define 1 (.cons (.conv .u32 (.num 0xffffffff)) .nil)] ++ outerStmts ++
      [.ite (.bin .ne (.loc 1) (.num 0)) (.block 2 (seqs innerStmts)) .skip,
       .ret (.cons (.loc 1) .nil)])))⟩ := by by_kernel

/-- What the functions of package `ubc` return that change nothing: `not`, ubc/ubc.go:365-370. -/
def ubcPure (p n : Nat) (vs : List Val) : Option (List Val) :=
  match Nat.beq p (name! "ubc"), Nat.beq n (name! "not"), vs with
  | true, true, [.u32 x] => some [.u32 (Ubc.not x)]
  | _, _, _ => none

/-- A statement changes the mask as `f` does. -/
def Does (s : Stmt) (f : (Fin 80 → Word) → Word → Word) : Prop :=
  ∀ W mask l, pexec ubcPure [some (words 80 W)] s [.ptr l, .u32 mask] = some [.ptr l, .u32 (f W mask)]

theorem pexec_ite {F : Nat → Nat → List Val → Option (List Val)} {D : List (Option Val)} {C : List Val} {c : Expr}
    {a b : Stmt} {P : Prop} [Decidable P] {l : Val} {x y : Word} (hc : one (pvs F D C c) = some (.bool (decide P)))
    (ha : pexec F D a C = some [l, .u32 x]) (hb : pexec F D b C = some [l, .u32 y]) :
    pexec F D (.ite c a b) C = some [l, .u32 (if P then x else y)] := by
  simp only [pexec, hc, ha, hb]
  by_cases h : P <;> simp [h, pick]

theorem pvs_either {F : Nat → Nat → List Val → Option (List Val)} {D : List (Option Val)} {C : List Val} {a b : Expr}
    {P Q : Prop} [Decidable P] [Decidable Q] [Decidable (P ∨ Q)] (ha : one (pvs F D C a) = some (.bool (decide P)))
    (hb : one (pvs F D C b) = some (.bool (decide Q))) :
    one (pvs F D C (.either a b)) = some (.bool (decide (P ∨ Q))) := by
  simp only [pvs, ha, hb]
  simp [one]

theorem pexec_block {F : Nat → Nat → List Val → Option (List Val)} {d : Option Val} {C : List Val} {s : Stmt} {l : Val}
    {x : Word} (h : pexec F [d] s C = some [l, .u32 x]) :
    pexec F [d] (.block 2 (.seq s .skip)) C = some [l, .u32 x] := by
  simp only [pexec, h]
  rfl

/-- The statements one by one do what the functions do. -/
inductive AllDo : List Stmt → List ((Fin 80 → Word) → Word → Word) → Prop where
  | nil : AllDo [] []
  | cons {s f ss fs} : Does s f → AllDo ss fs → AllDo (s :: ss) (f :: fs)

open Lean Elab Tactic Meta in
/-- Prove that a statement does what a function does, one case for an `if`. -/
elab "does" : tactic => do
  let rec go (n : Nat) (g : MVarId) : TacticM Unit := do
    match n with
    | 0 => throwError "too deep"
    | n + 1 =>
      let t ← instantiateMVars (← g.getType)
      let some (_, a, _) := t.eq? | throwError "not an equation"
      let rule : Option Name ←
        match a.getAppFn.constName?, a.getAppArgs with
        | some ``pexec, args => match args[2]!.getAppFn.constName? with
          | some ``Stmt.ite => pure (some ``pexec_ite)
          | some ``Stmt.block =>
            match (args[2]!.appArg!.getAppArgs)[0]!.getAppFn.constName? with
            | some ``Stmt.ite => pure (some ``pexec_block)
            | _ => pure none
          | _ => pure none
        | some ``one, args => match args[0]!.getAppArgs[3]!.getAppFn.constName? with
          | some ``Expr.either => pure (some ``pvs_either)
          | _ => pure none
        | _, _ => pure none
      match rule with
      | some r =>
        let gs ← g.apply (← mkConstWithFreshMVarLevels r)
        for g' in gs do
          unless ← g'.isAssigned do go n g'
      | none =>
        g.assign (← mkExpectedTypeHint (← mkEqRefl a) t)
  go 20 (← getMainGoal)
  replaceMainGoal []

theorem outer_do : AllDo outerStmts Ubc.outer := by
  unfold outerStmts Ubc.outer
  repeat refine AllDo.cons (fun W mask l => by does) ?_
  exact AllDo.nil

theorem inner_do : AllDo innerStmts Ubc.inner := by
  unfold innerStmts Ubc.inner
  repeat refine AllDo.cons (fun W mask l => by
    (simp only [Ubc.s207, Ubc.s214, Ubc.s221, Ubc.s224, Ubc.s230, Ubc.s236, Ubc.s244, Ubc.s247, Ubc.s250, Ubc.s253,
      Ubc.s261, Ubc.s264, Ubc.s267, Ubc.s273, Ubc.s279, Ubc.s289, Ubc.s296, Ubc.s306, Ubc.s312, Ubc.s322, Ubc.s330,
      Ubc.s338, Ubc.s345, Ubc.s353, ← or_assoc]); does) ?_
  exact AllDo.nil

/-- Package `ubc` is part of the program. -/
structure HasUbc (P : Program) : Prop where
  mask : findFunc (name! "ubc") (name! "CalculateDvMask") P.funcs = some maskFunc
  not : findFunc (name! "ubc") (name! "not") P.funcs = some notFunc
  dvs : findFunc (name! "ubc") (name! "SHA1_dvs") P.funcs = some dvsFunc

/-- The memory after a function that has changed no other frame and whose frame is given up. -/
theorem leave_enter (m : Mem) (as C : List Val) :
    m.leave ⟨m.next, C, (m.enter as).old, m.next + 1⟩ false = m := by
  cases m with
  | mk id cur old next =>
    simp only [Mem.leave, Mem.enter, if_true, Mem.mk.injEq, true_and, Bool.false_eq_true, false_and, if_false,
      ne_eq, not_true_eq_false, or_self, and_true]
    funext g
    by_cases h : g = id <;> simp [h]

/-- What a function returns. -/
theorem runFunc_of {X : World} {N : Nat} {f : Func} {vs : List Val} {m m' : Mem} {b : Stmt} {s : Sig} {rs : List Val}
    (hb : f.body = some b) (hlen : ¬vs.length < f.params.length)
    (h : exec X N b (m.enter (passed f.params vs ++ (if f.named then f.results.map zero else []))) = .ok (s, m'))
    (hr : results f.results s = .ok rs) : runFunc X N f vs m = .ok (rs, m.leave m' b.addrs) := by
  simp only [runFunc, hb, if_neg hlen, h, hr]

/-- A call of a function of the program. -/
theorem call_of {P : Program} {N d p n : Nat} {vs : List Val} {f : Func} {b : Stmt} {m : Mem}
    (he : extern p n vs = none) (hf : findFunc p n P.funcs = some f) (hb : f.body = some b) :
    P.call N (d + 1) p n vs m = runFunc (P.world N d) N f vs m := by
  simp only [Program.call, he, hf, hb, Program.world]

theorem not_eq {P : Program} (hP : HasUbc P) (N d : Nat) (x : Word) (m : Mem) :
    P.call N (d + 1) (name! "ubc") (name! "not") [.u32 x] m = .ok ([.u32 (Ubc.not x)], m) := by
  rw [call_of (by rfl) hP.not (show notFunc.body = some _ from rfl)]
  have he : ev (P.world N d) (.bin .eq (.loc 0) (.num 0)) ⟨m.next, [.u32 x], (m.enter [.u32 x]).old, m.next + 1⟩ =
      .ok (.bool (decide (x = 0#32)), _) := ev_pvs (right_none _ _ _ _) (seen_nil _ _ _ _) rfl
  by_cases hx : x = 0#32
  · refine (runFunc_of (s := .ret [.const 1]) (m' := ⟨m.next, [.u32 x], (m.enter [.u32 x]).old, m.next + 1⟩) rfl
      (by simp [notFunc]) (exec_block_ret (exec_seq_ret ((exec_ite_true ?_).trans rfl))) rfl).trans ?_
    · exact he.trans (by rw [decide_eq_true hx])
    · rw [show (Stmt.addrs _) = false from rfl, leave_enter, Ubc.not, if_pos (show x = 0 from hx)]
      rfl
  · refine (runFunc_of (s := .ret [.const 0]) (m' := ⟨m.next, [.u32 x], (m.enter [.u32 x]).old, m.next + 1⟩) rfl
      (by simp [notFunc]) (exec_block_ret ((exec_seq ((exec_ite_false ?_).trans rfl)).trans rfl)) rfl).trans ?_
    · exact he.trans (by rw [decide_eq_false hx])
    · rw [show (Stmt.addrs _) = false from rfl, leave_enter, Ubc.not, if_neg (show ¬x = 0 from hx)]
      rfl

/-- The statements one after the other do what the functions do one after the other. -/
theorem seqs_do {ss : List Stmt} {fs : List ((Fin 80 → Word) → Word → Word)} (h : AllDo ss fs) :
    Does (seqs ss) (fun W mask => fs.foldl (fun mask f => f W mask) mask) := by
  induction h with
  | nil => intro W mask l; rfl
  | cons h _ ih =>
    intro W mask l
    simp only [seqs, pexec, h W mask l, List.foldl_cons]
    exact ih W _ l

theorem exec_seqs_append {X : World} {N : Nat} {ss ts : List Stmt} {m m' : Mem}
    (h : exec X N (seqs ss) m = .ok (.normal, m')) :
    exec X N (seqs (ss ++ ts)) m = exec X N (seqs ts) m' := by
  induction ss generalizing m with
  | nil => simp only [seqs, exec, pure_run, Except.ok.injEq, Prod.mk.injEq, true_and] at h; subst h; rfl
  | cons s ss ih =>
    show (exec X N s >>= _) _ = _
    replace h : (exec X N s >>= _) m = _ := h
    simp only [bind_run] at h ⊢
    split at h
    · rename_i sg m1 h1
      cases sg with
      | normal => exact ih h
      | goto l => simp [pure_run] at h
      | ret vs => simp [pure_run] at h
    · cases h

theorem right_ubc {P : Program} (hP : HasUbc P) (N d : Nat) (D : List (Option Val)) (i : Nat) (old : Nat → List Val)
    (next : Nat) : Right (P.world N (d + 1)) ubcPure D i old next := by
  constructor
  intro p n vs rs h C
  unfold ubcPure at h
  split at h
  · rename_i x hp hn
    cases h
    cases Nat.eq_of_beq_eq_true hp
    cases Nat.eq_of_beq_eq_true hn
    exact not_eq hP N d x _
  · cases h

/-- A place of a frame that is there. -/
def Mem.Has (m : Mem) (l : Loc) : Prop := l.frame < m.next

theorem load_enter {m : Mem} {l : Loc} {v : Val} (hl : m.Has l) (h : load l m = .ok (v, m)) (as C : List Val) :
    load l ⟨m.next, C, (m.enter as).old, m.next + 1⟩ = .ok (v, ⟨m.next, C, (m.enter as).old, m.next + 1⟩) := by
  have hf : Mem.frame ⟨m.next, C, (m.enter as).old, m.next + 1⟩ l.frame = m.frame l.frame := by
    have : l.frame ≠ m.next := Nat.ne_of_lt hl
    simp [Mem.frame, Mem.enter, this]
  unfold load at h ⊢
  rw [hf]
  split at h
  · rename_i w hw
    split at h
    · rename_i u hu
      simp only [Except.ok.injEq, Prod.mk.injEq, and_true] at h
      subst h
      rfl
    · cases h
  · cases h

/-- `CalculateDvMask` on a pointer to 80 words, ubc/ubc.go:32-363. -/
theorem mask_eq {P : Program} (hP : HasUbc P) (N d : Nat) (W : Fin 80 → Word) (l : Loc) (m : Mem) (hl : m.Has l)
    (h : load l m = .ok (words 80 W, m)) :
    P.call N (d + 2) (name! "ubc") (name! "CalculateDvMask") [.ptr l] m =
      .ok ([.u32 (Ubc.calculateDvMask (some W))], m) := by
  rw [call_of (by rfl) hP.mask (by rw [maskFunc_eq])]
  have hr := right_ubc hP N d [some (words 80 W)] m.next (m.enter [.ptr l]).old (m.next + 1)
  have hs : ∀ mask : Word, Seen [some (words 80 W)] m.next (m.enter [.ptr l]).old (m.next + 1) [.ptr l, .u32 mask] := by
    intro mask k v hv
    match k with
    | 0 =>
      simp only [view, List.getElem?_cons_zero, Option.some.injEq] at hv
      subst hv
      exact ⟨.ptr l, rfl, load_enter hl h [.ptr l]⟩
    | k + 1 => simp [view] at hv
  have ho := (exec_pexec hr N _ _ _ (seqs_do outer_do W 0xffffffff l) (hs _)).1
  simp only at ho
  generalize hm1 : Ubc.outer.foldl (fun mask f => f W mask) 0xffffffff = m1 at ho
  have hi := (exec_pexec hr N _ _ _ (seqs_do inner_do W m1 l) (hs _)).1
  simp only at hi
  refine (runFunc_of (s := .ret [.u32 (Ubc.calculateDvMask (some W))])
    (m' := ⟨m.next, [.ptr l, .u32 (Ubc.calculateDvMask (some W))], (m.enter [.ptr l]).old, m.next + 1⟩)
    (by rw [maskFunc_eq]) (by simp [maskFunc_eq]) ?_ (by rw [maskFunc_eq]; rfl)).trans ?_
  · refine exec_block_ret ?_
    rw [List.append_assoc]
    refine (exec_seq ((exec_ite_false rfl).trans rfl)).trans ((exec_seq rfl).trans ?_)
    refine (exec_seqs_append ho).trans ?_
    have hc : ev (P.world N (d + 1)) (.bin .ne (.loc 1) (.num 0))
        ⟨m.next, [.ptr l, .u32 m1], (m.enter [.ptr l]).old, m.next + 1⟩ =
        .ok (.bool (decide (m1 ≠ 0#32)), _) := ev_pvs (right_none _ _ _ _) (seen_nil _ _ _ _) rfl
    have hm : Ubc.calculateDvMask (some W) =
        if m1 ≠ 0 then Ubc.inner.foldl (fun mask f => f W mask) m1 else m1 := by
      simp only [Ubc.calculateDvMask, ← hm1]
    rw [hm]
    by_cases h0 : m1 = 0#32
    · rw [if_neg (by simpa using h0)]
      refine (exec_seq ((exec_ite_false (hc.trans (by rw [decide_eq_false (by simpa using h0)]))).trans rfl)).trans rfl
    · rw [if_pos (show m1 ≠ 0 from h0)]
      exact (exec_seq ((exec_ite_true (hc.trans (by rw [decide_eq_true h0]))).trans (exec_block hi))).trans rfl
  · rw [show (Stmt.addrs _) = false by by_kernel, leave_enter]
    rfl

/-- `CalculateDvMask(nil)`, ubc/ubc.go:33-35. -/
theorem mask_nil {P : Program} (hP : HasUbc P) (N d : Nat) (m : Mem) :
    P.call N (d + 1) (name! "ubc") (name! "CalculateDvMask") [.null] m = .ok ([.u32 0], m) := by
  rw [call_of (by rfl) hP.mask (by rw [maskFunc_eq])]
  refine (runFunc_of (s := .ret [.const 0])
    (m' := ⟨m.next, [.null], (m.enter [.null]).old, m.next + 1⟩)
    (by rw [maskFunc_eq]) (by simp [maskFunc_eq]) ?_ (by rw [maskFunc_eq]; rfl)).trans ?_
  · exact exec_block_ret ((exec_seq_ret ((exec_ite_true rfl).trans rfl)).trans rfl)
  · rw [show (Stmt.addrs _) = false by by_kernel, leave_enter]
    rfl

end Verif.Source.Go
