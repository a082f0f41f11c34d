import Verif.Proofs.CLeaf
import Verif.Proofs.CParts
import Verif.Model.CUbc

/-!
`ubc_check` as it is read from the text of cgo/ubc_check.c is `Model.C.Ubc.ubcCheck`.
-/

namespace Verif.Source.C

open Verif Verif.Source Verif.Source.Go
open Verif.Model.C.Ubc (cnot)

/-- A function among those that were read; a function without a name if there is none. -/
def funcOf (fs : List Func) (n : Nat) : Func :=
  (findFunc (name! "C") n fs).getD { pkg := 0, name := 0, params := [], named := false, results := [], body := none }

/-- No function that changes nothing is called. -/
def noPure (_ _ : Nat) (_ : List Val) : Option (List Val) := none

theorem rights_none (X : World) : Rights X noPure := fun _ _ _ _ h => by cases h

/-- cgo/ubc_check.c:73-293. -/
def ubcFunc : Func := evaluated! funcOf funcsU (name! "ubc_check")

/-- The statements of cgo/ubc_check.c:75-292. -/
def ubcBody : List Stmt := evaluated! inside (ubcFunc.body.getD .skip)

/-- The statements of cgo/ubc_check.c:76-202. -/
def ubcOuter : List Stmt := evaluated! (ubcBody.drop 1).take 87
/-- The statements of cgo/ubc_check.c:206-289. -/
def ubcInner : List Stmt := evaluated! (match ubcBody.getD 88 .skip with
  | .ite _ a _ => inside a
  | _ => [])

theorem ubcFunc_eq : ubcFunc = ⟨name! "C", name! "ubc_check", [.slice .u32, .slice .u32], [], false,
    some (.block 2 (seqs (
      [.define 1 (.cons (.un .com (.conv .u32 (.num 0))) .nil)] ++ (ubcOuter ++
      [.ite (.bin .ne (.loc 2) (.num 0)) (.block 3 (seqs ubcInner)) .skip,
       .assign (.cons (.index (.loc 1) (.num 0)) .nil) (.cons (.loc 2) .nil)]))))⟩ := by by_kernel

/-- What the parameters of `ubc_check` point to. -/
def ubcD (W : Fin 80 → Word) (x : Nat → Val) : List (Option Val) := [some (words 80 W), some (.arr 1 x)]

/-- A statement changes the mask as `f` does. -/
def MaskDoes (s : Stmt) (f : (Fin 80 → Word) → Word → Word) : Prop :=
  ∀ W x l o n c b mask, rexec noPure s (ubcD W x, [.slice l o n c, b, .u32 mask]) =
    some (ubcD W x, [.slice l o n c, b, .u32 (f W mask)])

theorem rexec_ite {F : Nat → Nat → List Val → Option (List Val)} {D : List (Option Val)} {C : List Val} {c : Expr}
    {s t : Stmt} {P : Prop} [Decidable P] {a b : Val} {x y : Word} (hc : one (pvs F D C c) = some (.bool (decide P)))
    (hs : rexec F s (D, C) = some (D, [a, b, .u32 x])) (ht : rexec F t (D, C) = some (D, [a, b, .u32 y])) :
    rexec F (.ite c s t) (D, C) = some (D, [a, b, .u32 (if P then x else y)]) := by
  simp only [rexec, hc, hs, ht]
  by_cases h : P <;> simp [h, rpick]

theorem pvs_cnot {F : Nat → Nat → List Val → Option (List Val)} {D : List (Option Val)} {C : List Val} {a : Expr}
    {x : Word} (ha : one (pvs F D C a) = some (.bool (decide (x ≠ 0)))) :
    one (pvs F D C (.un .not a)) = some (.bool (decide (cnot x ≠ 0))) := by
  have h : pvs F D C (.un .not a) = some [.bool (!decide (x ≠ 0))] := by simp only [pvs, ha, unary]
  rw [h]
  by_cases h : x = 0 <;> simp [h, cnot, one]

/-- The statements one by one do what the functions do. -/
inductive MasksDo : List Stmt → List ((Fin 80 → Word) → Word → Word) → Prop where
  | nil : MasksDo [] []
  | cons {s f ss fs} : MaskDoes s f → MasksDo ss fs → MasksDo (s :: ss) (f :: fs)

open Lean Elab Tactic Meta in
/-- Prove that a statement changes the mask as a function does, one case for an `if`. -/
elab "mask_does" : tactic => do
  let rec go (n : Nat) (g : MVarId) : TacticM Unit := do
    match n with
    | 0 => throwError "too deep"
    | n + 1 =>
      let t ← instantiateMVars (← g.getType)
      let some (_, a, _) := t.eq? | throwError "not an equation"
      let rule : Option Name ←
        match a.getAppFn.constName?, a.getAppArgs with
        | some ``rexec, args => match args[1]!.getAppFn.constName? with
          | some ``Stmt.ite => pure (some ``rexec_ite)
          | _ => pure none
        | some ``one, args => match args[0]!.getAppArgs[3]!.getAppFn.constName? with
          | some ``Expr.either => pure (some ``pvs_either)
          | some ``Expr.un => pure (some ``pvs_cnot)
          | _ => pure none
        | _, _ => pure none
      match rule with
      | some r =>
        let gs ← g.apply (← mkConstWithFreshMVarLevels r)
        for g' in gs do
          unless ← g'.isAssigned do go n g'
      | none =>
        g.assign (← mkExpectedTypeHint (← mkEqRefl a) t)
  go 20 (← getMainGoal)
  replaceMainGoal []

theorem outer_does : MasksDo ubcOuter Model.C.Ubc.outer := by
  unfold ubcOuter Model.C.Ubc.outer
  repeat refine MasksDo.cons (fun W x l o n c b mask => by mask_does) ?_
  exact MasksDo.nil


theorem inner_does : MasksDo ubcInner Model.C.Ubc.inner := by
  unfold ubcInner Model.C.Ubc.inner
  repeat refine MasksDo.cons (fun W x l o n c b mask => by
    (simp only [Model.C.Ubc.s206, Model.C.Ubc.s210, Model.C.Ubc.s214, Model.C.Ubc.s216, Model.C.Ubc.s220, Model.C.Ubc.s224,
      Model.C.Ubc.s228, Model.C.Ubc.s230, Model.C.Ubc.s232, Model.C.Ubc.s234, Model.C.Ubc.s238, Model.C.Ubc.s240,
      Model.C.Ubc.s242, Model.C.Ubc.s246, Model.C.Ubc.s250, Model.C.Ubc.s254, Model.C.Ubc.s258, Model.C.Ubc.s262,
      Model.C.Ubc.s266, Model.C.Ubc.s270, Model.C.Ubc.s274, Model.C.Ubc.s278, Model.C.Ubc.s282, Model.C.Ubc.s286,
      ← or_assoc]); mask_does) ?_
  exact MasksDo.nil

/-- The statements one after the other change the mask as the functions do one after the other. -/
theorem masks_do {ss : List Stmt} {fs : List ((Fin 80 → Word) → Word → Word)} (h : MasksDo ss fs) :
    MaskDoes (seqs ss) (fun W mask => fs.foldl (fun mask f => f W mask) mask) := by
  induction h with
  | nil => intro W x l o n c b mask; rfl
  | cons h _ ih =>
    intro W x l o n c b mask
    simp only [seqs, rexec, h W x l o n c b mask, List.foldl_cons]
    exact ih W x l o n c b _

theorem rexec_seqs_append {F : Nat → Nat → List Val → Option (List Val)} {ss ts : List Stmt} {S S' : RSt}
    (h : rexec F (seqs ss) S = some S') : rexec F (seqs (ss ++ ts)) S = rexec F (seqs ts) S' := by
  induction ss generalizing S with
  | nil => simp only [seqs, rexec, Option.some.injEq] at h; subst h; rfl
  | cons s ss ih =>
    simp only [seqs, rexec, List.cons_append] at h ⊢
    split at h
    · exact ih h
    · cases h

/-- The body of `ubc_check` (cgo/ubc_check.c:74-293). -/
theorem ubc_body {W : Fin 80 → Word} {x : Nat → Val} {l l' : Loc} {o n c o' n' c' : Nat} {b : Stmt}
    (hb : ubcFunc.body = some b) :
    rexec noPure b (ubcD W x, [.slice l o n c, .slice l' o' n' c']) =
      some (ubcD W (fun j => if j = 0 then .u32 (Model.C.Ubc.ubcCheck W) else x j), [.slice l o n c, .slice l' o' n' c']) := by
  rw [ubcFunc_eq] at hb
  cases hb
  have ho := masks_do outer_does W x l o n c (.slice l' o' n' c') (~~~(0#32))
  simp only at ho
  generalize hm1 : Model.C.Ubc.outer.foldl (fun mask f => f W mask) (~~~(0#32)) = m1 at ho
  have hi := masks_do inner_does W x l o n c (.slice l' o' n' c') m1
  simp only at hi
  have hm : Model.C.Ubc.ubcCheck W = if m1 ≠ 0 then Model.C.Ubc.inner.foldl (fun mask f => f W mask) m1 else m1 := by
    simp only [Model.C.Ubc.ubcCheck, ← hm1]
  have h1 : rexec noPure (seqs [.define 1 (.cons (.un .com (.conv .u32 (.num 0))) .nil)])
      (ubcD W x, [.slice l o n c, .slice l' o' n' c']) =
      some (ubcD W x, [.slice l o n c, .slice l' o' n' c', .u32 (~~~(0#32))]) := rfl
  have h2 : rexec noPure (.ite (.bin .ne (.loc 2) (.num 0)) (.block 3 (seqs ubcInner)) .skip)
      (ubcD W x, [.slice l o n c, .slice l' o' n' c', .u32 m1]) =
      some (ubcD W x, [.slice l o n c, .slice l' o' n' c', .u32 (Model.C.Ubc.ubcCheck W)]) := by
    rw [hm]
    refine rexec_ite rfl ?_ rfl
    simp only [rexec, hi]
    rfl
  have h3 : rexec noPure (.assign (.cons (.index (.loc 1) (.num 0)) .nil) (.cons (.loc 2) .nil))
      (ubcD W x, [.slice l o n c, .slice l' o' n' c', .u32 (Model.C.Ubc.ubcCheck W)]) =
      some (ubcD W (fun j => if j = 0 then .u32 (Model.C.Ubc.ubcCheck W) else x j),
        [.slice l o n c, .slice l' o' n' c', .u32 (Model.C.Ubc.ubcCheck W)]) := by
    have hs : (Val.arr 1 x).set [0] (.u32 (Model.C.Ubc.ubcCheck W)) =
        .ok (.arr 1 fun j => if j = 0 then .u32 (Model.C.Ubc.ubcCheck W) else x j) := by
      have := fixed_u32 (Model.C.Ubc.ubcCheck W) (x 0)
      simp [Val.set, this]
    have hr : rset (ubcD W x) 1 [0] (.u32 (Model.C.Ubc.ubcCheck W)) =
        some (ubcD W (fun j => if j = 0 then .u32 (Model.C.Ubc.ubcCheck W) else x j)) := by
      show (match (Val.arr 1 x).set [0] (.u32 (Model.C.Ubc.ubcCheck W)) with
        | .ok v' => some ((ubcD W x).set 1 (some v'))
        | .error _ => none) = _
      rw [hs]
      rfl
    show (match rset (ubcD W x) 1 [0] (.u32 (Model.C.Ubc.ubcCheck W)) with
      | some D => some (D, [Val.slice l o n c, Val.slice l' o' n' c', Val.u32 (Model.C.Ubc.ubcCheck W)])
      | none => none) = _
    rw [hr]
  have h4 : rexec noPure (seqs ([.define 1 (.cons (.un .com (.conv .u32 (.num 0))) .nil)] ++ (ubcOuter ++
      [.ite (.bin .ne (.loc 2) (.num 0)) (.block 3 (seqs ubcInner)) .skip,
       .assign (.cons (.index (.loc 1) (.num 0)) .nil) (.cons (.loc 2) .nil)])))
      (ubcD W x, [.slice l o n c, .slice l' o' n' c']) =
      some (ubcD W (fun j => if j = 0 then .u32 (Model.C.Ubc.ubcCheck W) else x j),
        [.slice l o n c, .slice l' o' n' c', .u32 (Model.C.Ubc.ubcCheck W)]) :=
    (rexec_seqs_append h1).trans ((rexec_seqs_append ho).trans (by
      simp only [seqs]
      rw [rexec, h2]
      show rexec noPure (.seq _ .skip) _ = _
      rw [rexec, h3]
      rfl))
  rw [rexec, h4]
  rfl

/-- `ubc_check` on 80 words and a place for the mask (cgo/ubc_check.c:73-293). -/
theorem ubc_run {X : World} {N : Nat} {W : Fin 80 → Word} {x : Nat → Val} {B : Nat → Loc} {n c n' c' : Nat} {m : Mem}
    (hn : 80 ≤ n) (hn' : 1 ≤ n') (ha : Apart (B 0) (B 1)) (h0 : (B 0).frame ≠ m.next) (h1 : (B 1).frame ≠ m.next)
    (hW : look m.frame (B 0) = .ok (words 80 W)) (hx : look m.frame (B 1) = .ok (.arr 1 x)) :
    runFunc X N ubcFunc [.slice (B 0) 0 n c, .slice (B 1) 0 n' c'] m =
      .ok ([], m.having (putAt m.frame (B 1) (.arr 1 fun j => if j = 0 then .u32 (Model.C.Ubc.ubcCheck W) else x j))) := by
  have hv : ∀ k v, view (ubcD W x) k = some v → (k = 0 ∧ v = words 80 W) ∨ (k = 1 ∧ v = .arr 1 x) := by
    intro k v h
    match k with
    | 0 => cases h; exact .inl ⟨rfl, rfl⟩
    | 1 => cases h; exact .inr ⟨rfl, rfl⟩
    | k + 2 => simp [view, ubcD] at h
  refine (runFunc_leaf (rights_none X) (D := ubcD W x) (B := B) rfl (by simp [ubcFunc]) rfl rfl rfl (by by_kernel)
    (ubc_body rfl) ⟨?_, ?_, ?_, ?_⟩ ?_ ?_).trans ?_
  · intro k v h
    rcases hv k v h with ⟨rfl, rfl⟩ | ⟨rfl, rfl⟩
    · exact ⟨_, hW⟩
    · exact ⟨_, hx⟩
  · intro k k' v v' h h' hne
    rcases hv k v h with ⟨rfl, rfl⟩ | ⟨rfl, rfl⟩ <;> rcases hv k' v' h' with ⟨rfl, rfl⟩ | ⟨rfl, rfl⟩
    · exact absurd rfl hne
    · exact ha
    · exact ha.symm
    · exact absurd rfl hne
  · intro k v h
    rcases hv k v h with ⟨rfl, rfl⟩ | ⟨rfl, rfl⟩ <;> exact fixed_arr _ _
  · intro k v h
    rcases hv k v h with ⟨rfl, rfl⟩ | ⟨rfl, rfl⟩ <;> assumption
  · intro k v h
    rcases hv k v h with ⟨rfl, rfl⟩ | ⟨rfl, rfl⟩
    · exact .inr ⟨80, _, n, c, rfl, hn, rfl⟩
    · exact .inr ⟨1, _, n', c', rfl, hn', rfl⟩
  · intro k v h
    rcases hv k v h with ⟨rfl, rfl⟩ | ⟨rfl, rfl⟩ <;> assumption
  · simp only [ubcD, puts]
    rw [putAt_self hW]

end Verif.Source.C
