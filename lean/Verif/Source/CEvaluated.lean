import Verif.Source.CProgram
import Verif.Source.Evaluated

/-!
`evaluated_list! x : T := t` defines `x` as the value of `t`, a list, found by running `t` when the file is compiled; the
list is written out in pieces of 200 elements, the definitions `x_0`, `x_1`, ….  Nothing is proved by this: that the value
is right is proved afterwards, by the kernel.
-/

namespace Verif.Source.C

deriving instance Lean.ToExpr for Env
deriving instance Lean.ToExpr for Prog
deriving instance Lean.ToExpr for Macro
deriving instance Lean.ToExpr for Defs
deriving instance Lean.ToExpr for Part
deriving instance Lean.ToExpr for Pre
deriving instance DecidableEq for Env
deriving instance DecidableEq for Prog

open Lean Elab Term Meta Command in
/-- Define a list as the value of a closed term. -/
elab "evaluated_list! " n:ident " : " ty:term " := " t:term : command => do
  liftTermElabM do
    let elT ← instantiateMVars (← elabType ty)
    let u ← getDecLevel elT
    let lT ← instantiateMVars (mkApp (mkConst ``List [u]) elT)
    let e ← elabTermEnsuringType t lT
    synthesizeSyntheticMVarsNoPostponing
    let e ← instantiateMVars e
    let shown ← mkAppM ``List.map #[← mkAppOptM ``toExpr #[elT, none], e]
    let vs ← unsafe evalExpr (List Lean.Expr) (mkApp (mkConst ``List [0]) (mkConst ``Lean.Expr)) shown
    let ns ← getCurrNamespace
    let mut k := 0
    let mut rest := vs
    let mut parts : Array Lean.Expr := #[]
    while !rest.isEmpty do
      let v ← instantiateMVars (← mkListLit elT (rest.take 200))
      rest := rest.drop 200
      let nm := ns ++ n.getId.appendAfter s!"_{k}"
      addDecl (.defnDecl { name := nm, levelParams := [], type := lT, value := v, hints := .regular 1, safety := .safe })
      parts := parts.push (mkConst nm)
      k := k + 1
    let nil ← mkListLit elT []
    let v ← instantiateMVars (← parts.foldrM (fun a b => mkAppM ``HAppend.hAppend #[a, b]) nil)
    addDecl (.defnDecl { name := ns ++ n.getId, levelParams := [], type := lT, value := v, hints := .regular 2,
                         safety := .safe })

open Lean Elab Tactic Meta in
/-- Close `a = b` by `Eq.refl a`, leaving it to the kernel to check that it fits. -/
elab "kernel_refl" : tactic => do
  let g ← getMainGoal
  let t ← instantiateMVars (← g.getType)
  let some (_, a, _) := t.eq? | throwError "not an equation"
  g.assign (← mkExpectedTypeHint (← mkEqRefl a) t)
  replaceMainGoal []

end Verif.Source.C
