import Lean.Elab.Term
import Lean.Meta.Eval
import Lean.Elab.Deriving.ToExpr
import Verif.Source.GoParse

/-!
`evaluated! t` stands for the value of `t`, found by running `t` when the file is compiled.  Nothing is proved by this:
that the value is right is proved afterwards, by the kernel.
-/

namespace Verif.Source.Go

deriving instance Lean.ToExpr for GTok
deriving instance Lean.ToExpr for Ty
deriving instance Lean.ToExpr for BOp
deriving instance Lean.ToExpr for UOp
deriving instance Lean.ToExpr for Expr
deriving instance Lean.ToExpr for Stmt
deriving instance Lean.ToExpr for Func
deriving instance Lean.ToExpr for Env
deriving instance Lean.ToExpr for Prog
deriving instance DecidableEq for Prog

open Lean Elab Term Meta in
/-- The value of a closed term of a type with an instance of `ToExpr`. -/
elab "evaluated! " t:term : term <= ty => do
  let e ← elabTermEnsuringType t ty
  synthesizeSyntheticMVarsNoPostponing
  let e ← instantiateMVars e
  let shown ← mkAppM ``toExpr #[e]
  unsafe evalExpr Lean.Expr (mkConst ``Lean.Expr) shown

end Verif.Source.Go
