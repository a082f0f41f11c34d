import Verif.Proofs.CParts

/-!
What the tokens of ubc_check.c and of sha1.c up to `sha1_compression_W` declare.
-/

namespace Verif.Source.C

theorem declsU : ∀ rest, declsTo 37 Prog.empty.env (toksU ++ rest) = some (envU, funcsU, rest) := by
  intro rest
  kernel_refl

theorem decls1 : ∀ rest, declsTo 16 envU (toks1 ++ rest) = some (env1, funcs1, rest) := by
  intro rest
  kernel_refl

end Verif.Source.C
