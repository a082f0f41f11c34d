import Verif.Proofs.CParts

/-!
What the tokens of `sha1recompress_fast_58` and `sha1recompress_fast_65` declare.
-/

namespace Verif.Source.C

theorem decls3 : ∀ rest, declsTo 1 env2 (toks3 ++ rest) = some (env3, funcs3, rest) := by
  intro rest
  kernel_refl

theorem decls4 : ∀ rest, declsTo 1 env3 (toks4 ++ rest) = some (env4, funcs4, rest) := by
  intro rest
  kernel_refl

end Verif.Source.C
