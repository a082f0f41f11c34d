import Verif.Proofs.CParts

/-!
What the tokens of `sha1_compression_states`, and those after `sha1recompress_fast_65`, declare.
-/

namespace Verif.Source.C

theorem decls2Le : ∀ rest, declsTo 1 env1 (toks2Le ++ rest) = some (env2, funcs2Le, rest) := by
  intro rest
  kernel_refl

theorem decls2Be : ∀ rest, declsTo 1 env1 (toks2Be ++ rest) = some (env2, funcs2Be, rest) := by
  intro rest
  kernel_refl

theorem decls5U : declsTo 11 env4 toks5U = some (env5, funcs5U, []) := by kernel_refl

theorem decls5A : declsTo 11 env4 toks5A = some (env5, funcs5A, []) := by kernel_refl

end Verif.Source.C
