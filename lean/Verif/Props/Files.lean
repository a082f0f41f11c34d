import Verif.Props.Cgo
import Verif.Proofs.Shambles

/-!
The files of /repo/test/testdata/files that are small enough to be hashed whole in the model, against the digests
and flags that /repo/test/native_test.go:144-160 expects of both packages.  These are instances (of C01, C12–C14, C19,
C33), and a check of the model against the repository's own expectations.
-/

namespace Verif.Props

open Verif Verif.Model Verif.Model.C Verif.Spec Verif.C

/-- Package sha1cd, every build, one-shot and in any division into writes. -/
theorem test_files_go (B : Build) (ps : List (List Byte)) :
    (ps.flatten = shambles1 → ∃ d outs, new.run B.block (ps.map .write) = .ok (d, outs) ∧
      d.collisionResistantSum B.block [] = .ok (d, shamblesDigest1, true)) ∧
    (ps.flatten = shambles2 → ∃ d outs, new.run B.block (ps.map .write) = .ok (d, outs) ∧
      d.collisionResistantSum B.block [] = .ok (d, shamblesDigest2, true)) ∧
    (ps.flatten = validFile → ∃ d outs, new.run B.block (ps.map .write) = .ok (d, outs) ∧
      d.collisionResistantSum B.block [] = .ok (d, validFileDigest, false)) := by
  obtain ⟨d, D, c, r, hs, _, ho⟩ := C02_chunking B ps
  rw [C14_safe_hash] at ho
  have key : ∀ m X f, safeHash goVerdict m = (X, f) → ps.flatten = m →
      ∃ d outs, new.run B.block (ps.map .write) = .ok (d, outs) ∧
        d.collisionResistantSum B.block [] = .ok (d, X, f) := by
    intro m X f hm hp
    rw [hp, hm] at ho
    have e := Except.ok.inj ho
    refine ⟨d, _, r, ?_⟩
    rw [hs [], ← show X = D from congrArg Prod.fst e, ← show f = c from congrArg Prod.snd e]; rfl
  exact ⟨key _ _ _ shambles1_hash, key _ _ _ shambles2_hash, key _ _ _ validFile_hash⟩

/-- Package cgo, every C configuration. -/
theorem test_files_cgo (cfg : Cfg) :
    Cgo.sumPkg cfg shambles1 = .ok (shamblesDigest1, true) ∧
    Cgo.sumPkg cfg shambles2 = .ok (shamblesDigest2, true) ∧
    Cgo.sumPkg cfg validFile = .ok (validFileDigest, false) := by
  rw [cgo_sumPkg, cgo_sumPkg, cgo_sumPkg]
  exact ⟨congrArg _ shambles1_hash_c, congrArg _ shambles2_hash_c, congrArg _ validFile_hash_c⟩

/-- The pair is a SHA-1 collision, and the two digests of sha1cd differ. -/
theorem test_files_collision : shambles1 ≠ shambles2 ∧ sha1 shambles1 = sha1 shambles2 ∧
    shamblesDigest1 ≠ shamblesDigest2 := ⟨shambles_ne, shambles_sha1, by decide⟩

end Verif.Props
