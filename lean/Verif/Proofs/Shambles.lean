import Verif.Proofs.Witness
import Verif.Proofs.ShamblesData

/-! The files of test/testdata/files that the repository's own test hashes whole, evaluated in the model. -/

namespace Verif

open Verif.Model Verif.Spec

theorem shambles1_pad : (pad shambles1).length / 64 = 11 := by decide +kernel
theorem shambles2_pad : (pad shambles2).length / 64 = 11 := by decide +kernel

theorem shambles1_hash : safeHash (verdict GoDetected) shambles1 = (shamblesDigest1, true) := by
  rw [go_eval 11 _ shambles1_pad]; decide +kernel

theorem shambles2_hash : safeHash (verdict GoDetected) shambles2 = (shamblesDigest2, true) := by
  rw [go_eval 11 _ shambles2_pad]; decide +kernel

theorem shambles1_hash_c : safeHash (verdict Detected) shambles1 = (shamblesDigest1, true) := by
  rw [detected_eval 11 _ shambles1_pad]; decide +kernel

theorem shambles2_hash_c : safeHash (verdict Detected) shambles2 = (shamblesDigest2, true) := by
  rw [detected_eval 11 _ shambles2_pad]; decide +kernel

theorem validFile_pad : (pad validFile).length / 64 = 1 := by decide +kernel

theorem validFile_hash : safeHash (verdict GoDetected) validFile = (validFileDigest, false) := by
  rw [go_eval 1 _ validFile_pad]; decide +kernel

theorem validFile_hash_c : safeHash (verdict Detected) validFile = (validFileDigest, false) := by
  rw [detected_eval 1 _ validFile_pad]; decide +kernel

/-- The two files collide under SHA-1. -/
theorem shambles_sha1 : sha1 shambles1 = sha1 shambles2 := by
  rw [← evalSha1_spec 11 _ shambles1_pad, ← evalSha1_spec 11 _ shambles2_pad]; decide +kernel

theorem shambles_ne : shambles1 ≠ shambles2 := by decide +kernel

end Verif
