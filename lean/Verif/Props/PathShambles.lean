import Verif.Props.Path
import Verif.Proofs.Shambles

/-!
The second published collision, with a chosen prefix, as an instance of C59: after two different first blocks come nine pairs of
near-collision blocks.  The ninth is the colliding one.
-/

namespace Verif.Props

open Verif Verif.Model Verif.Model.C Verif.Spec Verif.C Verif.Path

/-- The nine blocks before the colliding one, the colliding block, and the padding block. -/
def smPre1 : List Block := blocksN 9 shambles1
def smM1 : Block := toBlock (shambles1.drop 576)
def smPre2 : List Block := blocksN 9 shambles2
def smM2 : Block := toBlock (shambles2.drop 576)
def smPost1 : List Block := [toBlock ((pad shambles1).drop 640)]
def smPost2 : List Block := [toBlock ((pad shambles2).drop 640)]

theorem sm_pad1 : blocks (pad shambles1) = smPre1 ++ smM1 :: smPost1 := by
  have h : pad shambles1 = shambles1 ++ (pad shambles1).drop 640 := by decide +kernel
  rw [h, blocks_append _ _ (by decide +kernel), blocksN_spec 10 shambles1 (by decide +kernel), blocksN_append_block,
    blocksN_spec 1 ((pad shambles1).drop 640) (by decide +kernel), List.append_assoc]; rfl

theorem sm_pad2 : blocks (pad shambles2) = smPre2 ++ smM2 :: smPost2 := by
  have h : pad shambles2 = shambles2 ++ (pad shambles2).drop 640 := by decide +kernel
  rw [h, blocks_append _ _ (by decide +kernel), blocksN_spec 10 shambles2 (by decide +kernel), blocksN_append_block,
    blocksN_spec 1 ((pad shambles2).drop 640) (by decide +kernel), List.append_assoc]; rfl

/-- The chaining values that reach the colliding blocks. -/
def smH1 : Regs := ⟨0x72d42d69, 0xa661589d, 0x73fc2017, 0x3d1dce01, 0x4c7813bc⟩
def smH2 : Regs := ⟨0x72d43f9b, 0xa661592f, 0x73fc2017, 0x3d1dce03, 0xcc7813bc⟩

theorem sm_chain1 : safeChain (verdict GoDetected) H0 smPre1 = (smH1, false) := by
  have := evalChain_spec rotGo _ evalDet_go smPre1 H0 false
  rw [Bool.false_or] at this
  exact this.symm.trans (by decide +kernel)

theorem sm_chain2 : safeChain (verdict GoDetected) H0 smPre2 = (smH2, false) := by
  have := evalChain_spec rotGo _ evalDet_go smPre2 H0 false
  rw [Bool.false_or] at this
  exact this.symm.trans (by decide +kernel)

theorem sm_chain1_c : safeChain (verdict Detected) H0 smPre1 = (smH1, false) := by
  have := evalChain_spec (fun _ => id) _ evalDet_detected smPre1 H0 false
  rw [Bool.false_or] at this
  exact this.symm.trans (by decide +kernel)

theorem sm_chain2_c : safeChain (verdict Detected) H0 smPre2 = (smH2, false) := by
  have := evalChain_spec (fun _ => id) _ evalDet_detected smPre2 H0 false
  rw [Bool.false_or] at this
  exact this.symm.trans (by decide +kernel)

theorem sm_out : compress smH2 smM2 = compress smH1 smM1 := by
  rw [← evalCompress_eq, ← evalCompress_eq]; decide +kernel

/-- The attack used the same vector as that on the PDF files, II(52,0). -/
theorem sm_follows : Follows sh_dv smH1 smM1 smH2 smM2 := follows_of_B sh_dv_get _ _ _ _ (by decide +kernel)

/-- Instance: the hypotheses of `C59_cgo_found` hold of sha-mbles-1.bin and sha-mbles-2.bin. -/
example : blocks (pad shambles1) = smPre1 ++ smM1 :: smPost1 ∧ blocks (pad shambles2) = smPre2 ++ smM2 :: smPost2 ∧
    dvList[27]? = some sh_dv ∧
    Follows sh_dv (safeChain (verdict Detected) H0 smPre1).1 smM1 (safeChain (verdict Detected) H0 smPre2).1 smM2 ∧
    compress (safeChain (verdict Detected) H0 smPre2).1 smM2 = compress (safeChain (verdict Detected) H0 smPre1).1 smM1 := by
  rw [sm_chain1_c, sm_chain2_c]
  exact ⟨sm_pad1, sm_pad2, sh_dv_get, sm_follows, sm_out⟩

/-- Instance: and those of `C59_go_found`. -/
example : sh_dv.T = 65 ∧ Follows sh_dv (safeChain goVerdict H0 smPre1).1 smM1 (safeChain goVerdict H0 smPre2).1 smM2 ∧
    compress (safeChain goVerdict H0 smPre2).1 smM2 = compress (safeChain goVerdict H0 smPre1).1 smM1 := by
  rw [sm_chain1, sm_chain2]
  exact ⟨rfl, sm_follows, sm_out⟩

/-- So the two files are flagged because of C59, in every build and by package cgo. -/
theorem C59_shambles (B : Build) (cfg : Cfg) :
    ((∃ D, sumPkg B.block .callFirst shambles1 = .ok (D, true)) ∧ ∃ D, sumPkg B.block .callFirst shambles2 = .ok (D, true)) ∧
    (∃ D, Cgo.sumPkg cfg shambles1 = .ok (D, true)) ∧ ∃ D, Cgo.sumPkg cfg shambles2 = .ok (D, true) := by
  constructor
  · refine C59_go_found B _ _ _ _ _ _ _ _ sm_pad1 sm_pad2 27 sh_dv sh_dv_get rfl ?_ ?_
    · rw [show goVerdict = verdict GoDetected from rfl, sm_chain1, sm_chain2]; exact sm_follows
    · rw [show goVerdict = verdict GoDetected from rfl, sm_chain1, sm_chain2]; exact sm_out
  · refine C59_cgo_found cfg _ _ _ _ _ _ _ _ sm_pad1 sm_pad2 27 sh_dv sh_dv_get ?_ ?_
    · rw [sm_chain1_c, sm_chain2_c]; exact sm_follows
    · rw [sm_chain1_c, sm_chain2_c]; exact sm_out

end Verif.Props
