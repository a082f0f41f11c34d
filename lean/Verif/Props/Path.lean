import Verif.Proofs.PathSample
import Verif.Props.Cgo

/-!
The unavoidable bit conditions are unavoidable: they let every collision through that follows its vector (C59).
-/

namespace Verif.Props

open Verif Verif.Model Verif.Model.C Verif.Spec Verif.C Verif.Path

/-- C59: two computations that follow a listed vector both satisfy all its bit conditions, so that the mask of either block has
the vector's bit, and both are in the same state before the vector's test step. -/
theorem C59_unavoidable (k : Nat) (dv : DV) (hk : dvList[k]? = some dv) (H H' : Regs) (M M' : Block)
    (h : Follows dv H M H' M') :
    ubcHolds k (sched M) = true ∧ ubcHolds k (sched M') = true ∧
      steps (sched M') dv.T H' = steps (sched M) dv.T H :=
  ⟨follows_conds hk h, follows_conds hk (follows_symm h), follows_state hk h⟩

/-- Instances: every one of the 32 vectors is followed by some computations … -/
theorem C59_reached (k : Nat) (hk : k < 32) : ∃ dv H M H' M', dvList[k]? = some dv ∧ Follows dv H M H' M' := by
  have : dvList[k]? = some (dvList[k]'hk) := List.getElem?_eq_getElem hk
  obtain ⟨H, M, H', M', h⟩ := sample this
  exact ⟨_, H, M, H', M', this, h⟩

/-- … and by those of the last colliding blocks of shattered-1.pdf and shattered-2.pdf. -/
theorem sh_follows : Follows sh_dv shH1 shM1 shH2 shM2 := follows_of_B sh_dv_get _ _ _ _ (by decide +kernel)

/-- C59: package cgo flags both messages of a collision that follows any of the 32 vectors.  No bit conditions are assumed. -/
theorem C59_cgo_found (cfg : Cfg) (m1 m2 : List Byte) (pre1 post1 pre2 post2 : List Block) (M1 M2 : Block)
    (hb1 : blocks (pad m1) = pre1 ++ M1 :: post1) (hb2 : blocks (pad m2) = pre2 ++ M2 :: post2)
    (k : Nat) (dv : DV) (hk : dvList[k]? = some dv)
    (hf : Follows dv (safeChain (verdict Detected) H0 pre1).1 M1 (safeChain (verdict Detected) H0 pre2).1 M2)
    (hout : compress (safeChain (verdict Detected) H0 pre2).1 M2 = compress (safeChain (verdict Detected) H0 pre1).1 M1) :
    (∃ D1, Cgo.sumPkg cfg m1 = .ok (D1, true)) ∧ ∃ D2, Cgo.sumPkg cfg m2 = .ok (D2, true) := by
  constructor
  · obtain ⟨c, h, hi⟩ := C34_cgo_flag_exact cfg m1
    have : c = true := hi.mpr ⟨pre1, M1, post1, hb1, follows_detected hk hf hout⟩
    exact ⟨_, this ▸ h⟩
  · obtain ⟨c, h, hi⟩ := C34_cgo_flag_exact cfg m2
    have : c = true := hi.mpr ⟨pre2, M2, post2, hb2, follows_detected hk (follows_symm hf) hout.symm⟩
    exact ⟨_, this ▸ h⟩

/-- Instance: the published collision. -/
example : blocks (pad shattered1) = shPre1 ++ shM1 :: shPost1 ∧ blocks (pad shattered2) = shPre2 ++ shM2 :: shPost2 ∧
    dvList[27]? = some sh_dv ∧
    Follows sh_dv (safeChain (verdict Detected) H0 shPre1).1 shM1 (safeChain (verdict Detected) H0 shPre2).1 shM2 ∧
    compress (safeChain (verdict Detected) H0 shPre2).1 shM2 = compress (safeChain (verdict Detected) H0 shPre1).1 shM1 := by
  rw [sh_chain1_c, sh_chain2_c]
  exact ⟨sh_pad1, sh_pad2, sh_dv_get, sh_follows, sh_out⟩

/-- C59 for package sha1cd, in every build: the same for the fourteen vectors with test step 65.  (For the other eighteen the
second computation is reconstructed wrongly, see C12.) -/
theorem C59_go_found (B : Build) (m1 m2 : List Byte) (pre1 post1 pre2 post2 : List Block) (M1 M2 : Block)
    (hb1 : blocks (pad m1) = pre1 ++ M1 :: post1) (hb2 : blocks (pad m2) = pre2 ++ M2 :: post2)
    (k : Nat) (dv : DV) (hk : dvList[k]? = some dv) (hT : dv.T = 65)
    (hf : Follows dv (safeChain goVerdict H0 pre1).1 M1 (safeChain goVerdict H0 pre2).1 M2)
    (hout : compress (safeChain goVerdict H0 pre2).1 M2 = compress (safeChain goVerdict H0 pre1).1 M1) :
    (∃ D1, sumPkg B.block .callFirst m1 = .ok (D1, true)) ∧ ∃ D2, sumPkg B.block .callFirst m2 = .ok (D2, true) :=
  ⟨C12_detects_partial B m1 pre1 post1 M1 hb1 k dv hk hT (follows_conds hk hf) (follows_sibling hk hf hout),
   C12_detects_partial B m2 pre2 post2 M2 hb2 k dv hk hT (follows_conds hk (follows_symm hf))
    (follows_sibling hk (follows_symm hf) hout.symm)⟩

/-- Instance: the published collision. -/
example : sh_dv.T = 65 ∧ Follows sh_dv (safeChain goVerdict H0 shPre1).1 shM1 (safeChain goVerdict H0 shPre2).1 shM2 ∧
    compress (safeChain goVerdict H0 shPre2).1 shM2 = compress (safeChain goVerdict H0 shPre1).1 shM1 := by
  rw [sh_chain1, sh_chain2]
  exact ⟨rfl, sh_follows, sh_out⟩

end Verif.Props
