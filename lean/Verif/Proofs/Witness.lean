import Verif.Proofs.Eval
import Verif.Proofs.ShatteredData

/-!
Concrete messages used beside the theorems of `Props` to show that their hypotheses are met.
-/

namespace Verif

open Verif.Model Verif.Spec

theorem go_eval (n : Nat) (m : List Byte) (h : (pad m).length / 64 = n) :
    safeHash (verdict GoDetected) m = evalHash rotGo n m := (evalHash_spec _ _ evalDet_go n m h).symm

theorem detected_eval (n : Nat) (m : List Byte) (h : (pad m).length / 64 = n) :
    safeHash (verdict Detected) m = evalHash (fun _ => id) n m := (evalHash_spec _ _ evalDet_detected n m h).symm

/-- SHA-1 evaluated. -/
def evalSha1 (n : Nat) (m : List Byte) : List Byte :=
  digestBytes ((blocksN n (pad m)).foldl (fun H M => evalCompress (schedL (wordsL M)) H) H0)

theorem evalSha1_spec (n : Nat) (m : List Byte) (h : (pad m).length / 64 = n) : evalSha1 n m = sha1 m := by
  unfold evalSha1 sha1
  rw [← blocksN_spec n (pad m) h]
  have : (fun H M => evalCompress (schedL (wordsL M)) H) = compress := by
    funext H M; exact evalCompress_eq H M
  rw [this]

/-- "abc". -/
def abc : List Byte := [0x61, 0x62, 0x63]

/-- SHA-1 of "abc", FIPS 180-4 examples. -/
def abcDigest : List Byte :=
  [0xa9, 0x99, 0x3e, 0x36, 0x47, 0x06, 0x81, 0x6a, 0xba, 0x3e, 0x25, 0x71, 0x78, 0x50, 0xc2, 0x6c,
   0x9c, 0xd0, 0xd8, 0x9d]

theorem abc_hash : safeHash (verdict GoDetected) abc = (abcDigest, false) := by
  rw [go_eval 1 abc (by decide)]; decide +kernel

theorem abc_sha1 : sha1 abc = abcDigest := by
  rw [← evalSha1_spec 1 abc (by decide)]; decide +kernel

/-- The digests of the first five blocks of the two public files. -/
def shatteredDigest1 : List Byte :=
  [0x71, 0x17, 0xb3, 0xcb, 0x92, 0x25, 0xaa, 0xf0, 0xd8, 0xef, 0x1a, 0x40, 0xe4, 0x93, 0x95, 0x7b,
   0x0b, 0xf8, 0x69, 0x3d]

def shatteredDigest2 : List Byte :=
  [0x29, 0xf3, 0x8a, 0xe9, 0xfd, 0x98, 0xe2, 0x93, 0x11, 0x20, 0xfa, 0x0b, 0xf2, 0x13, 0xe0, 0x24,
   0x25, 0x0d, 0x3f, 0x6a]

theorem shattered1_pad : (pad shattered1).length / 64 = 6 := by decide +kernel
theorem shattered2_pad : (pad shattered2).length / 64 = 6 := by decide +kernel

theorem shattered1_hash : safeHash (verdict GoDetected) shattered1 = (shatteredDigest1, true) := by
  rw [go_eval 6 _ shattered1_pad]; decide +kernel

theorem shattered2_hash : safeHash (verdict GoDetected) shattered2 = (shatteredDigest2, true) := by
  rw [go_eval 6 _ shattered2_pad]; decide +kernel

theorem shattered_ne : shattered1 ≠ shattered2 := by decide +kernel

/-- The two files do collide under SHA-1. -/
theorem shattered_sha1 : sha1 shattered1 = sha1 shattered2 := by
  rw [← evalSha1_spec 6 _ shattered1_pad, ← evalSha1_spec 6 _ shattered2_pad]; decide +kernel

theorem shattered_sha1_ne : sha1 shattered1 ≠ shatteredDigest1 ∧ sha1 shattered2 ≠ shatteredDigest2 := by
  rw [← evalSha1_spec 6 _ shattered1_pad, ← evalSha1_spec 6 _ shattered2_pad]; decide +kernel

/-- The four blocks before the colliding one, the colliding block, and the padding block. -/
def shPre1 : List Block := blocksN 4 shattered1
def shM1 : Block := toBlock (shattered1.drop 256)
def shPre2 : List Block := blocksN 4 shattered2
def shM2 : Block := toBlock (shattered2.drop 256)
def shPost1 : List Block := [toBlock ((pad shattered1).drop 320)]
def shPost2 : List Block := [toBlock ((pad shattered2).drop 320)]

theorem blocksN_append_block : ∀ (n : Nat) (p : List Byte),
    blocksN (n + 1) p = blocksN n p ++ [toBlock (p.drop (64 * n))]
  | 0, p => rfl
  | n + 1, p => by
    rw [blocksN, blocksN_append_block n (p.drop 64), blocksN, List.drop_drop, List.cons_append]
    rw [show 64 + 64 * n = 64 * (n + 1) by omega]

theorem sh_blocks1 : blocks shattered1 = shPre1 ++ shM1 :: [] := by
  rw [blocksN_spec 5 shattered1 (by decide +kernel), blocksN_append_block]; rfl

theorem sh_blocks2 : blocks shattered2 = shPre2 ++ shM2 :: [] := by
  rw [blocksN_spec 5 shattered2 (by decide +kernel), blocksN_append_block]; rfl

theorem sh_pad1 : blocks (pad shattered1) = shPre1 ++ shM1 :: shPost1 := by
  have h : pad shattered1 = shattered1 ++ (pad shattered1).drop 320 := by
    decide +kernel
  rw [h, blocks_append _ _ (by decide +kernel), sh_blocks1,
    blocksN_spec 1 ((pad shattered1).drop 320) (by decide +kernel), List.append_assoc]; rfl

theorem sh_pad2 : blocks (pad shattered2) = shPre2 ++ shM2 :: shPost2 := by
  have h : pad shattered2 = shattered2 ++ (pad shattered2).drop 320 := by
    decide +kernel
  rw [h, blocks_append _ _ (by decide +kernel), sh_blocks2,
    blocksN_spec 1 ((pad shattered2).drop 320) (by decide +kernel), List.append_assoc]; rfl

/-- The chaining values that reach the colliding blocks. -/
def shH1 : Regs := ⟨0x8d64c821, 0xffed52e2, 0xebc85915, 0x5ec7eb36, 0x738a5a7b⟩
def shH2 : Regs := ⟨0x8d64d617, 0xffed5352, 0xebc85915, 0x5ec7eb34, 0xf38a5a7b⟩

theorem sh_chain1 : safeChain (verdict GoDetected) H0 shPre1 = (shH1, false) := by
  have := evalChain_spec rotGo _ evalDet_go shPre1 H0 false
  rw [Bool.false_or] at this
  exact this.symm.trans (by decide +kernel)

theorem sh_chain2 : safeChain (verdict GoDetected) H0 shPre2 = (shH2, false) := by
  have := evalChain_spec rotGo _ evalDet_go shPre2 H0 false
  rw [Bool.false_or] at this
  exact this.symm.trans (by decide +kernel)

theorem sh_detected1 : GoDetected shH1 shM1 := by
  refine (verdict_iff _ _ _).mp ((evalDet_go _ _).symm.trans ?_); decide +kernel

theorem sh_detected2 : GoDetected shH2 shM2 := by
  refine (verdict_iff _ _ _).mp ((evalDet_go _ _).symm.trans ?_); decide +kernel

/-- II(52,0), number 27. -/
def sh_dv : DV := ⟨.II, 52, 0, 65⟩

theorem sh_dv_get : dvList[27]? = some sh_dv := by decide

theorem sh_ubc1 : ubcHolds 27 (sched shM1) = true := by
  rw [← ubcHolds_congr 27 (schedL_spec shM1 _ (wordsL_spec shM1).1 (wordsL_spec shM1).2).2]
  decide +kernel

theorem steps_evalM (M : Block) (n : Nat) (hn : n ≤ 80) (H : Regs) :
    steps (sched M) n H = runL 0 ((schedL (wordsL M)).take n) H := by
  obtain ⟨h1, h2⟩ := schedL_spec M _ (wordsL_spec M).1 (wordsL_spec M).2
  exact steps_eval _ _ h1 h2 n hn H

theorem sh_state : steps (sched shM2) 65 shH2 = steps (sched shM1) 65 shH1 := by
  rw [steps_evalM _ _ (by decide), steps_evalM _ _ (by decide)]; decide +kernel

theorem sh_out : compress shH2 shM2 = compress shH1 shM1 := by
  rw [← evalCompress_eq, ← evalCompress_eq]; decide +kernel

/-- The two colliding blocks differ by the vector's difference. -/
theorem sh_diff : ∃ δ, IsDiff sh_dv δ ∧ ∀ i : Fin 16, shM2 i = shM1 i ^^^ δ i := by
  obtain ⟨e, he, hok⟩ := entry_of sh_dv_get
  refine ⟨ext80 e.Dm, hok.diff, ?_⟩
  have : sha1Dvs[27]? = some e := he
  have h2 : e = sha1Dvs.getD 27 e := by rw [List.getD_eq_getElem?_getD, this]; rfl
  have h3 : ∀ d, ∀ i : Fin 16, shM2 i = shM1 i ^^^ ext80 (sha1Dvs.getD 27 d).Dm i := by
    intro d
    have : sha1Dvs.getD 27 d = sha1Dvs[27]'(by decide) := by
      rw [List.getD_eq_getElem?_getD, List.getElem?_eq_getElem (by decide)]; rfl
    rw [this]
    decide +kernel
  rw [h2]; exact h3 e

theorem sh_sibling1 : Sibling sh_dv shH1 shM1 := by
  obtain ⟨δ, hδ, h⟩ := sh_diff
  have : shM2 = xorBlock shM1 δ := by funext i; exact h i
  exact ⟨δ, shH2, hδ, by rw [← this]; exact sh_state, by rw [← this]; exact sh_out⟩

end Verif
