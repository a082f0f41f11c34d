import Verif.Proofs.UbcStmts
import Verif.Spec.Ubc

/-! `CalculateDvMask` computes the list of conditions (generated). -/

namespace Verif.Ubc

open Verif Verif.Model Verif.Model.Ubc

theorem toNatFn (W : Fin 80 → Word) (Wn : Nat → Word) (h : ∀ i : Fin 80, W i = Wn i) :
    W = fun i => Wn i.val := funext h

macro "masksimp" h:ident : tactic =>
  `(tactic|
    (rw [toNatFn _ _ $h]
     simp only [Spec.ubcHolds, Spec.ubcTable, List.getD_cons_succ, List.getD_cons_zero, List.all_cons,
       List.all_nil, Spec.BitCond.holds]
     simp [-BitVec.getLsbD_eq_getElem, Bool.and_assoc]
     try rfl))

theorem outer_bit (W : Fin 80 → Word) (mask : Word) (k : Nat) (hk : k < 32) :
    (outer.foldl (fun mask s => s W mask) mask).getLsbD k = (mask.getLsbD k
      && (!(0x0283a080#32).getLsbD k || (!((W 44).getLsbD 29 ^^ (W 45).getLsbD 29)))
      && (!(0xc2810008#32).getLsbD k || (!((W 49).getLsbD 29 ^^ (W 50).getLsbD 29)))
      && (!(0x60a08004#32).getLsbD k || (!((W 48).getLsbD 29 ^^ (W 49).getLsbD 29)))
      && (!(0x82012220#32).getLsbD k || (!((W 47).getLsbD 4 ^^ (W 50).getLsbD 29)))
      && (!(0x30302002#32).getLsbD k || (!((W 47).getLsbD 29 ^^ (W 48).getLsbD 29)))
      && (!(0x40808888#32).getLsbD k || (!((W 46).getLsbD 4 ^^ (W 49).getLsbD 29)))
      && (!(0x18180801#32).getLsbD k || (!((W 46).getLsbD 29 ^^ (W 47).getLsbD 29)))
      && (!(0x20202224#32).getLsbD k || (!((W 45).getLsbD 4 ^^ (W 48).getLsbD 29)))
      && (!(0x0a0a8200#32).getLsbD k || (!((W 45).getLsbD 29 ^^ (W 46).getLsbD 29)))
      && (!(0x1010088a#32).getLsbD k || (!((W 44).getLsbD 4 ^^ (W 47).getLsbD 29)))
      && (!(0x08080225#32).getLsbD k || (!((W 43).getLsbD 4 ^^ (W 46).getLsbD 29)))
      && (!(0x00a12820#32).getLsbD k || (!((W 43).getLsbD 29 ^^ (W 44).getLsbD 29)))
      && (!(0x0202808a#32).getLsbD k || (!((W 42).getLsbD 4 ^^ (W 45).getLsbD 29)))
      && (!(0x00812025#32).getLsbD k || (!((W 41).getLsbD 4 ^^ (W 44).getLsbD 29)))
      && (!(0x800a00a2#32).getLsbD k || (!((W 40).getLsbD 29 ^^ (W 41).getLsbD 29)))
      && (!(0xc0882000#32).getLsbD k || (!((W 54).getLsbD 29 ^^ (W 55).getLsbD 29)))
      && (!(0x60220800#32).getLsbD k || (!((W 53).getLsbD 29 ^^ (W 54).getLsbD 29)))
      && (!(0x30110200#32).getLsbD k || (!((W 52).getLsbD 29 ^^ (W 53).getLsbD 29)))
      && (!(0x20128800#32).getLsbD k || (!((W 50).getLsbD 4 ^^ (W 53).getLsbD 29)))
      && (!(0x8a020020#32).getLsbD k || (!((W 50).getLsbD 29 ^^ (W 51).getLsbD 29)))
      && (!(0x10092200#32).getLsbD k || (!((W 49).getLsbD 4 ^^ (W 52).getLsbD 29)))
      && (!(0x08028880#32).getLsbD k || (!((W 48).getLsbD 4 ^^ (W 51).getLsbD 29)))
      && (!(0x00300a08#32).getLsbD k || (!((W 42).getLsbD 29 ^^ (W 43).getLsbD 29)))
      && (!(0x00180284#32).getLsbD k || (!((W 41).getLsbD 29 ^^ (W 42).getLsbD 29)))
      && (!(0x8020080a#32).getLsbD k || (!((W 40).getLsbD 4 ^^ (W 43).getLsbD 29)))
      && (!(0x40100205#32).getLsbD k || (!((W 39).getLsbD 4 ^^ (W 42).getLsbD 29)))
      && (!(0xa0080082#32).getLsbD k || (!((W 38).getLsbD 4 ^^ (W 41).getLsbD 29)))
      && (!(0x50020021#32).getLsbD k || (!((W 37).getLsbD 4 ^^ (W 40).getLsbD 29)))
      && (!(0x82108000#32).getLsbD k || (!((W 55).getLsbD 29 ^^ (W 56).getLsbD 29)))
      && (!(0x80908000#32).getLsbD k || (!((W 52).getLsbD 4 ^^ (W 55).getLsbD 29)))
      && (!(0x40282000#32).getLsbD k || (!((W 51).getLsbD 4 ^^ (W 54).getLsbD 29)))
      && (!(0x18080080#32).getLsbD k || (!((W 51).getLsbD 29 ^^ (W 52).getLsbD 29)))
      && (!(0x00110208#32).getLsbD k || (!((W 36).getLsbD 4 ^^ (W 40).getLsbD 29)))
      && (!(0x00308000#32).getLsbD k || (((W 53).getLsbD 29 ^^ (W 56).getLsbD 29)))
      && (!(0x000a0800#32).getLsbD k || (((W 51).getLsbD 29 ^^ (W 54).getLsbD 29)))
      && (!(0x00012200#32).getLsbD k || (((W 50).getLsbD 29 ^^ (W 52).getLsbD 29)))
      && (!(0x00008880#32).getLsbD k || (((W 49).getLsbD 29 ^^ (W 51).getLsbD 29)))
      && (!(0x00002220#32).getLsbD k || (((W 48).getLsbD 29 ^^ (W 50).getLsbD 29)))
      && (!(0x00000888#32).getLsbD k || (((W 47).getLsbD 29 ^^ (W 49).getLsbD 29)))
      && (!(0x00000224#32).getLsbD k || (((W 46).getLsbD 29 ^^ (W 48).getLsbD 29)))
      && (!(0x00004440#32).getLsbD k || (!((W 45).getLsbD 6 ^^ (W 47).getLsbD 6)))
      && (!(0x0000008a#32).getLsbD k || (((W 45).getLsbD 29 ^^ (W 47).getLsbD 29)))
      && (!(0x00001110#32).getLsbD k || (!((W 44).getLsbD 6 ^^ (W 46).getLsbD 6)))
      && (!(0x00000025#32).getLsbD k || (((W 44).getLsbD 29 ^^ (W 46).getLsbD 29)))
      && (!(0x04040100#32).getLsbD k || (((W 41).getLsbD 1 ^^ (W 42).getLsbD 6)))
      && (!(0x01004040#32).getLsbD k || (((W 40).getLsbD 1 ^^ (W 41).getLsbD 6)))
      && (!(0x8000000a#32).getLsbD k || (((W 40).getLsbD 4 ^^ (W 42).getLsbD 4)))
      && (!(0x00401010#32).getLsbD k || (((W 39).getLsbD 1 ^^ (W 40).getLsbD 6)))
      && (!(0x40000005#32).getLsbD k || (((W 39).getLsbD 4 ^^ (W 41).getLsbD 4)))
      && (!(0xa0000002#32).getLsbD k || (((W 38).getLsbD 4 ^^ (W 40).getLsbD 4)))
      && (!(0x50000001#32).getLsbD k || (((W 37).getLsbD 4 ^^ (W 39).getLsbD 4)))
      && (!(0x00041040#32).getLsbD k || (((W 36).getLsbD 1 ^^ (W 37).getLsbD 6)))
      && (!(0x00080084#32).getLsbD k || (!((W 35).getLsbD 4 ^^ (W 39).getLsbD 29)))
      && (!(0x00100080#32).getLsbD k || (((W 63).getLsbD 0 ^^ (W 64).getLsbD 5)))
      && (!(0x00010004#32).getLsbD k || (((W 63).getLsbD 1 ^^ (W 64).getLsbD 6)))
      && (!(0x00080020#32).getLsbD k || (((W 62).getLsbD 0 ^^ (W 63).getLsbD 5)))
      && (!(0x00020008#32).getLsbD k || (((W 61).getLsbD 0 ^^ (W 62).getLsbD 5)))
      && (!(0x00040010#32).getLsbD k || (((W 61).getLsbD 2 ^^ (W 62).getLsbD 7)))
      && (!(0x00010004#32).getLsbD k || (((W 60).getLsbD 0 ^^ (W 61).getLsbD 5)))
      && (!(0x22000000#32).getLsbD k || (!((W 58).getLsbD 29 ^^ (W 59).getLsbD 29)))
      && (!(0x10800000#32).getLsbD k || (!((W 57).getLsbD 29 ^^ (W 58).getLsbD 29)))
      && (!(0x28000000#32).getLsbD k || (!((W 56).getLsbD 4 ^^ (W 59).getLsbD 29)))
      && (!(0x0a000000#32).getLsbD k || (((W 56).getLsbD 29 ^^ (W 59).getLsbD 29)))
      && (!(0x08200000#32).getLsbD k || (!((W 56).getLsbD 29 ^^ (W 57).getLsbD 29)))
      && (!(0x12000000#32).getLsbD k || (!((W 55).getLsbD 4 ^^ (W 58).getLsbD 29)))
      && (!(0x08800000#32).getLsbD k || (!((W 54).getLsbD 4 ^^ (W 57).getLsbD 29)))
      && (!(0x02200000#32).getLsbD k || (!((W 53).getLsbD 4 ^^ (W 56).getLsbD 29)))
      && (!(0x00041000#32).getLsbD k || (!((W 50).getLsbD 6 ^^ (W 51).getLsbD 1)))
      && (!(0x00041000#32).getLsbD k || (!((W 48).getLsbD 6 ^^ (W 50).getLsbD 6)))
      && (!(0x0000a000#32).getLsbD k || (((W 48).getLsbD 29 ^^ (W 55).getLsbD 29)))
      && (!(0x00004400#32).getLsbD k || (!((W 47).getLsbD 6 ^^ (W 49).getLsbD 6)))
      && (!(0x04000040#32).getLsbD k || (!((W 47).getLsbD 6 ^^ (W 48).getLsbD 1)))
      && (!(0x00001100#32).getLsbD k || (!((W 46).getLsbD 6 ^^ (W 48).getLsbD 6)))
      && (!(0x01000010#32).getLsbD k || (!((W 46).getLsbD 6 ^^ (W 47).getLsbD 1)))
      && (!(0x00404000#32).getLsbD k || (((W 44).getLsbD 1 ^^ (W 45).getLsbD 6)))
      && (!(0x00000440#32).getLsbD k || (!((W 43).getLsbD 6 ^^ (W 45).getLsbD 6)))
      && (!(0x00000110#32).getLsbD k || (!((W 42).getLsbD 6 ^^ (W 44).getLsbD 6)))
      && (!(0x04040000#32).getLsbD k || (!((W 42).getLsbD 6 ^^ (W 43).getLsbD 1)))
      && (!(0x01004000#32).getLsbD k || (!((W 41).getLsbD 6 ^^ (W 42).getLsbD 1)))
      && (!(0x00401000#32).getLsbD k || (!((W 40).getLsbD 6 ^^ (W 41).getLsbD 1)))
      && (!(0x02008000#32).getLsbD k || (!((W 39).getLsbD 4 ^^ (W 43).getLsbD 29)))
      && (!(0x00802000#32).getLsbD k || (!((W 38).getLsbD 4 ^^ (W 42).getLsbD 29)))
      && (!(0x00004100#32).getLsbD k || (((W 37).getLsbD 1 ^^ (W 38).getLsbD 6)))
      && (!(0x00200800#32).getLsbD k || (!((W 37).getLsbD 4 ^^ (W 41).getLsbD 29)))
      && (!(0x28000000#32).getLsbD k || (((W 36).getLsbD 4 ^^ (W 38).getLsbD 4)))
      && (!(0x00000410#32).getLsbD k || (((W 35).getLsbD 1 ^^ (W 36).getLsbD 6)))
      && (!(0x00082000#32).getLsbD k || (!((W 35).getLsbD 3 ^^ (W 39).getLsbD 28)))) := by
  simp only [outer, List.foldl_cons, List.foldl_nil,
    s37_bit W _ k hk, s38_bit W _ k hk, s39_bit W _ k hk, s40_bit W _ k hk, s41_bit W _ k hk,
    s42_bit W _ k hk, s43_bit W _ k hk, s44_bit W _ k hk, s45_bit W _ k hk, s46_bit W _ k hk,
    s47_bit W _ k hk, s48_bit W _ k hk, s49_bit W _ k hk, s50_bit W _ k hk, s51_bit W _ k hk,
    s52_bit W _ k hk, s53_bit W _ k hk, s54_bit W _ k hk, s55_bit W _ k hk, s56_bit W _ k hk,
    s57_bit W _ k hk, s58_bit W _ k hk, s59_bit W _ k hk, s60_bit W _ k hk, s61_bit W _ k hk,
    s62_bit W _ k hk, s64_bit W _ k hk, s67_bit W _ k hk, s68_bit W _ k hk, s71_bit W _ k hk,
    s74_bit W _ k hk, s77_bit W _ k hk, s80_bit W _ k hk, s83_bit W _ k hk, s86_bit W _ k hk,
    s89_bit W _ k hk, s92_bit W _ k hk, s95_bit W _ k hk, s98_bit W _ k hk, s101_bit W _ k hk,
    s104_bit W _ k hk, s105_bit W _ k hk, s108_bit W _ k hk, s109_bit W _ k hk,
    s112_bit W _ k hk, s113_bit W _ k hk, s114_bit W _ k hk, s117_bit W _ k hk,
    s118_bit W _ k hk, s121_bit W _ k hk, s124_bit W _ k hk, s127_bit W _ k hk,
    s128_bit W _ k hk, s131_bit W _ k hk, s134_bit W _ k hk, s137_bit W _ k hk,
    s140_bit W _ k hk, s143_bit W _ k hk, s144_bit W _ k hk, s147_bit W _ k hk,
    s150_bit W _ k hk, s153_bit W _ k hk, s156_bit W _ k hk, s159_bit W _ k hk,
    s162_bit W _ k hk, s165_bit W _ k hk, s168_bit W _ k hk, s171_bit W _ k hk,
    s172_bit W _ k hk, s173_bit W _ k hk, s176_bit W _ k hk, s177_bit W _ k hk,
    s178_bit W _ k hk, s179_bit W _ k hk, s180_bit W _ k hk, s181_bit W _ k hk,
    s182_bit W _ k hk, s183_bit W _ k hk, s184_bit W _ k hk, s185_bit W _ k hk,
    s186_bit W _ k hk, s189_bit W _ k hk, s192_bit W _ k hk, s195_bit W _ k hk,
    s198_bit W _ k hk, s201_bit W _ k hk, s202_bit W _ k hk]

theorem inner_bit (W : Fin 80 → Word) (mask : Word) (k : Nat) (hk : k < 32) :
    (inner.foldl (fun mask s => s W mask) mask).getLsbD k = (mask.getLsbD k
      && (!(0x00000001#32).getLsbD k || ((((W 61).getLsbD 1 ^^ (W 62).getLsbD 6)) && (!((W 59).getLsbD 5 ^^ (W 63).getLsbD 30)) && (((W 58).getLsbD 0 ^^ (W 63).getLsbD 30))))
      && (!(0x00000002#32).getLsbD k || ((((W 62).getLsbD 1 ^^ (W 63).getLsbD 6)) && (!((W 60).getLsbD 5 ^^ (W 64).getLsbD 30)) && (((W 59).getLsbD 0 ^^ (W 64).getLsbD 30))))
      && (!(0x00000010#32).getLsbD k || (!((W 40).getLsbD 6 ^^ (W 42).getLsbD 6)))
      && (!(0x00000040#32).getLsbD k || ((((W 62).getLsbD 2 ^^ (W 63).getLsbD 7)) && (!((W 41).getLsbD 6 ^^ (W 43).getLsbD 6))))
      && (!(0x00000100#32).getLsbD k || ((((W 63).getLsbD 2 ^^ (W 64).getLsbD 7)) && (!((W 48).getLsbD 6 ^^ (W 49).getLsbD 1))))
      && (!(0x00000400#32).getLsbD k || ((!((W 49).getLsbD 6 ^^ (W 50).getLsbD 1)) && (((W 42).getLsbD 1 ^^ (W 50).getLsbD 1)) && (!((W 39).getLsbD 6 ^^ (W 40).getLsbD 1)) && (((W 38).getLsbD 1 ^^ (W 40).getLsbD 1))))
      && (!(0x00000800#32).getLsbD k || (((W 36).getLsbD 4 ^^ (W 37).getLsbD 4)))
      && (!(0x00001000#32).getLsbD k || (((W 43).getLsbD 1 ^^ (W 51).getLsbD 1)))
      && (!(0x00002000#32).getLsbD k || (((W 37).getLsbD 4 ^^ (W 38).getLsbD 4)))
      && (!(0x00004000#32).getLsbD k || ((!((W 51).getLsbD 6 ^^ (W 52).getLsbD 1)) && (!((W 49).getLsbD 6 ^^ (W 51).getLsbD 6)) && (!((W 37).getLsbD 1 ^^ (W 37).getLsbD 6)) && (!((W 35).getLsbD 5 ^^ (W 39).getLsbD 30))))
      && (!(0x00008000#32).getLsbD k || (((W 38).getLsbD 4 ^^ (W 39).getLsbD 4)))
      && (!(0x00040000#32).getLsbD k || (((W 47).getLsbD 1 ^^ (W 51).getLsbD 1)))
      && (!(0x00100000#32).getLsbD k || ((!((W 36).getLsbD 3 ^^ (W 40).getLsbD 28)) && (((W 35).getLsbD 30 ^^ (W 40).getLsbD 28))))
      && (!(0x00200000#32).getLsbD k || ((!((W 37).getLsbD 3 ^^ (W 41).getLsbD 28)) && (((W 36).getLsbD 30 ^^ (W 41).getLsbD 28))))
      && (!(0x00400000#32).getLsbD k || ((!((W 53).getLsbD 6 ^^ (W 54).getLsbD 1)) && (!((W 51).getLsbD 6 ^^ (W 53).getLsbD 6)) && (((W 50).getLsbD 1 ^^ (W 54).getLsbD 1)) && (!((W 45).getLsbD 6 ^^ (W 46).getLsbD 1)) && (!((W 37).getLsbD 5 ^^ (W 41).getLsbD 30)) && (((W 36).getLsbD 0 ^^ (W 41).getLsbD 30))))
      && (!(0x00800000#32).getLsbD k || ((((W 55).getLsbD 29 ^^ (W 58).getLsbD 29)) && (!((W 38).getLsbD 3 ^^ (W 42).getLsbD 28)) && (((W 37).getLsbD 30 ^^ (W 42).getLsbD 28))))
      && (!(0x01000000#32).getLsbD k || ((!((W 54).getLsbD 6 ^^ (W 55).getLsbD 1)) && (!((W 52).getLsbD 6 ^^ (W 54).getLsbD 6)) && (((W 51).getLsbD 1 ^^ (W 55).getLsbD 1)) && (((W 45).getLsbD 1 ^^ (W 47).getLsbD 1)) && (!((W 38).getLsbD 5 ^^ (W 42).getLsbD 30)) && (((W 37).getLsbD 0 ^^ (W 42).getLsbD 30))))
      && (!(0x02000000#32).getLsbD k || ((!((W 39).getLsbD 3 ^^ (W 43).getLsbD 28)) && (((W 38).getLsbD 30 ^^ (W 43).getLsbD 28))))
      && (!(0x04000000#32).getLsbD k || ((!((W 55).getLsbD 6 ^^ (W 56).getLsbD 1)) && (!((W 53).getLsbD 6 ^^ (W 55).getLsbD 6)) && (((W 52).getLsbD 1 ^^ (W 56).getLsbD 1)) && (((W 46).getLsbD 1 ^^ (W 48).getLsbD 1)) && (!((W 39).getLsbD 5 ^^ (W 43).getLsbD 30)) && (((W 38).getLsbD 0 ^^ (W 43).getLsbD 30))))
      && (!(0x08000000#32).getLsbD k || ((!((W 59).getLsbD 29 ^^ (W 60).getLsbD 29)) && (!((W 40).getLsbD 3 ^^ (W 44).getLsbD 28)) && (!((W 40).getLsbD 4 ^^ (W 44).getLsbD 29)) && (((W 39).getLsbD 30 ^^ (W 44).getLsbD 28))))
      && (!(0x10000000#32).getLsbD k || ((((W 58).getLsbD 29 ^^ (W 61).getLsbD 29)) && (!((W 57).getLsbD 4 ^^ (W 61).getLsbD 29)) && (!((W 41).getLsbD 3 ^^ (W 45).getLsbD 28)) && (!((W 41).getLsbD 4 ^^ (W 45).getLsbD 29))))
      && (!(0x20000000#32).getLsbD k || ((!((W 58).getLsbD 4 ^^ (W 62).getLsbD 29)) && (!((W 42).getLsbD 3 ^^ (W 46).getLsbD 28)) && (!((W 42).getLsbD 4 ^^ (W 46).getLsbD 29))))
      && (!(0x40000000#32).getLsbD k || ((!((W 59).getLsbD 4 ^^ (W 63).getLsbD 29)) && (!((W 57).getLsbD 4 ^^ (W 59).getLsbD 29)) && (!((W 43).getLsbD 3 ^^ (W 47).getLsbD 28)) && (!((W 43).getLsbD 4 ^^ (W 47).getLsbD 29))))
      && (!(0x80000000#32).getLsbD k || ((!((W 60).getLsbD 4 ^^ (W 64).getLsbD 29)) && (!((W 44).getLsbD 3 ^^ (W 48).getLsbD 28)) && (!((W 44).getLsbD 4 ^^ (W 48).getLsbD 29))))) := by
  simp only [inner, List.foldl_cons, List.foldl_nil,
    s207_bit W _ k hk, s214_bit W _ k hk, s221_bit W _ k hk, s224_bit W _ k hk,
    s230_bit W _ k hk, s236_bit W _ k hk, s244_bit W _ k hk, s247_bit W _ k hk,
    s250_bit W _ k hk, s253_bit W _ k hk, s261_bit W _ k hk, s264_bit W _ k hk,
    s267_bit W _ k hk, s273_bit W _ k hk, s279_bit W _ k hk, s289_bit W _ k hk,
    s296_bit W _ k hk, s306_bit W _ k hk, s312_bit W _ k hk, s322_bit W _ k hk,
    s330_bit W _ k hk, s338_bit W _ k hk, s345_bit W _ k hk, s353_bit W _ k hk]

theorem mask_inner (W : Fin 80 → Word) :
    calculateDvMask (some W) =
      inner.foldl (fun mask s => s W mask) (outer.foldl (fun mask s => s W mask) 0xFFFFFFFF) := by
  unfold calculateDvMask
  simp only
  split
  · rfl
  · rename_i h
    rw [Decidable.not_not.mp h]
    apply BitVec.eq_of_getLsbD_eq
    intro k hk
    rw [inner_bit W _ k hk]
    simp

theorem ones_bit : ∀ k, k < 32 → (0xFFFFFFFF : Word).getLsbD k = true := by decide

theorem mask_bit0 (W : Fin 80 → Word) (Wn : Nat → Word) (h : ∀ i : Fin 80, W i = Wn i) :
    (calculateDvMask (some W)).getLsbD 0 = Spec.ubcHolds 0 Wn := by
  rw [mask_inner, inner_bit W _ 0 (by decide), outer_bit W _ 0 (by decide), ones_bit 0 (by decide)]
  masksimp h

theorem mask_bit1 (W : Fin 80 → Word) (Wn : Nat → Word) (h : ∀ i : Fin 80, W i = Wn i) :
    (calculateDvMask (some W)).getLsbD 1 = Spec.ubcHolds 1 Wn := by
  rw [mask_inner, inner_bit W _ 1 (by decide), outer_bit W _ 1 (by decide), ones_bit 1 (by decide)]
  masksimp h

theorem mask_bit2 (W : Fin 80 → Word) (Wn : Nat → Word) (h : ∀ i : Fin 80, W i = Wn i) :
    (calculateDvMask (some W)).getLsbD 2 = Spec.ubcHolds 2 Wn := by
  rw [mask_inner, inner_bit W _ 2 (by decide), outer_bit W _ 2 (by decide), ones_bit 2 (by decide)]
  masksimp h

theorem mask_bit3 (W : Fin 80 → Word) (Wn : Nat → Word) (h : ∀ i : Fin 80, W i = Wn i) :
    (calculateDvMask (some W)).getLsbD 3 = Spec.ubcHolds 3 Wn := by
  rw [mask_inner, inner_bit W _ 3 (by decide), outer_bit W _ 3 (by decide), ones_bit 3 (by decide)]
  masksimp h

theorem mask_bit4 (W : Fin 80 → Word) (Wn : Nat → Word) (h : ∀ i : Fin 80, W i = Wn i) :
    (calculateDvMask (some W)).getLsbD 4 = Spec.ubcHolds 4 Wn := by
  rw [mask_inner, inner_bit W _ 4 (by decide), outer_bit W _ 4 (by decide), ones_bit 4 (by decide)]
  masksimp h

theorem mask_bit5 (W : Fin 80 → Word) (Wn : Nat → Word) (h : ∀ i : Fin 80, W i = Wn i) :
    (calculateDvMask (some W)).getLsbD 5 = Spec.ubcHolds 5 Wn := by
  rw [mask_inner, inner_bit W _ 5 (by decide), outer_bit W _ 5 (by decide), ones_bit 5 (by decide)]
  masksimp h

theorem mask_bit6 (W : Fin 80 → Word) (Wn : Nat → Word) (h : ∀ i : Fin 80, W i = Wn i) :
    (calculateDvMask (some W)).getLsbD 6 = Spec.ubcHolds 6 Wn := by
  rw [mask_inner, inner_bit W _ 6 (by decide), outer_bit W _ 6 (by decide), ones_bit 6 (by decide)]
  masksimp h

theorem mask_bit7 (W : Fin 80 → Word) (Wn : Nat → Word) (h : ∀ i : Fin 80, W i = Wn i) :
    (calculateDvMask (some W)).getLsbD 7 = Spec.ubcHolds 7 Wn := by
  rw [mask_inner, inner_bit W _ 7 (by decide), outer_bit W _ 7 (by decide), ones_bit 7 (by decide)]
  masksimp h

theorem mask_bit8 (W : Fin 80 → Word) (Wn : Nat → Word) (h : ∀ i : Fin 80, W i = Wn i) :
    (calculateDvMask (some W)).getLsbD 8 = Spec.ubcHolds 8 Wn := by
  rw [mask_inner, inner_bit W _ 8 (by decide), outer_bit W _ 8 (by decide), ones_bit 8 (by decide)]
  masksimp h

theorem mask_bit9 (W : Fin 80 → Word) (Wn : Nat → Word) (h : ∀ i : Fin 80, W i = Wn i) :
    (calculateDvMask (some W)).getLsbD 9 = Spec.ubcHolds 9 Wn := by
  rw [mask_inner, inner_bit W _ 9 (by decide), outer_bit W _ 9 (by decide), ones_bit 9 (by decide)]
  masksimp h

theorem mask_bit10 (W : Fin 80 → Word) (Wn : Nat → Word) (h : ∀ i : Fin 80, W i = Wn i) :
    (calculateDvMask (some W)).getLsbD 10 = Spec.ubcHolds 10 Wn := by
  rw [mask_inner, inner_bit W _ 10 (by decide), outer_bit W _ 10 (by decide), ones_bit 10 (by decide)]
  masksimp h

theorem mask_bit11 (W : Fin 80 → Word) (Wn : Nat → Word) (h : ∀ i : Fin 80, W i = Wn i) :
    (calculateDvMask (some W)).getLsbD 11 = Spec.ubcHolds 11 Wn := by
  rw [mask_inner, inner_bit W _ 11 (by decide), outer_bit W _ 11 (by decide), ones_bit 11 (by decide)]
  masksimp h

theorem mask_bit12 (W : Fin 80 → Word) (Wn : Nat → Word) (h : ∀ i : Fin 80, W i = Wn i) :
    (calculateDvMask (some W)).getLsbD 12 = Spec.ubcHolds 12 Wn := by
  rw [mask_inner, inner_bit W _ 12 (by decide), outer_bit W _ 12 (by decide), ones_bit 12 (by decide)]
  masksimp h

theorem mask_bit13 (W : Fin 80 → Word) (Wn : Nat → Word) (h : ∀ i : Fin 80, W i = Wn i) :
    (calculateDvMask (some W)).getLsbD 13 = Spec.ubcHolds 13 Wn := by
  rw [mask_inner, inner_bit W _ 13 (by decide), outer_bit W _ 13 (by decide), ones_bit 13 (by decide)]
  masksimp h

theorem mask_bit14 (W : Fin 80 → Word) (Wn : Nat → Word) (h : ∀ i : Fin 80, W i = Wn i) :
    (calculateDvMask (some W)).getLsbD 14 = Spec.ubcHolds 14 Wn := by
  rw [mask_inner, inner_bit W _ 14 (by decide), outer_bit W _ 14 (by decide), ones_bit 14 (by decide)]
  masksimp h

theorem mask_bit15 (W : Fin 80 → Word) (Wn : Nat → Word) (h : ∀ i : Fin 80, W i = Wn i) :
    (calculateDvMask (some W)).getLsbD 15 = Spec.ubcHolds 15 Wn := by
  rw [mask_inner, inner_bit W _ 15 (by decide), outer_bit W _ 15 (by decide), ones_bit 15 (by decide)]
  masksimp h

theorem mask_bit16 (W : Fin 80 → Word) (Wn : Nat → Word) (h : ∀ i : Fin 80, W i = Wn i) :
    (calculateDvMask (some W)).getLsbD 16 = Spec.ubcHolds 16 Wn := by
  rw [mask_inner, inner_bit W _ 16 (by decide), outer_bit W _ 16 (by decide), ones_bit 16 (by decide)]
  masksimp h

theorem mask_bit17 (W : Fin 80 → Word) (Wn : Nat → Word) (h : ∀ i : Fin 80, W i = Wn i) :
    (calculateDvMask (some W)).getLsbD 17 = Spec.ubcHolds 17 Wn := by
  rw [mask_inner, inner_bit W _ 17 (by decide), outer_bit W _ 17 (by decide), ones_bit 17 (by decide)]
  masksimp h

theorem mask_bit18 (W : Fin 80 → Word) (Wn : Nat → Word) (h : ∀ i : Fin 80, W i = Wn i) :
    (calculateDvMask (some W)).getLsbD 18 = Spec.ubcHolds 18 Wn := by
  rw [mask_inner, inner_bit W _ 18 (by decide), outer_bit W _ 18 (by decide), ones_bit 18 (by decide)]
  masksimp h

theorem mask_bit19 (W : Fin 80 → Word) (Wn : Nat → Word) (h : ∀ i : Fin 80, W i = Wn i) :
    (calculateDvMask (some W)).getLsbD 19 = Spec.ubcHolds 19 Wn := by
  rw [mask_inner, inner_bit W _ 19 (by decide), outer_bit W _ 19 (by decide), ones_bit 19 (by decide)]
  masksimp h

theorem mask_bit20 (W : Fin 80 → Word) (Wn : Nat → Word) (h : ∀ i : Fin 80, W i = Wn i) :
    (calculateDvMask (some W)).getLsbD 20 = Spec.ubcHolds 20 Wn := by
  rw [mask_inner, inner_bit W _ 20 (by decide), outer_bit W _ 20 (by decide), ones_bit 20 (by decide)]
  masksimp h

theorem mask_bit21 (W : Fin 80 → Word) (Wn : Nat → Word) (h : ∀ i : Fin 80, W i = Wn i) :
    (calculateDvMask (some W)).getLsbD 21 = Spec.ubcHolds 21 Wn := by
  rw [mask_inner, inner_bit W _ 21 (by decide), outer_bit W _ 21 (by decide), ones_bit 21 (by decide)]
  masksimp h

theorem mask_bit22 (W : Fin 80 → Word) (Wn : Nat → Word) (h : ∀ i : Fin 80, W i = Wn i) :
    (calculateDvMask (some W)).getLsbD 22 = Spec.ubcHolds 22 Wn := by
  rw [mask_inner, inner_bit W _ 22 (by decide), outer_bit W _ 22 (by decide), ones_bit 22 (by decide)]
  masksimp h

theorem mask_bit23 (W : Fin 80 → Word) (Wn : Nat → Word) (h : ∀ i : Fin 80, W i = Wn i) :
    (calculateDvMask (some W)).getLsbD 23 = Spec.ubcHolds 23 Wn := by
  rw [mask_inner, inner_bit W _ 23 (by decide), outer_bit W _ 23 (by decide), ones_bit 23 (by decide)]
  masksimp h

theorem mask_bit24 (W : Fin 80 → Word) (Wn : Nat → Word) (h : ∀ i : Fin 80, W i = Wn i) :
    (calculateDvMask (some W)).getLsbD 24 = Spec.ubcHolds 24 Wn := by
  rw [mask_inner, inner_bit W _ 24 (by decide), outer_bit W _ 24 (by decide), ones_bit 24 (by decide)]
  masksimp h

theorem mask_bit25 (W : Fin 80 → Word) (Wn : Nat → Word) (h : ∀ i : Fin 80, W i = Wn i) :
    (calculateDvMask (some W)).getLsbD 25 = Spec.ubcHolds 25 Wn := by
  rw [mask_inner, inner_bit W _ 25 (by decide), outer_bit W _ 25 (by decide), ones_bit 25 (by decide)]
  masksimp h

theorem mask_bit26 (W : Fin 80 → Word) (Wn : Nat → Word) (h : ∀ i : Fin 80, W i = Wn i) :
    (calculateDvMask (some W)).getLsbD 26 = Spec.ubcHolds 26 Wn := by
  rw [mask_inner, inner_bit W _ 26 (by decide), outer_bit W _ 26 (by decide), ones_bit 26 (by decide)]
  masksimp h

theorem mask_bit27 (W : Fin 80 → Word) (Wn : Nat → Word) (h : ∀ i : Fin 80, W i = Wn i) :
    (calculateDvMask (some W)).getLsbD 27 = Spec.ubcHolds 27 Wn := by
  rw [mask_inner, inner_bit W _ 27 (by decide), outer_bit W _ 27 (by decide), ones_bit 27 (by decide)]
  masksimp h

theorem mask_bit28 (W : Fin 80 → Word) (Wn : Nat → Word) (h : ∀ i : Fin 80, W i = Wn i) :
    (calculateDvMask (some W)).getLsbD 28 = Spec.ubcHolds 28 Wn := by
  rw [mask_inner, inner_bit W _ 28 (by decide), outer_bit W _ 28 (by decide), ones_bit 28 (by decide)]
  masksimp h

theorem mask_bit29 (W : Fin 80 → Word) (Wn : Nat → Word) (h : ∀ i : Fin 80, W i = Wn i) :
    (calculateDvMask (some W)).getLsbD 29 = Spec.ubcHolds 29 Wn := by
  rw [mask_inner, inner_bit W _ 29 (by decide), outer_bit W _ 29 (by decide), ones_bit 29 (by decide)]
  masksimp h

theorem mask_bit30 (W : Fin 80 → Word) (Wn : Nat → Word) (h : ∀ i : Fin 80, W i = Wn i) :
    (calculateDvMask (some W)).getLsbD 30 = Spec.ubcHolds 30 Wn := by
  rw [mask_inner, inner_bit W _ 30 (by decide), outer_bit W _ 30 (by decide), ones_bit 30 (by decide)]
  masksimp h

theorem mask_bit31 (W : Fin 80 → Word) (Wn : Nat → Word) (h : ∀ i : Fin 80, W i = Wn i) :
    (calculateDvMask (some W)).getLsbD 31 = Spec.ubcHolds 31 Wn := by
  rw [mask_inner, inner_bit W _ 31 (by decide), outer_bit W _ 31 (by decide), ones_bit 31 (by decide)]
  masksimp h

/-- Bit `k` of the mask is set iff all conditions of the `k`-th vector hold. -/
theorem mask_bit (W : Fin 80 → Word) (Wn : Nat → Word) (h : ∀ i : Fin 80, W i = Wn i) (k : Nat)
    (hk : k < 32) : (calculateDvMask (some W)).getLsbD k = Spec.ubcHolds k Wn := by
  match k, hk with
  | 0, _ => exact mask_bit0 W Wn h
  | 1, _ => exact mask_bit1 W Wn h
  | 2, _ => exact mask_bit2 W Wn h
  | 3, _ => exact mask_bit3 W Wn h
  | 4, _ => exact mask_bit4 W Wn h
  | 5, _ => exact mask_bit5 W Wn h
  | 6, _ => exact mask_bit6 W Wn h
  | 7, _ => exact mask_bit7 W Wn h
  | 8, _ => exact mask_bit8 W Wn h
  | 9, _ => exact mask_bit9 W Wn h
  | 10, _ => exact mask_bit10 W Wn h
  | 11, _ => exact mask_bit11 W Wn h
  | 12, _ => exact mask_bit12 W Wn h
  | 13, _ => exact mask_bit13 W Wn h
  | 14, _ => exact mask_bit14 W Wn h
  | 15, _ => exact mask_bit15 W Wn h
  | 16, _ => exact mask_bit16 W Wn h
  | 17, _ => exact mask_bit17 W Wn h
  | 18, _ => exact mask_bit18 W Wn h
  | 19, _ => exact mask_bit19 W Wn h
  | 20, _ => exact mask_bit20 W Wn h
  | 21, _ => exact mask_bit21 W Wn h
  | 22, _ => exact mask_bit22 W Wn h
  | 23, _ => exact mask_bit23 W Wn h
  | 24, _ => exact mask_bit24 W Wn h
  | 25, _ => exact mask_bit25 W Wn h
  | 26, _ => exact mask_bit26 W Wn h
  | 27, _ => exact mask_bit27 W Wn h
  | 28, _ => exact mask_bit28 W Wn h
  | 29, _ => exact mask_bit29 W Wn h
  | 30, _ => exact mask_bit30 W Wn h
  | 31, _ => exact mask_bit31 W Wn h
  | n + 32, hn => exact absurd hn (by omega)

end Verif.Ubc
