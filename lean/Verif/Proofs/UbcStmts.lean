import Verif.Proofs.UbcLemmas

/-! Bit-level meaning of every statement of `CalculateDvMask` (generated). -/

namespace Verif.Ubc

open Verif Verif.Model Verif.Model.Ubc

theorem s37_bit (W : Fin 80 → Word) (mask : Word) (k : Nat) (hk : k < 32) :
    (s37 W mask).getLsbD k = (mask.getLsbD k && (!(0x0283a080#32).getLsbD k || (!((W 44).getLsbD 29 ^^ (W 45).getLsbD 29)))) := by
  have hd : (((((DV_I_48_0_bit ||| DV_I_51_0_bit) ||| DV_I_52_0_bit) ||| DV_II_45_0_bit) ||| DV_II_46_0_bit) ||| DV_II_50_0_bit) ||| DV_II_51_0_bit = 0x0283a080#32 := by decide
  unfold s37
  rw [hd]
  refine andForm _ _ _ _ k hk (fun hb => ?_)
  rw [sub1_bit _ _ hk]; bitsimp

theorem s38_bit (W : Fin 80 → Word) (mask : Word) (k : Nat) (hk : k < 32) :
    (s38 W mask).getLsbD k = (mask.getLsbD k && (!(0xc2810008#32).getLsbD k || (!((W 49).getLsbD 29 ^^ (W 50).getLsbD 29)))) := by
  have hd : ((((DV_I_46_0_bit ||| DV_II_45_0_bit) ||| DV_II_50_0_bit) ||| DV_II_51_0_bit) ||| DV_II_55_0_bit) ||| DV_II_56_0_bit = 0xc2810008#32 := by decide
  unfold s38
  rw [hd]
  refine andForm _ _ _ _ k hk (fun hb => ?_)
  rw [sub1_bit _ _ hk]; bitsimp

theorem s39_bit (W : Fin 80 → Word) (mask : Word) (k : Nat) (hk : k < 32) :
    (s39 W mask).getLsbD k = (mask.getLsbD k && (!(0x60a08004#32).getLsbD k || (!((W 48).getLsbD 29 ^^ (W 49).getLsbD 29)))) := by
  have hd : ((((DV_I_45_0_bit ||| DV_I_52_0_bit) ||| DV_II_49_0_bit) ||| DV_II_50_0_bit) ||| DV_II_54_0_bit) ||| DV_II_55_0_bit = 0x60a08004#32 := by decide
  unfold s39
  rw [hd]
  refine andForm _ _ _ _ k hk (fun hb => ?_)
  rw [sub1_bit _ _ hk]; bitsimp

theorem s40_bit (W : Fin 80 → Word) (mask : Word) (k : Nat) (hk : k < 32) :
    (s40 W mask).getLsbD k = (mask.getLsbD k && (!(0x82012220#32).getLsbD k || (!((W 47).getLsbD 4 ^^ (W 50).getLsbD 29)))) := by
  have hd : ((((DV_I_47_0_bit ||| DV_I_49_0_bit) ||| DV_I_51_0_bit) ||| DV_II_45_0_bit) ||| DV_II_51_0_bit) ||| DV_II_56_0_bit = 0x82012220#32 := by decide
  unfold s40
  rw [hd]
  refine andForm _ _ _ _ k hk (fun hb => ?_)
  rw [subn_bit _ 4 _ hk (by decide) (ge_of_bit 0x82012220#32 4 (by decide) k hk hb)]; bitsimp

theorem s41_bit (W : Fin 80 → Word) (mask : Word) (k : Nat) (hk : k < 32) :
    (s41 W mask).getLsbD k = (mask.getLsbD k && (!(0x30302002#32).getLsbD k || (!((W 47).getLsbD 29 ^^ (W 48).getLsbD 29)))) := by
  have hd : ((((DV_I_44_0_bit ||| DV_I_51_0_bit) ||| DV_II_48_0_bit) ||| DV_II_49_0_bit) ||| DV_II_53_0_bit) ||| DV_II_54_0_bit = 0x30302002#32 := by decide
  unfold s41
  rw [hd]
  refine andForm _ _ _ _ k hk (fun hb => ?_)
  rw [sub1_bit _ _ hk]; bitsimp

theorem s42_bit (W : Fin 80 → Word) (mask : Word) (k : Nat) (hk : k < 32) :
    (s42 W mask).getLsbD k = (mask.getLsbD k && (!(0x40808888#32).getLsbD k || (!((W 46).getLsbD 4 ^^ (W 49).getLsbD 29)))) := by
  have hd : ((((DV_I_46_0_bit ||| DV_I_48_0_bit) ||| DV_I_50_0_bit) ||| DV_I_52_0_bit) ||| DV_II_50_0_bit) ||| DV_II_55_0_bit = 0x40808888#32 := by decide
  unfold s42
  rw [hd]
  refine andForm _ _ _ _ k hk (fun hb => ?_)
  rw [sub1_bit _ _ hk]; bitsimp

theorem s43_bit (W : Fin 80 → Word) (mask : Word) (k : Nat) (hk : k < 32) :
    (s43 W mask).getLsbD k = (mask.getLsbD k && (!(0x18180801#32).getLsbD k || (!((W 46).getLsbD 29 ^^ (W 47).getLsbD 29)))) := by
  have hd : ((((DV_I_43_0_bit ||| DV_I_50_0_bit) ||| DV_II_47_0_bit) ||| DV_II_48_0_bit) ||| DV_II_52_0_bit) ||| DV_II_53_0_bit = 0x18180801#32 := by decide
  unfold s43
  rw [hd]
  refine andForm _ _ _ _ k hk (fun hb => ?_)
  rw [sub1_bit _ _ hk]; bitsimp

theorem s44_bit (W : Fin 80 → Word) (mask : Word) (k : Nat) (hk : k < 32) :
    (s44 W mask).getLsbD k = (mask.getLsbD k && (!(0x20202224#32).getLsbD k || (!((W 45).getLsbD 4 ^^ (W 48).getLsbD 29)))) := by
  have hd : ((((DV_I_45_0_bit ||| DV_I_47_0_bit) ||| DV_I_49_0_bit) ||| DV_I_51_0_bit) ||| DV_II_49_0_bit) ||| DV_II_54_0_bit = 0x20202224#32 := by decide
  unfold s44
  rw [hd]
  refine andForm _ _ _ _ k hk (fun hb => ?_)
  rw [sub1_bit _ _ hk]; bitsimp

theorem s45_bit (W : Fin 80 → Word) (mask : Word) (k : Nat) (hk : k < 32) :
    (s45 W mask).getLsbD k = (mask.getLsbD k && (!(0x0a0a8200#32).getLsbD k || (!((W 45).getLsbD 29 ^^ (W 46).getLsbD 29)))) := by
  have hd : ((((DV_I_49_0_bit ||| DV_I_52_0_bit) ||| DV_II_46_0_bit) ||| DV_II_47_0_bit) ||| DV_II_51_0_bit) ||| DV_II_52_0_bit = 0x0a0a8200#32 := by decide
  unfold s45
  rw [hd]
  refine andForm _ _ _ _ k hk (fun hb => ?_)
  rw [sub1_bit _ _ hk]; bitsimp

theorem s46_bit (W : Fin 80 → Word) (mask : Word) (k : Nat) (hk : k < 32) :
    (s46 W mask).getLsbD k = (mask.getLsbD k && (!(0x1010088a#32).getLsbD k || (!((W 44).getLsbD 4 ^^ (W 47).getLsbD 29)))) := by
  have hd : ((((DV_I_44_0_bit ||| DV_I_46_0_bit) ||| DV_I_48_0_bit) ||| DV_I_50_0_bit) ||| DV_II_48_0_bit) ||| DV_II_53_0_bit = 0x1010088a#32 := by decide
  unfold s46
  rw [hd]
  refine andForm _ _ _ _ k hk (fun hb => ?_)
  rw [sub1_bit _ _ hk]; bitsimp

theorem s47_bit (W : Fin 80 → Word) (mask : Word) (k : Nat) (hk : k < 32) :
    (s47 W mask).getLsbD k = (mask.getLsbD k && (!(0x08080225#32).getLsbD k || (!((W 43).getLsbD 4 ^^ (W 46).getLsbD 29)))) := by
  have hd : ((((DV_I_43_0_bit ||| DV_I_45_0_bit) ||| DV_I_47_0_bit) ||| DV_I_49_0_bit) ||| DV_II_47_0_bit) ||| DV_II_52_0_bit = 0x08080225#32 := by decide
  unfold s47
  rw [hd]
  refine andForm _ _ _ _ k hk (fun hb => ?_)
  rw [sub1_bit _ _ hk]; bitsimp

theorem s48_bit (W : Fin 80 → Word) (mask : Word) (k : Nat) (hk : k < 32) :
    (s48 W mask).getLsbD k = (mask.getLsbD k && (!(0x00a12820#32).getLsbD k || (!((W 43).getLsbD 29 ^^ (W 44).getLsbD 29)))) := by
  have hd : ((((DV_I_47_0_bit ||| DV_I_50_0_bit) ||| DV_I_51_0_bit) ||| DV_II_45_0_bit) ||| DV_II_49_0_bit) ||| DV_II_50_0_bit = 0x00a12820#32 := by decide
  unfold s48
  rw [hd]
  refine andForm _ _ _ _ k hk (fun hb => ?_)
  rw [sub1_bit _ _ hk]; bitsimp

theorem s49_bit (W : Fin 80 → Word) (mask : Word) (k : Nat) (hk : k < 32) :
    (s49 W mask).getLsbD k = (mask.getLsbD k && (!(0x0202808a#32).getLsbD k || (!((W 42).getLsbD 4 ^^ (W 45).getLsbD 29)))) := by
  have hd : ((((DV_I_44_0_bit ||| DV_I_46_0_bit) ||| DV_I_48_0_bit) ||| DV_I_52_0_bit) ||| DV_II_46_0_bit) ||| DV_II_51_0_bit = 0x0202808a#32 := by decide
  unfold s49
  rw [hd]
  refine andForm _ _ _ _ k hk (fun hb => ?_)
  rw [sub1_bit _ _ hk]; bitsimp

theorem s50_bit (W : Fin 80 → Word) (mask : Word) (k : Nat) (hk : k < 32) :
    (s50 W mask).getLsbD k = (mask.getLsbD k && (!(0x00812025#32).getLsbD k || (!((W 41).getLsbD 4 ^^ (W 44).getLsbD 29)))) := by
  have hd : ((((DV_I_43_0_bit ||| DV_I_45_0_bit) ||| DV_I_47_0_bit) ||| DV_I_51_0_bit) ||| DV_II_45_0_bit) ||| DV_II_50_0_bit = 0x00812025#32 := by decide
  unfold s50
  rw [hd]
  refine andForm _ _ _ _ k hk (fun hb => ?_)
  rw [sub1_bit _ _ hk]; bitsimp

theorem s51_bit (W : Fin 80 → Word) (mask : Word) (k : Nat) (hk : k < 32) :
    (s51 W mask).getLsbD k = (mask.getLsbD k && (!(0x800a00a2#32).getLsbD k || (!((W 40).getLsbD 29 ^^ (W 41).getLsbD 29)))) := by
  have hd : ((((DV_I_44_0_bit ||| DV_I_47_0_bit) ||| DV_I_48_0_bit) ||| DV_II_46_0_bit) ||| DV_II_47_0_bit) ||| DV_II_56_0_bit = 0x800a00a2#32 := by decide
  unfold s51
  rw [hd]
  refine andForm _ _ _ _ k hk (fun hb => ?_)
  rw [sub1_bit _ _ hk]; bitsimp

theorem s52_bit (W : Fin 80 → Word) (mask : Word) (k : Nat) (hk : k < 32) :
    (s52 W mask).getLsbD k = (mask.getLsbD k && (!(0xc0882000#32).getLsbD k || (!((W 54).getLsbD 29 ^^ (W 55).getLsbD 29)))) := by
  have hd : (((DV_I_51_0_bit ||| DV_II_47_0_bit) ||| DV_II_50_0_bit) ||| DV_II_55_0_bit) ||| DV_II_56_0_bit = 0xc0882000#32 := by decide
  unfold s52
  rw [hd]
  refine andForm _ _ _ _ k hk (fun hb => ?_)
  rw [sub1_bit _ _ hk]; bitsimp

theorem s53_bit (W : Fin 80 → Word) (mask : Word) (k : Nat) (hk : k < 32) :
    (s53 W mask).getLsbD k = (mask.getLsbD k && (!(0x60220800#32).getLsbD k || (!((W 53).getLsbD 29 ^^ (W 54).getLsbD 29)))) := by
  have hd : (((DV_I_50_0_bit ||| DV_II_46_0_bit) ||| DV_II_49_0_bit) ||| DV_II_54_0_bit) ||| DV_II_55_0_bit = 0x60220800#32 := by decide
  unfold s53
  rw [hd]
  refine andForm _ _ _ _ k hk (fun hb => ?_)
  rw [sub1_bit _ _ hk]; bitsimp

theorem s54_bit (W : Fin 80 → Word) (mask : Word) (k : Nat) (hk : k < 32) :
    (s54 W mask).getLsbD k = (mask.getLsbD k && (!(0x30110200#32).getLsbD k || (!((W 52).getLsbD 29 ^^ (W 53).getLsbD 29)))) := by
  have hd : (((DV_I_49_0_bit ||| DV_II_45_0_bit) ||| DV_II_48_0_bit) ||| DV_II_53_0_bit) ||| DV_II_54_0_bit = 0x30110200#32 := by decide
  unfold s54
  rw [hd]
  refine andForm _ _ _ _ k hk (fun hb => ?_)
  rw [sub1_bit _ _ hk]; bitsimp

theorem s55_bit (W : Fin 80 → Word) (mask : Word) (k : Nat) (hk : k < 32) :
    (s55 W mask).getLsbD k = (mask.getLsbD k && (!(0x20128800#32).getLsbD k || (!((W 50).getLsbD 4 ^^ (W 53).getLsbD 29)))) := by
  have hd : (((DV_I_50_0_bit ||| DV_I_52_0_bit) ||| DV_II_46_0_bit) ||| DV_II_48_0_bit) ||| DV_II_54_0_bit = 0x20128800#32 := by decide
  unfold s55
  rw [hd]
  refine andForm _ _ _ _ k hk (fun hb => ?_)
  rw [subn_bit _ 4 _ hk (by decide) (ge_of_bit 0x20128800#32 4 (by decide) k hk hb)]; bitsimp

theorem s56_bit (W : Fin 80 → Word) (mask : Word) (k : Nat) (hk : k < 32) :
    (s56 W mask).getLsbD k = (mask.getLsbD k && (!(0x8a020020#32).getLsbD k || (!((W 50).getLsbD 29 ^^ (W 51).getLsbD 29)))) := by
  have hd : (((DV_I_47_0_bit ||| DV_II_46_0_bit) ||| DV_II_51_0_bit) ||| DV_II_52_0_bit) ||| DV_II_56_0_bit = 0x8a020020#32 := by decide
  unfold s56
  rw [hd]
  refine andForm _ _ _ _ k hk (fun hb => ?_)
  rw [sub1_bit _ _ hk]; bitsimp

theorem s57_bit (W : Fin 80 → Word) (mask : Word) (k : Nat) (hk : k < 32) :
    (s57 W mask).getLsbD k = (mask.getLsbD k && (!(0x10092200#32).getLsbD k || (!((W 49).getLsbD 4 ^^ (W 52).getLsbD 29)))) := by
  have hd : (((DV_I_49_0_bit ||| DV_I_51_0_bit) ||| DV_II_45_0_bit) ||| DV_II_47_0_bit) ||| DV_II_53_0_bit = 0x10092200#32 := by decide
  unfold s57
  rw [hd]
  refine andForm _ _ _ _ k hk (fun hb => ?_)
  rw [subn_bit _ 4 _ hk (by decide) (ge_of_bit 0x10092200#32 4 (by decide) k hk hb)]; bitsimp

theorem s58_bit (W : Fin 80 → Word) (mask : Word) (k : Nat) (hk : k < 32) :
    (s58 W mask).getLsbD k = (mask.getLsbD k && (!(0x08028880#32).getLsbD k || (!((W 48).getLsbD 4 ^^ (W 51).getLsbD 29)))) := by
  have hd : (((DV_I_48_0_bit ||| DV_I_50_0_bit) ||| DV_I_52_0_bit) ||| DV_II_46_0_bit) ||| DV_II_52_0_bit = 0x08028880#32 := by decide
  unfold s58
  rw [hd]
  refine andForm _ _ _ _ k hk (fun hb => ?_)
  rw [subn_bit _ 4 _ hk (by decide) (ge_of_bit 0x08028880#32 4 (by decide) k hk hb)]; bitsimp

theorem s59_bit (W : Fin 80 → Word) (mask : Word) (k : Nat) (hk : k < 32) :
    (s59 W mask).getLsbD k = (mask.getLsbD k && (!(0x00300a08#32).getLsbD k || (!((W 42).getLsbD 29 ^^ (W 43).getLsbD 29)))) := by
  have hd : (((DV_I_46_0_bit ||| DV_I_49_0_bit) ||| DV_I_50_0_bit) ||| DV_II_48_0_bit) ||| DV_II_49_0_bit = 0x00300a08#32 := by decide
  unfold s59
  rw [hd]
  refine andForm _ _ _ _ k hk (fun hb => ?_)
  rw [sub1_bit _ _ hk]; bitsimp

theorem s60_bit (W : Fin 80 → Word) (mask : Word) (k : Nat) (hk : k < 32) :
    (s60 W mask).getLsbD k = (mask.getLsbD k && (!(0x00180284#32).getLsbD k || (!((W 41).getLsbD 29 ^^ (W 42).getLsbD 29)))) := by
  have hd : (((DV_I_45_0_bit ||| DV_I_48_0_bit) ||| DV_I_49_0_bit) ||| DV_II_47_0_bit) ||| DV_II_48_0_bit = 0x00180284#32 := by decide
  unfold s60
  rw [hd]
  refine andForm _ _ _ _ k hk (fun hb => ?_)
  rw [sub1_bit _ _ hk]; bitsimp

theorem s61_bit (W : Fin 80 → Word) (mask : Word) (k : Nat) (hk : k < 32) :
    (s61 W mask).getLsbD k = (mask.getLsbD k && (!(0x8020080a#32).getLsbD k || (!((W 40).getLsbD 4 ^^ (W 43).getLsbD 29)))) := by
  have hd : (((DV_I_44_0_bit ||| DV_I_46_0_bit) ||| DV_I_50_0_bit) ||| DV_II_49_0_bit) ||| DV_II_56_0_bit = 0x8020080a#32 := by decide
  unfold s61
  rw [hd]
  refine andForm _ _ _ _ k hk (fun hb => ?_)
  rw [sub1_bit _ _ hk]; bitsimp

theorem s62_bit (W : Fin 80 → Word) (mask : Word) (k : Nat) (hk : k < 32) :
    (s62 W mask).getLsbD k = (mask.getLsbD k && (!(0x40100205#32).getLsbD k || (!((W 39).getLsbD 4 ^^ (W 42).getLsbD 29)))) := by
  have hd : (((DV_I_43_0_bit ||| DV_I_45_0_bit) ||| DV_I_49_0_bit) ||| DV_II_48_0_bit) ||| DV_II_55_0_bit = 0x40100205#32 := by decide
  unfold s62
  rw [hd]
  refine andForm _ _ _ _ k hk (fun hb => ?_)
  rw [sub1_bit _ _ hk]; bitsimp

theorem s64_bit (W : Fin 80 → Word) (mask : Word) (k : Nat) (hk : k < 32) :
    (s64 W mask).getLsbD k = (mask.getLsbD k && (!(0xa0080082#32).getLsbD k || (!((W 38).getLsbD 4 ^^ (W 41).getLsbD 29)))) := by
  have hd : (((DV_I_44_0_bit ||| DV_I_48_0_bit) ||| DV_II_47_0_bit) ||| DV_II_54_0_bit) ||| DV_II_56_0_bit = 0xa0080082#32 := by decide
  unfold s64
  rw [hd]
  refine ifForm _ _ _ _ k hk (fun hb => ?_)
  rw [sub1_bit _ _ hk]; bitsimp

theorem s67_bit (W : Fin 80 → Word) (mask : Word) (k : Nat) (hk : k < 32) :
    (s67 W mask).getLsbD k = (mask.getLsbD k && (!(0x50020021#32).getLsbD k || (!((W 37).getLsbD 4 ^^ (W 40).getLsbD 29)))) := by
  have hd : (((DV_I_43_0_bit ||| DV_I_47_0_bit) ||| DV_II_46_0_bit) ||| DV_II_53_0_bit) ||| DV_II_55_0_bit = 0x50020021#32 := by decide
  unfold s67
  rw [hd]
  refine andForm _ _ _ _ k hk (fun hb => ?_)
  rw [sub1_bit _ _ hk]; bitsimp

theorem s68_bit (W : Fin 80 → Word) (mask : Word) (k : Nat) (hk : k < 32) :
    (s68 W mask).getLsbD k = (mask.getLsbD k && (!(0x82108000#32).getLsbD k || (!((W 55).getLsbD 29 ^^ (W 56).getLsbD 29)))) := by
  have hd : ((DV_I_52_0_bit ||| DV_II_48_0_bit) ||| DV_II_51_0_bit) ||| DV_II_56_0_bit = 0x82108000#32 := by decide
  unfold s68
  rw [hd]
  refine ifForm _ _ _ _ k hk (fun hb => ?_)
  rw [sub1_bit _ _ hk]; bitsimp

theorem s71_bit (W : Fin 80 → Word) (mask : Word) (k : Nat) (hk : k < 32) :
    (s71 W mask).getLsbD k = (mask.getLsbD k && (!(0x80908000#32).getLsbD k || (!((W 52).getLsbD 4 ^^ (W 55).getLsbD 29)))) := by
  have hd : ((DV_I_52_0_bit ||| DV_II_48_0_bit) ||| DV_II_50_0_bit) ||| DV_II_56_0_bit = 0x80908000#32 := by decide
  unfold s71
  rw [hd]
  refine ifForm _ _ _ _ k hk (fun hb => ?_)
  rw [subn_bit _ 4 _ hk (by decide) (ge_of_bit 0x80908000#32 4 (by decide) k hk hb)]; bitsimp

theorem s74_bit (W : Fin 80 → Word) (mask : Word) (k : Nat) (hk : k < 32) :
    (s74 W mask).getLsbD k = (mask.getLsbD k && (!(0x40282000#32).getLsbD k || (!((W 51).getLsbD 4 ^^ (W 54).getLsbD 29)))) := by
  have hd : ((DV_I_51_0_bit ||| DV_II_47_0_bit) ||| DV_II_49_0_bit) ||| DV_II_55_0_bit = 0x40282000#32 := by decide
  unfold s74
  rw [hd]
  refine ifForm _ _ _ _ k hk (fun hb => ?_)
  rw [subn_bit _ 4 _ hk (by decide) (ge_of_bit 0x40282000#32 4 (by decide) k hk hb)]; bitsimp

theorem s77_bit (W : Fin 80 → Word) (mask : Word) (k : Nat) (hk : k < 32) :
    (s77 W mask).getLsbD k = (mask.getLsbD k && (!(0x18080080#32).getLsbD k || (!((W 51).getLsbD 29 ^^ (W 52).getLsbD 29)))) := by
  have hd : ((DV_I_48_0_bit ||| DV_II_47_0_bit) ||| DV_II_52_0_bit) ||| DV_II_53_0_bit = 0x18080080#32 := by decide
  unfold s77
  rw [hd]
  refine ifForm _ _ _ _ k hk (fun hb => ?_)
  rw [sub1_bit _ _ hk]; bitsimp

theorem s80_bit (W : Fin 80 → Word) (mask : Word) (k : Nat) (hk : k < 32) :
    (s80 W mask).getLsbD k = (mask.getLsbD k && (!(0x00110208#32).getLsbD k || (!((W 36).getLsbD 4 ^^ (W 40).getLsbD 29)))) := by
  have hd : ((DV_I_46_0_bit ||| DV_I_49_0_bit) ||| DV_II_45_0_bit) ||| DV_II_48_0_bit = 0x00110208#32 := by decide
  unfold s80
  rw [hd]
  refine ifForm _ _ _ _ k hk (fun hb => ?_)
  rw [sub1_bit _ _ hk]; bitsimp

theorem s83_bit (W : Fin 80 → Word) (mask : Word) (k : Nat) (hk : k < 32) :
    (s83 W mask).getLsbD k = (mask.getLsbD k && (!(0x00308000#32).getLsbD k || (((W 53).getLsbD 29 ^^ (W 56).getLsbD 29)))) := by
  have hd : (DV_I_52_0_bit ||| DV_II_48_0_bit) ||| DV_II_49_0_bit = 0x00308000#32 := by decide
  unfold s83
  rw [hd]
  refine ifForm _ _ _ _ k hk (fun hb => ?_)
  rw [neg1_bit _ _ hk]; bitsimp

theorem s86_bit (W : Fin 80 → Word) (mask : Word) (k : Nat) (hk : k < 32) :
    (s86 W mask).getLsbD k = (mask.getLsbD k && (!(0x000a0800#32).getLsbD k || (((W 51).getLsbD 29 ^^ (W 54).getLsbD 29)))) := by
  have hd : (DV_I_50_0_bit ||| DV_II_46_0_bit) ||| DV_II_47_0_bit = 0x000a0800#32 := by decide
  unfold s86
  rw [hd]
  refine ifForm _ _ _ _ k hk (fun hb => ?_)
  rw [neg1_bit _ _ hk]; bitsimp

theorem s89_bit (W : Fin 80 → Word) (mask : Word) (k : Nat) (hk : k < 32) :
    (s89 W mask).getLsbD k = (mask.getLsbD k && (!(0x00012200#32).getLsbD k || (((W 50).getLsbD 29 ^^ (W 52).getLsbD 29)))) := by
  have hd : (DV_I_49_0_bit ||| DV_I_51_0_bit) ||| DV_II_45_0_bit = 0x00012200#32 := by decide
  unfold s89
  rw [hd]
  refine ifForm _ _ _ _ k hk (fun hb => ?_)
  rw [neg1_bit _ _ hk]; bitsimp

theorem s92_bit (W : Fin 80 → Word) (mask : Word) (k : Nat) (hk : k < 32) :
    (s92 W mask).getLsbD k = (mask.getLsbD k && (!(0x00008880#32).getLsbD k || (((W 49).getLsbD 29 ^^ (W 51).getLsbD 29)))) := by
  have hd : (DV_I_48_0_bit ||| DV_I_50_0_bit) ||| DV_I_52_0_bit = 0x00008880#32 := by decide
  unfold s92
  rw [hd]
  refine ifForm _ _ _ _ k hk (fun hb => ?_)
  rw [neg1_bit _ _ hk]; bitsimp

theorem s95_bit (W : Fin 80 → Word) (mask : Word) (k : Nat) (hk : k < 32) :
    (s95 W mask).getLsbD k = (mask.getLsbD k && (!(0x00002220#32).getLsbD k || (((W 48).getLsbD 29 ^^ (W 50).getLsbD 29)))) := by
  have hd : (DV_I_47_0_bit ||| DV_I_49_0_bit) ||| DV_I_51_0_bit = 0x00002220#32 := by decide
  unfold s95
  rw [hd]
  refine ifForm _ _ _ _ k hk (fun hb => ?_)
  rw [neg1_bit _ _ hk]; bitsimp

theorem s98_bit (W : Fin 80 → Word) (mask : Word) (k : Nat) (hk : k < 32) :
    (s98 W mask).getLsbD k = (mask.getLsbD k && (!(0x00000888#32).getLsbD k || (((W 47).getLsbD 29 ^^ (W 49).getLsbD 29)))) := by
  have hd : (DV_I_46_0_bit ||| DV_I_48_0_bit) ||| DV_I_50_0_bit = 0x00000888#32 := by decide
  unfold s98
  rw [hd]
  refine ifForm _ _ _ _ k hk (fun hb => ?_)
  rw [neg1_bit _ _ hk]; bitsimp

theorem s101_bit (W : Fin 80 → Word) (mask : Word) (k : Nat) (hk : k < 32) :
    (s101 W mask).getLsbD k = (mask.getLsbD k && (!(0x00000224#32).getLsbD k || (((W 46).getLsbD 29 ^^ (W 48).getLsbD 29)))) := by
  have hd : (DV_I_45_0_bit ||| DV_I_47_0_bit) ||| DV_I_49_0_bit = 0x00000224#32 := by decide
  unfold s101
  rw [hd]
  refine ifForm _ _ _ _ k hk (fun hb => ?_)
  rw [neg1_bit _ _ hk]; bitsimp

theorem s104_bit (W : Fin 80 → Word) (mask : Word) (k : Nat) (hk : k < 32) :
    (s104 W mask).getLsbD k = (mask.getLsbD k && (!(0x00004440#32).getLsbD k || (!((W 45).getLsbD 6 ^^ (W 47).getLsbD 6)))) := by
  have hd : (DV_I_47_2_bit ||| DV_I_49_2_bit) ||| DV_I_51_2_bit = 0x00004440#32 := by decide
  unfold s104
  rw [hd]
  refine andForm _ _ _ _ k hk (fun hb => ?_)
  rw [subn_bit _ 6 _ hk (by decide) (ge_of_bit 0x00004440#32 6 (by decide) k hk hb)]; bitsimp

theorem s105_bit (W : Fin 80 → Word) (mask : Word) (k : Nat) (hk : k < 32) :
    (s105 W mask).getLsbD k = (mask.getLsbD k && (!(0x0000008a#32).getLsbD k || (((W 45).getLsbD 29 ^^ (W 47).getLsbD 29)))) := by
  have hd : (DV_I_44_0_bit ||| DV_I_46_0_bit) ||| DV_I_48_0_bit = 0x0000008a#32 := by decide
  unfold s105
  rw [hd]
  refine ifForm _ _ _ _ k hk (fun hb => ?_)
  rw [neg1_bit _ _ hk]; bitsimp

theorem s108_bit (W : Fin 80 → Word) (mask : Word) (k : Nat) (hk : k < 32) :
    (s108 W mask).getLsbD k = (mask.getLsbD k && (!(0x00001110#32).getLsbD k || (!((W 44).getLsbD 6 ^^ (W 46).getLsbD 6)))) := by
  have hd : (DV_I_46_2_bit ||| DV_I_48_2_bit) ||| DV_I_50_2_bit = 0x00001110#32 := by decide
  unfold s108
  rw [hd]
  refine andForm _ _ _ _ k hk (fun hb => ?_)
  rw [sub1_bit _ _ hk]; bitsimp

theorem s109_bit (W : Fin 80 → Word) (mask : Word) (k : Nat) (hk : k < 32) :
    (s109 W mask).getLsbD k = (mask.getLsbD k && (!(0x00000025#32).getLsbD k || (((W 44).getLsbD 29 ^^ (W 46).getLsbD 29)))) := by
  have hd : (DV_I_43_0_bit ||| DV_I_45_0_bit) ||| DV_I_47_0_bit = 0x00000025#32 := by decide
  unfold s109
  rw [hd]
  refine ifForm _ _ _ _ k hk (fun hb => ?_)
  rw [neg1_bit _ _ hk]; bitsimp

theorem s112_bit (W : Fin 80 → Word) (mask : Word) (k : Nat) (hk : k < 32) :
    (s112 W mask).getLsbD k = (mask.getLsbD k && (!(0x04040100#32).getLsbD k || (((W 41).getLsbD 1 ^^ (W 42).getLsbD 6)))) := by
  have hd : (DV_I_48_2_bit ||| DV_II_46_2_bit) ||| DV_II_51_2_bit = 0x04040100#32 := by decide
  unfold s112
  rw [hd]
  refine andForm _ _ _ _ k hk (fun hb => ?_)
  rw [negn_bit _ 1 _ hk (by decide) (ge_of_bit 0x04040100#32 1 (by decide) k hk hb)]; bitsimp

theorem s113_bit (W : Fin 80 → Word) (mask : Word) (k : Nat) (hk : k < 32) :
    (s113 W mask).getLsbD k = (mask.getLsbD k && (!(0x01004040#32).getLsbD k || (((W 40).getLsbD 1 ^^ (W 41).getLsbD 6)))) := by
  have hd : (DV_I_47_2_bit ||| DV_I_51_2_bit) ||| DV_II_50_2_bit = 0x01004040#32 := by decide
  unfold s113
  rw [hd]
  refine andForm _ _ _ _ k hk (fun hb => ?_)
  rw [negn_bit _ 1 _ hk (by decide) (ge_of_bit 0x01004040#32 1 (by decide) k hk hb)]; bitsimp

theorem s114_bit (W : Fin 80 → Word) (mask : Word) (k : Nat) (hk : k < 32) :
    (s114 W mask).getLsbD k = (mask.getLsbD k && (!(0x8000000a#32).getLsbD k || (((W 40).getLsbD 4 ^^ (W 42).getLsbD 4)))) := by
  have hd : (DV_I_44_0_bit ||| DV_I_46_0_bit) ||| DV_II_56_0_bit = 0x8000000a#32 := by decide
  unfold s114
  rw [hd]
  refine ifForm _ _ _ _ k hk (fun hb => ?_)
  rw [neg1_bit _ _ hk]; bitsimp

theorem s117_bit (W : Fin 80 → Word) (mask : Word) (k : Nat) (hk : k < 32) :
    (s117 W mask).getLsbD k = (mask.getLsbD k && (!(0x00401010#32).getLsbD k || (((W 39).getLsbD 1 ^^ (W 40).getLsbD 6)))) := by
  have hd : (DV_I_46_2_bit ||| DV_I_50_2_bit) ||| DV_II_49_2_bit = 0x00401010#32 := by decide
  unfold s117
  rw [hd]
  refine andForm _ _ _ _ k hk (fun hb => ?_)
  rw [negn_bit _ 1 _ hk (by decide) (ge_of_bit 0x00401010#32 1 (by decide) k hk hb)]; bitsimp

theorem s118_bit (W : Fin 80 → Word) (mask : Word) (k : Nat) (hk : k < 32) :
    (s118 W mask).getLsbD k = (mask.getLsbD k && (!(0x40000005#32).getLsbD k || (((W 39).getLsbD 4 ^^ (W 41).getLsbD 4)))) := by
  have hd : (DV_I_43_0_bit ||| DV_I_45_0_bit) ||| DV_II_55_0_bit = 0x40000005#32 := by decide
  unfold s118
  rw [hd]
  refine ifForm _ _ _ _ k hk (fun hb => ?_)
  rw [neg1_bit _ _ hk]; bitsimp

theorem s121_bit (W : Fin 80 → Word) (mask : Word) (k : Nat) (hk : k < 32) :
    (s121 W mask).getLsbD k = (mask.getLsbD k && (!(0xa0000002#32).getLsbD k || (((W 38).getLsbD 4 ^^ (W 40).getLsbD 4)))) := by
  have hd : (DV_I_44_0_bit ||| DV_II_54_0_bit) ||| DV_II_56_0_bit = 0xa0000002#32 := by decide
  unfold s121
  rw [hd]
  refine ifForm _ _ _ _ k hk (fun hb => ?_)
  rw [neg1_bit _ _ hk]; bitsimp

theorem s124_bit (W : Fin 80 → Word) (mask : Word) (k : Nat) (hk : k < 32) :
    (s124 W mask).getLsbD k = (mask.getLsbD k && (!(0x50000001#32).getLsbD k || (((W 37).getLsbD 4 ^^ (W 39).getLsbD 4)))) := by
  have hd : (DV_I_43_0_bit ||| DV_II_53_0_bit) ||| DV_II_55_0_bit = 0x50000001#32 := by decide
  unfold s124
  rw [hd]
  refine ifForm _ _ _ _ k hk (fun hb => ?_)
  rw [neg1_bit _ _ hk]; bitsimp

theorem s127_bit (W : Fin 80 → Word) (mask : Word) (k : Nat) (hk : k < 32) :
    (s127 W mask).getLsbD k = (mask.getLsbD k && (!(0x00041040#32).getLsbD k || (((W 36).getLsbD 1 ^^ (W 37).getLsbD 6)))) := by
  have hd : (DV_I_47_2_bit ||| DV_I_50_2_bit) ||| DV_II_46_2_bit = 0x00041040#32 := by decide
  unfold s127
  rw [hd]
  refine andForm _ _ _ _ k hk (fun hb => ?_)
  rw [negn_bit _ 1 _ hk (by decide) (ge_of_bit 0x00041040#32 1 (by decide) k hk hb)]; bitsimp

theorem s128_bit (W : Fin 80 → Word) (mask : Word) (k : Nat) (hk : k < 32) :
    (s128 W mask).getLsbD k = (mask.getLsbD k && (!(0x00080084#32).getLsbD k || (!((W 35).getLsbD 4 ^^ (W 39).getLsbD 29)))) := by
  have hd : (DV_I_45_0_bit ||| DV_I_48_0_bit) ||| DV_II_47_0_bit = 0x00080084#32 := by decide
  unfold s128
  rw [hd]
  refine ifForm _ _ _ _ k hk (fun hb => ?_)
  rw [sub1_bit _ _ hk]; bitsimp

theorem s131_bit (W : Fin 80 → Word) (mask : Word) (k : Nat) (hk : k < 32) :
    (s131 W mask).getLsbD k = (mask.getLsbD k && (!(0x00100080#32).getLsbD k || (((W 63).getLsbD 0 ^^ (W 64).getLsbD 5)))) := by
  have hd : DV_I_48_0_bit ||| DV_II_48_0_bit = 0x00100080#32 := by decide
  unfold s131
  rw [hd]
  refine ifForm _ _ _ _ k hk (fun hb => ?_)
  rw [negn_bit _ 0 _ hk (by decide) (ge_of_bit 0x00100080#32 0 (by decide) k hk hb)]; bitsimp

theorem s134_bit (W : Fin 80 → Word) (mask : Word) (k : Nat) (hk : k < 32) :
    (s134 W mask).getLsbD k = (mask.getLsbD k && (!(0x00010004#32).getLsbD k || (((W 63).getLsbD 1 ^^ (W 64).getLsbD 6)))) := by
  have hd : DV_I_45_0_bit ||| DV_II_45_0_bit = 0x00010004#32 := by decide
  unfold s134
  rw [hd]
  refine ifForm _ _ _ _ k hk (fun hb => ?_)
  rw [negn_bit _ 1 _ hk (by decide) (ge_of_bit 0x00010004#32 1 (by decide) k hk hb)]; bitsimp

theorem s137_bit (W : Fin 80 → Word) (mask : Word) (k : Nat) (hk : k < 32) :
    (s137 W mask).getLsbD k = (mask.getLsbD k && (!(0x00080020#32).getLsbD k || (((W 62).getLsbD 0 ^^ (W 63).getLsbD 5)))) := by
  have hd : DV_I_47_0_bit ||| DV_II_47_0_bit = 0x00080020#32 := by decide
  unfold s137
  rw [hd]
  refine ifForm _ _ _ _ k hk (fun hb => ?_)
  rw [negn_bit _ 0 _ hk (by decide) (ge_of_bit 0x00080020#32 0 (by decide) k hk hb)]; bitsimp

theorem s140_bit (W : Fin 80 → Word) (mask : Word) (k : Nat) (hk : k < 32) :
    (s140 W mask).getLsbD k = (mask.getLsbD k && (!(0x00020008#32).getLsbD k || (((W 61).getLsbD 0 ^^ (W 62).getLsbD 5)))) := by
  have hd : DV_I_46_0_bit ||| DV_II_46_0_bit = 0x00020008#32 := by decide
  unfold s140
  rw [hd]
  refine ifForm _ _ _ _ k hk (fun hb => ?_)
  rw [negn_bit _ 0 _ hk (by decide) (ge_of_bit 0x00020008#32 0 (by decide) k hk hb)]; bitsimp

theorem s143_bit (W : Fin 80 → Word) (mask : Word) (k : Nat) (hk : k < 32) :
    (s143 W mask).getLsbD k = (mask.getLsbD k && (!(0x00040010#32).getLsbD k || (((W 61).getLsbD 2 ^^ (W 62).getLsbD 7)))) := by
  have hd : DV_I_46_2_bit ||| DV_II_46_2_bit = 0x00040010#32 := by decide
  unfold s143
  rw [hd]
  refine andForm _ _ _ _ k hk (fun hb => ?_)
  rw [negn_bit _ 2 _ hk (by decide) (ge_of_bit 0x00040010#32 2 (by decide) k hk hb)]; bitsimp

theorem s144_bit (W : Fin 80 → Word) (mask : Word) (k : Nat) (hk : k < 32) :
    (s144 W mask).getLsbD k = (mask.getLsbD k && (!(0x00010004#32).getLsbD k || (((W 60).getLsbD 0 ^^ (W 61).getLsbD 5)))) := by
  have hd : DV_I_45_0_bit ||| DV_II_45_0_bit = 0x00010004#32 := by decide
  unfold s144
  rw [hd]
  refine ifForm _ _ _ _ k hk (fun hb => ?_)
  rw [negn_bit _ 0 _ hk (by decide) (ge_of_bit 0x00010004#32 0 (by decide) k hk hb)]; bitsimp

theorem s147_bit (W : Fin 80 → Word) (mask : Word) (k : Nat) (hk : k < 32) :
    (s147 W mask).getLsbD k = (mask.getLsbD k && (!(0x22000000#32).getLsbD k || (!((W 58).getLsbD 29 ^^ (W 59).getLsbD 29)))) := by
  have hd : DV_II_51_0_bit ||| DV_II_54_0_bit = 0x22000000#32 := by decide
  unfold s147
  rw [hd]
  refine ifForm _ _ _ _ k hk (fun hb => ?_)
  rw [sub1_bit _ _ hk]; bitsimp

theorem s150_bit (W : Fin 80 → Word) (mask : Word) (k : Nat) (hk : k < 32) :
    (s150 W mask).getLsbD k = (mask.getLsbD k && (!(0x10800000#32).getLsbD k || (!((W 57).getLsbD 29 ^^ (W 58).getLsbD 29)))) := by
  have hd : DV_II_50_0_bit ||| DV_II_53_0_bit = 0x10800000#32 := by decide
  unfold s150
  rw [hd]
  refine ifForm _ _ _ _ k hk (fun hb => ?_)
  rw [sub1_bit _ _ hk]; bitsimp

theorem s153_bit (W : Fin 80 → Word) (mask : Word) (k : Nat) (hk : k < 32) :
    (s153 W mask).getLsbD k = (mask.getLsbD k && (!(0x28000000#32).getLsbD k || (!((W 56).getLsbD 4 ^^ (W 59).getLsbD 29)))) := by
  have hd : DV_II_52_0_bit ||| DV_II_54_0_bit = 0x28000000#32 := by decide
  unfold s153
  rw [hd]
  refine ifForm _ _ _ _ k hk (fun hb => ?_)
  rw [subn_bit _ 4 _ hk (by decide) (ge_of_bit 0x28000000#32 4 (by decide) k hk hb)]; bitsimp

theorem s156_bit (W : Fin 80 → Word) (mask : Word) (k : Nat) (hk : k < 32) :
    (s156 W mask).getLsbD k = (mask.getLsbD k && (!(0x0a000000#32).getLsbD k || (((W 56).getLsbD 29 ^^ (W 59).getLsbD 29)))) := by
  have hd : DV_II_51_0_bit ||| DV_II_52_0_bit = 0x0a000000#32 := by decide
  unfold s156
  rw [hd]
  refine ifForm _ _ _ _ k hk (fun hb => ?_)
  rw [neg1_bit _ _ hk]; bitsimp

theorem s159_bit (W : Fin 80 → Word) (mask : Word) (k : Nat) (hk : k < 32) :
    (s159 W mask).getLsbD k = (mask.getLsbD k && (!(0x08200000#32).getLsbD k || (!((W 56).getLsbD 29 ^^ (W 57).getLsbD 29)))) := by
  have hd : DV_II_49_0_bit ||| DV_II_52_0_bit = 0x08200000#32 := by decide
  unfold s159
  rw [hd]
  refine ifForm _ _ _ _ k hk (fun hb => ?_)
  rw [sub1_bit _ _ hk]; bitsimp

theorem s162_bit (W : Fin 80 → Word) (mask : Word) (k : Nat) (hk : k < 32) :
    (s162 W mask).getLsbD k = (mask.getLsbD k && (!(0x12000000#32).getLsbD k || (!((W 55).getLsbD 4 ^^ (W 58).getLsbD 29)))) := by
  have hd : DV_II_51_0_bit ||| DV_II_53_0_bit = 0x12000000#32 := by decide
  unfold s162
  rw [hd]
  refine ifForm _ _ _ _ k hk (fun hb => ?_)
  rw [subn_bit _ 4 _ hk (by decide) (ge_of_bit 0x12000000#32 4 (by decide) k hk hb)]; bitsimp

theorem s165_bit (W : Fin 80 → Word) (mask : Word) (k : Nat) (hk : k < 32) :
    (s165 W mask).getLsbD k = (mask.getLsbD k && (!(0x08800000#32).getLsbD k || (!((W 54).getLsbD 4 ^^ (W 57).getLsbD 29)))) := by
  have hd : DV_II_50_0_bit ||| DV_II_52_0_bit = 0x08800000#32 := by decide
  unfold s165
  rw [hd]
  refine ifForm _ _ _ _ k hk (fun hb => ?_)
  rw [subn_bit _ 4 _ hk (by decide) (ge_of_bit 0x08800000#32 4 (by decide) k hk hb)]; bitsimp

theorem s168_bit (W : Fin 80 → Word) (mask : Word) (k : Nat) (hk : k < 32) :
    (s168 W mask).getLsbD k = (mask.getLsbD k && (!(0x02200000#32).getLsbD k || (!((W 53).getLsbD 4 ^^ (W 56).getLsbD 29)))) := by
  have hd : DV_II_49_0_bit ||| DV_II_51_0_bit = 0x02200000#32 := by decide
  unfold s168
  rw [hd]
  refine ifForm _ _ _ _ k hk (fun hb => ?_)
  rw [subn_bit _ 4 _ hk (by decide) (ge_of_bit 0x02200000#32 4 (by decide) k hk hb)]; bitsimp

theorem s171_bit (W : Fin 80 → Word) (mask : Word) (k : Nat) (hk : k < 32) :
    (s171 W mask).getLsbD k = (mask.getLsbD k && (!(0x00041000#32).getLsbD k || (!((W 50).getLsbD 6 ^^ (W 51).getLsbD 1)))) := by
  have hd : DV_I_50_2_bit ||| DV_II_46_2_bit = 0x00041000#32 := by decide
  unfold s171
  rw [hd]
  refine andForm _ _ _ _ k hk (fun hb => ?_)
  rw [subn_bit _ 1 _ hk (by decide) (ge_of_bit 0x00041000#32 1 (by decide) k hk hb)]; bitsimp

theorem s172_bit (W : Fin 80 → Word) (mask : Word) (k : Nat) (hk : k < 32) :
    (s172 W mask).getLsbD k = (mask.getLsbD k && (!(0x00041000#32).getLsbD k || (!((W 48).getLsbD 6 ^^ (W 50).getLsbD 6)))) := by
  have hd : DV_I_50_2_bit ||| DV_II_46_2_bit = 0x00041000#32 := by decide
  unfold s172
  rw [hd]
  refine andForm _ _ _ _ k hk (fun hb => ?_)
  rw [subn_bit _ 6 _ hk (by decide) (ge_of_bit 0x00041000#32 6 (by decide) k hk hb)]; bitsimp

theorem s173_bit (W : Fin 80 → Word) (mask : Word) (k : Nat) (hk : k < 32) :
    (s173 W mask).getLsbD k = (mask.getLsbD k && (!(0x0000a000#32).getLsbD k || (((W 48).getLsbD 29 ^^ (W 55).getLsbD 29)))) := by
  have hd : DV_I_51_0_bit ||| DV_I_52_0_bit = 0x0000a000#32 := by decide
  unfold s173
  rw [hd]
  refine ifForm _ _ _ _ k hk (fun hb => ?_)
  rw [neg1_bit _ _ hk]; bitsimp

theorem s176_bit (W : Fin 80 → Word) (mask : Word) (k : Nat) (hk : k < 32) :
    (s176 W mask).getLsbD k = (mask.getLsbD k && (!(0x00004400#32).getLsbD k || (!((W 47).getLsbD 6 ^^ (W 49).getLsbD 6)))) := by
  have hd : DV_I_49_2_bit ||| DV_I_51_2_bit = 0x00004400#32 := by decide
  unfold s176
  rw [hd]
  refine andForm _ _ _ _ k hk (fun hb => ?_)
  rw [subn_bit _ 6 _ hk (by decide) (ge_of_bit 0x00004400#32 6 (by decide) k hk hb)]; bitsimp

theorem s177_bit (W : Fin 80 → Word) (mask : Word) (k : Nat) (hk : k < 32) :
    (s177 W mask).getLsbD k = (mask.getLsbD k && (!(0x04000040#32).getLsbD k || (!((W 47).getLsbD 6 ^^ (W 48).getLsbD 1)))) := by
  have hd : DV_I_47_2_bit ||| DV_II_51_2_bit = 0x04000040#32 := by decide
  unfold s177
  rw [hd]
  refine andForm _ _ _ _ k hk (fun hb => ?_)
  rw [subn_bit _ 1 _ hk (by decide) (ge_of_bit 0x04000040#32 1 (by decide) k hk hb)]; bitsimp

theorem s178_bit (W : Fin 80 → Word) (mask : Word) (k : Nat) (hk : k < 32) :
    (s178 W mask).getLsbD k = (mask.getLsbD k && (!(0x00001100#32).getLsbD k || (!((W 46).getLsbD 6 ^^ (W 48).getLsbD 6)))) := by
  have hd : DV_I_48_2_bit ||| DV_I_50_2_bit = 0x00001100#32 := by decide
  unfold s178
  rw [hd]
  refine andForm _ _ _ _ k hk (fun hb => ?_)
  rw [subn_bit _ 6 _ hk (by decide) (ge_of_bit 0x00001100#32 6 (by decide) k hk hb)]; bitsimp

theorem s179_bit (W : Fin 80 → Word) (mask : Word) (k : Nat) (hk : k < 32) :
    (s179 W mask).getLsbD k = (mask.getLsbD k && (!(0x01000010#32).getLsbD k || (!((W 46).getLsbD 6 ^^ (W 47).getLsbD 1)))) := by
  have hd : DV_I_46_2_bit ||| DV_II_50_2_bit = 0x01000010#32 := by decide
  unfold s179
  rw [hd]
  refine andForm _ _ _ _ k hk (fun hb => ?_)
  rw [subn_bit _ 1 _ hk (by decide) (ge_of_bit 0x01000010#32 1 (by decide) k hk hb)]; bitsimp

theorem s180_bit (W : Fin 80 → Word) (mask : Word) (k : Nat) (hk : k < 32) :
    (s180 W mask).getLsbD k = (mask.getLsbD k && (!(0x00404000#32).getLsbD k || (((W 44).getLsbD 1 ^^ (W 45).getLsbD 6)))) := by
  have hd : DV_I_51_2_bit ||| DV_II_49_2_bit = 0x00404000#32 := by decide
  unfold s180
  rw [hd]
  refine andForm _ _ _ _ k hk (fun hb => ?_)
  rw [negn_bit _ 1 _ hk (by decide) (ge_of_bit 0x00404000#32 1 (by decide) k hk hb)]; bitsimp

theorem s181_bit (W : Fin 80 → Word) (mask : Word) (k : Nat) (hk : k < 32) :
    (s181 W mask).getLsbD k = (mask.getLsbD k && (!(0x00000440#32).getLsbD k || (!((W 43).getLsbD 6 ^^ (W 45).getLsbD 6)))) := by
  have hd : DV_I_47_2_bit ||| DV_I_49_2_bit = 0x00000440#32 := by decide
  unfold s181
  rw [hd]
  refine andForm _ _ _ _ k hk (fun hb => ?_)
  rw [subn_bit _ 6 _ hk (by decide) (ge_of_bit 0x00000440#32 6 (by decide) k hk hb)]; bitsimp

theorem s182_bit (W : Fin 80 → Word) (mask : Word) (k : Nat) (hk : k < 32) :
    (s182 W mask).getLsbD k = (mask.getLsbD k && (!(0x00000110#32).getLsbD k || (!((W 42).getLsbD 6 ^^ (W 44).getLsbD 6)))) := by
  have hd : DV_I_46_2_bit ||| DV_I_48_2_bit = 0x00000110#32 := by decide
  unfold s182
  rw [hd]
  refine andForm _ _ _ _ k hk (fun hb => ?_)
  rw [sub1_bit _ _ hk]; bitsimp

theorem s183_bit (W : Fin 80 → Word) (mask : Word) (k : Nat) (hk : k < 32) :
    (s183 W mask).getLsbD k = (mask.getLsbD k && (!(0x04040000#32).getLsbD k || (!((W 42).getLsbD 6 ^^ (W 43).getLsbD 1)))) := by
  have hd : DV_II_46_2_bit ||| DV_II_51_2_bit = 0x04040000#32 := by decide
  unfold s183
  rw [hd]
  refine andForm _ _ _ _ k hk (fun hb => ?_)
  rw [subn_bit _ 1 _ hk (by decide) (ge_of_bit 0x04040000#32 1 (by decide) k hk hb)]; bitsimp

theorem s184_bit (W : Fin 80 → Word) (mask : Word) (k : Nat) (hk : k < 32) :
    (s184 W mask).getLsbD k = (mask.getLsbD k && (!(0x01004000#32).getLsbD k || (!((W 41).getLsbD 6 ^^ (W 42).getLsbD 1)))) := by
  have hd : DV_I_51_2_bit ||| DV_II_50_2_bit = 0x01004000#32 := by decide
  unfold s184
  rw [hd]
  refine andForm _ _ _ _ k hk (fun hb => ?_)
  rw [subn_bit _ 1 _ hk (by decide) (ge_of_bit 0x01004000#32 1 (by decide) k hk hb)]; bitsimp

theorem s185_bit (W : Fin 80 → Word) (mask : Word) (k : Nat) (hk : k < 32) :
    (s185 W mask).getLsbD k = (mask.getLsbD k && (!(0x00401000#32).getLsbD k || (!((W 40).getLsbD 6 ^^ (W 41).getLsbD 1)))) := by
  have hd : DV_I_50_2_bit ||| DV_II_49_2_bit = 0x00401000#32 := by decide
  unfold s185
  rw [hd]
  refine andForm _ _ _ _ k hk (fun hb => ?_)
  rw [subn_bit _ 1 _ hk (by decide) (ge_of_bit 0x00401000#32 1 (by decide) k hk hb)]; bitsimp

theorem s186_bit (W : Fin 80 → Word) (mask : Word) (k : Nat) (hk : k < 32) :
    (s186 W mask).getLsbD k = (mask.getLsbD k && (!(0x02008000#32).getLsbD k || (!((W 39).getLsbD 4 ^^ (W 43).getLsbD 29)))) := by
  have hd : DV_I_52_0_bit ||| DV_II_51_0_bit = 0x02008000#32 := by decide
  unfold s186
  rw [hd]
  refine ifForm _ _ _ _ k hk (fun hb => ?_)
  rw [subn_bit _ 4 _ hk (by decide) (ge_of_bit 0x02008000#32 4 (by decide) k hk hb)]; bitsimp

theorem s189_bit (W : Fin 80 → Word) (mask : Word) (k : Nat) (hk : k < 32) :
    (s189 W mask).getLsbD k = (mask.getLsbD k && (!(0x00802000#32).getLsbD k || (!((W 38).getLsbD 4 ^^ (W 42).getLsbD 29)))) := by
  have hd : DV_I_51_0_bit ||| DV_II_50_0_bit = 0x00802000#32 := by decide
  unfold s189
  rw [hd]
  refine ifForm _ _ _ _ k hk (fun hb => ?_)
  rw [subn_bit _ 4 _ hk (by decide) (ge_of_bit 0x00802000#32 4 (by decide) k hk hb)]; bitsimp

theorem s192_bit (W : Fin 80 → Word) (mask : Word) (k : Nat) (hk : k < 32) :
    (s192 W mask).getLsbD k = (mask.getLsbD k && (!(0x00004100#32).getLsbD k || (((W 37).getLsbD 1 ^^ (W 38).getLsbD 6)))) := by
  have hd : DV_I_48_2_bit ||| DV_I_51_2_bit = 0x00004100#32 := by decide
  unfold s192
  rw [hd]
  refine ifForm _ _ _ _ k hk (fun hb => ?_)
  rw [negn_bit _ 1 _ hk (by decide) (ge_of_bit 0x00004100#32 1 (by decide) k hk hb)]; bitsimp

theorem s195_bit (W : Fin 80 → Word) (mask : Word) (k : Nat) (hk : k < 32) :
    (s195 W mask).getLsbD k = (mask.getLsbD k && (!(0x00200800#32).getLsbD k || (!((W 37).getLsbD 4 ^^ (W 41).getLsbD 29)))) := by
  have hd : DV_I_50_0_bit ||| DV_II_49_0_bit = 0x00200800#32 := by decide
  unfold s195
  rw [hd]
  refine ifForm _ _ _ _ k hk (fun hb => ?_)
  rw [subn_bit _ 4 _ hk (by decide) (ge_of_bit 0x00200800#32 4 (by decide) k hk hb)]; bitsimp

theorem s198_bit (W : Fin 80 → Word) (mask : Word) (k : Nat) (hk : k < 32) :
    (s198 W mask).getLsbD k = (mask.getLsbD k && (!(0x28000000#32).getLsbD k || (((W 36).getLsbD 4 ^^ (W 38).getLsbD 4)))) := by
  have hd : DV_II_52_0_bit ||| DV_II_54_0_bit = 0x28000000#32 := by decide
  unfold s198
  rw [hd]
  refine ifForm _ _ _ _ k hk (fun hb => ?_)
  rw [negn_bit _ 4 _ hk (by decide) (ge_of_bit 0x28000000#32 4 (by decide) k hk hb)]; bitsimp

theorem s201_bit (W : Fin 80 → Word) (mask : Word) (k : Nat) (hk : k < 32) :
    (s201 W mask).getLsbD k = (mask.getLsbD k && (!(0x00000410#32).getLsbD k || (((W 35).getLsbD 1 ^^ (W 36).getLsbD 6)))) := by
  have hd : DV_I_46_2_bit ||| DV_I_49_2_bit = 0x00000410#32 := by decide
  unfold s201
  rw [hd]
  refine andForm _ _ _ _ k hk (fun hb => ?_)
  rw [negn_bit _ 1 _ hk (by decide) (ge_of_bit 0x00000410#32 1 (by decide) k hk hb)]; bitsimp

theorem s202_bit (W : Fin 80 → Word) (mask : Word) (k : Nat) (hk : k < 32) :
    (s202 W mask).getLsbD k = (mask.getLsbD k && (!(0x00082000#32).getLsbD k || (!((W 35).getLsbD 3 ^^ (W 39).getLsbD 28)))) := by
  have hd : DV_I_51_0_bit ||| DV_II_47_0_bit = 0x00082000#32 := by decide
  unfold s202
  rw [hd]
  refine ifForm _ _ _ _ k hk (fun hb => ?_)
  rw [subn_bit _ 3 _ hk (by decide) (ge_of_bit 0x00082000#32 3 (by decide) k hk hb)]; bitsimp

theorem s207_bit (W : Fin 80 → Word) (mask : Word) (k : Nat) (hk : k < 32) :
    (s207 W mask).getLsbD k = (mask.getLsbD k && (!(0x00000001#32).getLsbD k || ((((W 61).getLsbD 1 ^^ (W 62).getLsbD 6)) && (!((W 59).getLsbD 5 ^^ (W 63).getLsbD 30)) && (((W 58).getLsbD 0 ^^ (W 63).getLsbD 30))))) := by
  have hd : DV_I_43_0_bit = 0x00000001#32 := by decide
  unfold s207
  rw [hd]
  exact ifAnyForm _ _ _ _ k hk (by anysimp)

theorem s214_bit (W : Fin 80 → Word) (mask : Word) (k : Nat) (hk : k < 32) :
    (s214 W mask).getLsbD k = (mask.getLsbD k && (!(0x00000002#32).getLsbD k || ((((W 62).getLsbD 1 ^^ (W 63).getLsbD 6)) && (!((W 60).getLsbD 5 ^^ (W 64).getLsbD 30)) && (((W 59).getLsbD 0 ^^ (W 64).getLsbD 30))))) := by
  have hd : DV_I_44_0_bit = 0x00000002#32 := by decide
  unfold s214
  rw [hd]
  exact ifAnyForm _ _ _ _ k hk (by anysimp)

theorem s221_bit (W : Fin 80 → Word) (mask : Word) (k : Nat) (hk : k < 32) :
    (s221 W mask).getLsbD k = (mask.getLsbD k && (!(0x00000010#32).getLsbD k || (!((W 40).getLsbD 6 ^^ (W 42).getLsbD 6)))) := by
  have hd : DV_I_46_2_bit = 0x00000010#32 := by decide
  unfold s221
  rw [hd]
  refine ifForm _ _ _ _ k hk (fun hb => ?_)
  obtain rfl : k = 4 := eq_of_bit 0x00000010#32 4 (by decide) k hk hb
  bitsimp

theorem s224_bit (W : Fin 80 → Word) (mask : Word) (k : Nat) (hk : k < 32) :
    (s224 W mask).getLsbD k = (mask.getLsbD k && (!(0x00000040#32).getLsbD k || ((((W 62).getLsbD 2 ^^ (W 63).getLsbD 7)) && (!((W 41).getLsbD 6 ^^ (W 43).getLsbD 6))))) := by
  have hd : DV_I_47_2_bit = 0x00000040#32 := by decide
  unfold s224
  rw [hd]
  exact ifAnyForm _ _ _ _ k hk (by anysimp)

theorem s230_bit (W : Fin 80 → Word) (mask : Word) (k : Nat) (hk : k < 32) :
    (s230 W mask).getLsbD k = (mask.getLsbD k && (!(0x00000100#32).getLsbD k || ((((W 63).getLsbD 2 ^^ (W 64).getLsbD 7)) && (!((W 48).getLsbD 6 ^^ (W 49).getLsbD 1))))) := by
  have hd : DV_I_48_2_bit = 0x00000100#32 := by decide
  unfold s230
  rw [hd]
  exact ifAnyForm _ _ _ _ k hk (by anysimp)

theorem s236_bit (W : Fin 80 → Word) (mask : Word) (k : Nat) (hk : k < 32) :
    (s236 W mask).getLsbD k = (mask.getLsbD k && (!(0x00000400#32).getLsbD k || ((!((W 49).getLsbD 6 ^^ (W 50).getLsbD 1)) && (((W 42).getLsbD 1 ^^ (W 50).getLsbD 1)) && (!((W 39).getLsbD 6 ^^ (W 40).getLsbD 1)) && (((W 38).getLsbD 1 ^^ (W 40).getLsbD 1))))) := by
  have hd : DV_I_49_2_bit = 0x00000400#32 := by decide
  unfold s236
  rw [hd]
  exact ifAnyForm _ _ _ _ k hk (by anysimp)

theorem s244_bit (W : Fin 80 → Word) (mask : Word) (k : Nat) (hk : k < 32) :
    (s244 W mask).getLsbD k = (mask.getLsbD k && (!(0x00000800#32).getLsbD k || (((W 36).getLsbD 4 ^^ (W 37).getLsbD 4)))) := by
  have hd : DV_I_50_0_bit = 0x00000800#32 := by decide
  unfold s244
  rw [hd]
  refine ifForm _ _ _ _ k hk (fun hb => ?_)
  obtain rfl : k = 11 := eq_of_bit 0x00000800#32 11 (by decide) k hk hb
  bitsimp

theorem s247_bit (W : Fin 80 → Word) (mask : Word) (k : Nat) (hk : k < 32) :
    (s247 W mask).getLsbD k = (mask.getLsbD k && (!(0x00001000#32).getLsbD k || (((W 43).getLsbD 1 ^^ (W 51).getLsbD 1)))) := by
  have hd : DV_I_50_2_bit = 0x00001000#32 := by decide
  unfold s247
  rw [hd]
  refine ifForm _ _ _ _ k hk (fun hb => ?_)
  obtain rfl : k = 12 := eq_of_bit 0x00001000#32 12 (by decide) k hk hb
  bitsimp

theorem s250_bit (W : Fin 80 → Word) (mask : Word) (k : Nat) (hk : k < 32) :
    (s250 W mask).getLsbD k = (mask.getLsbD k && (!(0x00002000#32).getLsbD k || (((W 37).getLsbD 4 ^^ (W 38).getLsbD 4)))) := by
  have hd : DV_I_51_0_bit = 0x00002000#32 := by decide
  unfold s250
  rw [hd]
  refine ifForm _ _ _ _ k hk (fun hb => ?_)
  obtain rfl : k = 13 := eq_of_bit 0x00002000#32 13 (by decide) k hk hb
  bitsimp

theorem s253_bit (W : Fin 80 → Word) (mask : Word) (k : Nat) (hk : k < 32) :
    (s253 W mask).getLsbD k = (mask.getLsbD k && (!(0x00004000#32).getLsbD k || ((!((W 51).getLsbD 6 ^^ (W 52).getLsbD 1)) && (!((W 49).getLsbD 6 ^^ (W 51).getLsbD 6)) && (!((W 37).getLsbD 1 ^^ (W 37).getLsbD 6)) && (!((W 35).getLsbD 5 ^^ (W 39).getLsbD 30))))) := by
  have hd : DV_I_51_2_bit = 0x00004000#32 := by decide
  unfold s253
  rw [hd]
  exact ifAnyForm _ _ _ _ k hk (by anysimp)

theorem s261_bit (W : Fin 80 → Word) (mask : Word) (k : Nat) (hk : k < 32) :
    (s261 W mask).getLsbD k = (mask.getLsbD k && (!(0x00008000#32).getLsbD k || (((W 38).getLsbD 4 ^^ (W 39).getLsbD 4)))) := by
  have hd : DV_I_52_0_bit = 0x00008000#32 := by decide
  unfold s261
  rw [hd]
  refine ifForm _ _ _ _ k hk (fun hb => ?_)
  obtain rfl : k = 15 := eq_of_bit 0x00008000#32 15 (by decide) k hk hb
  bitsimp

theorem s264_bit (W : Fin 80 → Word) (mask : Word) (k : Nat) (hk : k < 32) :
    (s264 W mask).getLsbD k = (mask.getLsbD k && (!(0x00040000#32).getLsbD k || (((W 47).getLsbD 1 ^^ (W 51).getLsbD 1)))) := by
  have hd : DV_II_46_2_bit = 0x00040000#32 := by decide
  unfold s264
  rw [hd]
  refine ifForm _ _ _ _ k hk (fun hb => ?_)
  obtain rfl : k = 18 := eq_of_bit 0x00040000#32 18 (by decide) k hk hb
  bitsimp

theorem s267_bit (W : Fin 80 → Word) (mask : Word) (k : Nat) (hk : k < 32) :
    (s267 W mask).getLsbD k = (mask.getLsbD k && (!(0x00100000#32).getLsbD k || ((!((W 36).getLsbD 3 ^^ (W 40).getLsbD 28)) && (((W 35).getLsbD 30 ^^ (W 40).getLsbD 28))))) := by
  have hd : DV_II_48_0_bit = 0x00100000#32 := by decide
  unfold s267
  rw [hd]
  exact ifAnyForm _ _ _ _ k hk (by anysimp)

theorem s273_bit (W : Fin 80 → Word) (mask : Word) (k : Nat) (hk : k < 32) :
    (s273 W mask).getLsbD k = (mask.getLsbD k && (!(0x00200000#32).getLsbD k || ((!((W 37).getLsbD 3 ^^ (W 41).getLsbD 28)) && (((W 36).getLsbD 30 ^^ (W 41).getLsbD 28))))) := by
  have hd : DV_II_49_0_bit = 0x00200000#32 := by decide
  unfold s273
  rw [hd]
  exact ifAnyForm _ _ _ _ k hk (by anysimp)

theorem s279_bit (W : Fin 80 → Word) (mask : Word) (k : Nat) (hk : k < 32) :
    (s279 W mask).getLsbD k = (mask.getLsbD k && (!(0x00400000#32).getLsbD k || ((!((W 53).getLsbD 6 ^^ (W 54).getLsbD 1)) && (!((W 51).getLsbD 6 ^^ (W 53).getLsbD 6)) && (((W 50).getLsbD 1 ^^ (W 54).getLsbD 1)) && (!((W 45).getLsbD 6 ^^ (W 46).getLsbD 1)) && (!((W 37).getLsbD 5 ^^ (W 41).getLsbD 30)) && (((W 36).getLsbD 0 ^^ (W 41).getLsbD 30))))) := by
  have hd : DV_II_49_2_bit = 0x00400000#32 := by decide
  unfold s279
  rw [hd]
  exact ifAnyForm _ _ _ _ k hk (by anysimp)

theorem s289_bit (W : Fin 80 → Word) (mask : Word) (k : Nat) (hk : k < 32) :
    (s289 W mask).getLsbD k = (mask.getLsbD k && (!(0x00800000#32).getLsbD k || ((((W 55).getLsbD 29 ^^ (W 58).getLsbD 29)) && (!((W 38).getLsbD 3 ^^ (W 42).getLsbD 28)) && (((W 37).getLsbD 30 ^^ (W 42).getLsbD 28))))) := by
  have hd : DV_II_50_0_bit = 0x00800000#32 := by decide
  unfold s289
  rw [hd]
  exact ifAnyForm _ _ _ _ k hk (by anysimp)

theorem s296_bit (W : Fin 80 → Word) (mask : Word) (k : Nat) (hk : k < 32) :
    (s296 W mask).getLsbD k = (mask.getLsbD k && (!(0x01000000#32).getLsbD k || ((!((W 54).getLsbD 6 ^^ (W 55).getLsbD 1)) && (!((W 52).getLsbD 6 ^^ (W 54).getLsbD 6)) && (((W 51).getLsbD 1 ^^ (W 55).getLsbD 1)) && (((W 45).getLsbD 1 ^^ (W 47).getLsbD 1)) && (!((W 38).getLsbD 5 ^^ (W 42).getLsbD 30)) && (((W 37).getLsbD 0 ^^ (W 42).getLsbD 30))))) := by
  have hd : DV_II_50_2_bit = 0x01000000#32 := by decide
  unfold s296
  rw [hd]
  exact ifAnyForm _ _ _ _ k hk (by anysimp)

theorem s306_bit (W : Fin 80 → Word) (mask : Word) (k : Nat) (hk : k < 32) :
    (s306 W mask).getLsbD k = (mask.getLsbD k && (!(0x02000000#32).getLsbD k || ((!((W 39).getLsbD 3 ^^ (W 43).getLsbD 28)) && (((W 38).getLsbD 30 ^^ (W 43).getLsbD 28))))) := by
  have hd : DV_II_51_0_bit = 0x02000000#32 := by decide
  unfold s306
  rw [hd]
  exact ifAnyForm _ _ _ _ k hk (by anysimp)

theorem s312_bit (W : Fin 80 → Word) (mask : Word) (k : Nat) (hk : k < 32) :
    (s312 W mask).getLsbD k = (mask.getLsbD k && (!(0x04000000#32).getLsbD k || ((!((W 55).getLsbD 6 ^^ (W 56).getLsbD 1)) && (!((W 53).getLsbD 6 ^^ (W 55).getLsbD 6)) && (((W 52).getLsbD 1 ^^ (W 56).getLsbD 1)) && (((W 46).getLsbD 1 ^^ (W 48).getLsbD 1)) && (!((W 39).getLsbD 5 ^^ (W 43).getLsbD 30)) && (((W 38).getLsbD 0 ^^ (W 43).getLsbD 30))))) := by
  have hd : DV_II_51_2_bit = 0x04000000#32 := by decide
  unfold s312
  rw [hd]
  exact ifAnyForm _ _ _ _ k hk (by anysimp)

theorem s322_bit (W : Fin 80 → Word) (mask : Word) (k : Nat) (hk : k < 32) :
    (s322 W mask).getLsbD k = (mask.getLsbD k && (!(0x08000000#32).getLsbD k || ((!((W 59).getLsbD 29 ^^ (W 60).getLsbD 29)) && (!((W 40).getLsbD 3 ^^ (W 44).getLsbD 28)) && (!((W 40).getLsbD 4 ^^ (W 44).getLsbD 29)) && (((W 39).getLsbD 30 ^^ (W 44).getLsbD 28))))) := by
  have hd : DV_II_52_0_bit = 0x08000000#32 := by decide
  unfold s322
  rw [hd]
  exact ifAnyForm _ _ _ _ k hk (by anysimp)

theorem s330_bit (W : Fin 80 → Word) (mask : Word) (k : Nat) (hk : k < 32) :
    (s330 W mask).getLsbD k = (mask.getLsbD k && (!(0x10000000#32).getLsbD k || ((((W 58).getLsbD 29 ^^ (W 61).getLsbD 29)) && (!((W 57).getLsbD 4 ^^ (W 61).getLsbD 29)) && (!((W 41).getLsbD 3 ^^ (W 45).getLsbD 28)) && (!((W 41).getLsbD 4 ^^ (W 45).getLsbD 29))))) := by
  have hd : DV_II_53_0_bit = 0x10000000#32 := by decide
  unfold s330
  rw [hd]
  exact ifAnyForm _ _ _ _ k hk (by anysimp)

theorem s338_bit (W : Fin 80 → Word) (mask : Word) (k : Nat) (hk : k < 32) :
    (s338 W mask).getLsbD k = (mask.getLsbD k && (!(0x20000000#32).getLsbD k || ((!((W 58).getLsbD 4 ^^ (W 62).getLsbD 29)) && (!((W 42).getLsbD 3 ^^ (W 46).getLsbD 28)) && (!((W 42).getLsbD 4 ^^ (W 46).getLsbD 29))))) := by
  have hd : DV_II_54_0_bit = 0x20000000#32 := by decide
  unfold s338
  rw [hd]
  exact ifAnyForm _ _ _ _ k hk (by anysimp)

theorem s345_bit (W : Fin 80 → Word) (mask : Word) (k : Nat) (hk : k < 32) :
    (s345 W mask).getLsbD k = (mask.getLsbD k && (!(0x40000000#32).getLsbD k || ((!((W 59).getLsbD 4 ^^ (W 63).getLsbD 29)) && (!((W 57).getLsbD 4 ^^ (W 59).getLsbD 29)) && (!((W 43).getLsbD 3 ^^ (W 47).getLsbD 28)) && (!((W 43).getLsbD 4 ^^ (W 47).getLsbD 29))))) := by
  have hd : DV_II_55_0_bit = 0x40000000#32 := by decide
  unfold s345
  rw [hd]
  exact ifAnyForm _ _ _ _ k hk (by anysimp)

theorem s353_bit (W : Fin 80 → Word) (mask : Word) (k : Nat) (hk : k < 32) :
    (s353 W mask).getLsbD k = (mask.getLsbD k && (!(0x80000000#32).getLsbD k || ((!((W 60).getLsbD 4 ^^ (W 64).getLsbD 29)) && (!((W 44).getLsbD 3 ^^ (W 48).getLsbD 28)) && (!((W 44).getLsbD 4 ^^ (W 48).getLsbD 29))))) := by
  have hd : DV_II_56_0_bit = 0x80000000#32 := by decide
  unfold s353
  rw [hd]
  exact ifAnyForm _ _ _ _ k hk (by anysimp)

end Verif.Ubc
