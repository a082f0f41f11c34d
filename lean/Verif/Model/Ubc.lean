import Verif.Model.DvInfo

/-!
`CalculateDvMask`, ubc/ubc.go:32-363, transcribed by script from the source text, one definition per
statement; `mask &= e` is the function `mask ↦ mask &&& e`, `if` without `else` keeps the mask.
Untyped Go constants such as `(1 << 4)` have type `uint32` here.
-/

namespace Verif.Model.Ubc

open Verif

/-- ubc/const.go:9 -/
def DV_I_43_0_bit : Word := 1#32 <<< 0
/-- ubc/const.go:10 -/
def DV_I_44_0_bit : Word := 1#32 <<< 1
/-- ubc/const.go:11 -/
def DV_I_45_0_bit : Word := 1#32 <<< 2
/-- ubc/const.go:12 -/
def DV_I_46_0_bit : Word := 1#32 <<< 3
/-- ubc/const.go:13 -/
def DV_I_46_2_bit : Word := 1#32 <<< 4
/-- ubc/const.go:14 -/
def DV_I_47_0_bit : Word := 1#32 <<< 5
/-- ubc/const.go:15 -/
def DV_I_47_2_bit : Word := 1#32 <<< 6
/-- ubc/const.go:16 -/
def DV_I_48_0_bit : Word := 1#32 <<< 7
/-- ubc/const.go:17 -/
def DV_I_48_2_bit : Word := 1#32 <<< 8
/-- ubc/const.go:18 -/
def DV_I_49_0_bit : Word := 1#32 <<< 9
/-- ubc/const.go:19 -/
def DV_I_49_2_bit : Word := 1#32 <<< 10
/-- ubc/const.go:20 -/
def DV_I_50_0_bit : Word := 1#32 <<< 11
/-- ubc/const.go:21 -/
def DV_I_50_2_bit : Word := 1#32 <<< 12
/-- ubc/const.go:22 -/
def DV_I_51_0_bit : Word := 1#32 <<< 13
/-- ubc/const.go:23 -/
def DV_I_51_2_bit : Word := 1#32 <<< 14
/-- ubc/const.go:24 -/
def DV_I_52_0_bit : Word := 1#32 <<< 15
/-- ubc/const.go:25 -/
def DV_II_45_0_bit : Word := 1#32 <<< 16
/-- ubc/const.go:26 -/
def DV_II_46_0_bit : Word := 1#32 <<< 17
/-- ubc/const.go:27 -/
def DV_II_46_2_bit : Word := 1#32 <<< 18
/-- ubc/const.go:28 -/
def DV_II_47_0_bit : Word := 1#32 <<< 19
/-- ubc/const.go:29 -/
def DV_II_48_0_bit : Word := 1#32 <<< 20
/-- ubc/const.go:30 -/
def DV_II_49_0_bit : Word := 1#32 <<< 21
/-- ubc/const.go:31 -/
def DV_II_49_2_bit : Word := 1#32 <<< 22
/-- ubc/const.go:32 -/
def DV_II_50_0_bit : Word := 1#32 <<< 23
/-- ubc/const.go:33 -/
def DV_II_50_2_bit : Word := 1#32 <<< 24
/-- ubc/const.go:34 -/
def DV_II_51_0_bit : Word := 1#32 <<< 25
/-- ubc/const.go:35 -/
def DV_II_51_2_bit : Word := 1#32 <<< 26
/-- ubc/const.go:36 -/
def DV_II_52_0_bit : Word := 1#32 <<< 27
/-- ubc/const.go:37 -/
def DV_II_53_0_bit : Word := 1#32 <<< 28
/-- ubc/const.go:38 -/
def DV_II_54_0_bit : Word := 1#32 <<< 29
/-- ubc/const.go:39 -/
def DV_II_55_0_bit : Word := 1#32 <<< 30
/-- ubc/const.go:40 -/
def DV_II_56_0_bit : Word := 1#32 <<< 31

/-- ubc/ubc.go:365-371 -/
def not (x : Word) : Word := if x = 0 then 1 else 0

/-- ubc/ubc.go:37 -/
def s37 (W : Fin 80 → Word) (mask : Word) : Word :=
  mask &&& ((((((W 44) ^^^ (W 45)) >>> 29) &&& 1#32) - 1#32) ||| (~~~((((((DV_I_48_0_bit ||| DV_I_51_0_bit) ||| DV_I_52_0_bit) ||| DV_II_45_0_bit) ||| DV_II_46_0_bit) ||| DV_II_50_0_bit) ||| DV_II_51_0_bit)))

/-- ubc/ubc.go:38 -/
def s38 (W : Fin 80 → Word) (mask : Word) : Word :=
  mask &&& ((((((W 49) ^^^ (W 50)) >>> 29) &&& 1#32) - 1#32) ||| (~~~(((((DV_I_46_0_bit ||| DV_II_45_0_bit) ||| DV_II_50_0_bit) ||| DV_II_51_0_bit) ||| DV_II_55_0_bit) ||| DV_II_56_0_bit)))

/-- ubc/ubc.go:39 -/
def s39 (W : Fin 80 → Word) (mask : Word) : Word :=
  mask &&& ((((((W 48) ^^^ (W 49)) >>> 29) &&& 1#32) - 1#32) ||| (~~~(((((DV_I_45_0_bit ||| DV_I_52_0_bit) ||| DV_II_49_0_bit) ||| DV_II_50_0_bit) ||| DV_II_54_0_bit) ||| DV_II_55_0_bit)))

/-- ubc/ubc.go:40 -/
def s40 (W : Fin 80 → Word) (mask : Word) : Word :=
  mask &&& (((((W 47) ^^^ ((W 50) >>> 25)) &&& (1#32 <<< 4)) - (1#32 <<< 4)) ||| (~~~(((((DV_I_47_0_bit ||| DV_I_49_0_bit) ||| DV_I_51_0_bit) ||| DV_II_45_0_bit) ||| DV_II_51_0_bit) ||| DV_II_56_0_bit)))

/-- ubc/ubc.go:41 -/
def s41 (W : Fin 80 → Word) (mask : Word) : Word :=
  mask &&& ((((((W 47) ^^^ (W 48)) >>> 29) &&& 1#32) - 1#32) ||| (~~~(((((DV_I_44_0_bit ||| DV_I_51_0_bit) ||| DV_II_48_0_bit) ||| DV_II_49_0_bit) ||| DV_II_53_0_bit) ||| DV_II_54_0_bit)))

/-- ubc/ubc.go:42 -/
def s42 (W : Fin 80 → Word) (mask : Word) : Word :=
  mask &&& ((((((W 46) >>> 4) ^^^ ((W 49) >>> 29)) &&& 1#32) - 1#32) ||| (~~~(((((DV_I_46_0_bit ||| DV_I_48_0_bit) ||| DV_I_50_0_bit) ||| DV_I_52_0_bit) ||| DV_II_50_0_bit) ||| DV_II_55_0_bit)))

/-- ubc/ubc.go:43 -/
def s43 (W : Fin 80 → Word) (mask : Word) : Word :=
  mask &&& ((((((W 46) ^^^ (W 47)) >>> 29) &&& 1#32) - 1#32) ||| (~~~(((((DV_I_43_0_bit ||| DV_I_50_0_bit) ||| DV_II_47_0_bit) ||| DV_II_48_0_bit) ||| DV_II_52_0_bit) ||| DV_II_53_0_bit)))

/-- ubc/ubc.go:44 -/
def s44 (W : Fin 80 → Word) (mask : Word) : Word :=
  mask &&& ((((((W 45) >>> 4) ^^^ ((W 48) >>> 29)) &&& 1#32) - 1#32) ||| (~~~(((((DV_I_45_0_bit ||| DV_I_47_0_bit) ||| DV_I_49_0_bit) ||| DV_I_51_0_bit) ||| DV_II_49_0_bit) ||| DV_II_54_0_bit)))

/-- ubc/ubc.go:45 -/
def s45 (W : Fin 80 → Word) (mask : Word) : Word :=
  mask &&& ((((((W 45) ^^^ (W 46)) >>> 29) &&& 1#32) - 1#32) ||| (~~~(((((DV_I_49_0_bit ||| DV_I_52_0_bit) ||| DV_II_46_0_bit) ||| DV_II_47_0_bit) ||| DV_II_51_0_bit) ||| DV_II_52_0_bit)))

/-- ubc/ubc.go:46 -/
def s46 (W : Fin 80 → Word) (mask : Word) : Word :=
  mask &&& ((((((W 44) >>> 4) ^^^ ((W 47) >>> 29)) &&& 1#32) - 1#32) ||| (~~~(((((DV_I_44_0_bit ||| DV_I_46_0_bit) ||| DV_I_48_0_bit) ||| DV_I_50_0_bit) ||| DV_II_48_0_bit) ||| DV_II_53_0_bit)))

/-- ubc/ubc.go:47 -/
def s47 (W : Fin 80 → Word) (mask : Word) : Word :=
  mask &&& ((((((W 43) >>> 4) ^^^ ((W 46) >>> 29)) &&& 1#32) - 1#32) ||| (~~~(((((DV_I_43_0_bit ||| DV_I_45_0_bit) ||| DV_I_47_0_bit) ||| DV_I_49_0_bit) ||| DV_II_47_0_bit) ||| DV_II_52_0_bit)))

/-- ubc/ubc.go:48 -/
def s48 (W : Fin 80 → Word) (mask : Word) : Word :=
  mask &&& ((((((W 43) ^^^ (W 44)) >>> 29) &&& 1#32) - 1#32) ||| (~~~(((((DV_I_47_0_bit ||| DV_I_50_0_bit) ||| DV_I_51_0_bit) ||| DV_II_45_0_bit) ||| DV_II_49_0_bit) ||| DV_II_50_0_bit)))

/-- ubc/ubc.go:49 -/
def s49 (W : Fin 80 → Word) (mask : Word) : Word :=
  mask &&& ((((((W 42) >>> 4) ^^^ ((W 45) >>> 29)) &&& 1#32) - 1#32) ||| (~~~(((((DV_I_44_0_bit ||| DV_I_46_0_bit) ||| DV_I_48_0_bit) ||| DV_I_52_0_bit) ||| DV_II_46_0_bit) ||| DV_II_51_0_bit)))

/-- ubc/ubc.go:50 -/
def s50 (W : Fin 80 → Word) (mask : Word) : Word :=
  mask &&& ((((((W 41) >>> 4) ^^^ ((W 44) >>> 29)) &&& 1#32) - 1#32) ||| (~~~(((((DV_I_43_0_bit ||| DV_I_45_0_bit) ||| DV_I_47_0_bit) ||| DV_I_51_0_bit) ||| DV_II_45_0_bit) ||| DV_II_50_0_bit)))

/-- ubc/ubc.go:51 -/
def s51 (W : Fin 80 → Word) (mask : Word) : Word :=
  mask &&& ((((((W 40) ^^^ (W 41)) >>> 29) &&& 1#32) - 1#32) ||| (~~~(((((DV_I_44_0_bit ||| DV_I_47_0_bit) ||| DV_I_48_0_bit) ||| DV_II_46_0_bit) ||| DV_II_47_0_bit) ||| DV_II_56_0_bit)))

/-- ubc/ubc.go:52 -/
def s52 (W : Fin 80 → Word) (mask : Word) : Word :=
  mask &&& ((((((W 54) ^^^ (W 55)) >>> 29) &&& 1#32) - 1#32) ||| (~~~((((DV_I_51_0_bit ||| DV_II_47_0_bit) ||| DV_II_50_0_bit) ||| DV_II_55_0_bit) ||| DV_II_56_0_bit)))

/-- ubc/ubc.go:53 -/
def s53 (W : Fin 80 → Word) (mask : Word) : Word :=
  mask &&& ((((((W 53) ^^^ (W 54)) >>> 29) &&& 1#32) - 1#32) ||| (~~~((((DV_I_50_0_bit ||| DV_II_46_0_bit) ||| DV_II_49_0_bit) ||| DV_II_54_0_bit) ||| DV_II_55_0_bit)))

/-- ubc/ubc.go:54 -/
def s54 (W : Fin 80 → Word) (mask : Word) : Word :=
  mask &&& ((((((W 52) ^^^ (W 53)) >>> 29) &&& 1#32) - 1#32) ||| (~~~((((DV_I_49_0_bit ||| DV_II_45_0_bit) ||| DV_II_48_0_bit) ||| DV_II_53_0_bit) ||| DV_II_54_0_bit)))

/-- ubc/ubc.go:55 -/
def s55 (W : Fin 80 → Word) (mask : Word) : Word :=
  mask &&& (((((W 50) ^^^ ((W 53) >>> 25)) &&& (1#32 <<< 4)) - (1#32 <<< 4)) ||| (~~~((((DV_I_50_0_bit ||| DV_I_52_0_bit) ||| DV_II_46_0_bit) ||| DV_II_48_0_bit) ||| DV_II_54_0_bit)))

/-- ubc/ubc.go:56 -/
def s56 (W : Fin 80 → Word) (mask : Word) : Word :=
  mask &&& ((((((W 50) ^^^ (W 51)) >>> 29) &&& 1#32) - 1#32) ||| (~~~((((DV_I_47_0_bit ||| DV_II_46_0_bit) ||| DV_II_51_0_bit) ||| DV_II_52_0_bit) ||| DV_II_56_0_bit)))

/-- ubc/ubc.go:57 -/
def s57 (W : Fin 80 → Word) (mask : Word) : Word :=
  mask &&& (((((W 49) ^^^ ((W 52) >>> 25)) &&& (1#32 <<< 4)) - (1#32 <<< 4)) ||| (~~~((((DV_I_49_0_bit ||| DV_I_51_0_bit) ||| DV_II_45_0_bit) ||| DV_II_47_0_bit) ||| DV_II_53_0_bit)))

/-- ubc/ubc.go:58 -/
def s58 (W : Fin 80 → Word) (mask : Word) : Word :=
  mask &&& (((((W 48) ^^^ ((W 51) >>> 25)) &&& (1#32 <<< 4)) - (1#32 <<< 4)) ||| (~~~((((DV_I_48_0_bit ||| DV_I_50_0_bit) ||| DV_I_52_0_bit) ||| DV_II_46_0_bit) ||| DV_II_52_0_bit)))

/-- ubc/ubc.go:59 -/
def s59 (W : Fin 80 → Word) (mask : Word) : Word :=
  mask &&& ((((((W 42) ^^^ (W 43)) >>> 29) &&& 1#32) - 1#32) ||| (~~~((((DV_I_46_0_bit ||| DV_I_49_0_bit) ||| DV_I_50_0_bit) ||| DV_II_48_0_bit) ||| DV_II_49_0_bit)))

/-- ubc/ubc.go:60 -/
def s60 (W : Fin 80 → Word) (mask : Word) : Word :=
  mask &&& ((((((W 41) ^^^ (W 42)) >>> 29) &&& 1#32) - 1#32) ||| (~~~((((DV_I_45_0_bit ||| DV_I_48_0_bit) ||| DV_I_49_0_bit) ||| DV_II_47_0_bit) ||| DV_II_48_0_bit)))

/-- ubc/ubc.go:61 -/
def s61 (W : Fin 80 → Word) (mask : Word) : Word :=
  mask &&& ((((((W 40) >>> 4) ^^^ ((W 43) >>> 29)) &&& 1#32) - 1#32) ||| (~~~((((DV_I_44_0_bit ||| DV_I_46_0_bit) ||| DV_I_50_0_bit) ||| DV_II_49_0_bit) ||| DV_II_56_0_bit)))

/-- ubc/ubc.go:62 -/
def s62 (W : Fin 80 → Word) (mask : Word) : Word :=
  mask &&& ((((((W 39) >>> 4) ^^^ ((W 42) >>> 29)) &&& 1#32) - 1#32) ||| (~~~((((DV_I_43_0_bit ||| DV_I_45_0_bit) ||| DV_I_49_0_bit) ||| DV_II_48_0_bit) ||| DV_II_55_0_bit)))

/-- ubc/ubc.go:64-66 -/
def s64 (W : Fin 80 → Word) (mask : Word) : Word :=
  if (mask &&& ((((DV_I_44_0_bit ||| DV_I_48_0_bit) ||| DV_II_47_0_bit) ||| DV_II_54_0_bit) ||| DV_II_56_0_bit)) ≠ 0#32 then
    mask &&& ((((((W 38) >>> 4) ^^^ ((W 41) >>> 29)) &&& 1#32) - 1#32) ||| (~~~((((DV_I_44_0_bit ||| DV_I_48_0_bit) ||| DV_II_47_0_bit) ||| DV_II_54_0_bit) ||| DV_II_56_0_bit)))
  else mask

/-- ubc/ubc.go:67 -/
def s67 (W : Fin 80 → Word) (mask : Word) : Word :=
  mask &&& ((((((W 37) >>> 4) ^^^ ((W 40) >>> 29)) &&& 1#32) - 1#32) ||| (~~~((((DV_I_43_0_bit ||| DV_I_47_0_bit) ||| DV_II_46_0_bit) ||| DV_II_53_0_bit) ||| DV_II_55_0_bit)))

/-- ubc/ubc.go:68-70 -/
def s68 (W : Fin 80 → Word) (mask : Word) : Word :=
  if (mask &&& (((DV_I_52_0_bit ||| DV_II_48_0_bit) ||| DV_II_51_0_bit) ||| DV_II_56_0_bit)) ≠ 0#32 then
    mask &&& ((((((W 55) ^^^ (W 56)) >>> 29) &&& 1#32) - 1#32) ||| (~~~(((DV_I_52_0_bit ||| DV_II_48_0_bit) ||| DV_II_51_0_bit) ||| DV_II_56_0_bit)))
  else mask

/-- ubc/ubc.go:71-73 -/
def s71 (W : Fin 80 → Word) (mask : Word) : Word :=
  if (mask &&& (((DV_I_52_0_bit ||| DV_II_48_0_bit) ||| DV_II_50_0_bit) ||| DV_II_56_0_bit)) ≠ 0#32 then
    mask &&& (((((W 52) ^^^ ((W 55) >>> 25)) &&& (1#32 <<< 4)) - (1#32 <<< 4)) ||| (~~~(((DV_I_52_0_bit ||| DV_II_48_0_bit) ||| DV_II_50_0_bit) ||| DV_II_56_0_bit)))
  else mask

/-- ubc/ubc.go:74-76 -/
def s74 (W : Fin 80 → Word) (mask : Word) : Word :=
  if (mask &&& (((DV_I_51_0_bit ||| DV_II_47_0_bit) ||| DV_II_49_0_bit) ||| DV_II_55_0_bit)) ≠ 0#32 then
    mask &&& (((((W 51) ^^^ ((W 54) >>> 25)) &&& (1#32 <<< 4)) - (1#32 <<< 4)) ||| (~~~(((DV_I_51_0_bit ||| DV_II_47_0_bit) ||| DV_II_49_0_bit) ||| DV_II_55_0_bit)))
  else mask

/-- ubc/ubc.go:77-79 -/
def s77 (W : Fin 80 → Word) (mask : Word) : Word :=
  if (mask &&& (((DV_I_48_0_bit ||| DV_II_47_0_bit) ||| DV_II_52_0_bit) ||| DV_II_53_0_bit)) ≠ 0#32 then
    mask &&& ((((((W 51) ^^^ (W 52)) >>> 29) &&& 1#32) - 1#32) ||| (~~~(((DV_I_48_0_bit ||| DV_II_47_0_bit) ||| DV_II_52_0_bit) ||| DV_II_53_0_bit)))
  else mask

/-- ubc/ubc.go:80-82 -/
def s80 (W : Fin 80 → Word) (mask : Word) : Word :=
  if (mask &&& (((DV_I_46_0_bit ||| DV_I_49_0_bit) ||| DV_II_45_0_bit) ||| DV_II_48_0_bit)) ≠ 0#32 then
    mask &&& ((((((W 36) >>> 4) ^^^ ((W 40) >>> 29)) &&& 1#32) - 1#32) ||| (~~~(((DV_I_46_0_bit ||| DV_I_49_0_bit) ||| DV_II_45_0_bit) ||| DV_II_48_0_bit)))
  else mask

/-- ubc/ubc.go:83-85 -/
def s83 (W : Fin 80 → Word) (mask : Word) : Word :=
  if (mask &&& ((DV_I_52_0_bit ||| DV_II_48_0_bit) ||| DV_II_49_0_bit)) ≠ 0#32 then
    mask &&& ((0#32 - ((((W 53) ^^^ (W 56)) >>> 29) &&& 1#32)) ||| (~~~((DV_I_52_0_bit ||| DV_II_48_0_bit) ||| DV_II_49_0_bit)))
  else mask

/-- ubc/ubc.go:86-88 -/
def s86 (W : Fin 80 → Word) (mask : Word) : Word :=
  if (mask &&& ((DV_I_50_0_bit ||| DV_II_46_0_bit) ||| DV_II_47_0_bit)) ≠ 0#32 then
    mask &&& ((0#32 - ((((W 51) ^^^ (W 54)) >>> 29) &&& 1#32)) ||| (~~~((DV_I_50_0_bit ||| DV_II_46_0_bit) ||| DV_II_47_0_bit)))
  else mask

/-- ubc/ubc.go:89-91 -/
def s89 (W : Fin 80 → Word) (mask : Word) : Word :=
  if (mask &&& ((DV_I_49_0_bit ||| DV_I_51_0_bit) ||| DV_II_45_0_bit)) ≠ 0#32 then
    mask &&& ((0#32 - ((((W 50) ^^^ (W 52)) >>> 29) &&& 1#32)) ||| (~~~((DV_I_49_0_bit ||| DV_I_51_0_bit) ||| DV_II_45_0_bit)))
  else mask

/-- ubc/ubc.go:92-94 -/
def s92 (W : Fin 80 → Word) (mask : Word) : Word :=
  if (mask &&& ((DV_I_48_0_bit ||| DV_I_50_0_bit) ||| DV_I_52_0_bit)) ≠ 0#32 then
    mask &&& ((0#32 - ((((W 49) ^^^ (W 51)) >>> 29) &&& 1#32)) ||| (~~~((DV_I_48_0_bit ||| DV_I_50_0_bit) ||| DV_I_52_0_bit)))
  else mask

/-- ubc/ubc.go:95-97 -/
def s95 (W : Fin 80 → Word) (mask : Word) : Word :=
  if (mask &&& ((DV_I_47_0_bit ||| DV_I_49_0_bit) ||| DV_I_51_0_bit)) ≠ 0#32 then
    mask &&& ((0#32 - ((((W 48) ^^^ (W 50)) >>> 29) &&& 1#32)) ||| (~~~((DV_I_47_0_bit ||| DV_I_49_0_bit) ||| DV_I_51_0_bit)))
  else mask

/-- ubc/ubc.go:98-100 -/
def s98 (W : Fin 80 → Word) (mask : Word) : Word :=
  if (mask &&& ((DV_I_46_0_bit ||| DV_I_48_0_bit) ||| DV_I_50_0_bit)) ≠ 0#32 then
    mask &&& ((0#32 - ((((W 47) ^^^ (W 49)) >>> 29) &&& 1#32)) ||| (~~~((DV_I_46_0_bit ||| DV_I_48_0_bit) ||| DV_I_50_0_bit)))
  else mask

/-- ubc/ubc.go:101-103 -/
def s101 (W : Fin 80 → Word) (mask : Word) : Word :=
  if (mask &&& ((DV_I_45_0_bit ||| DV_I_47_0_bit) ||| DV_I_49_0_bit)) ≠ 0#32 then
    mask &&& ((0#32 - ((((W 46) ^^^ (W 48)) >>> 29) &&& 1#32)) ||| (~~~((DV_I_45_0_bit ||| DV_I_47_0_bit) ||| DV_I_49_0_bit)))
  else mask

/-- ubc/ubc.go:104 -/
def s104 (W : Fin 80 → Word) (mask : Word) : Word :=
  mask &&& (((((W 45) ^^^ (W 47)) &&& (1#32 <<< 6)) - (1#32 <<< 6)) ||| (~~~((DV_I_47_2_bit ||| DV_I_49_2_bit) ||| DV_I_51_2_bit)))

/-- ubc/ubc.go:105-107 -/
def s105 (W : Fin 80 → Word) (mask : Word) : Word :=
  if (mask &&& ((DV_I_44_0_bit ||| DV_I_46_0_bit) ||| DV_I_48_0_bit)) ≠ 0#32 then
    mask &&& ((0#32 - ((((W 45) ^^^ (W 47)) >>> 29) &&& 1#32)) ||| (~~~((DV_I_44_0_bit ||| DV_I_46_0_bit) ||| DV_I_48_0_bit)))
  else mask

/-- ubc/ubc.go:108 -/
def s108 (W : Fin 80 → Word) (mask : Word) : Word :=
  mask &&& ((((((W 44) ^^^ (W 46)) >>> 6) &&& 1#32) - 1#32) ||| (~~~((DV_I_46_2_bit ||| DV_I_48_2_bit) ||| DV_I_50_2_bit)))

/-- ubc/ubc.go:109-111 -/
def s109 (W : Fin 80 → Word) (mask : Word) : Word :=
  if (mask &&& ((DV_I_43_0_bit ||| DV_I_45_0_bit) ||| DV_I_47_0_bit)) ≠ 0#32 then
    mask &&& ((0#32 - ((((W 44) ^^^ (W 46)) >>> 29) &&& 1#32)) ||| (~~~((DV_I_43_0_bit ||| DV_I_45_0_bit) ||| DV_I_47_0_bit)))
  else mask

/-- ubc/ubc.go:112 -/
def s112 (W : Fin 80 → Word) (mask : Word) : Word :=
  mask &&& ((0#32 - (((W 41) ^^^ ((W 42) >>> 5)) &&& (1#32 <<< 1))) ||| (~~~((DV_I_48_2_bit ||| DV_II_46_2_bit) ||| DV_II_51_2_bit)))

/-- ubc/ubc.go:113 -/
def s113 (W : Fin 80 → Word) (mask : Word) : Word :=
  mask &&& ((0#32 - (((W 40) ^^^ ((W 41) >>> 5)) &&& (1#32 <<< 1))) ||| (~~~((DV_I_47_2_bit ||| DV_I_51_2_bit) ||| DV_II_50_2_bit)))

/-- ubc/ubc.go:114-116 -/
def s114 (W : Fin 80 → Word) (mask : Word) : Word :=
  if (mask &&& ((DV_I_44_0_bit ||| DV_I_46_0_bit) ||| DV_II_56_0_bit)) ≠ 0#32 then
    mask &&& ((0#32 - ((((W 40) ^^^ (W 42)) >>> 4) &&& 1#32)) ||| (~~~((DV_I_44_0_bit ||| DV_I_46_0_bit) ||| DV_II_56_0_bit)))
  else mask

/-- ubc/ubc.go:117 -/
def s117 (W : Fin 80 → Word) (mask : Word) : Word :=
  mask &&& ((0#32 - (((W 39) ^^^ ((W 40) >>> 5)) &&& (1#32 <<< 1))) ||| (~~~((DV_I_46_2_bit ||| DV_I_50_2_bit) ||| DV_II_49_2_bit)))

/-- ubc/ubc.go:118-120 -/
def s118 (W : Fin 80 → Word) (mask : Word) : Word :=
  if (mask &&& ((DV_I_43_0_bit ||| DV_I_45_0_bit) ||| DV_II_55_0_bit)) ≠ 0#32 then
    mask &&& ((0#32 - ((((W 39) ^^^ (W 41)) >>> 4) &&& 1#32)) ||| (~~~((DV_I_43_0_bit ||| DV_I_45_0_bit) ||| DV_II_55_0_bit)))
  else mask

/-- ubc/ubc.go:121-123 -/
def s121 (W : Fin 80 → Word) (mask : Word) : Word :=
  if (mask &&& ((DV_I_44_0_bit ||| DV_II_54_0_bit) ||| DV_II_56_0_bit)) ≠ 0#32 then
    mask &&& ((0#32 - ((((W 38) ^^^ (W 40)) >>> 4) &&& 1#32)) ||| (~~~((DV_I_44_0_bit ||| DV_II_54_0_bit) ||| DV_II_56_0_bit)))
  else mask

/-- ubc/ubc.go:124-126 -/
def s124 (W : Fin 80 → Word) (mask : Word) : Word :=
  if (mask &&& ((DV_I_43_0_bit ||| DV_II_53_0_bit) ||| DV_II_55_0_bit)) ≠ 0#32 then
    mask &&& ((0#32 - ((((W 37) ^^^ (W 39)) >>> 4) &&& 1#32)) ||| (~~~((DV_I_43_0_bit ||| DV_II_53_0_bit) ||| DV_II_55_0_bit)))
  else mask

/-- ubc/ubc.go:127 -/
def s127 (W : Fin 80 → Word) (mask : Word) : Word :=
  mask &&& ((0#32 - (((W 36) ^^^ ((W 37) >>> 5)) &&& (1#32 <<< 1))) ||| (~~~((DV_I_47_2_bit ||| DV_I_50_2_bit) ||| DV_II_46_2_bit)))

/-- ubc/ubc.go:128-130 -/
def s128 (W : Fin 80 → Word) (mask : Word) : Word :=
  if (mask &&& ((DV_I_45_0_bit ||| DV_I_48_0_bit) ||| DV_II_47_0_bit)) ≠ 0#32 then
    mask &&& ((((((W 35) >>> 4) ^^^ ((W 39) >>> 29)) &&& 1#32) - 1#32) ||| (~~~((DV_I_45_0_bit ||| DV_I_48_0_bit) ||| DV_II_47_0_bit)))
  else mask

/-- ubc/ubc.go:131-133 -/
def s131 (W : Fin 80 → Word) (mask : Word) : Word :=
  if (mask &&& (DV_I_48_0_bit ||| DV_II_48_0_bit)) ≠ 0#32 then
    mask &&& ((0#32 - (((W 63) ^^^ ((W 64) >>> 5)) &&& (1#32 <<< 0))) ||| (~~~(DV_I_48_0_bit ||| DV_II_48_0_bit)))
  else mask

/-- ubc/ubc.go:134-136 -/
def s134 (W : Fin 80 → Word) (mask : Word) : Word :=
  if (mask &&& (DV_I_45_0_bit ||| DV_II_45_0_bit)) ≠ 0#32 then
    mask &&& ((0#32 - (((W 63) ^^^ ((W 64) >>> 5)) &&& (1#32 <<< 1))) ||| (~~~(DV_I_45_0_bit ||| DV_II_45_0_bit)))
  else mask

/-- ubc/ubc.go:137-139 -/
def s137 (W : Fin 80 → Word) (mask : Word) : Word :=
  if (mask &&& (DV_I_47_0_bit ||| DV_II_47_0_bit)) ≠ 0#32 then
    mask &&& ((0#32 - (((W 62) ^^^ ((W 63) >>> 5)) &&& (1#32 <<< 0))) ||| (~~~(DV_I_47_0_bit ||| DV_II_47_0_bit)))
  else mask

/-- ubc/ubc.go:140-142 -/
def s140 (W : Fin 80 → Word) (mask : Word) : Word :=
  if (mask &&& (DV_I_46_0_bit ||| DV_II_46_0_bit)) ≠ 0#32 then
    mask &&& ((0#32 - (((W 61) ^^^ ((W 62) >>> 5)) &&& (1#32 <<< 0))) ||| (~~~(DV_I_46_0_bit ||| DV_II_46_0_bit)))
  else mask

/-- ubc/ubc.go:143 -/
def s143 (W : Fin 80 → Word) (mask : Word) : Word :=
  mask &&& ((0#32 - (((W 61) ^^^ ((W 62) >>> 5)) &&& (1#32 <<< 2))) ||| (~~~(DV_I_46_2_bit ||| DV_II_46_2_bit)))

/-- ubc/ubc.go:144-146 -/
def s144 (W : Fin 80 → Word) (mask : Word) : Word :=
  if (mask &&& (DV_I_45_0_bit ||| DV_II_45_0_bit)) ≠ 0#32 then
    mask &&& ((0#32 - (((W 60) ^^^ ((W 61) >>> 5)) &&& (1#32 <<< 0))) ||| (~~~(DV_I_45_0_bit ||| DV_II_45_0_bit)))
  else mask

/-- ubc/ubc.go:147-149 -/
def s147 (W : Fin 80 → Word) (mask : Word) : Word :=
  if (mask &&& (DV_II_51_0_bit ||| DV_II_54_0_bit)) ≠ 0#32 then
    mask &&& ((((((W 58) ^^^ (W 59)) >>> 29) &&& 1#32) - 1#32) ||| (~~~(DV_II_51_0_bit ||| DV_II_54_0_bit)))
  else mask

/-- ubc/ubc.go:150-152 -/
def s150 (W : Fin 80 → Word) (mask : Word) : Word :=
  if (mask &&& (DV_II_50_0_bit ||| DV_II_53_0_bit)) ≠ 0#32 then
    mask &&& ((((((W 57) ^^^ (W 58)) >>> 29) &&& 1#32) - 1#32) ||| (~~~(DV_II_50_0_bit ||| DV_II_53_0_bit)))
  else mask

/-- ubc/ubc.go:153-155 -/
def s153 (W : Fin 80 → Word) (mask : Word) : Word :=
  if (mask &&& (DV_II_52_0_bit ||| DV_II_54_0_bit)) ≠ 0#32 then
    mask &&& (((((W 56) ^^^ ((W 59) >>> 25)) &&& (1#32 <<< 4)) - (1#32 <<< 4)) ||| (~~~(DV_II_52_0_bit ||| DV_II_54_0_bit)))
  else mask

/-- ubc/ubc.go:156-158 -/
def s156 (W : Fin 80 → Word) (mask : Word) : Word :=
  if (mask &&& (DV_II_51_0_bit ||| DV_II_52_0_bit)) ≠ 0#32 then
    mask &&& ((0#32 - ((((W 56) ^^^ (W 59)) >>> 29) &&& 1#32)) ||| (~~~(DV_II_51_0_bit ||| DV_II_52_0_bit)))
  else mask

/-- ubc/ubc.go:159-161 -/
def s159 (W : Fin 80 → Word) (mask : Word) : Word :=
  if (mask &&& (DV_II_49_0_bit ||| DV_II_52_0_bit)) ≠ 0#32 then
    mask &&& ((((((W 56) ^^^ (W 57)) >>> 29) &&& 1#32) - 1#32) ||| (~~~(DV_II_49_0_bit ||| DV_II_52_0_bit)))
  else mask

/-- ubc/ubc.go:162-164 -/
def s162 (W : Fin 80 → Word) (mask : Word) : Word :=
  if (mask &&& (DV_II_51_0_bit ||| DV_II_53_0_bit)) ≠ 0#32 then
    mask &&& (((((W 55) ^^^ ((W 58) >>> 25)) &&& (1#32 <<< 4)) - (1#32 <<< 4)) ||| (~~~(DV_II_51_0_bit ||| DV_II_53_0_bit)))
  else mask

/-- ubc/ubc.go:165-167 -/
def s165 (W : Fin 80 → Word) (mask : Word) : Word :=
  if (mask &&& (DV_II_50_0_bit ||| DV_II_52_0_bit)) ≠ 0#32 then
    mask &&& (((((W 54) ^^^ ((W 57) >>> 25)) &&& (1#32 <<< 4)) - (1#32 <<< 4)) ||| (~~~(DV_II_50_0_bit ||| DV_II_52_0_bit)))
  else mask

/-- ubc/ubc.go:168-170 -/
def s168 (W : Fin 80 → Word) (mask : Word) : Word :=
  if (mask &&& (DV_II_49_0_bit ||| DV_II_51_0_bit)) ≠ 0#32 then
    mask &&& (((((W 53) ^^^ ((W 56) >>> 25)) &&& (1#32 <<< 4)) - (1#32 <<< 4)) ||| (~~~(DV_II_49_0_bit ||| DV_II_51_0_bit)))
  else mask

/-- ubc/ubc.go:171 -/
def s171 (W : Fin 80 → Word) (mask : Word) : Word :=
  mask &&& (((((W 51) ^^^ ((W 50) >>> 5)) &&& (1#32 <<< 1)) - (1#32 <<< 1)) ||| (~~~(DV_I_50_2_bit ||| DV_II_46_2_bit)))

/-- ubc/ubc.go:172 -/
def s172 (W : Fin 80 → Word) (mask : Word) : Word :=
  mask &&& (((((W 48) ^^^ (W 50)) &&& (1#32 <<< 6)) - (1#32 <<< 6)) ||| (~~~(DV_I_50_2_bit ||| DV_II_46_2_bit)))

/-- ubc/ubc.go:173-175 -/
def s173 (W : Fin 80 → Word) (mask : Word) : Word :=
  if (mask &&& (DV_I_51_0_bit ||| DV_I_52_0_bit)) ≠ 0#32 then
    mask &&& ((0#32 - ((((W 48) ^^^ (W 55)) >>> 29) &&& 1#32)) ||| (~~~(DV_I_51_0_bit ||| DV_I_52_0_bit)))
  else mask

/-- ubc/ubc.go:176 -/
def s176 (W : Fin 80 → Word) (mask : Word) : Word :=
  mask &&& (((((W 47) ^^^ (W 49)) &&& (1#32 <<< 6)) - (1#32 <<< 6)) ||| (~~~(DV_I_49_2_bit ||| DV_I_51_2_bit)))

/-- ubc/ubc.go:177 -/
def s177 (W : Fin 80 → Word) (mask : Word) : Word :=
  mask &&& (((((W 48) ^^^ ((W 47) >>> 5)) &&& (1#32 <<< 1)) - (1#32 <<< 1)) ||| (~~~(DV_I_47_2_bit ||| DV_II_51_2_bit)))

/-- ubc/ubc.go:178 -/
def s178 (W : Fin 80 → Word) (mask : Word) : Word :=
  mask &&& (((((W 46) ^^^ (W 48)) &&& (1#32 <<< 6)) - (1#32 <<< 6)) ||| (~~~(DV_I_48_2_bit ||| DV_I_50_2_bit)))

/-- ubc/ubc.go:179 -/
def s179 (W : Fin 80 → Word) (mask : Word) : Word :=
  mask &&& (((((W 47) ^^^ ((W 46) >>> 5)) &&& (1#32 <<< 1)) - (1#32 <<< 1)) ||| (~~~(DV_I_46_2_bit ||| DV_II_50_2_bit)))

/-- ubc/ubc.go:180 -/
def s180 (W : Fin 80 → Word) (mask : Word) : Word :=
  mask &&& ((0#32 - (((W 44) ^^^ ((W 45) >>> 5)) &&& (1#32 <<< 1))) ||| (~~~(DV_I_51_2_bit ||| DV_II_49_2_bit)))

/-- ubc/ubc.go:181 -/
def s181 (W : Fin 80 → Word) (mask : Word) : Word :=
  mask &&& (((((W 43) ^^^ (W 45)) &&& (1#32 <<< 6)) - (1#32 <<< 6)) ||| (~~~(DV_I_47_2_bit ||| DV_I_49_2_bit)))

/-- ubc/ubc.go:182 -/
def s182 (W : Fin 80 → Word) (mask : Word) : Word :=
  mask &&& ((((((W 42) ^^^ (W 44)) >>> 6) &&& 1#32) - 1#32) ||| (~~~(DV_I_46_2_bit ||| DV_I_48_2_bit)))

/-- ubc/ubc.go:183 -/
def s183 (W : Fin 80 → Word) (mask : Word) : Word :=
  mask &&& (((((W 43) ^^^ ((W 42) >>> 5)) &&& (1#32 <<< 1)) - (1#32 <<< 1)) ||| (~~~(DV_II_46_2_bit ||| DV_II_51_2_bit)))

/-- ubc/ubc.go:184 -/
def s184 (W : Fin 80 → Word) (mask : Word) : Word :=
  mask &&& (((((W 42) ^^^ ((W 41) >>> 5)) &&& (1#32 <<< 1)) - (1#32 <<< 1)) ||| (~~~(DV_I_51_2_bit ||| DV_II_50_2_bit)))

/-- ubc/ubc.go:185 -/
def s185 (W : Fin 80 → Word) (mask : Word) : Word :=
  mask &&& (((((W 41) ^^^ ((W 40) >>> 5)) &&& (1#32 <<< 1)) - (1#32 <<< 1)) ||| (~~~(DV_I_50_2_bit ||| DV_II_49_2_bit)))

/-- ubc/ubc.go:186-188 -/
def s186 (W : Fin 80 → Word) (mask : Word) : Word :=
  if (mask &&& (DV_I_52_0_bit ||| DV_II_51_0_bit)) ≠ 0#32 then
    mask &&& (((((W 39) ^^^ ((W 43) >>> 25)) &&& (1#32 <<< 4)) - (1#32 <<< 4)) ||| (~~~(DV_I_52_0_bit ||| DV_II_51_0_bit)))
  else mask

/-- ubc/ubc.go:189-191 -/
def s189 (W : Fin 80 → Word) (mask : Word) : Word :=
  if (mask &&& (DV_I_51_0_bit ||| DV_II_50_0_bit)) ≠ 0#32 then
    mask &&& (((((W 38) ^^^ ((W 42) >>> 25)) &&& (1#32 <<< 4)) - (1#32 <<< 4)) ||| (~~~(DV_I_51_0_bit ||| DV_II_50_0_bit)))
  else mask

/-- ubc/ubc.go:192-194 -/
def s192 (W : Fin 80 → Word) (mask : Word) : Word :=
  if (mask &&& (DV_I_48_2_bit ||| DV_I_51_2_bit)) ≠ 0#32 then
    mask &&& ((0#32 - (((W 37) ^^^ ((W 38) >>> 5)) &&& (1#32 <<< 1))) ||| (~~~(DV_I_48_2_bit ||| DV_I_51_2_bit)))
  else mask

/-- ubc/ubc.go:195-197 -/
def s195 (W : Fin 80 → Word) (mask : Word) : Word :=
  if (mask &&& (DV_I_50_0_bit ||| DV_II_49_0_bit)) ≠ 0#32 then
    mask &&& (((((W 37) ^^^ ((W 41) >>> 25)) &&& (1#32 <<< 4)) - (1#32 <<< 4)) ||| (~~~(DV_I_50_0_bit ||| DV_II_49_0_bit)))
  else mask

/-- ubc/ubc.go:198-200 -/
def s198 (W : Fin 80 → Word) (mask : Word) : Word :=
  if (mask &&& (DV_II_52_0_bit ||| DV_II_54_0_bit)) ≠ 0#32 then
    mask &&& ((0#32 - (((W 36) ^^^ (W 38)) &&& (1#32 <<< 4))) ||| (~~~(DV_II_52_0_bit ||| DV_II_54_0_bit)))
  else mask

/-- ubc/ubc.go:201 -/
def s201 (W : Fin 80 → Word) (mask : Word) : Word :=
  mask &&& ((0#32 - (((W 35) ^^^ ((W 36) >>> 5)) &&& (1#32 <<< 1))) ||| (~~~(DV_I_46_2_bit ||| DV_I_49_2_bit)))

/-- ubc/ubc.go:202-204 -/
def s202 (W : Fin 80 → Word) (mask : Word) : Word :=
  if (mask &&& (DV_I_51_0_bit ||| DV_II_47_0_bit)) ≠ 0#32 then
    mask &&& (((((W 35) ^^^ ((W 39) >>> 25)) &&& (1#32 <<< 3)) - (1#32 <<< 3)) ||| (~~~(DV_I_51_0_bit ||| DV_II_47_0_bit)))
  else mask

/-- ubc/ubc.go:207-213 -/
def s207 (W : Fin 80 → Word) (mask : Word) : Word :=
  if (mask &&& DV_I_43_0_bit) ≠ 0#32 then
    if (not (((W 61) ^^^ ((W 62) >>> 5)) &&& (1#32 <<< 1))) ≠ 0#32 ∨ (not (not (((W 59) ^^^ ((W 63) >>> 25)) &&& (1#32 <<< 5)))) ≠ 0#32 ∨ (not (((W 58) ^^^ ((W 63) >>> 30)) &&& (1#32 <<< 0))) ≠ 0#32 then
      mask &&& (~~~DV_I_43_0_bit)
    else mask
  else mask

/-- ubc/ubc.go:214-220 -/
def s214 (W : Fin 80 → Word) (mask : Word) : Word :=
  if (mask &&& DV_I_44_0_bit) ≠ 0#32 then
    if (not (((W 62) ^^^ ((W 63) >>> 5)) &&& (1#32 <<< 1))) ≠ 0#32 ∨ (not (not (((W 60) ^^^ ((W 64) >>> 25)) &&& (1#32 <<< 5)))) ≠ 0#32 ∨ (not (((W 59) ^^^ ((W 64) >>> 30)) &&& (1#32 <<< 0))) ≠ 0#32 then
      mask &&& (~~~DV_I_44_0_bit)
    else mask
  else mask

/-- ubc/ubc.go:221-223 -/
def s221 (W : Fin 80 → Word) (mask : Word) : Word :=
  if (mask &&& DV_I_46_2_bit) ≠ 0#32 then
    mask &&& ((~~~(((W 40) ^^^ (W 42)) >>> 2)) ||| (~~~DV_I_46_2_bit))
  else mask

/-- ubc/ubc.go:224-229 -/
def s224 (W : Fin 80 → Word) (mask : Word) : Word :=
  if (mask &&& DV_I_47_2_bit) ≠ 0#32 then
    if (not (((W 62) ^^^ ((W 63) >>> 5)) &&& (1#32 <<< 2))) ≠ 0#32 ∨ (not (not (((W 41) ^^^ (W 43)) &&& (1#32 <<< 6)))) ≠ 0#32 then
      mask &&& (~~~DV_I_47_2_bit)
    else mask
  else mask

/-- ubc/ubc.go:230-235 -/
def s230 (W : Fin 80 → Word) (mask : Word) : Word :=
  if (mask &&& DV_I_48_2_bit) ≠ 0#32 then
    if (not (((W 63) ^^^ ((W 64) >>> 5)) &&& (1#32 <<< 2))) ≠ 0#32 ∨ (not (not (((W 48) ^^^ ((W 49) <<< 5)) &&& (1#32 <<< 6)))) ≠ 0#32 then
      mask &&& (~~~DV_I_48_2_bit)
    else mask
  else mask

/-- ubc/ubc.go:236-243 -/
def s236 (W : Fin 80 → Word) (mask : Word) : Word :=
  if (mask &&& DV_I_49_2_bit) ≠ 0#32 then
    if (not (not (((W 49) ^^^ ((W 50) <<< 5)) &&& (1#32 <<< 6)))) ≠ 0#32 ∨ (not (((W 42) ^^^ (W 50)) &&& (1#32 <<< 1))) ≠ 0#32 ∨ (not (not (((W 39) ^^^ ((W 40) <<< 5)) &&& (1#32 <<< 6)))) ≠ 0#32 ∨ (not (((W 38) ^^^ (W 40)) &&& (1#32 <<< 1))) ≠ 0#32 then
      mask &&& (~~~DV_I_49_2_bit)
    else mask
  else mask

/-- ubc/ubc.go:244-246 -/
def s244 (W : Fin 80 → Word) (mask : Word) : Word :=
  if (mask &&& DV_I_50_0_bit) ≠ 0#32 then
    mask &&& ((((W 36) ^^^ (W 37)) <<< 7) ||| (~~~DV_I_50_0_bit))
  else mask

/-- ubc/ubc.go:247-249 -/
def s247 (W : Fin 80 → Word) (mask : Word) : Word :=
  if (mask &&& DV_I_50_2_bit) ≠ 0#32 then
    mask &&& ((((W 43) ^^^ (W 51)) <<< 11) ||| (~~~DV_I_50_2_bit))
  else mask

/-- ubc/ubc.go:250-252 -/
def s250 (W : Fin 80 → Word) (mask : Word) : Word :=
  if (mask &&& DV_I_51_0_bit) ≠ 0#32 then
    mask &&& ((((W 37) ^^^ (W 38)) <<< 9) ||| (~~~DV_I_51_0_bit))
  else mask

/-- ubc/ubc.go:253-260 -/
def s253 (W : Fin 80 → Word) (mask : Word) : Word :=
  if (mask &&& DV_I_51_2_bit) ≠ 0#32 then
    if (not (not (((W 51) ^^^ ((W 52) <<< 5)) &&& (1#32 <<< 6)))) ≠ 0#32 ∨ (not (not (((W 49) ^^^ (W 51)) &&& (1#32 <<< 6)))) ≠ 0#32 ∨ (not (not (((W 37) ^^^ ((W 37) >>> 5)) &&& (1#32 <<< 1)))) ≠ 0#32 ∨ (not (not (((W 35) ^^^ ((W 39) >>> 25)) &&& (1#32 <<< 5)))) ≠ 0#32 then
      mask &&& (~~~DV_I_51_2_bit)
    else mask
  else mask

/-- ubc/ubc.go:261-263 -/
def s261 (W : Fin 80 → Word) (mask : Word) : Word :=
  if (mask &&& DV_I_52_0_bit) ≠ 0#32 then
    mask &&& ((((W 38) ^^^ (W 39)) <<< 11) ||| (~~~DV_I_52_0_bit))
  else mask

/-- ubc/ubc.go:264-266 -/
def s264 (W : Fin 80 → Word) (mask : Word) : Word :=
  if (mask &&& DV_II_46_2_bit) ≠ 0#32 then
    mask &&& ((((W 47) ^^^ (W 51)) <<< 17) ||| (~~~DV_II_46_2_bit))
  else mask

/-- ubc/ubc.go:267-272 -/
def s267 (W : Fin 80 → Word) (mask : Word) : Word :=
  if (mask &&& DV_II_48_0_bit) ≠ 0#32 then
    if (not (not (((W 36) ^^^ ((W 40) >>> 25)) &&& (1#32 <<< 3)))) ≠ 0#32 ∨ (not (((W 35) ^^^ ((W 40) <<< 2)) &&& (1#32 <<< 30))) ≠ 0#32 then
      mask &&& (~~~DV_II_48_0_bit)
    else mask
  else mask

/-- ubc/ubc.go:273-278 -/
def s273 (W : Fin 80 → Word) (mask : Word) : Word :=
  if (mask &&& DV_II_49_0_bit) ≠ 0#32 then
    if (not (not (((W 37) ^^^ ((W 41) >>> 25)) &&& (1#32 <<< 3)))) ≠ 0#32 ∨ (not (((W 36) ^^^ ((W 41) <<< 2)) &&& (1#32 <<< 30))) ≠ 0#32 then
      mask &&& (~~~DV_II_49_0_bit)
    else mask
  else mask

/-- ubc/ubc.go:279-288 -/
def s279 (W : Fin 80 → Word) (mask : Word) : Word :=
  if (mask &&& DV_II_49_2_bit) ≠ 0#32 then
    if (not (not (((W 53) ^^^ ((W 54) <<< 5)) &&& (1#32 <<< 6)))) ≠ 0#32 ∨ (not (not (((W 51) ^^^ (W 53)) &&& (1#32 <<< 6)))) ≠ 0#32 ∨ (not (((W 50) ^^^ (W 54)) &&& (1#32 <<< 1))) ≠ 0#32 ∨ (not (not (((W 45) ^^^ ((W 46) <<< 5)) &&& (1#32 <<< 6)))) ≠ 0#32 ∨ (not (not (((W 37) ^^^ ((W 41) >>> 25)) &&& (1#32 <<< 5)))) ≠ 0#32 ∨ (not (((W 36) ^^^ ((W 41) >>> 30)) &&& (1#32 <<< 0))) ≠ 0#32 then
      mask &&& (~~~DV_II_49_2_bit)
    else mask
  else mask

/-- ubc/ubc.go:289-295 -/
def s289 (W : Fin 80 → Word) (mask : Word) : Word :=
  if (mask &&& DV_II_50_0_bit) ≠ 0#32 then
    if (not (((W 55) ^^^ (W 58)) &&& (1#32 <<< 29))) ≠ 0#32 ∨ (not (not (((W 38) ^^^ ((W 42) >>> 25)) &&& (1#32 <<< 3)))) ≠ 0#32 ∨ (not (((W 37) ^^^ ((W 42) <<< 2)) &&& (1#32 <<< 30))) ≠ 0#32 then
      mask &&& (~~~DV_II_50_0_bit)
    else mask
  else mask

/-- ubc/ubc.go:296-305 -/
def s296 (W : Fin 80 → Word) (mask : Word) : Word :=
  if (mask &&& DV_II_50_2_bit) ≠ 0#32 then
    if (not (not (((W 54) ^^^ ((W 55) <<< 5)) &&& (1#32 <<< 6)))) ≠ 0#32 ∨ (not (not (((W 52) ^^^ (W 54)) &&& (1#32 <<< 6)))) ≠ 0#32 ∨ (not (((W 51) ^^^ (W 55)) &&& (1#32 <<< 1))) ≠ 0#32 ∨ (not (((W 45) ^^^ (W 47)) &&& (1#32 <<< 1))) ≠ 0#32 ∨ (not (not (((W 38) ^^^ ((W 42) >>> 25)) &&& (1#32 <<< 5)))) ≠ 0#32 ∨ (not (((W 37) ^^^ ((W 42) >>> 30)) &&& (1#32 <<< 0))) ≠ 0#32 then
      mask &&& (~~~DV_II_50_2_bit)
    else mask
  else mask

/-- ubc/ubc.go:306-311 -/
def s306 (W : Fin 80 → Word) (mask : Word) : Word :=
  if (mask &&& DV_II_51_0_bit) ≠ 0#32 then
    if (not (not (((W 39) ^^^ ((W 43) >>> 25)) &&& (1#32 <<< 3)))) ≠ 0#32 ∨ (not (((W 38) ^^^ ((W 43) <<< 2)) &&& (1#32 <<< 30))) ≠ 0#32 then
      mask &&& (~~~DV_II_51_0_bit)
    else mask
  else mask

/-- ubc/ubc.go:312-321 -/
def s312 (W : Fin 80 → Word) (mask : Word) : Word :=
  if (mask &&& DV_II_51_2_bit) ≠ 0#32 then
    if (not (not (((W 55) ^^^ ((W 56) <<< 5)) &&& (1#32 <<< 6)))) ≠ 0#32 ∨ (not (not (((W 53) ^^^ (W 55)) &&& (1#32 <<< 6)))) ≠ 0#32 ∨ (not (((W 52) ^^^ (W 56)) &&& (1#32 <<< 1))) ≠ 0#32 ∨ (not (((W 46) ^^^ (W 48)) &&& (1#32 <<< 1))) ≠ 0#32 ∨ (not (not (((W 39) ^^^ ((W 43) >>> 25)) &&& (1#32 <<< 5)))) ≠ 0#32 ∨ (not (((W 38) ^^^ ((W 43) >>> 30)) &&& (1#32 <<< 0))) ≠ 0#32 then
      mask &&& (~~~DV_II_51_2_bit)
    else mask
  else mask

/-- ubc/ubc.go:322-329 -/
def s322 (W : Fin 80 → Word) (mask : Word) : Word :=
  if (mask &&& DV_II_52_0_bit) ≠ 0#32 then
    if (not (not (((W 59) ^^^ (W 60)) &&& (1#32 <<< 29)))) ≠ 0#32 ∨ (not (not (((W 40) ^^^ ((W 44) >>> 25)) &&& (1#32 <<< 3)))) ≠ 0#32 ∨ (not (not (((W 40) ^^^ ((W 44) >>> 25)) &&& (1#32 <<< 4)))) ≠ 0#32 ∨ (not (((W 39) ^^^ ((W 44) <<< 2)) &&& (1#32 <<< 30))) ≠ 0#32 then
      mask &&& (~~~DV_II_52_0_bit)
    else mask
  else mask

/-- ubc/ubc.go:330-337 -/
def s330 (W : Fin 80 → Word) (mask : Word) : Word :=
  if (mask &&& DV_II_53_0_bit) ≠ 0#32 then
    if (not (((W 58) ^^^ (W 61)) &&& (1#32 <<< 29))) ≠ 0#32 ∨ (not (not (((W 57) ^^^ ((W 61) >>> 25)) &&& (1#32 <<< 4)))) ≠ 0#32 ∨ (not (not (((W 41) ^^^ ((W 45) >>> 25)) &&& (1#32 <<< 3)))) ≠ 0#32 ∨ (not (not (((W 41) ^^^ ((W 45) >>> 25)) &&& (1#32 <<< 4)))) ≠ 0#32 then
      mask &&& (~~~DV_II_53_0_bit)
    else mask
  else mask

/-- ubc/ubc.go:338-344 -/
def s338 (W : Fin 80 → Word) (mask : Word) : Word :=
  if (mask &&& DV_II_54_0_bit) ≠ 0#32 then
    if (not (not (((W 58) ^^^ ((W 62) >>> 25)) &&& (1#32 <<< 4)))) ≠ 0#32 ∨ (not (not (((W 42) ^^^ ((W 46) >>> 25)) &&& (1#32 <<< 3)))) ≠ 0#32 ∨ (not (not (((W 42) ^^^ ((W 46) >>> 25)) &&& (1#32 <<< 4)))) ≠ 0#32 then
      mask &&& (~~~DV_II_54_0_bit)
    else mask
  else mask

/-- ubc/ubc.go:345-352 -/
def s345 (W : Fin 80 → Word) (mask : Word) : Word :=
  if (mask &&& DV_II_55_0_bit) ≠ 0#32 then
    if (not (not (((W 59) ^^^ ((W 63) >>> 25)) &&& (1#32 <<< 4)))) ≠ 0#32 ∨ (not (not (((W 57) ^^^ ((W 59) >>> 25)) &&& (1#32 <<< 4)))) ≠ 0#32 ∨ (not (not (((W 43) ^^^ ((W 47) >>> 25)) &&& (1#32 <<< 3)))) ≠ 0#32 ∨ (not (not (((W 43) ^^^ ((W 47) >>> 25)) &&& (1#32 <<< 4)))) ≠ 0#32 then
      mask &&& (~~~DV_II_55_0_bit)
    else mask
  else mask

/-- ubc/ubc.go:353-359 -/
def s353 (W : Fin 80 → Word) (mask : Word) : Word :=
  if (mask &&& DV_II_56_0_bit) ≠ 0#32 then
    if (not (not (((W 60) ^^^ ((W 64) >>> 25)) &&& (1#32 <<< 4)))) ≠ 0#32 ∨ (not (not (((W 44) ^^^ ((W 48) >>> 25)) &&& (1#32 <<< 3)))) ≠ 0#32 ∨ (not (not (((W 44) ^^^ ((W 48) >>> 25)) &&& (1#32 <<< 4)))) ≠ 0#32 then
      mask &&& (~~~DV_II_56_0_bit)
    else mask
  else mask

/-- The statements of ubc/ubc.go:37-204, in order. -/
def outer : List ((Fin 80 → Word) → Word → Word) :=
  [s37, s38, s39, s40, s41, s42, s43, s44, s45, s46, s47, s48, s49, s50, s51, s52, s53, s54, s55,
   s56, s57, s58, s59, s60, s61, s62, s64, s67, s68, s71, s74, s77, s80, s83, s86, s89, s92, s95,
   s98, s101, s104, s105, s108, s109, s112, s113, s114, s117, s118, s121, s124, s127, s128, s131,
   s134, s137, s140, s143, s144, s147, s150, s153, s156, s159, s162, s165, s168, s171, s172,
   s173, s176, s177, s178, s179, s180, s181, s182, s183, s184, s185, s186, s189, s192, s195,
   s198, s201, s202]

/-- The statements inside `if mask != 0` (ubc/ubc.go:206-360), in order. -/
def inner : List ((Fin 80 → Word) → Word → Word) :=
  [s207, s214, s221, s224, s230, s236, s244, s247, s250, s253, s261, s264, s267, s273, s279,
   s289, s296, s306, s312, s322, s330, s338, s345, s353]

/-- ubc/ubc.go:32-363.  The argument is a pointer; `none` is `nil`. -/
def calculateDvMask (W : Option (Fin 80 → Word)) : Word :=
  match W with
  | none => 0
  | some W =>
    let mask : Word := 0xFFFFFFFF
    let mask := outer.foldl (fun mask s => s W mask) mask
    if mask ≠ 0 then
      inner.foldl (fun mask s => s W mask) mask
    else mask

end Verif.Model.Ubc
