import Verif.Model.DvInfo

/-!
`ubc_check`, cgo/ubc_check.c:73-293, transcribed by script from the source text, one definition per
statement; `mask &= e` is the function `mask ↦ mask &&& e`, `if` without `else` keeps the mask.
`int` constants such as `(1 << 4)` meet `uint32_t` operands and are converted, so they have type `uint32_t` here;
`!e` is 1 if `e` is 0, else 0; a condition is true iff it is not 0.
-/

namespace Verif.Model.C.Ubc

open Verif

/-- cgo/ubc_check.c:37 -/
def DV_I_43_0_bit : Word := 1#32 <<< 0
/-- cgo/ubc_check.c:38 -/
def DV_I_44_0_bit : Word := 1#32 <<< 1
/-- cgo/ubc_check.c:39 -/
def DV_I_45_0_bit : Word := 1#32 <<< 2
/-- cgo/ubc_check.c:40 -/
def DV_I_46_0_bit : Word := 1#32 <<< 3
/-- cgo/ubc_check.c:41 -/
def DV_I_46_2_bit : Word := 1#32 <<< 4
/-- cgo/ubc_check.c:42 -/
def DV_I_47_0_bit : Word := 1#32 <<< 5
/-- cgo/ubc_check.c:43 -/
def DV_I_47_2_bit : Word := 1#32 <<< 6
/-- cgo/ubc_check.c:44 -/
def DV_I_48_0_bit : Word := 1#32 <<< 7
/-- cgo/ubc_check.c:45 -/
def DV_I_48_2_bit : Word := 1#32 <<< 8
/-- cgo/ubc_check.c:46 -/
def DV_I_49_0_bit : Word := 1#32 <<< 9
/-- cgo/ubc_check.c:47 -/
def DV_I_49_2_bit : Word := 1#32 <<< 10
/-- cgo/ubc_check.c:48 -/
def DV_I_50_0_bit : Word := 1#32 <<< 11
/-- cgo/ubc_check.c:49 -/
def DV_I_50_2_bit : Word := 1#32 <<< 12
/-- cgo/ubc_check.c:50 -/
def DV_I_51_0_bit : Word := 1#32 <<< 13
/-- cgo/ubc_check.c:51 -/
def DV_I_51_2_bit : Word := 1#32 <<< 14
/-- cgo/ubc_check.c:52 -/
def DV_I_52_0_bit : Word := 1#32 <<< 15
/-- cgo/ubc_check.c:53 -/
def DV_II_45_0_bit : Word := 1#32 <<< 16
/-- cgo/ubc_check.c:54 -/
def DV_II_46_0_bit : Word := 1#32 <<< 17
/-- cgo/ubc_check.c:55 -/
def DV_II_46_2_bit : Word := 1#32 <<< 18
/-- cgo/ubc_check.c:56 -/
def DV_II_47_0_bit : Word := 1#32 <<< 19
/-- cgo/ubc_check.c:57 -/
def DV_II_48_0_bit : Word := 1#32 <<< 20
/-- cgo/ubc_check.c:58 -/
def DV_II_49_0_bit : Word := 1#32 <<< 21
/-- cgo/ubc_check.c:59 -/
def DV_II_49_2_bit : Word := 1#32 <<< 22
/-- cgo/ubc_check.c:60 -/
def DV_II_50_0_bit : Word := 1#32 <<< 23
/-- cgo/ubc_check.c:61 -/
def DV_II_50_2_bit : Word := 1#32 <<< 24
/-- cgo/ubc_check.c:62 -/
def DV_II_51_0_bit : Word := 1#32 <<< 25
/-- cgo/ubc_check.c:63 -/
def DV_II_51_2_bit : Word := 1#32 <<< 26
/-- cgo/ubc_check.c:64 -/
def DV_II_52_0_bit : Word := 1#32 <<< 27
/-- cgo/ubc_check.c:65 -/
def DV_II_53_0_bit : Word := 1#32 <<< 28
/-- cgo/ubc_check.c:66 -/
def DV_II_54_0_bit : Word := 1#32 <<< 29
/-- cgo/ubc_check.c:67 -/
def DV_II_55_0_bit : Word := 1#32 <<< 30
/-- cgo/ubc_check.c:68 -/
def DV_II_56_0_bit : Word := 1#32 <<< 31

/-- C's `!` (cgo/ubc_check.c:208-300, the statements on a single vector). -/
def cnot (x : Word) : Word := if x = 0 then 1 else 0

/-- cgo/ubc_check.c:76 -/
def s76 (W : Fin 80 → Word) (mask : Word) : Word :=
  mask &&& ((((((W 44) ^^^ (W 45)) >>> 29) &&& 1#32) - 1#32) ||| (~~~((((((DV_I_48_0_bit ||| DV_I_51_0_bit) ||| DV_I_52_0_bit) ||| DV_II_45_0_bit) ||| DV_II_46_0_bit) ||| DV_II_50_0_bit) ||| DV_II_51_0_bit)))

/-- cgo/ubc_check.c:77 -/
def s77 (W : Fin 80 → Word) (mask : Word) : Word :=
  mask &&& ((((((W 49) ^^^ (W 50)) >>> 29) &&& 1#32) - 1#32) ||| (~~~(((((DV_I_46_0_bit ||| DV_II_45_0_bit) ||| DV_II_50_0_bit) ||| DV_II_51_0_bit) ||| DV_II_55_0_bit) ||| DV_II_56_0_bit)))

/-- cgo/ubc_check.c:78 -/
def s78 (W : Fin 80 → Word) (mask : Word) : Word :=
  mask &&& ((((((W 48) ^^^ (W 49)) >>> 29) &&& 1#32) - 1#32) ||| (~~~(((((DV_I_45_0_bit ||| DV_I_52_0_bit) ||| DV_II_49_0_bit) ||| DV_II_50_0_bit) ||| DV_II_54_0_bit) ||| DV_II_55_0_bit)))

/-- cgo/ubc_check.c:79 -/
def s79 (W : Fin 80 → Word) (mask : Word) : Word :=
  mask &&& (((((W 47) ^^^ ((W 50) >>> 25)) &&& (1#32 <<< 4)) - (1#32 <<< 4)) ||| (~~~(((((DV_I_47_0_bit ||| DV_I_49_0_bit) ||| DV_I_51_0_bit) ||| DV_II_45_0_bit) ||| DV_II_51_0_bit) ||| DV_II_56_0_bit)))

/-- cgo/ubc_check.c:80 -/
def s80 (W : Fin 80 → Word) (mask : Word) : Word :=
  mask &&& ((((((W 47) ^^^ (W 48)) >>> 29) &&& 1#32) - 1#32) ||| (~~~(((((DV_I_44_0_bit ||| DV_I_51_0_bit) ||| DV_II_48_0_bit) ||| DV_II_49_0_bit) ||| DV_II_53_0_bit) ||| DV_II_54_0_bit)))

/-- cgo/ubc_check.c:81 -/
def s81 (W : Fin 80 → Word) (mask : Word) : Word :=
  mask &&& ((((((W 46) >>> 4) ^^^ ((W 49) >>> 29)) &&& 1#32) - 1#32) ||| (~~~(((((DV_I_46_0_bit ||| DV_I_48_0_bit) ||| DV_I_50_0_bit) ||| DV_I_52_0_bit) ||| DV_II_50_0_bit) ||| DV_II_55_0_bit)))

/-- cgo/ubc_check.c:82 -/
def s82 (W : Fin 80 → Word) (mask : Word) : Word :=
  mask &&& ((((((W 46) ^^^ (W 47)) >>> 29) &&& 1#32) - 1#32) ||| (~~~(((((DV_I_43_0_bit ||| DV_I_50_0_bit) ||| DV_II_47_0_bit) ||| DV_II_48_0_bit) ||| DV_II_52_0_bit) ||| DV_II_53_0_bit)))

/-- cgo/ubc_check.c:83 -/
def s83 (W : Fin 80 → Word) (mask : Word) : Word :=
  mask &&& ((((((W 45) >>> 4) ^^^ ((W 48) >>> 29)) &&& 1#32) - 1#32) ||| (~~~(((((DV_I_45_0_bit ||| DV_I_47_0_bit) ||| DV_I_49_0_bit) ||| DV_I_51_0_bit) ||| DV_II_49_0_bit) ||| DV_II_54_0_bit)))

/-- cgo/ubc_check.c:84 -/
def s84 (W : Fin 80 → Word) (mask : Word) : Word :=
  mask &&& ((((((W 45) ^^^ (W 46)) >>> 29) &&& 1#32) - 1#32) ||| (~~~(((((DV_I_49_0_bit ||| DV_I_52_0_bit) ||| DV_II_46_0_bit) ||| DV_II_47_0_bit) ||| DV_II_51_0_bit) ||| DV_II_52_0_bit)))

/-- cgo/ubc_check.c:85 -/
def s85 (W : Fin 80 → Word) (mask : Word) : Word :=
  mask &&& ((((((W 44) >>> 4) ^^^ ((W 47) >>> 29)) &&& 1#32) - 1#32) ||| (~~~(((((DV_I_44_0_bit ||| DV_I_46_0_bit) ||| DV_I_48_0_bit) ||| DV_I_50_0_bit) ||| DV_II_48_0_bit) ||| DV_II_53_0_bit)))

/-- cgo/ubc_check.c:86 -/
def s86 (W : Fin 80 → Word) (mask : Word) : Word :=
  mask &&& ((((((W 43) >>> 4) ^^^ ((W 46) >>> 29)) &&& 1#32) - 1#32) ||| (~~~(((((DV_I_43_0_bit ||| DV_I_45_0_bit) ||| DV_I_47_0_bit) ||| DV_I_49_0_bit) ||| DV_II_47_0_bit) ||| DV_II_52_0_bit)))

/-- cgo/ubc_check.c:87 -/
def s87 (W : Fin 80 → Word) (mask : Word) : Word :=
  mask &&& ((((((W 43) ^^^ (W 44)) >>> 29) &&& 1#32) - 1#32) ||| (~~~(((((DV_I_47_0_bit ||| DV_I_50_0_bit) ||| DV_I_51_0_bit) ||| DV_II_45_0_bit) ||| DV_II_49_0_bit) ||| DV_II_50_0_bit)))

/-- cgo/ubc_check.c:88 -/
def s88 (W : Fin 80 → Word) (mask : Word) : Word :=
  mask &&& ((((((W 42) >>> 4) ^^^ ((W 45) >>> 29)) &&& 1#32) - 1#32) ||| (~~~(((((DV_I_44_0_bit ||| DV_I_46_0_bit) ||| DV_I_48_0_bit) ||| DV_I_52_0_bit) ||| DV_II_46_0_bit) ||| DV_II_51_0_bit)))

/-- cgo/ubc_check.c:89 -/
def s89 (W : Fin 80 → Word) (mask : Word) : Word :=
  mask &&& ((((((W 41) >>> 4) ^^^ ((W 44) >>> 29)) &&& 1#32) - 1#32) ||| (~~~(((((DV_I_43_0_bit ||| DV_I_45_0_bit) ||| DV_I_47_0_bit) ||| DV_I_51_0_bit) ||| DV_II_45_0_bit) ||| DV_II_50_0_bit)))

/-- cgo/ubc_check.c:90 -/
def s90 (W : Fin 80 → Word) (mask : Word) : Word :=
  mask &&& ((((((W 40) ^^^ (W 41)) >>> 29) &&& 1#32) - 1#32) ||| (~~~(((((DV_I_44_0_bit ||| DV_I_47_0_bit) ||| DV_I_48_0_bit) ||| DV_II_46_0_bit) ||| DV_II_47_0_bit) ||| DV_II_56_0_bit)))

/-- cgo/ubc_check.c:91 -/
def s91 (W : Fin 80 → Word) (mask : Word) : Word :=
  mask &&& ((((((W 54) ^^^ (W 55)) >>> 29) &&& 1#32) - 1#32) ||| (~~~((((DV_I_51_0_bit ||| DV_II_47_0_bit) ||| DV_II_50_0_bit) ||| DV_II_55_0_bit) ||| DV_II_56_0_bit)))

/-- cgo/ubc_check.c:92 -/
def s92 (W : Fin 80 → Word) (mask : Word) : Word :=
  mask &&& ((((((W 53) ^^^ (W 54)) >>> 29) &&& 1#32) - 1#32) ||| (~~~((((DV_I_50_0_bit ||| DV_II_46_0_bit) ||| DV_II_49_0_bit) ||| DV_II_54_0_bit) ||| DV_II_55_0_bit)))

/-- cgo/ubc_check.c:93 -/
def s93 (W : Fin 80 → Word) (mask : Word) : Word :=
  mask &&& ((((((W 52) ^^^ (W 53)) >>> 29) &&& 1#32) - 1#32) ||| (~~~((((DV_I_49_0_bit ||| DV_II_45_0_bit) ||| DV_II_48_0_bit) ||| DV_II_53_0_bit) ||| DV_II_54_0_bit)))

/-- cgo/ubc_check.c:94 -/
def s94 (W : Fin 80 → Word) (mask : Word) : Word :=
  mask &&& (((((W 50) ^^^ ((W 53) >>> 25)) &&& (1#32 <<< 4)) - (1#32 <<< 4)) ||| (~~~((((DV_I_50_0_bit ||| DV_I_52_0_bit) ||| DV_II_46_0_bit) ||| DV_II_48_0_bit) ||| DV_II_54_0_bit)))

/-- cgo/ubc_check.c:95 -/
def s95 (W : Fin 80 → Word) (mask : Word) : Word :=
  mask &&& ((((((W 50) ^^^ (W 51)) >>> 29) &&& 1#32) - 1#32) ||| (~~~((((DV_I_47_0_bit ||| DV_II_46_0_bit) ||| DV_II_51_0_bit) ||| DV_II_52_0_bit) ||| DV_II_56_0_bit)))

/-- cgo/ubc_check.c:96 -/
def s96 (W : Fin 80 → Word) (mask : Word) : Word :=
  mask &&& (((((W 49) ^^^ ((W 52) >>> 25)) &&& (1#32 <<< 4)) - (1#32 <<< 4)) ||| (~~~((((DV_I_49_0_bit ||| DV_I_51_0_bit) ||| DV_II_45_0_bit) ||| DV_II_47_0_bit) ||| DV_II_53_0_bit)))

/-- cgo/ubc_check.c:97 -/
def s97 (W : Fin 80 → Word) (mask : Word) : Word :=
  mask &&& (((((W 48) ^^^ ((W 51) >>> 25)) &&& (1#32 <<< 4)) - (1#32 <<< 4)) ||| (~~~((((DV_I_48_0_bit ||| DV_I_50_0_bit) ||| DV_I_52_0_bit) ||| DV_II_46_0_bit) ||| DV_II_52_0_bit)))

/-- cgo/ubc_check.c:98 -/
def s98 (W : Fin 80 → Word) (mask : Word) : Word :=
  mask &&& ((((((W 42) ^^^ (W 43)) >>> 29) &&& 1#32) - 1#32) ||| (~~~((((DV_I_46_0_bit ||| DV_I_49_0_bit) ||| DV_I_50_0_bit) ||| DV_II_48_0_bit) ||| DV_II_49_0_bit)))

/-- cgo/ubc_check.c:99 -/
def s99 (W : Fin 80 → Word) (mask : Word) : Word :=
  mask &&& ((((((W 41) ^^^ (W 42)) >>> 29) &&& 1#32) - 1#32) ||| (~~~((((DV_I_45_0_bit ||| DV_I_48_0_bit) ||| DV_I_49_0_bit) ||| DV_II_47_0_bit) ||| DV_II_48_0_bit)))

/-- cgo/ubc_check.c:100 -/
def s100 (W : Fin 80 → Word) (mask : Word) : Word :=
  mask &&& ((((((W 40) >>> 4) ^^^ ((W 43) >>> 29)) &&& 1#32) - 1#32) ||| (~~~((((DV_I_44_0_bit ||| DV_I_46_0_bit) ||| DV_I_50_0_bit) ||| DV_II_49_0_bit) ||| DV_II_56_0_bit)))

/-- cgo/ubc_check.c:101 -/
def s101 (W : Fin 80 → Word) (mask : Word) : Word :=
  mask &&& ((((((W 39) >>> 4) ^^^ ((W 42) >>> 29)) &&& 1#32) - 1#32) ||| (~~~((((DV_I_43_0_bit ||| DV_I_45_0_bit) ||| DV_I_49_0_bit) ||| DV_II_48_0_bit) ||| DV_II_55_0_bit)))

/-- cgo/ubc_check.c:102-103 -/
def s102 (W : Fin 80 → Word) (mask : Word) : Word :=
  if (mask &&& ((((DV_I_44_0_bit ||| DV_I_48_0_bit) ||| DV_II_47_0_bit) ||| DV_II_54_0_bit) ||| DV_II_56_0_bit)) ≠ 0 then
    mask &&& ((((((W 38) >>> 4) ^^^ ((W 41) >>> 29)) &&& 1#32) - 1#32) ||| (~~~((((DV_I_44_0_bit ||| DV_I_48_0_bit) ||| DV_II_47_0_bit) ||| DV_II_54_0_bit) ||| DV_II_56_0_bit)))
  else mask

/-- cgo/ubc_check.c:104 -/
def s104 (W : Fin 80 → Word) (mask : Word) : Word :=
  mask &&& ((((((W 37) >>> 4) ^^^ ((W 40) >>> 29)) &&& 1#32) - 1#32) ||| (~~~((((DV_I_43_0_bit ||| DV_I_47_0_bit) ||| DV_II_46_0_bit) ||| DV_II_53_0_bit) ||| DV_II_55_0_bit)))

/-- cgo/ubc_check.c:105-106 -/
def s105 (W : Fin 80 → Word) (mask : Word) : Word :=
  if (mask &&& (((DV_I_52_0_bit ||| DV_II_48_0_bit) ||| DV_II_51_0_bit) ||| DV_II_56_0_bit)) ≠ 0 then
    mask &&& ((((((W 55) ^^^ (W 56)) >>> 29) &&& 1#32) - 1#32) ||| (~~~(((DV_I_52_0_bit ||| DV_II_48_0_bit) ||| DV_II_51_0_bit) ||| DV_II_56_0_bit)))
  else mask

/-- cgo/ubc_check.c:107-108 -/
def s107 (W : Fin 80 → Word) (mask : Word) : Word :=
  if (mask &&& (((DV_I_52_0_bit ||| DV_II_48_0_bit) ||| DV_II_50_0_bit) ||| DV_II_56_0_bit)) ≠ 0 then
    mask &&& (((((W 52) ^^^ ((W 55) >>> 25)) &&& (1#32 <<< 4)) - (1#32 <<< 4)) ||| (~~~(((DV_I_52_0_bit ||| DV_II_48_0_bit) ||| DV_II_50_0_bit) ||| DV_II_56_0_bit)))
  else mask

/-- cgo/ubc_check.c:109-110 -/
def s109 (W : Fin 80 → Word) (mask : Word) : Word :=
  if (mask &&& (((DV_I_51_0_bit ||| DV_II_47_0_bit) ||| DV_II_49_0_bit) ||| DV_II_55_0_bit)) ≠ 0 then
    mask &&& (((((W 51) ^^^ ((W 54) >>> 25)) &&& (1#32 <<< 4)) - (1#32 <<< 4)) ||| (~~~(((DV_I_51_0_bit ||| DV_II_47_0_bit) ||| DV_II_49_0_bit) ||| DV_II_55_0_bit)))
  else mask

/-- cgo/ubc_check.c:111-112 -/
def s111 (W : Fin 80 → Word) (mask : Word) : Word :=
  if (mask &&& (((DV_I_48_0_bit ||| DV_II_47_0_bit) ||| DV_II_52_0_bit) ||| DV_II_53_0_bit)) ≠ 0 then
    mask &&& ((((((W 51) ^^^ (W 52)) >>> 29) &&& 1#32) - 1#32) ||| (~~~(((DV_I_48_0_bit ||| DV_II_47_0_bit) ||| DV_II_52_0_bit) ||| DV_II_53_0_bit)))
  else mask

/-- cgo/ubc_check.c:113-114 -/
def s113 (W : Fin 80 → Word) (mask : Word) : Word :=
  if (mask &&& (((DV_I_46_0_bit ||| DV_I_49_0_bit) ||| DV_II_45_0_bit) ||| DV_II_48_0_bit)) ≠ 0 then
    mask &&& ((((((W 36) >>> 4) ^^^ ((W 40) >>> 29)) &&& 1#32) - 1#32) ||| (~~~(((DV_I_46_0_bit ||| DV_I_49_0_bit) ||| DV_II_45_0_bit) ||| DV_II_48_0_bit)))
  else mask

/-- cgo/ubc_check.c:115-116 -/
def s115 (W : Fin 80 → Word) (mask : Word) : Word :=
  if (mask &&& ((DV_I_52_0_bit ||| DV_II_48_0_bit) ||| DV_II_49_0_bit)) ≠ 0 then
    mask &&& ((0#32 - ((((W 53) ^^^ (W 56)) >>> 29) &&& 1#32)) ||| (~~~((DV_I_52_0_bit ||| DV_II_48_0_bit) ||| DV_II_49_0_bit)))
  else mask

/-- cgo/ubc_check.c:117-118 -/
def s117 (W : Fin 80 → Word) (mask : Word) : Word :=
  if (mask &&& ((DV_I_50_0_bit ||| DV_II_46_0_bit) ||| DV_II_47_0_bit)) ≠ 0 then
    mask &&& ((0#32 - ((((W 51) ^^^ (W 54)) >>> 29) &&& 1#32)) ||| (~~~((DV_I_50_0_bit ||| DV_II_46_0_bit) ||| DV_II_47_0_bit)))
  else mask

/-- cgo/ubc_check.c:119-120 -/
def s119 (W : Fin 80 → Word) (mask : Word) : Word :=
  if (mask &&& ((DV_I_49_0_bit ||| DV_I_51_0_bit) ||| DV_II_45_0_bit)) ≠ 0 then
    mask &&& ((0#32 - ((((W 50) ^^^ (W 52)) >>> 29) &&& 1#32)) ||| (~~~((DV_I_49_0_bit ||| DV_I_51_0_bit) ||| DV_II_45_0_bit)))
  else mask

/-- cgo/ubc_check.c:121-122 -/
def s121 (W : Fin 80 → Word) (mask : Word) : Word :=
  if (mask &&& ((DV_I_48_0_bit ||| DV_I_50_0_bit) ||| DV_I_52_0_bit)) ≠ 0 then
    mask &&& ((0#32 - ((((W 49) ^^^ (W 51)) >>> 29) &&& 1#32)) ||| (~~~((DV_I_48_0_bit ||| DV_I_50_0_bit) ||| DV_I_52_0_bit)))
  else mask

/-- cgo/ubc_check.c:123-124 -/
def s123 (W : Fin 80 → Word) (mask : Word) : Word :=
  if (mask &&& ((DV_I_47_0_bit ||| DV_I_49_0_bit) ||| DV_I_51_0_bit)) ≠ 0 then
    mask &&& ((0#32 - ((((W 48) ^^^ (W 50)) >>> 29) &&& 1#32)) ||| (~~~((DV_I_47_0_bit ||| DV_I_49_0_bit) ||| DV_I_51_0_bit)))
  else mask

/-- cgo/ubc_check.c:125-126 -/
def s125 (W : Fin 80 → Word) (mask : Word) : Word :=
  if (mask &&& ((DV_I_46_0_bit ||| DV_I_48_0_bit) ||| DV_I_50_0_bit)) ≠ 0 then
    mask &&& ((0#32 - ((((W 47) ^^^ (W 49)) >>> 29) &&& 1#32)) ||| (~~~((DV_I_46_0_bit ||| DV_I_48_0_bit) ||| DV_I_50_0_bit)))
  else mask

/-- cgo/ubc_check.c:127-128 -/
def s127 (W : Fin 80 → Word) (mask : Word) : Word :=
  if (mask &&& ((DV_I_45_0_bit ||| DV_I_47_0_bit) ||| DV_I_49_0_bit)) ≠ 0 then
    mask &&& ((0#32 - ((((W 46) ^^^ (W 48)) >>> 29) &&& 1#32)) ||| (~~~((DV_I_45_0_bit ||| DV_I_47_0_bit) ||| DV_I_49_0_bit)))
  else mask

/-- cgo/ubc_check.c:129 -/
def s129 (W : Fin 80 → Word) (mask : Word) : Word :=
  mask &&& (((((W 45) ^^^ (W 47)) &&& (1#32 <<< 6)) - (1#32 <<< 6)) ||| (~~~((DV_I_47_2_bit ||| DV_I_49_2_bit) ||| DV_I_51_2_bit)))

/-- cgo/ubc_check.c:130-131 -/
def s130 (W : Fin 80 → Word) (mask : Word) : Word :=
  if (mask &&& ((DV_I_44_0_bit ||| DV_I_46_0_bit) ||| DV_I_48_0_bit)) ≠ 0 then
    mask &&& ((0#32 - ((((W 45) ^^^ (W 47)) >>> 29) &&& 1#32)) ||| (~~~((DV_I_44_0_bit ||| DV_I_46_0_bit) ||| DV_I_48_0_bit)))
  else mask

/-- cgo/ubc_check.c:132 -/
def s132 (W : Fin 80 → Word) (mask : Word) : Word :=
  mask &&& ((((((W 44) ^^^ (W 46)) >>> 6) &&& 1#32) - 1#32) ||| (~~~((DV_I_46_2_bit ||| DV_I_48_2_bit) ||| DV_I_50_2_bit)))

/-- cgo/ubc_check.c:133-134 -/
def s133 (W : Fin 80 → Word) (mask : Word) : Word :=
  if (mask &&& ((DV_I_43_0_bit ||| DV_I_45_0_bit) ||| DV_I_47_0_bit)) ≠ 0 then
    mask &&& ((0#32 - ((((W 44) ^^^ (W 46)) >>> 29) &&& 1#32)) ||| (~~~((DV_I_43_0_bit ||| DV_I_45_0_bit) ||| DV_I_47_0_bit)))
  else mask

/-- cgo/ubc_check.c:135 -/
def s135 (W : Fin 80 → Word) (mask : Word) : Word :=
  mask &&& ((0#32 - (((W 41) ^^^ ((W 42) >>> 5)) &&& (1#32 <<< 1))) ||| (~~~((DV_I_48_2_bit ||| DV_II_46_2_bit) ||| DV_II_51_2_bit)))

/-- cgo/ubc_check.c:136 -/
def s136 (W : Fin 80 → Word) (mask : Word) : Word :=
  mask &&& ((0#32 - (((W 40) ^^^ ((W 41) >>> 5)) &&& (1#32 <<< 1))) ||| (~~~((DV_I_47_2_bit ||| DV_I_51_2_bit) ||| DV_II_50_2_bit)))

/-- cgo/ubc_check.c:137-138 -/
def s137 (W : Fin 80 → Word) (mask : Word) : Word :=
  if (mask &&& ((DV_I_44_0_bit ||| DV_I_46_0_bit) ||| DV_II_56_0_bit)) ≠ 0 then
    mask &&& ((0#32 - ((((W 40) ^^^ (W 42)) >>> 4) &&& 1#32)) ||| (~~~((DV_I_44_0_bit ||| DV_I_46_0_bit) ||| DV_II_56_0_bit)))
  else mask

/-- cgo/ubc_check.c:139 -/
def s139 (W : Fin 80 → Word) (mask : Word) : Word :=
  mask &&& ((0#32 - (((W 39) ^^^ ((W 40) >>> 5)) &&& (1#32 <<< 1))) ||| (~~~((DV_I_46_2_bit ||| DV_I_50_2_bit) ||| DV_II_49_2_bit)))

/-- cgo/ubc_check.c:140-141 -/
def s140 (W : Fin 80 → Word) (mask : Word) : Word :=
  if (mask &&& ((DV_I_43_0_bit ||| DV_I_45_0_bit) ||| DV_II_55_0_bit)) ≠ 0 then
    mask &&& ((0#32 - ((((W 39) ^^^ (W 41)) >>> 4) &&& 1#32)) ||| (~~~((DV_I_43_0_bit ||| DV_I_45_0_bit) ||| DV_II_55_0_bit)))
  else mask

/-- cgo/ubc_check.c:142-143 -/
def s142 (W : Fin 80 → Word) (mask : Word) : Word :=
  if (mask &&& ((DV_I_44_0_bit ||| DV_II_54_0_bit) ||| DV_II_56_0_bit)) ≠ 0 then
    mask &&& ((0#32 - ((((W 38) ^^^ (W 40)) >>> 4) &&& 1#32)) ||| (~~~((DV_I_44_0_bit ||| DV_II_54_0_bit) ||| DV_II_56_0_bit)))
  else mask

/-- cgo/ubc_check.c:144-145 -/
def s144 (W : Fin 80 → Word) (mask : Word) : Word :=
  if (mask &&& ((DV_I_43_0_bit ||| DV_II_53_0_bit) ||| DV_II_55_0_bit)) ≠ 0 then
    mask &&& ((0#32 - ((((W 37) ^^^ (W 39)) >>> 4) &&& 1#32)) ||| (~~~((DV_I_43_0_bit ||| DV_II_53_0_bit) ||| DV_II_55_0_bit)))
  else mask

/-- cgo/ubc_check.c:146 -/
def s146 (W : Fin 80 → Word) (mask : Word) : Word :=
  mask &&& ((0#32 - (((W 36) ^^^ ((W 37) >>> 5)) &&& (1#32 <<< 1))) ||| (~~~((DV_I_47_2_bit ||| DV_I_50_2_bit) ||| DV_II_46_2_bit)))

/-- cgo/ubc_check.c:147-148 -/
def s147 (W : Fin 80 → Word) (mask : Word) : Word :=
  if (mask &&& ((DV_I_45_0_bit ||| DV_I_48_0_bit) ||| DV_II_47_0_bit)) ≠ 0 then
    mask &&& ((((((W 35) >>> 4) ^^^ ((W 39) >>> 29)) &&& 1#32) - 1#32) ||| (~~~((DV_I_45_0_bit ||| DV_I_48_0_bit) ||| DV_II_47_0_bit)))
  else mask

/-- cgo/ubc_check.c:149-150 -/
def s149 (W : Fin 80 → Word) (mask : Word) : Word :=
  if (mask &&& (DV_I_48_0_bit ||| DV_II_48_0_bit)) ≠ 0 then
    mask &&& ((0#32 - (((W 63) ^^^ ((W 64) >>> 5)) &&& (1#32 <<< 0))) ||| (~~~(DV_I_48_0_bit ||| DV_II_48_0_bit)))
  else mask

/-- cgo/ubc_check.c:151-152 -/
def s151 (W : Fin 80 → Word) (mask : Word) : Word :=
  if (mask &&& (DV_I_45_0_bit ||| DV_II_45_0_bit)) ≠ 0 then
    mask &&& ((0#32 - (((W 63) ^^^ ((W 64) >>> 5)) &&& (1#32 <<< 1))) ||| (~~~(DV_I_45_0_bit ||| DV_II_45_0_bit)))
  else mask

/-- cgo/ubc_check.c:153-154 -/
def s153 (W : Fin 80 → Word) (mask : Word) : Word :=
  if (mask &&& (DV_I_47_0_bit ||| DV_II_47_0_bit)) ≠ 0 then
    mask &&& ((0#32 - (((W 62) ^^^ ((W 63) >>> 5)) &&& (1#32 <<< 0))) ||| (~~~(DV_I_47_0_bit ||| DV_II_47_0_bit)))
  else mask

/-- cgo/ubc_check.c:155-156 -/
def s155 (W : Fin 80 → Word) (mask : Word) : Word :=
  if (mask &&& (DV_I_46_0_bit ||| DV_II_46_0_bit)) ≠ 0 then
    mask &&& ((0#32 - (((W 61) ^^^ ((W 62) >>> 5)) &&& (1#32 <<< 0))) ||| (~~~(DV_I_46_0_bit ||| DV_II_46_0_bit)))
  else mask

/-- cgo/ubc_check.c:157 -/
def s157 (W : Fin 80 → Word) (mask : Word) : Word :=
  mask &&& ((0#32 - (((W 61) ^^^ ((W 62) >>> 5)) &&& (1#32 <<< 2))) ||| (~~~(DV_I_46_2_bit ||| DV_II_46_2_bit)))

/-- cgo/ubc_check.c:158-159 -/
def s158 (W : Fin 80 → Word) (mask : Word) : Word :=
  if (mask &&& (DV_I_45_0_bit ||| DV_II_45_0_bit)) ≠ 0 then
    mask &&& ((0#32 - (((W 60) ^^^ ((W 61) >>> 5)) &&& (1#32 <<< 0))) ||| (~~~(DV_I_45_0_bit ||| DV_II_45_0_bit)))
  else mask

/-- cgo/ubc_check.c:160-161 -/
def s160 (W : Fin 80 → Word) (mask : Word) : Word :=
  if (mask &&& (DV_II_51_0_bit ||| DV_II_54_0_bit)) ≠ 0 then
    mask &&& ((((((W 58) ^^^ (W 59)) >>> 29) &&& 1#32) - 1#32) ||| (~~~(DV_II_51_0_bit ||| DV_II_54_0_bit)))
  else mask

/-- cgo/ubc_check.c:162-163 -/
def s162 (W : Fin 80 → Word) (mask : Word) : Word :=
  if (mask &&& (DV_II_50_0_bit ||| DV_II_53_0_bit)) ≠ 0 then
    mask &&& ((((((W 57) ^^^ (W 58)) >>> 29) &&& 1#32) - 1#32) ||| (~~~(DV_II_50_0_bit ||| DV_II_53_0_bit)))
  else mask

/-- cgo/ubc_check.c:164-165 -/
def s164 (W : Fin 80 → Word) (mask : Word) : Word :=
  if (mask &&& (DV_II_52_0_bit ||| DV_II_54_0_bit)) ≠ 0 then
    mask &&& (((((W 56) ^^^ ((W 59) >>> 25)) &&& (1#32 <<< 4)) - (1#32 <<< 4)) ||| (~~~(DV_II_52_0_bit ||| DV_II_54_0_bit)))
  else mask

/-- cgo/ubc_check.c:166-167 -/
def s166 (W : Fin 80 → Word) (mask : Word) : Word :=
  if (mask &&& (DV_II_51_0_bit ||| DV_II_52_0_bit)) ≠ 0 then
    mask &&& ((0#32 - ((((W 56) ^^^ (W 59)) >>> 29) &&& 1#32)) ||| (~~~(DV_II_51_0_bit ||| DV_II_52_0_bit)))
  else mask

/-- cgo/ubc_check.c:168-169 -/
def s168 (W : Fin 80 → Word) (mask : Word) : Word :=
  if (mask &&& (DV_II_49_0_bit ||| DV_II_52_0_bit)) ≠ 0 then
    mask &&& ((((((W 56) ^^^ (W 57)) >>> 29) &&& 1#32) - 1#32) ||| (~~~(DV_II_49_0_bit ||| DV_II_52_0_bit)))
  else mask

/-- cgo/ubc_check.c:170-171 -/
def s170 (W : Fin 80 → Word) (mask : Word) : Word :=
  if (mask &&& (DV_II_51_0_bit ||| DV_II_53_0_bit)) ≠ 0 then
    mask &&& (((((W 55) ^^^ ((W 58) >>> 25)) &&& (1#32 <<< 4)) - (1#32 <<< 4)) ||| (~~~(DV_II_51_0_bit ||| DV_II_53_0_bit)))
  else mask

/-- cgo/ubc_check.c:172-173 -/
def s172 (W : Fin 80 → Word) (mask : Word) : Word :=
  if (mask &&& (DV_II_50_0_bit ||| DV_II_52_0_bit)) ≠ 0 then
    mask &&& (((((W 54) ^^^ ((W 57) >>> 25)) &&& (1#32 <<< 4)) - (1#32 <<< 4)) ||| (~~~(DV_II_50_0_bit ||| DV_II_52_0_bit)))
  else mask

/-- cgo/ubc_check.c:174-175 -/
def s174 (W : Fin 80 → Word) (mask : Word) : Word :=
  if (mask &&& (DV_II_49_0_bit ||| DV_II_51_0_bit)) ≠ 0 then
    mask &&& (((((W 53) ^^^ ((W 56) >>> 25)) &&& (1#32 <<< 4)) - (1#32 <<< 4)) ||| (~~~(DV_II_49_0_bit ||| DV_II_51_0_bit)))
  else mask

/-- cgo/ubc_check.c:176 -/
def s176 (W : Fin 80 → Word) (mask : Word) : Word :=
  mask &&& (((((W 51) ^^^ ((W 50) >>> 5)) &&& (1#32 <<< 1)) - (1#32 <<< 1)) ||| (~~~(DV_I_50_2_bit ||| DV_II_46_2_bit)))

/-- cgo/ubc_check.c:177 -/
def s177 (W : Fin 80 → Word) (mask : Word) : Word :=
  mask &&& (((((W 48) ^^^ (W 50)) &&& (1#32 <<< 6)) - (1#32 <<< 6)) ||| (~~~(DV_I_50_2_bit ||| DV_II_46_2_bit)))

/-- cgo/ubc_check.c:178-179 -/
def s178 (W : Fin 80 → Word) (mask : Word) : Word :=
  if (mask &&& (DV_I_51_0_bit ||| DV_I_52_0_bit)) ≠ 0 then
    mask &&& ((0#32 - ((((W 48) ^^^ (W 55)) >>> 29) &&& 1#32)) ||| (~~~(DV_I_51_0_bit ||| DV_I_52_0_bit)))
  else mask

/-- cgo/ubc_check.c:180 -/
def s180 (W : Fin 80 → Word) (mask : Word) : Word :=
  mask &&& (((((W 47) ^^^ (W 49)) &&& (1#32 <<< 6)) - (1#32 <<< 6)) ||| (~~~(DV_I_49_2_bit ||| DV_I_51_2_bit)))

/-- cgo/ubc_check.c:181 -/
def s181 (W : Fin 80 → Word) (mask : Word) : Word :=
  mask &&& (((((W 48) ^^^ ((W 47) >>> 5)) &&& (1#32 <<< 1)) - (1#32 <<< 1)) ||| (~~~(DV_I_47_2_bit ||| DV_II_51_2_bit)))

/-- cgo/ubc_check.c:182 -/
def s182 (W : Fin 80 → Word) (mask : Word) : Word :=
  mask &&& (((((W 46) ^^^ (W 48)) &&& (1#32 <<< 6)) - (1#32 <<< 6)) ||| (~~~(DV_I_48_2_bit ||| DV_I_50_2_bit)))

/-- cgo/ubc_check.c:183 -/
def s183 (W : Fin 80 → Word) (mask : Word) : Word :=
  mask &&& (((((W 47) ^^^ ((W 46) >>> 5)) &&& (1#32 <<< 1)) - (1#32 <<< 1)) ||| (~~~(DV_I_46_2_bit ||| DV_II_50_2_bit)))

/-- cgo/ubc_check.c:184 -/
def s184 (W : Fin 80 → Word) (mask : Word) : Word :=
  mask &&& ((0#32 - (((W 44) ^^^ ((W 45) >>> 5)) &&& (1#32 <<< 1))) ||| (~~~(DV_I_51_2_bit ||| DV_II_49_2_bit)))

/-- cgo/ubc_check.c:185 -/
def s185 (W : Fin 80 → Word) (mask : Word) : Word :=
  mask &&& (((((W 43) ^^^ (W 45)) &&& (1#32 <<< 6)) - (1#32 <<< 6)) ||| (~~~(DV_I_47_2_bit ||| DV_I_49_2_bit)))

/-- cgo/ubc_check.c:186 -/
def s186 (W : Fin 80 → Word) (mask : Word) : Word :=
  mask &&& ((((((W 42) ^^^ (W 44)) >>> 6) &&& 1#32) - 1#32) ||| (~~~(DV_I_46_2_bit ||| DV_I_48_2_bit)))

/-- cgo/ubc_check.c:187 -/
def s187 (W : Fin 80 → Word) (mask : Word) : Word :=
  mask &&& (((((W 43) ^^^ ((W 42) >>> 5)) &&& (1#32 <<< 1)) - (1#32 <<< 1)) ||| (~~~(DV_II_46_2_bit ||| DV_II_51_2_bit)))

/-- cgo/ubc_check.c:188 -/
def s188 (W : Fin 80 → Word) (mask : Word) : Word :=
  mask &&& (((((W 42) ^^^ ((W 41) >>> 5)) &&& (1#32 <<< 1)) - (1#32 <<< 1)) ||| (~~~(DV_I_51_2_bit ||| DV_II_50_2_bit)))

/-- cgo/ubc_check.c:189 -/
def s189 (W : Fin 80 → Word) (mask : Word) : Word :=
  mask &&& (((((W 41) ^^^ ((W 40) >>> 5)) &&& (1#32 <<< 1)) - (1#32 <<< 1)) ||| (~~~(DV_I_50_2_bit ||| DV_II_49_2_bit)))

/-- cgo/ubc_check.c:190-191 -/
def s190 (W : Fin 80 → Word) (mask : Word) : Word :=
  if (mask &&& (DV_I_52_0_bit ||| DV_II_51_0_bit)) ≠ 0 then
    mask &&& (((((W 39) ^^^ ((W 43) >>> 25)) &&& (1#32 <<< 4)) - (1#32 <<< 4)) ||| (~~~(DV_I_52_0_bit ||| DV_II_51_0_bit)))
  else mask

/-- cgo/ubc_check.c:192-193 -/
def s192 (W : Fin 80 → Word) (mask : Word) : Word :=
  if (mask &&& (DV_I_51_0_bit ||| DV_II_50_0_bit)) ≠ 0 then
    mask &&& (((((W 38) ^^^ ((W 42) >>> 25)) &&& (1#32 <<< 4)) - (1#32 <<< 4)) ||| (~~~(DV_I_51_0_bit ||| DV_II_50_0_bit)))
  else mask

/-- cgo/ubc_check.c:194-195 -/
def s194 (W : Fin 80 → Word) (mask : Word) : Word :=
  if (mask &&& (DV_I_48_2_bit ||| DV_I_51_2_bit)) ≠ 0 then
    mask &&& ((0#32 - (((W 37) ^^^ ((W 38) >>> 5)) &&& (1#32 <<< 1))) ||| (~~~(DV_I_48_2_bit ||| DV_I_51_2_bit)))
  else mask

/-- cgo/ubc_check.c:196-197 -/
def s196 (W : Fin 80 → Word) (mask : Word) : Word :=
  if (mask &&& (DV_I_50_0_bit ||| DV_II_49_0_bit)) ≠ 0 then
    mask &&& (((((W 37) ^^^ ((W 41) >>> 25)) &&& (1#32 <<< 4)) - (1#32 <<< 4)) ||| (~~~(DV_I_50_0_bit ||| DV_II_49_0_bit)))
  else mask

/-- cgo/ubc_check.c:198-199 -/
def s198 (W : Fin 80 → Word) (mask : Word) : Word :=
  if (mask &&& (DV_II_52_0_bit ||| DV_II_54_0_bit)) ≠ 0 then
    mask &&& ((0#32 - (((W 36) ^^^ (W 38)) &&& (1#32 <<< 4))) ||| (~~~(DV_II_52_0_bit ||| DV_II_54_0_bit)))
  else mask

/-- cgo/ubc_check.c:200 -/
def s200 (W : Fin 80 → Word) (mask : Word) : Word :=
  mask &&& ((0#32 - (((W 35) ^^^ ((W 36) >>> 5)) &&& (1#32 <<< 1))) ||| (~~~(DV_I_46_2_bit ||| DV_I_49_2_bit)))

/-- cgo/ubc_check.c:201-202 -/
def s201 (W : Fin 80 → Word) (mask : Word) : Word :=
  if (mask &&& (DV_I_51_0_bit ||| DV_II_47_0_bit)) ≠ 0 then
    mask &&& (((((W 35) ^^^ ((W 39) >>> 25)) &&& (1#32 <<< 3)) - (1#32 <<< 3)) ||| (~~~(DV_I_51_0_bit ||| DV_II_47_0_bit)))
  else mask

/-- cgo/ubc_check.c:206-209 -/
def s206 (W : Fin 80 → Word) (mask : Word) : Word :=
  if (mask &&& DV_I_43_0_bit) ≠ 0 then
    if (cnot (((W 61) ^^^ ((W 62) >>> 5)) &&& (1#32 <<< 1))) ≠ 0 ∨ (cnot (cnot (((W 59) ^^^ ((W 63) >>> 25)) &&& (1#32 <<< 5)))) ≠ 0 ∨ (cnot (((W 58) ^^^ ((W 63) >>> 30)) &&& (1#32 <<< 0))) ≠ 0 then
      mask &&& (~~~DV_I_43_0_bit)
    else mask
  else mask

/-- cgo/ubc_check.c:210-213 -/
def s210 (W : Fin 80 → Word) (mask : Word) : Word :=
  if (mask &&& DV_I_44_0_bit) ≠ 0 then
    if (cnot (((W 62) ^^^ ((W 63) >>> 5)) &&& (1#32 <<< 1))) ≠ 0 ∨ (cnot (cnot (((W 60) ^^^ ((W 64) >>> 25)) &&& (1#32 <<< 5)))) ≠ 0 ∨ (cnot (((W 59) ^^^ ((W 64) >>> 30)) &&& (1#32 <<< 0))) ≠ 0 then
      mask &&& (~~~DV_I_44_0_bit)
    else mask
  else mask

/-- cgo/ubc_check.c:214-215 -/
def s214 (W : Fin 80 → Word) (mask : Word) : Word :=
  if (mask &&& DV_I_46_2_bit) ≠ 0 then
    mask &&& ((~~~(((W 40) ^^^ (W 42)) >>> 2)) ||| (~~~DV_I_46_2_bit))
  else mask

/-- cgo/ubc_check.c:216-219 -/
def s216 (W : Fin 80 → Word) (mask : Word) : Word :=
  if (mask &&& DV_I_47_2_bit) ≠ 0 then
    if (cnot (((W 62) ^^^ ((W 63) >>> 5)) &&& (1#32 <<< 2))) ≠ 0 ∨ (cnot (cnot (((W 41) ^^^ (W 43)) &&& (1#32 <<< 6)))) ≠ 0 then
      mask &&& (~~~DV_I_47_2_bit)
    else mask
  else mask

/-- cgo/ubc_check.c:220-223 -/
def s220 (W : Fin 80 → Word) (mask : Word) : Word :=
  if (mask &&& DV_I_48_2_bit) ≠ 0 then
    if (cnot (((W 63) ^^^ ((W 64) >>> 5)) &&& (1#32 <<< 2))) ≠ 0 ∨ (cnot (cnot (((W 48) ^^^ ((W 49) <<< 5)) &&& (1#32 <<< 6)))) ≠ 0 then
      mask &&& (~~~DV_I_48_2_bit)
    else mask
  else mask

/-- cgo/ubc_check.c:224-227 -/
def s224 (W : Fin 80 → Word) (mask : Word) : Word :=
  if (mask &&& DV_I_49_2_bit) ≠ 0 then
    if (cnot (cnot (((W 49) ^^^ ((W 50) <<< 5)) &&& (1#32 <<< 6)))) ≠ 0 ∨ (cnot (((W 42) ^^^ (W 50)) &&& (1#32 <<< 1))) ≠ 0 ∨ (cnot (cnot (((W 39) ^^^ ((W 40) <<< 5)) &&& (1#32 <<< 6)))) ≠ 0 ∨ (cnot (((W 38) ^^^ (W 40)) &&& (1#32 <<< 1))) ≠ 0 then
      mask &&& (~~~DV_I_49_2_bit)
    else mask
  else mask

/-- cgo/ubc_check.c:228-229 -/
def s228 (W : Fin 80 → Word) (mask : Word) : Word :=
  if (mask &&& DV_I_50_0_bit) ≠ 0 then
    mask &&& ((((W 36) ^^^ (W 37)) <<< 7) ||| (~~~DV_I_50_0_bit))
  else mask

/-- cgo/ubc_check.c:230-231 -/
def s230 (W : Fin 80 → Word) (mask : Word) : Word :=
  if (mask &&& DV_I_50_2_bit) ≠ 0 then
    mask &&& ((((W 43) ^^^ (W 51)) <<< 11) ||| (~~~DV_I_50_2_bit))
  else mask

/-- cgo/ubc_check.c:232-233 -/
def s232 (W : Fin 80 → Word) (mask : Word) : Word :=
  if (mask &&& DV_I_51_0_bit) ≠ 0 then
    mask &&& ((((W 37) ^^^ (W 38)) <<< 9) ||| (~~~DV_I_51_0_bit))
  else mask

/-- cgo/ubc_check.c:234-237 -/
def s234 (W : Fin 80 → Word) (mask : Word) : Word :=
  if (mask &&& DV_I_51_2_bit) ≠ 0 then
    if (cnot (cnot (((W 51) ^^^ ((W 52) <<< 5)) &&& (1#32 <<< 6)))) ≠ 0 ∨ (cnot (cnot (((W 49) ^^^ (W 51)) &&& (1#32 <<< 6)))) ≠ 0 ∨ (cnot (cnot (((W 37) ^^^ ((W 37) >>> 5)) &&& (1#32 <<< 1)))) ≠ 0 ∨ (cnot (cnot (((W 35) ^^^ ((W 39) >>> 25)) &&& (1#32 <<< 5)))) ≠ 0 then
      mask &&& (~~~DV_I_51_2_bit)
    else mask
  else mask

/-- cgo/ubc_check.c:238-239 -/
def s238 (W : Fin 80 → Word) (mask : Word) : Word :=
  if (mask &&& DV_I_52_0_bit) ≠ 0 then
    mask &&& ((((W 38) ^^^ (W 39)) <<< 11) ||| (~~~DV_I_52_0_bit))
  else mask

/-- cgo/ubc_check.c:240-241 -/
def s240 (W : Fin 80 → Word) (mask : Word) : Word :=
  if (mask &&& DV_II_46_2_bit) ≠ 0 then
    mask &&& ((((W 47) ^^^ (W 51)) <<< 17) ||| (~~~DV_II_46_2_bit))
  else mask

/-- cgo/ubc_check.c:242-245 -/
def s242 (W : Fin 80 → Word) (mask : Word) : Word :=
  if (mask &&& DV_II_48_0_bit) ≠ 0 then
    if (cnot (cnot (((W 36) ^^^ ((W 40) >>> 25)) &&& (1#32 <<< 3)))) ≠ 0 ∨ (cnot (((W 35) ^^^ ((W 40) <<< 2)) &&& (1#32 <<< 30))) ≠ 0 then
      mask &&& (~~~DV_II_48_0_bit)
    else mask
  else mask

/-- cgo/ubc_check.c:246-249 -/
def s246 (W : Fin 80 → Word) (mask : Word) : Word :=
  if (mask &&& DV_II_49_0_bit) ≠ 0 then
    if (cnot (cnot (((W 37) ^^^ ((W 41) >>> 25)) &&& (1#32 <<< 3)))) ≠ 0 ∨ (cnot (((W 36) ^^^ ((W 41) <<< 2)) &&& (1#32 <<< 30))) ≠ 0 then
      mask &&& (~~~DV_II_49_0_bit)
    else mask
  else mask

/-- cgo/ubc_check.c:250-253 -/
def s250 (W : Fin 80 → Word) (mask : Word) : Word :=
  if (mask &&& DV_II_49_2_bit) ≠ 0 then
    if (cnot (cnot (((W 53) ^^^ ((W 54) <<< 5)) &&& (1#32 <<< 6)))) ≠ 0 ∨ (cnot (cnot (((W 51) ^^^ (W 53)) &&& (1#32 <<< 6)))) ≠ 0 ∨ (cnot (((W 50) ^^^ (W 54)) &&& (1#32 <<< 1))) ≠ 0 ∨ (cnot (cnot (((W 45) ^^^ ((W 46) <<< 5)) &&& (1#32 <<< 6)))) ≠ 0 ∨ (cnot (cnot (((W 37) ^^^ ((W 41) >>> 25)) &&& (1#32 <<< 5)))) ≠ 0 ∨ (cnot (((W 36) ^^^ ((W 41) >>> 30)) &&& (1#32 <<< 0))) ≠ 0 then
      mask &&& (~~~DV_II_49_2_bit)
    else mask
  else mask

/-- cgo/ubc_check.c:254-257 -/
def s254 (W : Fin 80 → Word) (mask : Word) : Word :=
  if (mask &&& DV_II_50_0_bit) ≠ 0 then
    if (cnot (((W 55) ^^^ (W 58)) &&& (1#32 <<< 29))) ≠ 0 ∨ (cnot (cnot (((W 38) ^^^ ((W 42) >>> 25)) &&& (1#32 <<< 3)))) ≠ 0 ∨ (cnot (((W 37) ^^^ ((W 42) <<< 2)) &&& (1#32 <<< 30))) ≠ 0 then
      mask &&& (~~~DV_II_50_0_bit)
    else mask
  else mask

/-- cgo/ubc_check.c:258-261 -/
def s258 (W : Fin 80 → Word) (mask : Word) : Word :=
  if (mask &&& DV_II_50_2_bit) ≠ 0 then
    if (cnot (cnot (((W 54) ^^^ ((W 55) <<< 5)) &&& (1#32 <<< 6)))) ≠ 0 ∨ (cnot (cnot (((W 52) ^^^ (W 54)) &&& (1#32 <<< 6)))) ≠ 0 ∨ (cnot (((W 51) ^^^ (W 55)) &&& (1#32 <<< 1))) ≠ 0 ∨ (cnot (((W 45) ^^^ (W 47)) &&& (1#32 <<< 1))) ≠ 0 ∨ (cnot (cnot (((W 38) ^^^ ((W 42) >>> 25)) &&& (1#32 <<< 5)))) ≠ 0 ∨ (cnot (((W 37) ^^^ ((W 42) >>> 30)) &&& (1#32 <<< 0))) ≠ 0 then
      mask &&& (~~~DV_II_50_2_bit)
    else mask
  else mask

/-- cgo/ubc_check.c:262-265 -/
def s262 (W : Fin 80 → Word) (mask : Word) : Word :=
  if (mask &&& DV_II_51_0_bit) ≠ 0 then
    if (cnot (cnot (((W 39) ^^^ ((W 43) >>> 25)) &&& (1#32 <<< 3)))) ≠ 0 ∨ (cnot (((W 38) ^^^ ((W 43) <<< 2)) &&& (1#32 <<< 30))) ≠ 0 then
      mask &&& (~~~DV_II_51_0_bit)
    else mask
  else mask

/-- cgo/ubc_check.c:266-269 -/
def s266 (W : Fin 80 → Word) (mask : Word) : Word :=
  if (mask &&& DV_II_51_2_bit) ≠ 0 then
    if (cnot (cnot (((W 55) ^^^ ((W 56) <<< 5)) &&& (1#32 <<< 6)))) ≠ 0 ∨ (cnot (cnot (((W 53) ^^^ (W 55)) &&& (1#32 <<< 6)))) ≠ 0 ∨ (cnot (((W 52) ^^^ (W 56)) &&& (1#32 <<< 1))) ≠ 0 ∨ (cnot (((W 46) ^^^ (W 48)) &&& (1#32 <<< 1))) ≠ 0 ∨ (cnot (cnot (((W 39) ^^^ ((W 43) >>> 25)) &&& (1#32 <<< 5)))) ≠ 0 ∨ (cnot (((W 38) ^^^ ((W 43) >>> 30)) &&& (1#32 <<< 0))) ≠ 0 then
      mask &&& (~~~DV_II_51_2_bit)
    else mask
  else mask

/-- cgo/ubc_check.c:270-273 -/
def s270 (W : Fin 80 → Word) (mask : Word) : Word :=
  if (mask &&& DV_II_52_0_bit) ≠ 0 then
    if (cnot (cnot (((W 59) ^^^ (W 60)) &&& (1#32 <<< 29)))) ≠ 0 ∨ (cnot (cnot (((W 40) ^^^ ((W 44) >>> 25)) &&& (1#32 <<< 3)))) ≠ 0 ∨ (cnot (cnot (((W 40) ^^^ ((W 44) >>> 25)) &&& (1#32 <<< 4)))) ≠ 0 ∨ (cnot (((W 39) ^^^ ((W 44) <<< 2)) &&& (1#32 <<< 30))) ≠ 0 then
      mask &&& (~~~DV_II_52_0_bit)
    else mask
  else mask

/-- cgo/ubc_check.c:274-277 -/
def s274 (W : Fin 80 → Word) (mask : Word) : Word :=
  if (mask &&& DV_II_53_0_bit) ≠ 0 then
    if (cnot (((W 58) ^^^ (W 61)) &&& (1#32 <<< 29))) ≠ 0 ∨ (cnot (cnot (((W 57) ^^^ ((W 61) >>> 25)) &&& (1#32 <<< 4)))) ≠ 0 ∨ (cnot (cnot (((W 41) ^^^ ((W 45) >>> 25)) &&& (1#32 <<< 3)))) ≠ 0 ∨ (cnot (cnot (((W 41) ^^^ ((W 45) >>> 25)) &&& (1#32 <<< 4)))) ≠ 0 then
      mask &&& (~~~DV_II_53_0_bit)
    else mask
  else mask

/-- cgo/ubc_check.c:278-281 -/
def s278 (W : Fin 80 → Word) (mask : Word) : Word :=
  if (mask &&& DV_II_54_0_bit) ≠ 0 then
    if (cnot (cnot (((W 58) ^^^ ((W 62) >>> 25)) &&& (1#32 <<< 4)))) ≠ 0 ∨ (cnot (cnot (((W 42) ^^^ ((W 46) >>> 25)) &&& (1#32 <<< 3)))) ≠ 0 ∨ (cnot (cnot (((W 42) ^^^ ((W 46) >>> 25)) &&& (1#32 <<< 4)))) ≠ 0 then
      mask &&& (~~~DV_II_54_0_bit)
    else mask
  else mask

/-- cgo/ubc_check.c:282-285 -/
def s282 (W : Fin 80 → Word) (mask : Word) : Word :=
  if (mask &&& DV_II_55_0_bit) ≠ 0 then
    if (cnot (cnot (((W 59) ^^^ ((W 63) >>> 25)) &&& (1#32 <<< 4)))) ≠ 0 ∨ (cnot (cnot (((W 57) ^^^ ((W 59) >>> 25)) &&& (1#32 <<< 4)))) ≠ 0 ∨ (cnot (cnot (((W 43) ^^^ ((W 47) >>> 25)) &&& (1#32 <<< 3)))) ≠ 0 ∨ (cnot (cnot (((W 43) ^^^ ((W 47) >>> 25)) &&& (1#32 <<< 4)))) ≠ 0 then
      mask &&& (~~~DV_II_55_0_bit)
    else mask
  else mask

/-- cgo/ubc_check.c:286-289 -/
def s286 (W : Fin 80 → Word) (mask : Word) : Word :=
  if (mask &&& DV_II_56_0_bit) ≠ 0 then
    if (cnot (cnot (((W 60) ^^^ ((W 64) >>> 25)) &&& (1#32 <<< 4)))) ≠ 0 ∨ (cnot (cnot (((W 44) ^^^ ((W 48) >>> 25)) &&& (1#32 <<< 3)))) ≠ 0 ∨ (cnot (cnot (((W 44) ^^^ ((W 48) >>> 25)) &&& (1#32 <<< 4)))) ≠ 0 then
      mask &&& (~~~DV_II_56_0_bit)
    else mask
  else mask

/-- The statements of cgo/ubc_check.c:76-202, in order. -/
def outer : List ((Fin 80 → Word) → Word → Word) :=
  [s76, s77, s78, s79, s80, s81, s82, s83, s84, s85, s86, s87, s88, s89, s90, s91, s92, s93, s94,
   s95, s96, s97, s98, s99, s100, s101, s102, s104, s105, s107, s109, s111, s113, s115, s117,
   s119, s121, s123, s125, s127, s129, s130, s132, s133, s135, s136, s137, s139, s140, s142,
   s144, s146, s147, s149, s151, s153, s155, s157, s158, s160, s162, s164, s166, s168, s170,
   s172, s174, s176, s177, s178, s180, s181, s182, s183, s184, s185, s186, s187, s188, s189,
   s190, s192, s194, s196, s198, s200, s201]

/-- The statements inside `if mask != 0` (cgo/ubc_check.c:203-290), in order. -/
def inner : List ((Fin 80 → Word) → Word → Word) :=
  [s206, s210, s214, s216, s220, s224, s228, s230, s232, s234, s238, s240, s242, s246, s250,
   s254, s258, s262, s266, s270, s274, s278, s282, s286]

/-- `ubc_check(W, dvmask)`, cgo/ubc_check.c:73-293: the value stored in `dvmask[0]`. -/
def ubcCheck (W : Fin 80 → Word) : Word :=
  let mask : Word := ~~~(0#32)
  let mask := outer.foldl (fun mask s => s W mask) mask
  if mask ≠ 0 then
    inner.foldl (fun mask s => s W mask) mask
  else mask

/-- `CalculateDvMask` of package cgo, cgo/ubc_check.go:6-11,20-23: `check` initialises the result and calls
`ubc_check`.  The Go function takes the array by value and passes a pointer to its copy. -/
def calculateDvMask (W : Fin 80 → Word) : Word := ubcCheck W

end Verif.Model.C.Ubc
