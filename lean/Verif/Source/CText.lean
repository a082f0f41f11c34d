import Verif.Source.Chars

/-! The C files, line by line, written by `tools/source_text.py`. -/

namespace Verif.Source

/-- cgo/ubc_check.h:1-64 -/
def ubcHeaderLines : List (List Nat) := [
  text! r#"/***"#,
  text! r#" * Copyright 2017 Marc Stevens <marc@marc-stevens.nl>, Dan Shumow <danshu@microsoft.com>"#,
  text! r#" * Distributed under the MIT Software License."#,
  text! r#" * See accompanying file LICENSE.txt or copy at"#,
  text! r#" * https://opensource.org/licenses/MIT"#,
  text! r#" ***/"#,
  text! r#""#,
  text! r#"// Originally from: https://github.com/cr-marcstevens/sha1collisiondetection"#,
  text! r#""#,
  text! r#"/*"#,
  text! r#"// this file was generated by the 'parse_bitrel' program in the tools section"#,
  text! r#"// using the data files from directory 'tools/data/3565'"#,
  text! r#"//"#,
  text! r#"// sha1_dvs contains a list of SHA-1 Disturbance Vectors (DV) to check"#,
  text! r#"// dvType, dvK and dvB define the DV: I(K,B) or II(K,B) (see the paper)"#,
  text! r#"// dm[80] is the expanded message block XOR-difference defined by the DV"#,
  text! r#"// testt is the step to do the recompression from for collision detection"#,
  text! r#"// maski and maskb define the bit to check for each DV in the dvmask returned by ubc_check"#,
  text! r#"//"#,
  text! r#"// ubc_check takes as input an expanded message block and verifies the unavoidable bitconditions for all listed DVs"#,
  text! r#"// it returns a dvmask where each bit belonging to a DV is set if all unavoidable bitconditions for that DV have been met"#,
  text! r#"// thus one needs to do the recompression check for each DV that has its bit set"#,
  text! r#"*/"#,
  text! r#""#,
  text! r#"#ifndef SHA1DC_UBC_CHECK_H"#,
  text! r#"#define SHA1DC_UBC_CHECK_H"#,
  text! r#""#,
  text! r#"#if defined(__cplusplus)"#,
  text! r#"extern "C""#,
  text! r#"{"#,
  text! r#"#endif"#,
  text! r#""#,
  text! r#"#ifndef SHA1DC_NO_STANDARD_INCLUDES"#,
  text! r#"#include <stdint.h>"#,
  text! r#"#endif"#,
  text! r#""#,
  text! r#"#define DVMASKSIZE 1"#,
  text! r#"	typedef struct"#,
  text! r#"	{"#,
  text! r#"		int dvType;"#,
  text! r#"		int dvK;"#,
  text! r#"		int dvB;"#,
  text! r#"		int testt;"#,
  text! r#"		int maski;"#,
  text! r#"		int maskb;"#,
  text! r#"		uint32_t dm[80];"#,
  text! r#"	} dv_info_t;"#,
  text! r#"	extern dv_info_t sha1_dvs[];"#,
  text! r#"	void ubc_check(const uint32_t W[80], uint32_t dvmask[DVMASKSIZE]);"#,
  text! r#""#,
  text! r#"#define DOSTORESTATE58"#,
  text! r#"#define DOSTORESTATE65"#,
  text! r#""#,
  text! r#"#define CHECK_DVMASK(_DVMASK) (0 != _DVMASK[0])"#,
  text! r#""#,
  text! r#"#if defined(__cplusplus)"#,
  text! r#"}"#,
  text! r#"#endif"#,
  text! r#""#,
  text! r#"#ifdef SHA1DC_CUSTOM_TRAILING_INCLUDE_UBC_CHECK_H"#,
  text! r#"#include SHA1DC_CUSTOM_TRAILING_INCLUDE_UBC_CHECK_H"#,
  text! r#"#endif"#,
  text! r#""#,
  text! r#"#endif"#]

/-- part of cgo/ubc_check.c:72 -/
def ubcCLines_72_1 : List Nat := text! r#"		{1, 43, 0, 58, 0, 0, {0x08000000, 0x9800000c, 0xd8000010, 0x08000010, 0xb8000010, 0x98000000, 0x60000000, 0x00000008, 0xc0000000, 0x90000014, 0x10000010, 0xb8000014, 0x28000000, 0x20000010, 0x48000000, 0x08000018, 0x60000000, 0x90000010, 0xf0000010, 0x90000008, 0xc0000000, 0x90000010, 0xf0000010, 0xb0000008, 0x40000000, 0x90000000, 0xf0000010, 0x90000018, 0x60000000, 0x90000010, 0x90000010, 0x90000000, 0x80000000, 0x00000010, 0xa0000000, 0x20000000, 0xa0000000, 0x20000010, 0x00000000, 0x20000010, 0x20000000, 0x00000010, 0x20000000, 0x00000010, 0xa0000000, 0x00000000, 0x20000000, 0x20000000, 0x00000000, 0x00000000, 0x00000000, 0x00000000, 0x00000000, 0x00000000, 0x00000000, 0x00000000, 0x00000000, 0x00000000, 0x00000001, 0x00000020, 0x00000001, 0x40000002, 0x40000040, 0x40000002, 0x80000004, 0x80000080, 0x80000006, 0x00000049, 0x00000103, 0x80000009, 0x80000012, 0x80000202, 0x00000018, 0x00000164, 0x00000408, 0x800000e6, 0x8000004c, 0x00000803, 0x80000161, 0x80000599}}, {1, 44, 0, 58, 0, 1, {0xb4000008, 0x08000000, 0x9800000c, 0xd8000010, 0x08000010, 0xb8000010, 0x98000000, 0x60000000, 0x00000008, 0xc0000000, 0x90000014, 0x10000010, 0xb8000014, 0x28000000, 0x20000010, 0x48000000, 0x08000018, 0x60000000, 0x90000010, 0xf0000010, 0x90000008, 0xc0000000, 0x90000010, 0xf0000010, 0xb0000008, 0x40000000, 0x90000000, 0xf0000010, 0x90000018, 0x60000000, 0x90000010, 0x90000010, 0x90000000, 0x80000000, 0x00000010, 0xa0000000, 0x20000000, 0xa0000000, 0x20000010, 0x00000000, 0x20000010, 0x20000000, 0x00000010, 0x20000000, 0x00000010, 0xa0000000, 0x00000000, 0x20000000, 0x20000000, 0x00000000, 0x00000000, 0x00000000, 0x00000000, 0x00000000, 0x00000000, 0x00000000, 0x00000000, 0x00000000, 0x00000000, 0x00000001, 0x00000020, 0x00000001, 0x40000002, 0x40000040, 0x40000002, 0x80000004, 0x80000080, 0x80000006, 0x00000049, 0x00000103, 0x80000009, 0x80000012, 0x80000202, 0x00000018, 0x00000164, 0x00000408, 0x800000e6, 0x8000004c, 0x00000803, 0x80000161}}, {1, 45, 0, 58, 0, 2, {0xf40000"#

/-- part of cgo/ubc_check.c:72 -/
def ubcCLines_72_2 : List Nat := text! r#"14, 0xb4000008, 0x08000000, 0x9800000c, 0xd8000010, 0x08000010, 0xb8000010, 0x98000000, 0x60000000, 0x00000008, 0xc0000000, 0x90000014, 0x10000010, 0xb8000014, 0x28000000, 0x20000010, 0x48000000, 0x08000018, 0x60000000, 0x90000010, 0xf0000010, 0x90000008, 0xc0000000, 0x90000010, 0xf0000010, 0xb0000008, 0x40000000, 0x90000000, 0xf0000010, 0x90000018, 0x60000000, 0x90000010, 0x90000010, 0x90000000, 0x80000000, 0x00000010, 0xa0000000, 0x20000000, 0xa0000000, 0x20000010, 0x00000000, 0x20000010, 0x20000000, 0x00000010, 0x20000000, 0x00000010, 0xa0000000, 0x00000000, 0x20000000, 0x20000000, 0x00000000, 0x00000000, 0x00000000, 0x00000000, 0x00000000, 0x00000000, 0x00000000, 0x00000000, 0x00000000, 0x00000000, 0x00000001, 0x00000020, 0x00000001, 0x40000002, 0x40000040, 0x40000002, 0x80000004, 0x80000080, 0x80000006, 0x00000049, 0x00000103, 0x80000009, 0x80000012, 0x80000202, 0x00000018, 0x00000164, 0x00000408, 0x800000e6, 0x8000004c, 0x00000803}}, {1, 46, 0, 58, 0, 3, {0x2c000010, 0xf4000014, 0xb4000008, 0x08000000, 0x9800000c, 0xd8000010, 0x08000010, 0xb8000010, 0x98000000, 0x60000000, 0x00000008, 0xc0000000, 0x90000014, 0x10000010, 0xb8000014, 0x28000000, 0x20000010, 0x48000000, 0x08000018, 0x60000000, 0x90000010, 0xf0000010, 0x90000008, 0xc0000000, 0x90000010, 0xf0000010, 0xb0000008, 0x40000000, 0x90000000, 0xf0000010, 0x90000018, 0x60000000, 0x90000010, 0x90000010, 0x90000000, 0x80000000, 0x00000010, 0xa0000000, 0x20000000, 0xa0000000, 0x20000010, 0x00000000, 0x20000010, 0x20000000, 0x00000010, 0x20000000, 0x00000010, 0xa0000000, 0x00000000, 0x20000000, 0x20000000, 0x00000000, 0x00000000, 0x00000000, 0x00000000, 0x00000000, 0x00000000, 0x00000000, 0x00000000, 0x00000000, 0x00000000, 0x00000001, 0x00000020, 0x00000001, 0x40000002, 0x40000040, 0x40000002, 0x80000004, 0x80000080, 0x80000006, 0x00000049, 0x00000103, 0x80000009, 0x80000012, 0x80000202, 0x00000018, 0x00000164, 0x00000408, 0x800000e6, 0x8000004c}}, {1, 46, 2, 58, 0, 4, {0xb0000040, 0xd0000053, 0xd0000022, 0x20"#

/-- part of cgo/ubc_check.c:72 -/
def ubcCLines_72_3 : List Nat := text! r#"000000, 0x60000032, 0x60000043, 0x20000040, 0xe0000042, 0x60000002, 0x80000001, 0x00000020, 0x00000003, 0x40000052, 0x40000040, 0xe0000052, 0xa0000000, 0x80000040, 0x20000001, 0x20000060, 0x80000001, 0x40000042, 0xc0000043, 0x40000022, 0x00000003, 0x40000042, 0xc0000043, 0xc0000022, 0x00000001, 0x40000002, 0xc0000043, 0x40000062, 0x80000001, 0x40000042, 0x40000042, 0x40000002, 0x00000002, 0x00000040, 0x80000002, 0x80000000, 0x80000002, 0x80000040, 0x00000000, 0x80000040, 0x80000000, 0x00000040, 0x80000000, 0x00000040, 0x80000002, 0x00000000, 0x80000000, 0x80000000, 0x00000000, 0x00000000, 0x00000000, 0x00000000, 0x00000000, 0x00000000, 0x00000000, 0x00000000, 0x00000000, 0x00000000, 0x00000004, 0x00000080, 0x00000004, 0x00000009, 0x00000101, 0x00000009, 0x00000012, 0x00000202, 0x0000001a, 0x00000124, 0x0000040c, 0x00000026, 0x0000004a, 0x0000080a, 0x00000060, 0x00000590, 0x00001020, 0x0000039a, 0x00000132}}, {1, 47, 0, 58, 0, 5, {0xc8000010, 0x2c000010, 0xf4000014, 0xb4000008, 0x08000000, 0x9800000c, 0xd8000010, 0x08000010, 0xb8000010, 0x98000000, 0x60000000, 0x00000008, 0xc0000000, 0x90000014, 0x10000010, 0xb8000014, 0x28000000, 0x20000010, 0x48000000, 0x08000018, 0x60000000, 0x90000010, 0xf0000010, 0x90000008, 0xc0000000, 0x90000010, 0xf0000010, 0xb0000008, 0x40000000, 0x90000000, 0xf0000010, 0x90000018, 0x60000000, 0x90000010, 0x90000010, 0x90000000, 0x80000000, 0x00000010, 0xa0000000, 0x20000000, 0xa0000000, 0x20000010, 0x00000000, 0x20000010, 0x20000000, 0x00000010, 0x20000000, 0x00000010, 0xa0000000, 0x00000000, 0x20000000, 0x20000000, 0x00000000, 0x00000000, 0x00000000, 0x00000000, 0x00000000, 0x00000000, 0x00000000, 0x00000000, 0x00000000, 0x00000000, 0x00000001, 0x00000020, 0x00000001, 0x40000002, 0x40000040, 0x40000002, 0x80000004, 0x80000080, 0x80000006, 0x00000049, 0x00000103, 0x80000009, 0x80000012, 0x80000202, 0x00000018, 0x00000164, 0x00000408, 0x800000e6}}, {1, 47, 2, 58, 0, 6, {0x20000043, 0xb0000040, 0xd0000053, 0xd0000022, 0x20000000, 0x60000032, "#

/-- part of cgo/ubc_check.c:72 -/
def ubcCLines_72_4 : List Nat := text! r#"0x60000043, 0x20000040, 0xe0000042, 0x60000002, 0x80000001, 0x00000020, 0x00000003, 0x40000052, 0x40000040, 0xe0000052, 0xa0000000, 0x80000040, 0x20000001, 0x20000060, 0x80000001, 0x40000042, 0xc0000043, 0x40000022, 0x00000003, 0x40000042, 0xc0000043, 0xc0000022, 0x00000001, 0x40000002, 0xc0000043, 0x40000062, 0x80000001, 0x40000042, 0x40000042, 0x40000002, 0x00000002, 0x00000040, 0x80000002, 0x80000000, 0x80000002, 0x80000040, 0x00000000, 0x80000040, 0x80000000, 0x00000040, 0x80000000, 0x00000040, 0x80000002, 0x00000000, 0x80000000, 0x80000000, 0x00000000, 0x00000000, 0x00000000, 0x00000000, 0x00000000, 0x00000000, 0x00000000, 0x00000000, 0x00000000, 0x00000000, 0x00000004, 0x00000080, 0x00000004, 0x00000009, 0x00000101, 0x00000009, 0x00000012, 0x00000202, 0x0000001a, 0x00000124, 0x0000040c, 0x00000026, 0x0000004a, 0x0000080a, 0x00000060, 0x00000590, 0x00001020, 0x0000039a}}, {1, 48, 0, 58, 0, 7, {0xb800000a, 0xc8000010, 0x2c000010, 0xf4000014, 0xb4000008, 0x08000000, 0x9800000c, 0xd8000010, 0x08000010, 0xb8000010, 0x98000000, 0x60000000, 0x00000008, 0xc0000000, 0x90000014, 0x10000010, 0xb8000014, 0x28000000, 0x20000010, 0x48000000, 0x08000018, 0x60000000, 0x90000010, 0xf0000010, 0x90000008, 0xc0000000, 0x90000010, 0xf0000010, 0xb0000008, 0x40000000, 0x90000000, 0xf0000010, 0x90000018, 0x60000000, 0x90000010, 0x90000010, 0x90000000, 0x80000000, 0x00000010, 0xa0000000, 0x20000000, 0xa0000000, 0x20000010, 0x00000000, 0x20000010, 0x20000000, 0x00000010, 0x20000000, 0x00000010, 0xa0000000, 0x00000000, 0x20000000, 0x20000000, 0x00000000, 0x00000000, 0x00000000, 0x00000000, 0x00000000, 0x00000000, 0x00000000, 0x00000000, 0x00000000, 0x00000000, 0x00000001, 0x00000020, 0x00000001, 0x40000002, 0x40000040, 0x40000002, 0x80000004, 0x80000080, 0x80000006, 0x00000049, 0x00000103, 0x80000009, 0x80000012, 0x80000202, 0x00000018, 0x00000164, 0x00000408}}, {1, 48, 2, 58, 0, 8, {0xe000002a, 0x20000043, 0xb0000040, 0xd0000053, 0xd0000022, 0x20000000, 0x60000032, 0x60000043, 0x200000"#

/-- part of cgo/ubc_check.c:72 -/
def ubcCLines_72_5 : List Nat := text! r#"40, 0xe0000042, 0x60000002, 0x80000001, 0x00000020, 0x00000003, 0x40000052, 0x40000040, 0xe0000052, 0xa0000000, 0x80000040, 0x20000001, 0x20000060, 0x80000001, 0x40000042, 0xc0000043, 0x40000022, 0x00000003, 0x40000042, 0xc0000043, 0xc0000022, 0x00000001, 0x40000002, 0xc0000043, 0x40000062, 0x80000001, 0x40000042, 0x40000042, 0x40000002, 0x00000002, 0x00000040, 0x80000002, 0x80000000, 0x80000002, 0x80000040, 0x00000000, 0x80000040, 0x80000000, 0x00000040, 0x80000000, 0x00000040, 0x80000002, 0x00000000, 0x80000000, 0x80000000, 0x00000000, 0x00000000, 0x00000000, 0x00000000, 0x00000000, 0x00000000, 0x00000000, 0x00000000, 0x00000000, 0x00000000, 0x00000004, 0x00000080, 0x00000004, 0x00000009, 0x00000101, 0x00000009, 0x00000012, 0x00000202, 0x0000001a, 0x00000124, 0x0000040c, 0x00000026, 0x0000004a, 0x0000080a, 0x00000060, 0x00000590, 0x00001020}}, {1, 49, 0, 58, 0, 9, {0x18000000, 0xb800000a, 0xc8000010, 0x2c000010, 0xf4000014, 0xb4000008, 0x08000000, 0x9800000c, 0xd8000010, 0x08000010, 0xb8000010, 0x98000000, 0x60000000, 0x00000008, 0xc0000000, 0x90000014, 0x10000010, 0xb8000014, 0x28000000, 0x20000010, 0x48000000, 0x08000018, 0x60000000, 0x90000010, 0xf0000010, 0x90000008, 0xc0000000, 0x90000010, 0xf0000010, 0xb0000008, 0x40000000, 0x90000000, 0xf0000010, 0x90000018, 0x60000000, 0x90000010, 0x90000010, 0x90000000, 0x80000000, 0x00000010, 0xa0000000, 0x20000000, 0xa0000000, 0x20000010, 0x00000000, 0x20000010, 0x20000000, 0x00000010, 0x20000000, 0x00000010, 0xa0000000, 0x00000000, 0x20000000, 0x20000000, 0x00000000, 0x00000000, 0x00000000, 0x00000000, 0x00000000, 0x00000000, 0x00000000, 0x00000000, 0x00000000, 0x00000000, 0x00000001, 0x00000020, 0x00000001, 0x40000002, 0x40000040, 0x40000002, 0x80000004, 0x80000080, 0x80000006, 0x00000049, 0x00000103, 0x80000009, 0x80000012, 0x80000202, 0x00000018, 0x00000164}}, {1, 49, 2, 58, 0, 10, {0x60000000, 0xe000002a, 0x20000043, 0xb0000040, 0xd0000053, 0xd0000022, 0x20000000, 0x60000032, 0x60000043, 0x20000040, 0xe0000042, 0x6"#

/-- part of cgo/ubc_check.c:72 -/
def ubcCLines_72_6 : List Nat := text! r#"0000002, 0x80000001, 0x00000020, 0x00000003, 0x40000052, 0x40000040, 0xe0000052, 0xa0000000, 0x80000040, 0x20000001, 0x20000060, 0x80000001, 0x40000042, 0xc0000043, 0x40000022, 0x00000003, 0x40000042, 0xc0000043, 0xc0000022, 0x00000001, 0x40000002, 0xc0000043, 0x40000062, 0x80000001, 0x40000042, 0x40000042, 0x40000002, 0x00000002, 0x00000040, 0x80000002, 0x80000000, 0x80000002, 0x80000040, 0x00000000, 0x80000040, 0x80000000, 0x00000040, 0x80000000, 0x00000040, 0x80000002, 0x00000000, 0x80000000, 0x80000000, 0x00000000, 0x00000000, 0x00000000, 0x00000000, 0x00000000, 0x00000000, 0x00000000, 0x00000000, 0x00000000, 0x00000000, 0x00000004, 0x00000080, 0x00000004, 0x00000009, 0x00000101, 0x00000009, 0x00000012, 0x00000202, 0x0000001a, 0x00000124, 0x0000040c, 0x00000026, 0x0000004a, 0x0000080a, 0x00000060, 0x00000590}}, {1, 50, 0, 65, 0, 11, {0x0800000c, 0x18000000, 0xb800000a, 0xc8000010, 0x2c000010, 0xf4000014, 0xb4000008, 0x08000000, 0x9800000c, 0xd8000010, 0x08000010, 0xb8000010, 0x98000000, 0x60000000, 0x00000008, 0xc0000000, 0x90000014, 0x10000010, 0xb8000014, 0x28000000, 0x20000010, 0x48000000, 0x08000018, 0x60000000, 0x90000010, 0xf0000010, 0x90000008, 0xc0000000, 0x90000010, 0xf0000010, 0xb0000008, 0x40000000, 0x90000000, 0xf0000010, 0x90000018, 0x60000000, 0x90000010, 0x90000010, 0x90000000, 0x80000000, 0x00000010, 0xa0000000, 0x20000000, 0xa0000000, 0x20000010, 0x00000000, 0x20000010, 0x20000000, 0x00000010, 0x20000000, 0x00000010, 0xa0000000, 0x00000000, 0x20000000, 0x20000000, 0x00000000, 0x00000000, 0x00000000, 0x00000000, 0x00000000, 0x00000000, 0x00000000, 0x00000000, 0x00000000, 0x00000000, 0x00000001, 0x00000020, 0x00000001, 0x40000002, 0x40000040, 0x40000002, 0x80000004, 0x80000080, 0x80000006, 0x00000049, 0x00000103, 0x80000009, 0x80000012, 0x80000202, 0x00000018}}, {1, 50, 2, 65, 0, 12, {0x20000030, 0x60000000, 0xe000002a, 0x20000043, 0xb0000040, 0xd0000053, 0xd0000022, 0x20000000, 0x60000032, 0x60000043, 0x20000040, 0xe0000042, 0x60000002, 0x8000000"#

/-- part of cgo/ubc_check.c:72 -/
def ubcCLines_72_7 : List Nat := text! r#"1, 0x00000020, 0x00000003, 0x40000052, 0x40000040, 0xe0000052, 0xa0000000, 0x80000040, 0x20000001, 0x20000060, 0x80000001, 0x40000042, 0xc0000043, 0x40000022, 0x00000003, 0x40000042, 0xc0000043, 0xc0000022, 0x00000001, 0x40000002, 0xc0000043, 0x40000062, 0x80000001, 0x40000042, 0x40000042, 0x40000002, 0x00000002, 0x00000040, 0x80000002, 0x80000000, 0x80000002, 0x80000040, 0x00000000, 0x80000040, 0x80000000, 0x00000040, 0x80000000, 0x00000040, 0x80000002, 0x00000000, 0x80000000, 0x80000000, 0x00000000, 0x00000000, 0x00000000, 0x00000000, 0x00000000, 0x00000000, 0x00000000, 0x00000000, 0x00000000, 0x00000000, 0x00000004, 0x00000080, 0x00000004, 0x00000009, 0x00000101, 0x00000009, 0x00000012, 0x00000202, 0x0000001a, 0x00000124, 0x0000040c, 0x00000026, 0x0000004a, 0x0000080a, 0x00000060}}, {1, 51, 0, 65, 0, 13, {0xe8000000, 0x0800000c, 0x18000000, 0xb800000a, 0xc8000010, 0x2c000010, 0xf4000014, 0xb4000008, 0x08000000, 0x9800000c, 0xd8000010, 0x08000010, 0xb8000010, 0x98000000, 0x60000000, 0x00000008, 0xc0000000, 0x90000014, 0x10000010, 0xb8000014, 0x28000000, 0x20000010, 0x48000000, 0x08000018, 0x60000000, 0x90000010, 0xf0000010, 0x90000008, 0xc0000000, 0x90000010, 0xf0000010, 0xb0000008, 0x40000000, 0x90000000, 0xf0000010, 0x90000018, 0x60000000, 0x90000010, 0x90000010, 0x90000000, 0x80000000, 0x00000010, 0xa0000000, 0x20000000, 0xa0000000, 0x20000010, 0x00000000, 0x20000010, 0x20000000, 0x00000010, 0x20000000, 0x00000010, 0xa0000000, 0x00000000, 0x20000000, 0x20000000, 0x00000000, 0x00000000, 0x00000000, 0x00000000, 0x00000000, 0x00000000, 0x00000000, 0x00000000, 0x00000000, 0x00000000, 0x00000001, 0x00000020, 0x00000001, 0x40000002, 0x40000040, 0x40000002, 0x80000004, 0x80000080, 0x80000006, 0x00000049, 0x00000103, 0x80000009, 0x80000012, 0x80000202}}, {1, 51, 2, 65, 0, 14, {0xa0000003, 0x20000030, 0x60000000, 0xe000002a, 0x20000043, 0xb0000040, 0xd0000053, 0xd0000022, 0x20000000, 0x60000032, 0x60000043, 0x20000040, 0xe0000042, 0x60000002, 0x80000001, 0x00000020, 0x0"#

/-- part of cgo/ubc_check.c:72 -/
def ubcCLines_72_8 : List Nat := text! r#"0000003, 0x40000052, 0x40000040, 0xe0000052, 0xa0000000, 0x80000040, 0x20000001, 0x20000060, 0x80000001, 0x40000042, 0xc0000043, 0x40000022, 0x00000003, 0x40000042, 0xc0000043, 0xc0000022, 0x00000001, 0x40000002, 0xc0000043, 0x40000062, 0x80000001, 0x40000042, 0x40000042, 0x40000002, 0x00000002, 0x00000040, 0x80000002, 0x80000000, 0x80000002, 0x80000040, 0x00000000, 0x80000040, 0x80000000, 0x00000040, 0x80000000, 0x00000040, 0x80000002, 0x00000000, 0x80000000, 0x80000000, 0x00000000, 0x00000000, 0x00000000, 0x00000000, 0x00000000, 0x00000000, 0x00000000, 0x00000000, 0x00000000, 0x00000000, 0x00000004, 0x00000080, 0x00000004, 0x00000009, 0x00000101, 0x00000009, 0x00000012, 0x00000202, 0x0000001a, 0x00000124, 0x0000040c, 0x00000026, 0x0000004a, 0x0000080a}}, {1, 52, 0, 65, 0, 15, {0x04000010, 0xe8000000, 0x0800000c, 0x18000000, 0xb800000a, 0xc8000010, 0x2c000010, 0xf4000014, 0xb4000008, 0x08000000, 0x9800000c, 0xd8000010, 0x08000010, 0xb8000010, 0x98000000, 0x60000000, 0x00000008, 0xc0000000, 0x90000014, 0x10000010, 0xb8000014, 0x28000000, 0x20000010, 0x48000000, 0x08000018, 0x60000000, 0x90000010, 0xf0000010, 0x90000008, 0xc0000000, 0x90000010, 0xf0000010, 0xb0000008, 0x40000000, 0x90000000, 0xf0000010, 0x90000018, 0x60000000, 0x90000010, 0x90000010, 0x90000000, 0x80000000, 0x00000010, 0xa0000000, 0x20000000, 0xa0000000, 0x20000010, 0x00000000, 0x20000010, 0x20000000, 0x00000010, 0x20000000, 0x00000010, 0xa0000000, 0x00000000, 0x20000000, 0x20000000, 0x00000000, 0x00000000, 0x00000000, 0x00000000, 0x00000000, 0x00000000, 0x00000000, 0x00000000, 0x00000000, 0x00000000, 0x00000001, 0x00000020, 0x00000001, 0x40000002, 0x40000040, 0x40000002, 0x80000004, 0x80000080, 0x80000006, 0x00000049, 0x00000103, 0x80000009, 0x80000012}}, {2, 45, 0, 58, 0, 16, {0xec000014, 0x0c000002, 0xc0000010, 0xb400001c, 0x2c000004, 0xbc000018, 0xb0000010, 0x0000000c, 0xb8000010, 0x08000018, 0x78000010, 0x08000014, 0x70000010, 0xb800001c, 0xe8000000, 0xb0000004, 0x58000010, 0xb000000c, 0x4800000"#

/-- part of cgo/ubc_check.c:72 -/
def ubcCLines_72_9 : List Nat := text! r#"0, 0xb0000000, 0xb8000010, 0x98000010, 0xa0000000, 0x00000000, 0x00000000, 0x20000000, 0x80000000, 0x00000010, 0x00000000, 0x20000010, 0x20000000, 0x00000010, 0x60000000, 0x00000018, 0xe0000000, 0x90000000, 0x30000010, 0xb0000000, 0x20000000, 0x20000000, 0xa0000000, 0x00000010, 0x80000000, 0x20000000, 0x20000000, 0x20000000, 0x80000000, 0x00000010, 0x00000000, 0x20000010, 0xa0000000, 0x00000000, 0x20000000, 0x20000000, 0x00000000, 0x00000000, 0x00000000, 0x00000000, 0x00000000, 0x00000000, 0x00000001, 0x00000020, 0x00000001, 0x40000002, 0x40000041, 0x40000022, 0x80000005, 0xc0000082, 0xc0000046, 0x4000004b, 0x80000107, 0x00000089, 0x00000014, 0x8000024b, 0x0000011b, 0x8000016d, 0x8000041a, 0x000002e4, 0x80000054, 0x00000967}}, {2, 46, 0, 58, 0, 17, {0x2400001c, 0xec000014, 0x0c000002, 0xc0000010, 0xb400001c, 0x2c000004, 0xbc000018, 0xb0000010, 0x0000000c, 0xb8000010, 0x08000018, 0x78000010, 0x08000014, 0x70000010, 0xb800001c, 0xe8000000, 0xb0000004, 0x58000010, 0xb000000c, 0x48000000, 0xb0000000, 0xb8000010, 0x98000010, 0xa0000000, 0x00000000, 0x00000000, 0x20000000, 0x80000000, 0x00000010, 0x00000000, 0x20000010, 0x20000000, 0x00000010, 0x60000000, 0x00000018, 0xe0000000, 0x90000000, 0x30000010, 0xb0000000, 0x20000000, 0x20000000, 0xa0000000, 0x00000010, 0x80000000, 0x20000000, 0x20000000, 0x20000000, 0x80000000, 0x00000010, 0x00000000, 0x20000010, 0xa0000000, 0x00000000, 0x20000000, 0x20000000, 0x00000000, 0x00000000, 0x00000000, 0x00000000, 0x00000000, 0x00000000, 0x00000001, 0x00000020, 0x00000001, 0x40000002, 0x40000041, 0x40000022, 0x80000005, 0xc0000082, 0xc0000046, 0x4000004b, 0x80000107, 0x00000089, 0x00000014, 0x8000024b, 0x0000011b, 0x8000016d, 0x8000041a, 0x000002e4, 0x80000054}}, {2, 46, 2, 58, 0, 18, {0x90000070, 0xb0000053, 0x30000008, 0x00000043, 0xd0000072, 0xb0000010, 0xf0000062, 0xc0000042, 0x00000030, 0xe0000042, 0x20000060, 0xe0000041, 0x20000050, 0xc0000041, 0xe0000072, 0xa0000003, 0xc0000012, 0x60000041, 0xc0000032, 0x20000001, 0xc0000002, 0xe"#

/-- part of cgo/ubc_check.c:72 -/
def ubcCLines_72_10 : List Nat := text! r#"0000042, 0x60000042, 0x80000002, 0x00000000, 0x00000000, 0x80000000, 0x00000002, 0x00000040, 0x00000000, 0x80000040, 0x80000000, 0x00000040, 0x80000001, 0x00000060, 0x80000003, 0x40000002, 0xc0000040, 0xc0000002, 0x80000000, 0x80000000, 0x80000002, 0x00000040, 0x00000002, 0x80000000, 0x80000000, 0x80000000, 0x00000002, 0x00000040, 0x00000000, 0x80000040, 0x80000002, 0x00000000, 0x80000000, 0x80000000, 0x00000000, 0x00000000, 0x00000000, 0x00000000, 0x00000000, 0x00000000, 0x00000004, 0x00000080, 0x00000004, 0x00000009, 0x00000105, 0x00000089, 0x00000016, 0x0000020b, 0x0000011b, 0x0000012d, 0x0000041e, 0x00000224, 0x00000050, 0x0000092e, 0x0000046c, 0x000005b6, 0x0000106a, 0x00000b90, 0x00000152}}, {2, 47, 0, 58, 0, 19, {0x20000010, 0x2400001c, 0xec000014, 0x0c000002, 0xc0000010, 0xb400001c, 0x2c000004, 0xbc000018, 0xb0000010, 0x0000000c, 0xb8000010, 0x08000018, 0x78000010, 0x08000014, 0x70000010, 0xb800001c, 0xe8000000, 0xb0000004, 0x58000010, 0xb000000c, 0x48000000, 0xb0000000, 0xb8000010, 0x98000010, 0xa0000000, 0x00000000, 0x00000000, 0x20000000, 0x80000000, 0x00000010, 0x00000000, 0x20000010, 0x20000000, 0x00000010, 0x60000000, 0x00000018, 0xe0000000, 0x90000000, 0x30000010, 0xb0000000, 0x20000000, 0x20000000, 0xa0000000, 0x00000010, 0x80000000, 0x20000000, 0x20000000, 0x20000000, 0x80000000, 0x00000010, 0x00000000, 0x20000010, 0xa0000000, 0x00000000, 0x20000000, 0x20000000, 0x00000000, 0x00000000, 0x00000000, 0x00000000, 0x00000000, 0x00000000, 0x00000001, 0x00000020, 0x00000001, 0x40000002, 0x40000041, 0x40000022, 0x80000005, 0xc0000082, 0xc0000046, 0x4000004b, 0x80000107, 0x00000089, 0x00000014, 0x8000024b, 0x0000011b, 0x8000016d, 0x8000041a, 0x000002e4}}, {2, 48, 0, 58, 0, 20, {0xbc00001a, 0x20000010, 0x2400001c, 0xec000014, 0x0c000002, 0xc0000010, 0xb400001c, 0x2c000004, 0xbc000018, 0xb0000010, 0x0000000c, 0xb8000010, 0x08000018, 0x78000010, 0x08000014, 0x70000010, 0xb800001c, 0xe8000000, 0xb0000004, 0x58000010, 0xb000000c, 0x48000000, 0xb0000000, 0xb800001"#

/-- part of cgo/ubc_check.c:72 -/
def ubcCLines_72_11 : List Nat := text! r#"0, 0x98000010, 0xa0000000, 0x00000000, 0x00000000, 0x20000000, 0x80000000, 0x00000010, 0x00000000, 0x20000010, 0x20000000, 0x00000010, 0x60000000, 0x00000018, 0xe0000000, 0x90000000, 0x30000010, 0xb0000000, 0x20000000, 0x20000000, 0xa0000000, 0x00000010, 0x80000000, 0x20000000, 0x20000000, 0x20000000, 0x80000000, 0x00000010, 0x00000000, 0x20000010, 0xa0000000, 0x00000000, 0x20000000, 0x20000000, 0x00000000, 0x00000000, 0x00000000, 0x00000000, 0x00000000, 0x00000000, 0x00000001, 0x00000020, 0x00000001, 0x40000002, 0x40000041, 0x40000022, 0x80000005, 0xc0000082, 0xc0000046, 0x4000004b, 0x80000107, 0x00000089, 0x00000014, 0x8000024b, 0x0000011b, 0x8000016d, 0x8000041a}}, {2, 49, 0, 58, 0, 21, {0x3c000004, 0xbc00001a, 0x20000010, 0x2400001c, 0xec000014, 0x0c000002, 0xc0000010, 0xb400001c, 0x2c000004, 0xbc000018, 0xb0000010, 0x0000000c, 0xb8000010, 0x08000018, 0x78000010, 0x08000014, 0x70000010, 0xb800001c, 0xe8000000, 0xb0000004, 0x58000010, 0xb000000c, 0x48000000, 0xb0000000, 0xb8000010, 0x98000010, 0xa0000000, 0x00000000, 0x00000000, 0x20000000, 0x80000000, 0x00000010, 0x00000000, 0x20000010, 0x20000000, 0x00000010, 0x60000000, 0x00000018, 0xe0000000, 0x90000000, 0x30000010, 0xb0000000, 0x20000000, 0x20000000, 0xa0000000, 0x00000010, 0x80000000, 0x20000000, 0x20000000, 0x20000000, 0x80000000, 0x00000010, 0x00000000, 0x20000010, 0xa0000000, 0x00000000, 0x20000000, 0x20000000, 0x00000000, 0x00000000, 0x00000000, 0x00000000, 0x00000000, 0x00000000, 0x00000001, 0x00000020, 0x00000001, 0x40000002, 0x40000041, 0x40000022, 0x80000005, 0xc0000082, 0xc0000046, 0x4000004b, 0x80000107, 0x00000089, 0x00000014, 0x8000024b, 0x0000011b, 0x8000016d}}, {2, 49, 2, 58, 0, 22, {0xf0000010, 0xf000006a, 0x80000040, 0x90000070, 0xb0000053, 0x30000008, 0x00000043, 0xd0000072, 0xb0000010, 0xf0000062, 0xc0000042, 0x00000030, 0xe0000042, 0x20000060, 0xe0000041, 0x20000050, 0xc0000041, 0xe0000072, 0xa0000003, 0xc0000012, 0x60000041, 0xc0000032, 0x20000001, 0xc0000002, 0xe0000042, 0x60000042, 0x8"#

/-- part of cgo/ubc_check.c:72 -/
def ubcCLines_72_12 : List Nat := text! r#"0000002, 0x00000000, 0x00000000, 0x80000000, 0x00000002, 0x00000040, 0x00000000, 0x80000040, 0x80000000, 0x00000040, 0x80000001, 0x00000060, 0x80000003, 0x40000002, 0xc0000040, 0xc0000002, 0x80000000, 0x80000000, 0x80000002, 0x00000040, 0x00000002, 0x80000000, 0x80000000, 0x80000000, 0x00000002, 0x00000040, 0x00000000, 0x80000040, 0x80000002, 0x00000000, 0x80000000, 0x80000000, 0x00000000, 0x00000000, 0x00000000, 0x00000000, 0x00000000, 0x00000000, 0x00000004, 0x00000080, 0x00000004, 0x00000009, 0x00000105, 0x00000089, 0x00000016, 0x0000020b, 0x0000011b, 0x0000012d, 0x0000041e, 0x00000224, 0x00000050, 0x0000092e, 0x0000046c, 0x000005b6}}, {2, 50, 0, 65, 0, 23, {0xb400001c, 0x3c000004, 0xbc00001a, 0x20000010, 0x2400001c, 0xec000014, 0x0c000002, 0xc0000010, 0xb400001c, 0x2c000004, 0xbc000018, 0xb0000010, 0x0000000c, 0xb8000010, 0x08000018, 0x78000010, 0x08000014, 0x70000010, 0xb800001c, 0xe8000000, 0xb0000004, 0x58000010, 0xb000000c, 0x48000000, 0xb0000000, 0xb8000010, 0x98000010, 0xa0000000, 0x00000000, 0x00000000, 0x20000000, 0x80000000, 0x00000010, 0x00000000, 0x20000010, 0x20000000, 0x00000010, 0x60000000, 0x00000018, 0xe0000000, 0x90000000, 0x30000010, 0xb0000000, 0x20000000, 0x20000000, 0xa0000000, 0x00000010, 0x80000000, 0x20000000, 0x20000000, 0x20000000, 0x80000000, 0x00000010, 0x00000000, 0x20000010, 0xa0000000, 0x00000000, 0x20000000, 0x20000000, 0x00000000, 0x00000000, 0x00000000, 0x00000000, 0x00000000, 0x00000000, 0x00000001, 0x00000020, 0x00000001, 0x40000002, 0x40000041, 0x40000022, 0x80000005, 0xc0000082, 0xc0000046, 0x4000004b, 0x80000107, 0x00000089, 0x00000014, 0x8000024b, 0x0000011b}}, {2, 50, 2, 65, 0, 24, {0xd0000072, 0xf0000010, 0xf000006a, 0x80000040, 0x90000070, 0xb0000053, 0x30000008, 0x00000043, 0xd0000072, 0xb0000010, 0xf0000062, 0xc0000042, 0x00000030, 0xe0000042, 0x20000060, 0xe0000041, 0x20000050, 0xc0000041, 0xe0000072, 0xa0000003, 0xc0000012, 0x60000041, 0xc0000032, 0x20000001, 0xc0000002, 0xe0000042, 0x60000042, 0x80000002, 0x0000000"#

/-- part of cgo/ubc_check.c:72 -/
def ubcCLines_72_13 : List Nat := text! r#"0, 0x00000000, 0x80000000, 0x00000002, 0x00000040, 0x00000000, 0x80000040, 0x80000000, 0x00000040, 0x80000001, 0x00000060, 0x80000003, 0x40000002, 0xc0000040, 0xc0000002, 0x80000000, 0x80000000, 0x80000002, 0x00000040, 0x00000002, 0x80000000, 0x80000000, 0x80000000, 0x00000002, 0x00000040, 0x00000000, 0x80000040, 0x80000002, 0x00000000, 0x80000000, 0x80000000, 0x00000000, 0x00000000, 0x00000000, 0x00000000, 0x00000000, 0x00000000, 0x00000004, 0x00000080, 0x00000004, 0x00000009, 0x00000105, 0x00000089, 0x00000016, 0x0000020b, 0x0000011b, 0x0000012d, 0x0000041e, 0x00000224, 0x00000050, 0x0000092e, 0x0000046c}}, {2, 51, 0, 65, 0, 25, {0xc0000010, 0xb400001c, 0x3c000004, 0xbc00001a, 0x20000010, 0x2400001c, 0xec000014, 0x0c000002, 0xc0000010, 0xb400001c, 0x2c000004, 0xbc000018, 0xb0000010, 0x0000000c, 0xb8000010, 0x08000018, 0x78000010, 0x08000014, 0x70000010, 0xb800001c, 0xe8000000, 0xb0000004, 0x58000010, 0xb000000c, 0x48000000, 0xb0000000, 0xb8000010, 0x98000010, 0xa0000000, 0x00000000, 0x00000000, 0x20000000, 0x80000000, 0x00000010, 0x00000000, 0x20000010, 0x20000000, 0x00000010, 0x60000000, 0x00000018, 0xe0000000, 0x90000000, 0x30000010, 0xb0000000, 0x20000000, 0x20000000, 0xa0000000, 0x00000010, 0x80000000, 0x20000000, 0x20000000, 0x20000000, 0x80000000, 0x00000010, 0x00000000, 0x20000010, 0xa0000000, 0x00000000, 0x20000000, 0x20000000, 0x00000000, 0x00000000, 0x00000000, 0x00000000, 0x00000000, 0x00000000, 0x00000001, 0x00000020, 0x00000001, 0x40000002, 0x40000041, 0x40000022, 0x80000005, 0xc0000082, 0xc0000046, 0x4000004b, 0x80000107, 0x00000089, 0x00000014, 0x8000024b}}, {2, 51, 2, 65, 0, 26, {0x00000043, 0xd0000072, 0xf0000010, 0xf000006a, 0x80000040, 0x90000070, 0xb0000053, 0x30000008, 0x00000043, 0xd0000072, 0xb0000010, 0xf0000062, 0xc0000042, 0x00000030, 0xe0000042, 0x20000060, 0xe0000041, 0x20000050, 0xc0000041, 0xe0000072, 0xa0000003, 0xc0000012, 0x60000041, 0xc0000032, 0x20000001, 0xc0000002, 0xe0000042, 0x60000042, 0x80000002, 0x00000000, 0x00000000, 0x8"#

/-- part of cgo/ubc_check.c:72 -/
def ubcCLines_72_14 : List Nat := text! r#"0000000, 0x00000002, 0x00000040, 0x00000000, 0x80000040, 0x80000000, 0x00000040, 0x80000001, 0x00000060, 0x80000003, 0x40000002, 0xc0000040, 0xc0000002, 0x80000000, 0x80000000, 0x80000002, 0x00000040, 0x00000002, 0x80000000, 0x80000000, 0x80000000, 0x00000002, 0x00000040, 0x00000000, 0x80000040, 0x80000002, 0x00000000, 0x80000000, 0x80000000, 0x00000000, 0x00000000, 0x00000000, 0x00000000, 0x00000000, 0x00000000, 0x00000004, 0x00000080, 0x00000004, 0x00000009, 0x00000105, 0x00000089, 0x00000016, 0x0000020b, 0x0000011b, 0x0000012d, 0x0000041e, 0x00000224, 0x00000050, 0x0000092e}}, {2, 52, 0, 65, 0, 27, {0x0c000002, 0xc0000010, 0xb400001c, 0x3c000004, 0xbc00001a, 0x20000010, 0x2400001c, 0xec000014, 0x0c000002, 0xc0000010, 0xb400001c, 0x2c000004, 0xbc000018, 0xb0000010, 0x0000000c, 0xb8000010, 0x08000018, 0x78000010, 0x08000014, 0x70000010, 0xb800001c, 0xe8000000, 0xb0000004, 0x58000010, 0xb000000c, 0x48000000, 0xb0000000, 0xb8000010, 0x98000010, 0xa0000000, 0x00000000, 0x00000000, 0x20000000, 0x80000000, 0x00000010, 0x00000000, 0x20000010, 0x20000000, 0x00000010, 0x60000000, 0x00000018, 0xe0000000, 0x90000000, 0x30000010, 0xb0000000, 0x20000000, 0x20000000, 0xa0000000, 0x00000010, 0x80000000, 0x20000000, 0x20000000, 0x20000000, 0x80000000, 0x00000010, 0x00000000, 0x20000010, 0xa0000000, 0x00000000, 0x20000000, 0x20000000, 0x00000000, 0x00000000, 0x00000000, 0x00000000, 0x00000000, 0x00000000, 0x00000001, 0x00000020, 0x00000001, 0x40000002, 0x40000041, 0x40000022, 0x80000005, 0xc0000082, 0xc0000046, 0x4000004b, 0x80000107, 0x00000089, 0x00000014}}, {2, 53, 0, 65, 0, 28, {0xcc000014, 0x0c000002, 0xc0000010, 0xb400001c, 0x3c000004, 0xbc00001a, 0x20000010, 0x2400001c, 0xec000014, 0x0c000002, 0xc0000010, 0xb400001c, 0x2c000004, 0xbc000018, 0xb0000010, 0x0000000c, 0xb8000010, 0x08000018, 0x78000010, 0x08000014, 0x70000010, 0xb800001c, 0xe8000000, 0xb0000004, 0x58000010, 0xb000000c, 0x48000000, 0xb0000000, 0xb8000010, 0x98000010, 0xa0000000, 0x00000000, 0x00000000, 0x2000000"#

/-- part of cgo/ubc_check.c:72 -/
def ubcCLines_72_15 : List Nat := text! r#"0, 0x80000000, 0x00000010, 0x00000000, 0x20000010, 0x20000000, 0x00000010, 0x60000000, 0x00000018, 0xe0000000, 0x90000000, 0x30000010, 0xb0000000, 0x20000000, 0x20000000, 0xa0000000, 0x00000010, 0x80000000, 0x20000000, 0x20000000, 0x20000000, 0x80000000, 0x00000010, 0x00000000, 0x20000010, 0xa0000000, 0x00000000, 0x20000000, 0x20000000, 0x00000000, 0x00000000, 0x00000000, 0x00000000, 0x00000000, 0x00000000, 0x00000001, 0x00000020, 0x00000001, 0x40000002, 0x40000041, 0x40000022, 0x80000005, 0xc0000082, 0xc0000046, 0x4000004b, 0x80000107, 0x00000089}}, {2, 54, 0, 65, 0, 29, {0x0400001c, 0xcc000014, 0x0c000002, 0xc0000010, 0xb400001c, 0x3c000004, 0xbc00001a, 0x20000010, 0x2400001c, 0xec000014, 0x0c000002, 0xc0000010, 0xb400001c, 0x2c000004, 0xbc000018, 0xb0000010, 0x0000000c, 0xb8000010, 0x08000018, 0x78000010, 0x08000014, 0x70000010, 0xb800001c, 0xe8000000, 0xb0000004, 0x58000010, 0xb000000c, 0x48000000, 0xb0000000, 0xb8000010, 0x98000010, 0xa0000000, 0x00000000, 0x00000000, 0x20000000, 0x80000000, 0x00000010, 0x00000000, 0x20000010, 0x20000000, 0x00000010, 0x60000000, 0x00000018, 0xe0000000, 0x90000000, 0x30000010, 0xb0000000, 0x20000000, 0x20000000, 0xa0000000, 0x00000010, 0x80000000, 0x20000000, 0x20000000, 0x20000000, 0x80000000, 0x00000010, 0x00000000, 0x20000010, 0xa0000000, 0x00000000, 0x20000000, 0x20000000, 0x00000000, 0x00000000, 0x00000000, 0x00000000, 0x00000000, 0x00000000, 0x00000001, 0x00000020, 0x00000001, 0x40000002, 0x40000041, 0x40000022, 0x80000005, 0xc0000082, 0xc0000046, 0x4000004b, 0x80000107}}, {2, 55, 0, 65, 0, 30, {0x00000010, 0x0400001c, 0xcc000014, 0x0c000002, 0xc0000010, 0xb400001c, 0x3c000004, 0xbc00001a, 0x20000010, 0x2400001c, 0xec000014, 0x0c000002, 0xc0000010, 0xb400001c, 0x2c000004, 0xbc000018, 0xb0000010, 0x0000000c, 0xb8000010, 0x08000018, 0x78000010, 0x08000014, 0x70000010, 0xb800001c, 0xe8000000, 0xb0000004, 0x58000010, 0xb000000c, 0x48000000, 0xb0000000, 0xb8000010, 0x98000010, 0xa0000000, 0x00000000, 0x00000000, 0x20000000, 0x8"#

/-- part of cgo/ubc_check.c:72 -/
def ubcCLines_72_16 : List Nat := text! r#"0000000, 0x00000010, 0x00000000, 0x20000010, 0x20000000, 0x00000010, 0x60000000, 0x00000018, 0xe0000000, 0x90000000, 0x30000010, 0xb0000000, 0x20000000, 0x20000000, 0xa0000000, 0x00000010, 0x80000000, 0x20000000, 0x20000000, 0x20000000, 0x80000000, 0x00000010, 0x00000000, 0x20000010, 0xa0000000, 0x00000000, 0x20000000, 0x20000000, 0x00000000, 0x00000000, 0x00000000, 0x00000000, 0x00000000, 0x00000000, 0x00000001, 0x00000020, 0x00000001, 0x40000002, 0x40000041, 0x40000022, 0x80000005, 0xc0000082, 0xc0000046, 0x4000004b}}, {2, 56, 0, 65, 0, 31, {0x2600001a, 0x00000010, 0x0400001c, 0xcc000014, 0x0c000002, 0xc0000010, 0xb400001c, 0x3c000004, 0xbc00001a, 0x20000010, 0x2400001c, 0xec000014, 0x0c000002, 0xc0000010, 0xb400001c, 0x2c000004, 0xbc000018, 0xb0000010, 0x0000000c, 0xb8000010, 0x08000018, 0x78000010, 0x08000014, 0x70000010, 0xb800001c, 0xe8000000, 0xb0000004, 0x58000010, 0xb000000c, 0x48000000, 0xb0000000, 0xb8000010, 0x98000010, 0xa0000000, 0x00000000, 0x00000000, 0x20000000, 0x80000000, 0x00000010, 0x00000000, 0x20000010, 0x20000000, 0x00000010, 0x60000000, 0x00000018, 0xe0000000, 0x90000000, 0x30000010, 0xb0000000, 0x20000000, 0x20000000, 0xa0000000, 0x00000010, 0x80000000, 0x20000000, 0x20000000, 0x20000000, 0x80000000, 0x00000010, 0x00000000, 0x20000010, 0xa0000000, 0x00000000, 0x20000000, 0x20000000, 0x00000000, 0x00000000, 0x00000000, 0x00000000, 0x00000000, 0x00000000, 0x00000001, 0x00000020, 0x00000001, 0x40000002, 0x40000041, 0x40000022, 0x80000005, 0xc0000082, 0xc0000046}}, {0, 0, 0, 0, 0, 0, {0, 0, 0, 0, 0, 0, 0, 0, 0, 0, 0, 0, 0, 0, 0, 0, 0, 0, 0, 0, 0, 0, 0, 0, 0, 0, 0, 0, 0, 0, 0, 0, 0, 0, 0, 0, 0, 0, 0, 0, 0, 0, 0, 0, 0, 0, 0, 0, 0, 0, 0, 0, 0, 0, 0, 0, 0, 0, 0, 0, 0, 0, 0, 0, 0, 0, 0, 0, 0, 0, 0, 0, 0, 0, 0, 0, 0, 0, 0, 0}}};"#

/-- cgo/ubc_check.c:72 -/
def ubcCLines_72 : List Nat := ubcCLines_72_1 ++ (ubcCLines_72_2 ++ (ubcCLines_72_3 ++ (ubcCLines_72_4 ++ (ubcCLines_72_5 ++ (ubcCLines_72_6 ++ (ubcCLines_72_7 ++ (ubcCLines_72_8 ++ (ubcCLines_72_9 ++ (ubcCLines_72_10 ++ (ubcCLines_72_11 ++ (ubcCLines_72_12 ++ (ubcCLines_72_13 ++ (ubcCLines_72_14 ++ (ubcCLines_72_15 ++ (ubcCLines_72_16)))))))))))))))

/-- cgo/ubc_check.c:1-297 -/
def ubcCLines : List (List Nat) := [
  text! r#"/***"#,
  text! r#" * Copyright 2017 Marc Stevens <marc@marc-stevens.nl>, Dan Shumow <danshu@microsoft.com>"#,
  text! r#" * Distributed under the MIT Software License."#,
  text! r#" * See accompanying file LICENSE.txt or copy at"#,
  text! r#" * https://opensource.org/licenses/MIT"#,
  text! r#" ***/"#,
  text! r#""#,
  text! r#"// Originally from: https://github.com/cr-marcstevens/sha1collisiondetection"#,
  text! r#""#,
  text! r#"/*"#,
  text! r#"// this file was generated by the 'parse_bitrel' program in the tools section"#,
  text! r#"// using the data files from directory 'tools/data/3565'"#,
  text! r#"//"#,
  text! r#"// sha1_dvs contains a list of SHA-1 Disturbance Vectors (DV) to check"#,
  text! r#"// dvType, dvK and dvB define the DV: I(K,B) or II(K,B) (see the paper)"#,
  text! r#"// dm[80] is the expanded message block XOR-difference defined by the DV"#,
  text! r#"// testt is the step to do the recompression from for collision detection"#,
  text! r#"// maski and maskb define the bit to check for each DV in the dvmask returned by ubc_check"#,
  text! r#"//"#,
  text! r#"// ubc_check takes as input an expanded message block and verifies the unavoidable bitconditions for all listed DVs"#,
  text! r#"// it returns a dvmask where each bit belonging to a DV is set if all unavoidable bitconditions for that DV have been met"#,
  text! r#"// thus one needs to do the recompression check for each DV that has its bit set"#,
  text! r#"//"#,
  text! r#"// ubc_check is programmatically generated and the unavoidable bitconditions have been hardcoded"#,
  text! r#"// a directly verifiable version named ubc_check_verify can be found in ubc_check_verify.c"#,
  text! r#"// ubc_check has been verified against ubc_check_verify using the 'ubc_check_test' program in the tools section"#,
  text! r#"*/"#,
  text! r#""#,
  text! r#"#ifndef SHA1DC_NO_STANDARD_INCLUDES"#,
  text! r#"#include <stdint.h>"#,
  text! r#"#endif"#,
  text! r#"#ifdef SHA1DC_CUSTOM_INCLUDE_UBC_CHECK_C"#,
  text! r#"#include SHA1DC_CUSTOM_INCLUDE_UBC_CHECK_C"#,
  text! r#"#endif"#,
  text! r#"#include "ubc_check.h""#,
  text! r#""#,
  text! r#"static const uint32_t DV_I_43_0_bit = (uint32_t)(1) << 0;"#,
  text! r#"static const uint32_t DV_I_44_0_bit = (uint32_t)(1) << 1;"#,
  text! r#"static const uint32_t DV_I_45_0_bit = (uint32_t)(1) << 2;"#,
  text! r#"static const uint32_t DV_I_46_0_bit = (uint32_t)(1) << 3;"#,
  text! r#"static const uint32_t DV_I_46_2_bit = (uint32_t)(1) << 4;"#,
  text! r#"static const uint32_t DV_I_47_0_bit = (uint32_t)(1) << 5;"#,
  text! r#"static const uint32_t DV_I_47_2_bit = (uint32_t)(1) << 6;"#,
  text! r#"static const uint32_t DV_I_48_0_bit = (uint32_t)(1) << 7;"#,
  text! r#"static const uint32_t DV_I_48_2_bit = (uint32_t)(1) << 8;"#,
  text! r#"static const uint32_t DV_I_49_0_bit = (uint32_t)(1) << 9;"#,
  text! r#"static const uint32_t DV_I_49_2_bit = (uint32_t)(1) << 10;"#,
  text! r#"static const uint32_t DV_I_50_0_bit = (uint32_t)(1) << 11;"#,
  text! r#"static const uint32_t DV_I_50_2_bit = (uint32_t)(1) << 12;"#,
  text! r#"static const uint32_t DV_I_51_0_bit = (uint32_t)(1) << 13;"#,
  text! r#"static const uint32_t DV_I_51_2_bit = (uint32_t)(1) << 14;"#,
  text! r#"static const uint32_t DV_I_52_0_bit = (uint32_t)(1) << 15;"#,
  text! r#"static const uint32_t DV_II_45_0_bit = (uint32_t)(1) << 16;"#,
  text! r#"static const uint32_t DV_II_46_0_bit = (uint32_t)(1) << 17;"#,
  text! r#"static const uint32_t DV_II_46_2_bit = (uint32_t)(1) << 18;"#,
  text! r#"static const uint32_t DV_II_47_0_bit = (uint32_t)(1) << 19;"#,
  text! r#"static const uint32_t DV_II_48_0_bit = (uint32_t)(1) << 20;"#,
  text! r#"static const uint32_t DV_II_49_0_bit = (uint32_t)(1) << 21;"#,
  text! r#"static const uint32_t DV_II_49_2_bit = (uint32_t)(1) << 22;"#,
  text! r#"static const uint32_t DV_II_50_0_bit = (uint32_t)(1) << 23;"#,
  text! r#"static const uint32_t DV_II_50_2_bit = (uint32_t)(1) << 24;"#,
  text! r#"static const uint32_t DV_II_51_0_bit = (uint32_t)(1) << 25;"#,
  text! r#"static const uint32_t DV_II_51_2_bit = (uint32_t)(1) << 26;"#,
  text! r#"static const uint32_t DV_II_52_0_bit = (uint32_t)(1) << 27;"#,
  text! r#"static const uint32_t DV_II_53_0_bit = (uint32_t)(1) << 28;"#,
  text! r#"static const uint32_t DV_II_54_0_bit = (uint32_t)(1) << 29;"#,
  text! r#"static const uint32_t DV_II_55_0_bit = (uint32_t)(1) << 30;"#,
  text! r#"static const uint32_t DV_II_56_0_bit = (uint32_t)(1) << 31;"#,
  text! r#""#,
  text! r#"dv_info_t sha1_dvs[] ="#,
  text! r#"	{"#,
  ubcCLines_72,
  text! r#"void ubc_check(const uint32_t W[80], uint32_t dvmask[1])"#,
  text! r#"{"#,
  text! r#"	uint32_t mask = ~((uint32_t)(0));"#,
  text! r#"	mask &= (((((W[44] ^ W[45]) >> 29) & 1) - 1) | ~(DV_I_48_0_bit | DV_I_51_0_bit | DV_I_52_0_bit | DV_II_45_0_bit | DV_II_46_0_bit | DV_II_50_0_bit | DV_II_51_0_bit));"#,
  text! r#"	mask &= (((((W[49] ^ W[50]) >> 29) & 1) - 1) | ~(DV_I_46_0_bit | DV_II_45_0_bit | DV_II_50_0_bit | DV_II_51_0_bit | DV_II_55_0_bit | DV_II_56_0_bit));"#,
  text! r#"	mask &= (((((W[48] ^ W[49]) >> 29) & 1) - 1) | ~(DV_I_45_0_bit | DV_I_52_0_bit | DV_II_49_0_bit | DV_II_50_0_bit | DV_II_54_0_bit | DV_II_55_0_bit));"#,
  text! r#"	mask &= ((((W[47] ^ (W[50] >> 25)) & (1 << 4)) - (1 << 4)) | ~(DV_I_47_0_bit | DV_I_49_0_bit | DV_I_51_0_bit | DV_II_45_0_bit | DV_II_51_0_bit | DV_II_56_0_bit));"#,
  text! r#"	mask &= (((((W[47] ^ W[48]) >> 29) & 1) - 1) | ~(DV_I_44_0_bit | DV_I_51_0_bit | DV_II_48_0_bit | DV_II_49_0_bit | DV_II_53_0_bit | DV_II_54_0_bit));"#,
  text! r#"	mask &= (((((W[46] >> 4) ^ (W[49] >> 29)) & 1) - 1) | ~(DV_I_46_0_bit | DV_I_48_0_bit | DV_I_50_0_bit | DV_I_52_0_bit | DV_II_50_0_bit | DV_II_55_0_bit));"#,
  text! r#"	mask &= (((((W[46] ^ W[47]) >> 29) & 1) - 1) | ~(DV_I_43_0_bit | DV_I_50_0_bit | DV_II_47_0_bit | DV_II_48_0_bit | DV_II_52_0_bit | DV_II_53_0_bit));"#,
  text! r#"	mask &= (((((W[45] >> 4) ^ (W[48] >> 29)) & 1) - 1) | ~(DV_I_45_0_bit | DV_I_47_0_bit | DV_I_49_0_bit | DV_I_51_0_bit | DV_II_49_0_bit | DV_II_54_0_bit));"#,
  text! r#"	mask &= (((((W[45] ^ W[46]) >> 29) & 1) - 1) | ~(DV_I_49_0_bit | DV_I_52_0_bit | DV_II_46_0_bit | DV_II_47_0_bit | DV_II_51_0_bit | DV_II_52_0_bit));"#,
  text! r#"	mask &= (((((W[44] >> 4) ^ (W[47] >> 29)) & 1) - 1) | ~(DV_I_44_0_bit | DV_I_46_0_bit | DV_I_48_0_bit | DV_I_50_0_bit | DV_II_48_0_bit | DV_II_53_0_bit));"#,
  text! r#"	mask &= (((((W[43] >> 4) ^ (W[46] >> 29)) & 1) - 1) | ~(DV_I_43_0_bit | DV_I_45_0_bit | DV_I_47_0_bit | DV_I_49_0_bit | DV_II_47_0_bit | DV_II_52_0_bit));"#,
  text! r#"	mask &= (((((W[43] ^ W[44]) >> 29) & 1) - 1) | ~(DV_I_47_0_bit | DV_I_50_0_bit | DV_I_51_0_bit | DV_II_45_0_bit | DV_II_49_0_bit | DV_II_50_0_bit));"#,
  text! r#"	mask &= (((((W[42] >> 4) ^ (W[45] >> 29)) & 1) - 1) | ~(DV_I_44_0_bit | DV_I_46_0_bit | DV_I_48_0_bit | DV_I_52_0_bit | DV_II_46_0_bit | DV_II_51_0_bit));"#,
  text! r#"	mask &= (((((W[41] >> 4) ^ (W[44] >> 29)) & 1) - 1) | ~(DV_I_43_0_bit | DV_I_45_0_bit | DV_I_47_0_bit | DV_I_51_0_bit | DV_II_45_0_bit | DV_II_50_0_bit));"#,
  text! r#"	mask &= (((((W[40] ^ W[41]) >> 29) & 1) - 1) | ~(DV_I_44_0_bit | DV_I_47_0_bit | DV_I_48_0_bit | DV_II_46_0_bit | DV_II_47_0_bit | DV_II_56_0_bit));"#,
  text! r#"	mask &= (((((W[54] ^ W[55]) >> 29) & 1) - 1) | ~(DV_I_51_0_bit | DV_II_47_0_bit | DV_II_50_0_bit | DV_II_55_0_bit | DV_II_56_0_bit));"#,
  text! r#"	mask &= (((((W[53] ^ W[54]) >> 29) & 1) - 1) | ~(DV_I_50_0_bit | DV_II_46_0_bit | DV_II_49_0_bit | DV_II_54_0_bit | DV_II_55_0_bit));"#,
  text! r#"	mask &= (((((W[52] ^ W[53]) >> 29) & 1) - 1) | ~(DV_I_49_0_bit | DV_II_45_0_bit | DV_II_48_0_bit | DV_II_53_0_bit | DV_II_54_0_bit));"#,
  text! r#"	mask &= ((((W[50] ^ (W[53] >> 25)) & (1 << 4)) - (1 << 4)) | ~(DV_I_50_0_bit | DV_I_52_0_bit | DV_II_46_0_bit | DV_II_48_0_bit | DV_II_54_0_bit));"#,
  text! r#"	mask &= (((((W[50] ^ W[51]) >> 29) & 1) - 1) | ~(DV_I_47_0_bit | DV_II_46_0_bit | DV_II_51_0_bit | DV_II_52_0_bit | DV_II_56_0_bit));"#,
  text! r#"	mask &= ((((W[49] ^ (W[52] >> 25)) & (1 << 4)) - (1 << 4)) | ~(DV_I_49_0_bit | DV_I_51_0_bit | DV_II_45_0_bit | DV_II_47_0_bit | DV_II_53_0_bit));"#,
  text! r#"	mask &= ((((W[48] ^ (W[51] >> 25)) & (1 << 4)) - (1 << 4)) | ~(DV_I_48_0_bit | DV_I_50_0_bit | DV_I_52_0_bit | DV_II_46_0_bit | DV_II_52_0_bit));"#,
  text! r#"	mask &= (((((W[42] ^ W[43]) >> 29) & 1) - 1) | ~(DV_I_46_0_bit | DV_I_49_0_bit | DV_I_50_0_bit | DV_II_48_0_bit | DV_II_49_0_bit));"#,
  text! r#"	mask &= (((((W[41] ^ W[42]) >> 29) & 1) - 1) | ~(DV_I_45_0_bit | DV_I_48_0_bit | DV_I_49_0_bit | DV_II_47_0_bit | DV_II_48_0_bit));"#,
  text! r#"	mask &= (((((W[40] >> 4) ^ (W[43] >> 29)) & 1) - 1) | ~(DV_I_44_0_bit | DV_I_46_0_bit | DV_I_50_0_bit | DV_II_49_0_bit | DV_II_56_0_bit));"#,
  text! r#"	mask &= (((((W[39] >> 4) ^ (W[42] >> 29)) & 1) - 1) | ~(DV_I_43_0_bit | DV_I_45_0_bit | DV_I_49_0_bit | DV_II_48_0_bit | DV_II_55_0_bit));"#,
  text! r#"	if (mask & (DV_I_44_0_bit | DV_I_48_0_bit | DV_II_47_0_bit | DV_II_54_0_bit | DV_II_56_0_bit))"#,
  text! r#"		mask &= (((((W[38] >> 4) ^ (W[41] >> 29)) & 1) - 1) | ~(DV_I_44_0_bit | DV_I_48_0_bit | DV_II_47_0_bit | DV_II_54_0_bit | DV_II_56_0_bit));"#,
  text! r#"	mask &= (((((W[37] >> 4) ^ (W[40] >> 29)) & 1) - 1) | ~(DV_I_43_0_bit | DV_I_47_0_bit | DV_II_46_0_bit | DV_II_53_0_bit | DV_II_55_0_bit));"#,
  text! r#"	if (mask & (DV_I_52_0_bit | DV_II_48_0_bit | DV_II_51_0_bit | DV_II_56_0_bit))"#,
  text! r#"		mask &= (((((W[55] ^ W[56]) >> 29) & 1) - 1) | ~(DV_I_52_0_bit | DV_II_48_0_bit | DV_II_51_0_bit | DV_II_56_0_bit));"#,
  text! r#"	if (mask & (DV_I_52_0_bit | DV_II_48_0_bit | DV_II_50_0_bit | DV_II_56_0_bit))"#,
  text! r#"		mask &= ((((W[52] ^ (W[55] >> 25)) & (1 << 4)) - (1 << 4)) | ~(DV_I_52_0_bit | DV_II_48_0_bit | DV_II_50_0_bit | DV_II_56_0_bit));"#,
  text! r#"	if (mask & (DV_I_51_0_bit | DV_II_47_0_bit | DV_II_49_0_bit | DV_II_55_0_bit))"#,
  text! r#"		mask &= ((((W[51] ^ (W[54] >> 25)) & (1 << 4)) - (1 << 4)) | ~(DV_I_51_0_bit | DV_II_47_0_bit | DV_II_49_0_bit | DV_II_55_0_bit));"#,
  text! r#"	if (mask & (DV_I_48_0_bit | DV_II_47_0_bit | DV_II_52_0_bit | DV_II_53_0_bit))"#,
  text! r#"		mask &= (((((W[51] ^ W[52]) >> 29) & 1) - 1) | ~(DV_I_48_0_bit | DV_II_47_0_bit | DV_II_52_0_bit | DV_II_53_0_bit));"#,
  text! r#"	if (mask & (DV_I_46_0_bit | DV_I_49_0_bit | DV_II_45_0_bit | DV_II_48_0_bit))"#,
  text! r#"		mask &= (((((W[36] >> 4) ^ (W[40] >> 29)) & 1) - 1) | ~(DV_I_46_0_bit | DV_I_49_0_bit | DV_II_45_0_bit | DV_II_48_0_bit));"#,
  text! r#"	if (mask & (DV_I_52_0_bit | DV_II_48_0_bit | DV_II_49_0_bit))"#,
  text! r#"		mask &= ((0 - (((W[53] ^ W[56]) >> 29) & 1)) | ~(DV_I_52_0_bit | DV_II_48_0_bit | DV_II_49_0_bit));"#,
  text! r#"	if (mask & (DV_I_50_0_bit | DV_II_46_0_bit | DV_II_47_0_bit))"#,
  text! r#"		mask &= ((0 - (((W[51] ^ W[54]) >> 29) & 1)) | ~(DV_I_50_0_bit | DV_II_46_0_bit | DV_II_47_0_bit));"#,
  text! r#"	if (mask & (DV_I_49_0_bit | DV_I_51_0_bit | DV_II_45_0_bit))"#,
  text! r#"		mask &= ((0 - (((W[50] ^ W[52]) >> 29) & 1)) | ~(DV_I_49_0_bit | DV_I_51_0_bit | DV_II_45_0_bit));"#,
  text! r#"	if (mask & (DV_I_48_0_bit | DV_I_50_0_bit | DV_I_52_0_bit))"#,
  text! r#"		mask &= ((0 - (((W[49] ^ W[51]) >> 29) & 1)) | ~(DV_I_48_0_bit | DV_I_50_0_bit | DV_I_52_0_bit));"#,
  text! r#"	if (mask & (DV_I_47_0_bit | DV_I_49_0_bit | DV_I_51_0_bit))"#,
  text! r#"		mask &= ((0 - (((W[48] ^ W[50]) >> 29) & 1)) | ~(DV_I_47_0_bit | DV_I_49_0_bit | DV_I_51_0_bit));"#,
  text! r#"	if (mask & (DV_I_46_0_bit | DV_I_48_0_bit | DV_I_50_0_bit))"#,
  text! r#"		mask &= ((0 - (((W[47] ^ W[49]) >> 29) & 1)) | ~(DV_I_46_0_bit | DV_I_48_0_bit | DV_I_50_0_bit));"#,
  text! r#"	if (mask & (DV_I_45_0_bit | DV_I_47_0_bit | DV_I_49_0_bit))"#,
  text! r#"		mask &= ((0 - (((W[46] ^ W[48]) >> 29) & 1)) | ~(DV_I_45_0_bit | DV_I_47_0_bit | DV_I_49_0_bit));"#,
  text! r#"	mask &= ((((W[45] ^ W[47]) & (1 << 6)) - (1 << 6)) | ~(DV_I_47_2_bit | DV_I_49_2_bit | DV_I_51_2_bit));"#,
  text! r#"	if (mask & (DV_I_44_0_bit | DV_I_46_0_bit | DV_I_48_0_bit))"#,
  text! r#"		mask &= ((0 - (((W[45] ^ W[47]) >> 29) & 1)) | ~(DV_I_44_0_bit | DV_I_46_0_bit | DV_I_48_0_bit));"#,
  text! r#"	mask &= (((((W[44] ^ W[46]) >> 6) & 1) - 1) | ~(DV_I_46_2_bit | DV_I_48_2_bit | DV_I_50_2_bit));"#,
  text! r#"	if (mask & (DV_I_43_0_bit | DV_I_45_0_bit | DV_I_47_0_bit))"#,
  text! r#"		mask &= ((0 - (((W[44] ^ W[46]) >> 29) & 1)) | ~(DV_I_43_0_bit | DV_I_45_0_bit | DV_I_47_0_bit));"#,
  text! r#"	mask &= ((0 - ((W[41] ^ (W[42] >> 5)) & (1 << 1))) | ~(DV_I_48_2_bit | DV_II_46_2_bit | DV_II_51_2_bit));"#,
  text! r#"	mask &= ((0 - ((W[40] ^ (W[41] >> 5)) & (1 << 1))) | ~(DV_I_47_2_bit | DV_I_51_2_bit | DV_II_50_2_bit));"#,
  text! r#"	if (mask & (DV_I_44_0_bit | DV_I_46_0_bit | DV_II_56_0_bit))"#,
  text! r#"		mask &= ((0 - (((W[40] ^ W[42]) >> 4) & 1)) | ~(DV_I_44_0_bit | DV_I_46_0_bit | DV_II_56_0_bit));"#,
  text! r#"	mask &= ((0 - ((W[39] ^ (W[40] >> 5)) & (1 << 1))) | ~(DV_I_46_2_bit | DV_I_50_2_bit | DV_II_49_2_bit));"#,
  text! r#"	if (mask & (DV_I_43_0_bit | DV_I_45_0_bit | DV_II_55_0_bit))"#,
  text! r#"		mask &= ((0 - (((W[39] ^ W[41]) >> 4) & 1)) | ~(DV_I_43_0_bit | DV_I_45_0_bit | DV_II_55_0_bit));"#,
  text! r#"	if (mask & (DV_I_44_0_bit | DV_II_54_0_bit | DV_II_56_0_bit))"#,
  text! r#"		mask &= ((0 - (((W[38] ^ W[40]) >> 4) & 1)) | ~(DV_I_44_0_bit | DV_II_54_0_bit | DV_II_56_0_bit));"#,
  text! r#"	if (mask & (DV_I_43_0_bit | DV_II_53_0_bit | DV_II_55_0_bit))"#,
  text! r#"		mask &= ((0 - (((W[37] ^ W[39]) >> 4) & 1)) | ~(DV_I_43_0_bit | DV_II_53_0_bit | DV_II_55_0_bit));"#,
  text! r#"	mask &= ((0 - ((W[36] ^ (W[37] >> 5)) & (1 << 1))) | ~(DV_I_47_2_bit | DV_I_50_2_bit | DV_II_46_2_bit));"#,
  text! r#"	if (mask & (DV_I_45_0_bit | DV_I_48_0_bit | DV_II_47_0_bit))"#,
  text! r#"		mask &= (((((W[35] >> 4) ^ (W[39] >> 29)) & 1) - 1) | ~(DV_I_45_0_bit | DV_I_48_0_bit | DV_II_47_0_bit));"#,
  text! r#"	if (mask & (DV_I_48_0_bit | DV_II_48_0_bit))"#,
  text! r#"		mask &= ((0 - ((W[63] ^ (W[64] >> 5)) & (1 << 0))) | ~(DV_I_48_0_bit | DV_II_48_0_bit));"#,
  text! r#"	if (mask & (DV_I_45_0_bit | DV_II_45_0_bit))"#,
  text! r#"		mask &= ((0 - ((W[63] ^ (W[64] >> 5)) & (1 << 1))) | ~(DV_I_45_0_bit | DV_II_45_0_bit));"#,
  text! r#"	if (mask & (DV_I_47_0_bit | DV_II_47_0_bit))"#,
  text! r#"		mask &= ((0 - ((W[62] ^ (W[63] >> 5)) & (1 << 0))) | ~(DV_I_47_0_bit | DV_II_47_0_bit));"#,
  text! r#"	if (mask & (DV_I_46_0_bit | DV_II_46_0_bit))"#,
  text! r#"		mask &= ((0 - ((W[61] ^ (W[62] >> 5)) & (1 << 0))) | ~(DV_I_46_0_bit | DV_II_46_0_bit));"#,
  text! r#"	mask &= ((0 - ((W[61] ^ (W[62] >> 5)) & (1 << 2))) | ~(DV_I_46_2_bit | DV_II_46_2_bit));"#,
  text! r#"	if (mask & (DV_I_45_0_bit | DV_II_45_0_bit))"#,
  text! r#"		mask &= ((0 - ((W[60] ^ (W[61] >> 5)) & (1 << 0))) | ~(DV_I_45_0_bit | DV_II_45_0_bit));"#,
  text! r#"	if (mask & (DV_II_51_0_bit | DV_II_54_0_bit))"#,
  text! r#"		mask &= (((((W[58] ^ W[59]) >> 29) & 1) - 1) | ~(DV_II_51_0_bit | DV_II_54_0_bit));"#,
  text! r#"	if (mask & (DV_II_50_0_bit | DV_II_53_0_bit))"#,
  text! r#"		mask &= (((((W[57] ^ W[58]) >> 29) & 1) - 1) | ~(DV_II_50_0_bit | DV_II_53_0_bit));"#,
  text! r#"	if (mask & (DV_II_52_0_bit | DV_II_54_0_bit))"#,
  text! r#"		mask &= ((((W[56] ^ (W[59] >> 25)) & (1 << 4)) - (1 << 4)) | ~(DV_II_52_0_bit | DV_II_54_0_bit));"#,
  text! r#"	if (mask & (DV_II_51_0_bit | DV_II_52_0_bit))"#,
  text! r#"		mask &= ((0 - (((W[56] ^ W[59]) >> 29) & 1)) | ~(DV_II_51_0_bit | DV_II_52_0_bit));"#,
  text! r#"	if (mask & (DV_II_49_0_bit | DV_II_52_0_bit))"#,
  text! r#"		mask &= (((((W[56] ^ W[57]) >> 29) & 1) - 1) | ~(DV_II_49_0_bit | DV_II_52_0_bit));"#,
  text! r#"	if (mask & (DV_II_51_0_bit | DV_II_53_0_bit))"#,
  text! r#"		mask &= ((((W[55] ^ (W[58] >> 25)) & (1 << 4)) - (1 << 4)) | ~(DV_II_51_0_bit | DV_II_53_0_bit));"#,
  text! r#"	if (mask & (DV_II_50_0_bit | DV_II_52_0_bit))"#,
  text! r#"		mask &= ((((W[54] ^ (W[57] >> 25)) & (1 << 4)) - (1 << 4)) | ~(DV_II_50_0_bit | DV_II_52_0_bit));"#,
  text! r#"	if (mask & (DV_II_49_0_bit | DV_II_51_0_bit))"#,
  text! r#"		mask &= ((((W[53] ^ (W[56] >> 25)) & (1 << 4)) - (1 << 4)) | ~(DV_II_49_0_bit | DV_II_51_0_bit));"#,
  text! r#"	mask &= ((((W[51] ^ (W[50] >> 5)) & (1 << 1)) - (1 << 1)) | ~(DV_I_50_2_bit | DV_II_46_2_bit));"#,
  text! r#"	mask &= ((((W[48] ^ W[50]) & (1 << 6)) - (1 << 6)) | ~(DV_I_50_2_bit | DV_II_46_2_bit));"#,
  text! r#"	if (mask & (DV_I_51_0_bit | DV_I_52_0_bit))"#,
  text! r#"		mask &= ((0 - (((W[48] ^ W[55]) >> 29) & 1)) | ~(DV_I_51_0_bit | DV_I_52_0_bit));"#,
  text! r#"	mask &= ((((W[47] ^ W[49]) & (1 << 6)) - (1 << 6)) | ~(DV_I_49_2_bit | DV_I_51_2_bit));"#,
  text! r#"	mask &= ((((W[48] ^ (W[47] >> 5)) & (1 << 1)) - (1 << 1)) | ~(DV_I_47_2_bit | DV_II_51_2_bit));"#,
  text! r#"	mask &= ((((W[46] ^ W[48]) & (1 << 6)) - (1 << 6)) | ~(DV_I_48_2_bit | DV_I_50_2_bit));"#,
  text! r#"	mask &= ((((W[47] ^ (W[46] >> 5)) & (1 << 1)) - (1 << 1)) | ~(DV_I_46_2_bit | DV_II_50_2_bit));"#,
  text! r#"	mask &= ((0 - ((W[44] ^ (W[45] >> 5)) & (1 << 1))) | ~(DV_I_51_2_bit | DV_II_49_2_bit));"#,
  text! r#"	mask &= ((((W[43] ^ W[45]) & (1 << 6)) - (1 << 6)) | ~(DV_I_47_2_bit | DV_I_49_2_bit));"#,
  text! r#"	mask &= (((((W[42] ^ W[44]) >> 6) & 1) - 1) | ~(DV_I_46_2_bit | DV_I_48_2_bit));"#,
  text! r#"	mask &= ((((W[43] ^ (W[42] >> 5)) & (1 << 1)) - (1 << 1)) | ~(DV_II_46_2_bit | DV_II_51_2_bit));"#,
  text! r#"	mask &= ((((W[42] ^ (W[41] >> 5)) & (1 << 1)) - (1 << 1)) | ~(DV_I_51_2_bit | DV_II_50_2_bit));"#,
  text! r#"	mask &= ((((W[41] ^ (W[40] >> 5)) & (1 << 1)) - (1 << 1)) | ~(DV_I_50_2_bit | DV_II_49_2_bit));"#,
  text! r#"	if (mask & (DV_I_52_0_bit | DV_II_51_0_bit))"#,
  text! r#"		mask &= ((((W[39] ^ (W[43] >> 25)) & (1 << 4)) - (1 << 4)) | ~(DV_I_52_0_bit | DV_II_51_0_bit));"#,
  text! r#"	if (mask & (DV_I_51_0_bit | DV_II_50_0_bit))"#,
  text! r#"		mask &= ((((W[38] ^ (W[42] >> 25)) & (1 << 4)) - (1 << 4)) | ~(DV_I_51_0_bit | DV_II_50_0_bit));"#,
  text! r#"	if (mask & (DV_I_48_2_bit | DV_I_51_2_bit))"#,
  text! r#"		mask &= ((0 - ((W[37] ^ (W[38] >> 5)) & (1 << 1))) | ~(DV_I_48_2_bit | DV_I_51_2_bit));"#,
  text! r#"	if (mask & (DV_I_50_0_bit | DV_II_49_0_bit))"#,
  text! r#"		mask &= ((((W[37] ^ (W[41] >> 25)) & (1 << 4)) - (1 << 4)) | ~(DV_I_50_0_bit | DV_II_49_0_bit));"#,
  text! r#"	if (mask & (DV_II_52_0_bit | DV_II_54_0_bit))"#,
  text! r#"		mask &= ((0 - ((W[36] ^ W[38]) & (1 << 4))) | ~(DV_II_52_0_bit | DV_II_54_0_bit));"#,
  text! r#"	mask &= ((0 - ((W[35] ^ (W[36] >> 5)) & (1 << 1))) | ~(DV_I_46_2_bit | DV_I_49_2_bit));"#,
  text! r#"	if (mask & (DV_I_51_0_bit | DV_II_47_0_bit))"#,
  text! r#"		mask &= ((((W[35] ^ (W[39] >> 25)) & (1 << 3)) - (1 << 3)) | ~(DV_I_51_0_bit | DV_II_47_0_bit));"#,
  text! r#"	if (mask)"#,
  text! r#"	{"#,
  text! r#""#,
  text! r#"		if (mask & DV_I_43_0_bit)"#,
  text! r#"			if ("#,
  text! r#"				!((W[61] ^ (W[62] >> 5)) & (1 << 1)) || !(!((W[59] ^ (W[63] >> 25)) & (1 << 5))) || !((W[58] ^ (W[63] >> 30)) & (1 << 0)))"#,
  text! r#"				mask &= ~DV_I_43_0_bit;"#,
  text! r#"		if (mask & DV_I_44_0_bit)"#,
  text! r#"			if ("#,
  text! r#"				!((W[62] ^ (W[63] >> 5)) & (1 << 1)) || !(!((W[60] ^ (W[64] >> 25)) & (1 << 5))) || !((W[59] ^ (W[64] >> 30)) & (1 << 0)))"#,
  text! r#"				mask &= ~DV_I_44_0_bit;"#,
  text! r#"		if (mask & DV_I_46_2_bit)"#,
  text! r#"			mask &= ((~((W[40] ^ W[42]) >> 2)) | ~DV_I_46_2_bit);"#,
  text! r#"		if (mask & DV_I_47_2_bit)"#,
  text! r#"			if ("#,
  text! r#"				!((W[62] ^ (W[63] >> 5)) & (1 << 2)) || !(!((W[41] ^ W[43]) & (1 << 6))))"#,
  text! r#"				mask &= ~DV_I_47_2_bit;"#,
  text! r#"		if (mask & DV_I_48_2_bit)"#,
  text! r#"			if ("#,
  text! r#"				!((W[63] ^ (W[64] >> 5)) & (1 << 2)) || !(!((W[48] ^ (W[49] << 5)) & (1 << 6))))"#,
  text! r#"				mask &= ~DV_I_48_2_bit;"#,
  text! r#"		if (mask & DV_I_49_2_bit)"#,
  text! r#"			if ("#,
  text! r#"				!(!((W[49] ^ (W[50] << 5)) & (1 << 6))) || !((W[42] ^ W[50]) & (1 << 1)) || !(!((W[39] ^ (W[40] << 5)) & (1 << 6))) || !((W[38] ^ W[40]) & (1 << 1)))"#,
  text! r#"				mask &= ~DV_I_49_2_bit;"#,
  text! r#"		if (mask & DV_I_50_0_bit)"#,
  text! r#"			mask &= ((((W[36] ^ W[37]) << 7)) | ~DV_I_50_0_bit);"#,
  text! r#"		if (mask & DV_I_50_2_bit)"#,
  text! r#"			mask &= ((((W[43] ^ W[51]) << 11)) | ~DV_I_50_2_bit);"#,
  text! r#"		if (mask & DV_I_51_0_bit)"#,
  text! r#"			mask &= ((((W[37] ^ W[38]) << 9)) | ~DV_I_51_0_bit);"#,
  text! r#"		if (mask & DV_I_51_2_bit)"#,
  text! r#"			if ("#,
  text! r#"				!(!((W[51] ^ (W[52] << 5)) & (1 << 6))) || !(!((W[49] ^ W[51]) & (1 << 6))) || !(!((W[37] ^ (W[37] >> 5)) & (1 << 1))) || !(!((W[35] ^ (W[39] >> 25)) & (1 << 5))))"#,
  text! r#"				mask &= ~DV_I_51_2_bit;"#,
  text! r#"		if (mask & DV_I_52_0_bit)"#,
  text! r#"			mask &= ((((W[38] ^ W[39]) << 11)) | ~DV_I_52_0_bit);"#,
  text! r#"		if (mask & DV_II_46_2_bit)"#,
  text! r#"			mask &= ((((W[47] ^ W[51]) << 17)) | ~DV_II_46_2_bit);"#,
  text! r#"		if (mask & DV_II_48_0_bit)"#,
  text! r#"			if ("#,
  text! r#"				!(!((W[36] ^ (W[40] >> 25)) & (1 << 3))) || !((W[35] ^ (W[40] << 2)) & (1 << 30)))"#,
  text! r#"				mask &= ~DV_II_48_0_bit;"#,
  text! r#"		if (mask & DV_II_49_0_bit)"#,
  text! r#"			if ("#,
  text! r#"				!(!((W[37] ^ (W[41] >> 25)) & (1 << 3))) || !((W[36] ^ (W[41] << 2)) & (1 << 30)))"#,
  text! r#"				mask &= ~DV_II_49_0_bit;"#,
  text! r#"		if (mask & DV_II_49_2_bit)"#,
  text! r#"			if ("#,
  text! r#"				!(!((W[53] ^ (W[54] << 5)) & (1 << 6))) || !(!((W[51] ^ W[53]) & (1 << 6))) || !((W[50] ^ W[54]) & (1 << 1)) || !(!((W[45] ^ (W[46] << 5)) & (1 << 6))) || !(!((W[37] ^ (W[41] >> 25)) & (1 << 5))) || !((W[36] ^ (W[41] >> 30)) & (1 << 0)))"#,
  text! r#"				mask &= ~DV_II_49_2_bit;"#,
  text! r#"		if (mask & DV_II_50_0_bit)"#,
  text! r#"			if ("#,
  text! r#"				!((W[55] ^ W[58]) & (1 << 29)) || !(!((W[38] ^ (W[42] >> 25)) & (1 << 3))) || !((W[37] ^ (W[42] << 2)) & (1 << 30)))"#,
  text! r#"				mask &= ~DV_II_50_0_bit;"#,
  text! r#"		if (mask & DV_II_50_2_bit)"#,
  text! r#"			if ("#,
  text! r#"				!(!((W[54] ^ (W[55] << 5)) & (1 << 6))) || !(!((W[52] ^ W[54]) & (1 << 6))) || !((W[51] ^ W[55]) & (1 << 1)) || !((W[45] ^ W[47]) & (1 << 1)) || !(!((W[38] ^ (W[42] >> 25)) & (1 << 5))) || !((W[37] ^ (W[42] >> 30)) & (1 << 0)))"#,
  text! r#"				mask &= ~DV_II_50_2_bit;"#,
  text! r#"		if (mask & DV_II_51_0_bit)"#,
  text! r#"			if ("#,
  text! r#"				!(!((W[39] ^ (W[43] >> 25)) & (1 << 3))) || !((W[38] ^ (W[43] << 2)) & (1 << 30)))"#,
  text! r#"				mask &= ~DV_II_51_0_bit;"#,
  text! r#"		if (mask & DV_II_51_2_bit)"#,
  text! r#"			if ("#,
  text! r#"				!(!((W[55] ^ (W[56] << 5)) & (1 << 6))) || !(!((W[53] ^ W[55]) & (1 << 6))) || !((W[52] ^ W[56]) & (1 << 1)) || !((W[46] ^ W[48]) & (1 << 1)) || !(!((W[39] ^ (W[43] >> 25)) & (1 << 5))) || !((W[38] ^ (W[43] >> 30)) & (1 << 0)))"#,
  text! r#"				mask &= ~DV_II_51_2_bit;"#,
  text! r#"		if (mask & DV_II_52_0_bit)"#,
  text! r#"			if ("#,
  text! r#"				!(!((W[59] ^ W[60]) & (1 << 29))) || !(!((W[40] ^ (W[44] >> 25)) & (1 << 3))) || !(!((W[40] ^ (W[44] >> 25)) & (1 << 4))) || !((W[39] ^ (W[44] << 2)) & (1 << 30)))"#,
  text! r#"				mask &= ~DV_II_52_0_bit;"#,
  text! r#"		if (mask & DV_II_53_0_bit)"#,
  text! r#"			if ("#,
  text! r#"				!((W[58] ^ W[61]) & (1 << 29)) || !(!((W[57] ^ (W[61] >> 25)) & (1 << 4))) || !(!((W[41] ^ (W[45] >> 25)) & (1 << 3))) || !(!((W[41] ^ (W[45] >> 25)) & (1 << 4))))"#,
  text! r#"				mask &= ~DV_II_53_0_bit;"#,
  text! r#"		if (mask & DV_II_54_0_bit)"#,
  text! r#"			if ("#,
  text! r#"				!(!((W[58] ^ (W[62] >> 25)) & (1 << 4))) || !(!((W[42] ^ (W[46] >> 25)) & (1 << 3))) || !(!((W[42] ^ (W[46] >> 25)) & (1 << 4))))"#,
  text! r#"				mask &= ~DV_II_54_0_bit;"#,
  text! r#"		if (mask & DV_II_55_0_bit)"#,
  text! r#"			if ("#,
  text! r#"				!(!((W[59] ^ (W[63] >> 25)) & (1 << 4))) || !(!((W[57] ^ (W[59] >> 25)) & (1 << 4))) || !(!((W[43] ^ (W[47] >> 25)) & (1 << 3))) || !(!((W[43] ^ (W[47] >> 25)) & (1 << 4))))"#,
  text! r#"				mask &= ~DV_II_55_0_bit;"#,
  text! r#"		if (mask & DV_II_56_0_bit)"#,
  text! r#"			if ("#,
  text! r#"				!(!((W[60] ^ (W[64] >> 25)) & (1 << 4))) || !(!((W[44] ^ (W[48] >> 25)) & (1 << 3))) || !(!((W[44] ^ (W[48] >> 25)) & (1 << 4))))"#,
  text! r#"				mask &= ~DV_II_56_0_bit;"#,
  text! r#"	}"#,
  text! r#""#,
  text! r#"	dvmask[0] = mask;"#,
  text! r#"}"#,
  text! r#""#,
  text! r#"#ifdef SHA1DC_CUSTOM_TRAILING_INCLUDE_UBC_CHECK_C"#,
  text! r#"#include SHA1DC_CUSTOM_TRAILING_INCLUDE_UBC_CHECK_C"#,
  text! r#"#endif"#]

/-- cgo/sha1.h:1-114 -/
def sha1HeaderLines : List (List Nat) := [
  text! r#"/***"#,
  text! r#" * Copyright 2017 Marc Stevens <marc@marc-stevens.nl>, Dan Shumow <danshu@microsoft.com>"#,
  text! r#" * Distributed under the MIT Software License."#,
  text! r#" * See accompanying file LICENSE.txt or copy at"#,
  text! r#" * https://opensource.org/licenses/MIT"#,
  text! r#" ***/"#,
  text! r#""#,
  text! r#"// Originally from: https://github.com/cr-marcstevens/sha1collisiondetection"#,
  text! r#""#,
  text! r#"#ifndef SHA1DC_SHA1_H"#,
  text! r#"#define SHA1DC_SHA1_H"#,
  text! r#""#,
  text! r#"#if defined(__cplusplus)"#,
  text! r#"extern "C""#,
  text! r#"{"#,
  text! r#"#endif"#,
  text! r#""#,
  text! r#"#ifndef SHA1DC_NO_STANDARD_INCLUDES"#,
  text! r#"#include <stdint.h>"#,
  text! r#"#endif"#,
  text! r#""#,
  text! r#"	/* sha-1 compression function that takes an already expanded message, and additionally store intermediate states */"#,
  text! r#"	/* only stores states ii (the state between step ii-1 and step ii) when DOSTORESTATEii is defined in ubc_check.h */"#,
  text! r#"	void sha1_compression_states(uint32_t[5], const uint32_t[16], uint32_t[80], uint32_t[80][5]);"#,
  text! r#""#,
  text! r#"	/*"#,
  text! r#"	// Function type for sha1_recompression_step_T (uint32_t ihvin[5], uint32_t ihvout[5], const uint32_t me2[80], const uint32_t state[5])."#,
  text! r#"	// Where 0 <= T < 80"#,
  text! r#"	//       me2 is an expanded message (the expansion of an original message block XOR'ed with a disturbance vector's message block difference.)"#,
  text! r#"	//       state is the internal state (a,b,c,d,e) before step T of the SHA-1 compression function while processing the original message block."#,
  text! r#"	// The function will return:"#,
  text! r#"	//       ihvin: The reconstructed input chaining value."#,
  text! r#"	//       ihvout: The reconstructed output chaining value."#,
  text! r#"	*/"#,
  text! r#"	typedef void (*sha1_recompression_type)(uint32_t *, uint32_t *, const uint32_t *, const uint32_t *);"#,
  text! r#""#,
  text! r#"	/* A callback function type that can be set to be called when a collision block has been found: */"#,
  text! r#"	/* void collision_block_callback(uint64_t byteoffset, const uint32_t ihvin1[5], const uint32_t ihvin2[5], const uint32_t m1[80], const uint32_t m2[80]) */"#,
  text! r#"	typedef void (*collision_block_callback)(uint64_t, const uint32_t *, const uint32_t *, const uint32_t *, const uint32_t *);"#,
  text! r#""#,
  text! r#"	/* The SHA-1 context. */"#,
  text! r#"	typedef struct"#,
  text! r#"	{"#,
  text! r#"		uint64_t total;"#,
  text! r#"		uint32_t ihv[5];"#,
  text! r#"		unsigned char buffer[64];"#,
  text! r#"		int found_collision;"#,
  text! r#"		int safe_hash;"#,
  text! r#"		int detect_coll;"#,
  text! r#"		int ubc_check;"#,
  text! r#"		int reduced_round_coll;"#,
  text! r#"		collision_block_callback callback;"#,
  text! r#""#,
  text! r#"		uint32_t ihv1[5];"#,
  text! r#"		uint32_t ihv2[5];"#,
  text! r#"		uint32_t m1[80];"#,
  text! r#"		uint32_t m2[80];"#,
  text! r#"		uint32_t states[80][5];"#,
  text! r#"	} SHA1_CTX;"#,
  text! r#""#,
  text! r#"	/* Initialize SHA-1 context. */"#,
  text! r#"	void SHA1DCInit(SHA1_CTX *);"#,
  text! r#""#,
  text! r#"	/*"#,
  text! r#"		Function to enable safe SHA-1 hashing:"#,
  text! r#"		Collision attacks are thwarted by hashing a detected near-collision block 3 times."#,
  text! r#"		Think of it as extending SHA-1 from 80-steps to 240-steps for such blocks:"#,
  text! r#"			The best collision attacks against SHA-1 have complexity about 2^60,"#,
  text! r#"			thus for 240-steps an immediate lower-bound for the best cryptanalytic attacks would be 2^180."#,
  text! r#"			An attacker would be better off using a generic birthday search of complexity 2^80."#,
  text! r#""#,
  text! r#"	   Enabling safe SHA-1 hashing will result in the correct SHA-1 hash for messages where no collision attack was detected,"#,
  text! r#"	   but it will result in a different SHA-1 hash for messages where a collision attack was detected."#,
  text! r#"	   This will automatically invalidate SHA-1 based digital signature forgeries."#,
  text! r#"	   Enabled by default."#,
  text! r#"	*/"#,
  text! r#"	void SHA1DCSetSafeHash(SHA1_CTX *, int);"#,
  text! r#""#,
  text! r#"	/*"#,
  text! r#"		Function to disable or enable the use of Unavoidable Bitconditions (provides a significant speed up)."#,
  text! r#"		Enabled by default"#,
  text! r#"	 */"#,
  text! r#"	void SHA1DCSetUseUBC(SHA1_CTX *, int);"#,
  text! r#""#,
  text! r#"	/*"#,
  text! r#"		Function to disable or enable the use of Collision Detection."#,
  text! r#"		Enabled by default."#,
  text! r#"	 */"#,
  text! r#"	void SHA1DCSetUseDetectColl(SHA1_CTX *, int);"#,
  text! r#""#,
  text! r#"	/* function to disable or enable the detection of reduced-round SHA-1 collisions */"#,
  text! r#"	/* disabled by default */"#,
  text! r#"	void SHA1DCSetDetectReducedRoundCollision(SHA1_CTX *, int);"#,
  text! r#""#,
  text! r#"	/* function to set a callback function, pass NULL to disable */"#,
  text! r#"	/* by default no callback set */"#,
  text! r#"	void SHA1DCSetCallback(SHA1_CTX *, collision_block_callback);"#,
  text! r#""#,
  text! r#"	/* update SHA-1 context with buffer contents */"#,
  text! r#"	void SHA1DCUpdate(SHA1_CTX *, const char *, size_t);"#,
  text! r#""#,
  text! r#"	/* obtain SHA-1 hash from SHA-1 context */"#,
  text! r#"	/* returns: 0 = no collision detected, otherwise = collision found => warn user for active attack */"#,
  text! r#"	int SHA1DCFinal(unsigned char[20], SHA1_CTX *);"#,
  text! r#""#,
  text! r#"#if defined(__cplusplus)"#,
  text! r#"}"#,
  text! r#"#endif"#,
  text! r#""#,
  text! r#"#ifdef SHA1DC_CUSTOM_TRAILING_INCLUDE_SHA1_H"#,
  text! r#"#include SHA1DC_CUSTOM_TRAILING_INCLUDE_SHA1_H"#,
  text! r#"#endif"#,
  text! r#""#,
  text! r#"#endif"#]

/-- cgo/sha1.c:1-800 -/
def sha1CLines1 : List (List Nat) := [
  text! r#"/***"#,
  text! r#" * Copyright 2017 Marc Stevens <marc@marc-stevens.nl>, Dan Shumow (danshu@microsoft.com)"#,
  text! r#" * Distributed under the MIT Software License."#,
  text! r#" * See accompanying file LICENSE.txt or copy at"#,
  text! r#" * https://opensource.org/licenses/MIT"#,
  text! r#" ***/"#,
  text! r#""#,
  text! r#"// Originally from: https://github.com/cr-marcstevens/sha1collisiondetection"#,
  text! r#""#,
  text! r#"#ifndef SHA1DC_NO_STANDARD_INCLUDES"#,
  text! r#"#include <string.h>"#,
  text! r#"#include <memory.h>"#,
  text! r#"#include <stdio.h>"#,
  text! r#"#include <stdlib.h>"#,
  text! r#"#ifdef __unix__"#,
  text! r#"#include <sys/types.h> /* make sure macros like _BIG_ENDIAN visible */"#,
  text! r#"#endif"#,
  text! r#"#endif"#,
  text! r#""#,
  text! r#"#ifdef SHA1DC_CUSTOM_INCLUDE_SHA1_C"#,
  text! r#"#include SHA1DC_CUSTOM_INCLUDE_SHA1_C"#,
  text! r#"#endif"#,
  text! r#""#,
  text! r#"#ifndef SHA1DC_INIT_SAFE_HASH_DEFAULT"#,
  text! r#"#define SHA1DC_INIT_SAFE_HASH_DEFAULT 1"#,
  text! r#"#endif"#,
  text! r#""#,
  text! r#"#include "sha1.h""#,
  text! r#"#include "ubc_check.h""#,
  text! r#""#,
  text! r#"#if (defined(__amd64__) || defined(__amd64) || defined(__x86_64__) || defined(__x86_64) || \"#,
  text! r#"	 defined(i386) || defined(__i386) || defined(__i386__) || defined(__i486__) ||         \"#,
  text! r#"	 defined(__i586__) || defined(__i686__) || defined(_M_IX86) || defined(__X86__) ||     \"#,
  text! r#"	 defined(_X86_) || defined(__THW_INTEL__) || defined(__I86__) || defined(__INTEL__) || \"#,
  text! r#"	 defined(__386) || defined(_M_X64) || defined(_M_AMD64))"#,
  text! r#"#define SHA1DC_ON_INTEL_LIKE_PROCESSOR"#,
  text! r#"#endif"#,
  text! r#""#,
  text! r#"/*"#,
  text! r#"   Because Little-Endian architectures are most common,"#,
  text! r#"   we only set SHA1DC_BIGENDIAN if one of these conditions is met."#,
  text! r#"   Note that all MSFT platforms are little endian,"#,
  text! r#"   so none of these will be defined under the MSC compiler."#,
  text! r#"   If you are compiling on a big endian platform and your compiler does not define one of these,"#,
  text! r#"   you will have to add whatever macros your tool chain defines to indicate Big-Endianness."#,
  text! r#" */"#,
  text! r#""#,
  text! r#"#if defined(__BYTE_ORDER__) && defined(__ORDER_BIG_ENDIAN__)"#,
  text! r#"/*"#,
  text! r#" * Should detect Big Endian under GCC since at least 4.6.0 (gcc svn"#,
  text! r#" * rev #165881). See"#,
  text! r#" * https://gcc.gnu.org/onlinedocs/cpp/Common-Predefined-Macros.html"#,
  text! r#" *"#,
  text! r#" * This also works under clang since 3.2, it copied the GCC-ism. See"#,
  text! r#" * clang.git's 3b198a97d2 ("Preprocessor: add __BYTE_ORDER__"#,
  text! r#" * predefined macro", 2012-07-27)"#,
  text! r#" */"#,
  text! r#"#if __BYTE_ORDER__ == __ORDER_BIG_ENDIAN__"#,
  text! r#"#define SHA1DC_BIGENDIAN"#,
  text! r#"#endif"#,
  text! r#""#,
  text! r#"/* Not under GCC-alike */"#,
  text! r#"#elif defined(__BYTE_ORDER) && defined(__BIG_ENDIAN)"#,
  text! r#"/*"#,
  text! r#" * Should detect Big Endian under glibc.git since 14245eb70e ("entered"#,
  text! r#" * into RCS", 1992-11-25). Defined in <endian.h> which will have been"#,
  text! r#" * brought in by standard headers. See glibc.git and"#,
  text! r#" * https://sourceforge.net/p/predef/wiki/Endianness/"#,
  text! r#" */"#,
  text! r#"#if __BYTE_ORDER == __BIG_ENDIAN"#,
  text! r#"#define SHA1DC_BIGENDIAN"#,
  text! r#"#endif"#,
  text! r#""#,
  text! r#"/* Not under GCC-alike or glibc */"#,
  text! r#"#elif defined(_BYTE_ORDER) && defined(_BIG_ENDIAN) && defined(_LITTLE_ENDIAN)"#,
  text! r#"/*"#,
  text! r#" * *BSD and newlib (embedded linux, cygwin, etc)."#,
  text! r#" * the defined(_BIG_ENDIAN) && defined(_LITTLE_ENDIAN) part prevents"#,
  text! r#" * this condition from matching with Solaris/sparc."#,
  text! r#" * (Solaris defines only one endian macro)"#,
  text! r#" */"#,
  text! r#"#if _BYTE_ORDER == _BIG_ENDIAN"#,
  text! r#"#define SHA1DC_BIGENDIAN"#,
  text! r#"#endif"#,
  text! r#""#,
  text! r#"/* Not under GCC-alike or glibc or *BSD or newlib */"#,
  text! r#"#elif (defined(__ARMEB__) || defined(__THUMBEB__) || defined(__AARCH64EB__) || \"#,
  text! r#"	   defined(__MIPSEB__) || defined(__MIPSEB) || defined(_MIPSEB) ||         \"#,
  text! r#"	   defined(__sparc))"#,
  text! r#"/*"#,
  text! r#" * Should define Big Endian for a whitelist of known processors. See"#,
  text! r#" * https://sourceforge.net/p/predef/wiki/Endianness/ and"#,
  text! r#" * http://www.oracle.com/technetwork/server-storage/solaris/portingtosolaris-138514.html"#,
  text! r#" */"#,
  text! r#"#define SHA1DC_BIGENDIAN"#,
  text! r#""#,
  text! r#"/* Not under GCC-alike or glibc or *BSD or newlib or <processor whitelist> */"#,
  text! r#"#elif (defined(_AIX) || defined(__hpux))"#,
  text! r#""#,
  text! r#"/*"#,
  text! r#" * Defines Big Endian on a whitelist of OSs that are known to be Big"#,
  text! r#" * Endian-only. See"#,
  text! r#" * https://public-inbox.org/git/93056823-2740-d072-1ebd-46b440b33d7e@felt.demon.nl/"#,
  text! r#" */"#,
  text! r#"#define SHA1DC_BIGENDIAN"#,
  text! r#""#,
  text! r#"/* Not under GCC-alike or glibc or *BSD or newlib or <processor whitelist> or <os whitelist> */"#,
  text! r#"#elif defined(SHA1DC_ON_INTEL_LIKE_PROCESSOR)"#,
  text! r#"/*"#,
  text! r#" * As a last resort before we do anything else we're not 100% sure"#,
  text! r#" * about below, we blacklist specific processors here. We could add"#,
  text! r#" * more, see e.g. https://wiki.debian.org/ArchitectureSpecificsMemo"#,
  text! r#" */"#,
  text! r#"#else /* Not under GCC-alike or glibc or *BSD or newlib or <processor whitelist> or <os whitelist> or <processor blacklist> */"#,
  text! r#""#,
  text! r#"/* We do nothing more here for now */"#,
  text! r#"/*#error "Uncomment this to see if you fall through all the detection"*/"#,
  text! r#""#,
  text! r#"#endif /* Big Endian detection */"#,
  text! r#""#,
  text! r#"#if (defined(SHA1DC_FORCE_LITTLEENDIAN) && defined(SHA1DC_BIGENDIAN))"#,
  text! r#"#undef SHA1DC_BIGENDIAN"#,
  text! r#"#endif"#,
  text! r#"#if (defined(SHA1DC_FORCE_BIGENDIAN) && !defined(SHA1DC_BIGENDIAN))"#,
  text! r#"#define SHA1DC_BIGENDIAN"#,
  text! r#"#endif"#,
  text! r#"/*ENDIANNESS SELECTION*/"#,
  text! r#""#,
  text! r#"#ifndef SHA1DC_FORCE_ALIGNED_ACCESS"#,
  text! r#"#if defined(SHA1DC_FORCE_UNALIGNED_ACCESS) || defined(SHA1DC_ON_INTEL_LIKE_PROCESSOR)"#,
  text! r#"#define SHA1DC_ALLOW_UNALIGNED_ACCESS"#,
  text! r#"#endif /*UNALIGNED ACCESS DETECTION*/"#,
  text! r#"#endif /*FORCE ALIGNED ACCESS*/"#,
  text! r#""#,
  text! r#"#define rotate_right(x, n) (((x) >> (n)) | ((x) << (32 - (n))))"#,
  text! r#"#define rotate_left(x, n) (((x) << (n)) | ((x) >> (32 - (n))))"#,
  text! r#""#,
  text! r#"#define sha1_bswap32(x)                                      \"#,
  text! r#"	{                                                        \"#,
  text! r#"		x = ((x << 8) & 0xFF00FF00) | ((x >> 8) & 0xFF00FF); \"#,
  text! r#"		x = (x << 16) | (x >> 16);                           \"#,
  text! r#"	}"#,
  text! r#""#,
  text! r#"#define sha1_mix(W, t) (rotate_left(W[t - 3] ^ W[t - 8] ^ W[t - 14] ^ W[t - 16], 1))"#,
  text! r#""#,
  text! r#"#ifdef SHA1DC_BIGENDIAN"#,
  text! r#"#define sha1_load(m, t, temp) \"#,
  text! r#"	{                         \"#,
  text! r#"		temp = m[t];          \"#,
  text! r#"	}"#,
  text! r#"#else"#,
  text! r#"#define sha1_load(m, t, temp) \"#,
  text! r#"	{                         \"#,
  text! r#"		temp = m[t];          \"#,
  text! r#"		sha1_bswap32(temp);   \"#,
  text! r#"	}"#,
  text! r#"#endif"#,
  text! r#""#,
  text! r#"#define sha1_store(W, t, x) *(volatile uint32_t *)&W[t] = x"#,
  text! r#""#,
  text! r#"#define sha1_f1(b, c, d) ((d) ^ ((b) & ((c) ^ (d))))"#,
  text! r#"#define sha1_f2(b, c, d) ((b) ^ (c) ^ (d))"#,
  text! r#"#define sha1_f3(b, c, d) (((b) & (c)) + ((d) & ((b) ^ (c))))"#,
  text! r#"#define sha1_f4(b, c, d) ((b) ^ (c) ^ (d))"#,
  text! r#""#,
  text! r#"#define HASHCLASH_SHA1COMPRESS_ROUND1_STEP(a, b, c, d, e, m, t)        \"#,
  text! r#"	{                                                                  \"#,
  text! r#"		e += rotate_left(a, 5) + sha1_f1(b, c, d) + 0x5A827999 + m[t]; \"#,
  text! r#"		b = rotate_left(b, 30);                                        \"#,
  text! r#"	}"#,
  text! r#"#define HASHCLASH_SHA1COMPRESS_ROUND2_STEP(a, b, c, d, e, m, t)        \"#,
  text! r#"	{                                                                  \"#,
  text! r#"		e += rotate_left(a, 5) + sha1_f2(b, c, d) + 0x6ED9EBA1 + m[t]; \"#,
  text! r#"		b = rotate_left(b, 30);                                        \"#,
  text! r#"	}"#,
  text! r#"#define HASHCLASH_SHA1COMPRESS_ROUND3_STEP(a, b, c, d, e, m, t)        \"#,
  text! r#"	{                                                                  \"#,
  text! r#"		e += rotate_left(a, 5) + sha1_f3(b, c, d) + 0x8F1BBCDC + m[t]; \"#,
  text! r#"		b = rotate_left(b, 30);                                        \"#,
  text! r#"	}"#,
  text! r#"#define HASHCLASH_SHA1COMPRESS_ROUND4_STEP(a, b, c, d, e, m, t)        \"#,
  text! r#"	{                                                                  \"#,
  text! r#"		e += rotate_left(a, 5) + sha1_f4(b, c, d) + 0xCA62C1D6 + m[t]; \"#,
  text! r#"		b = rotate_left(b, 30);                                        \"#,
  text! r#"	}"#,
  text! r#""#,
  text! r#"#define HASHCLASH_SHA1COMPRESS_ROUND1_STEP_BW(a, b, c, d, e, m, t)     \"#,
  text! r#"	{                                                                  \"#,
  text! r#"		b = rotate_right(b, 30);                                       \"#,
  text! r#"		e -= rotate_left(a, 5) + sha1_f1(b, c, d) + 0x5A827999 + m[t]; \"#,
  text! r#"	}"#,
  text! r#"#define HASHCLASH_SHA1COMPRESS_ROUND2_STEP_BW(a, b, c, d, e, m, t)     \"#,
  text! r#"	{                                                                  \"#,
  text! r#"		b = rotate_right(b, 30);                                       \"#,
  text! r#"		e -= rotate_left(a, 5) + sha1_f2(b, c, d) + 0x6ED9EBA1 + m[t]; \"#,
  text! r#"	}"#,
  text! r#"#define HASHCLASH_SHA1COMPRESS_ROUND3_STEP_BW(a, b, c, d, e, m, t)     \"#,
  text! r#"	{                                                                  \"#,
  text! r#"		b = rotate_right(b, 30);                                       \"#,
  text! r#"		e -= rotate_left(a, 5) + sha1_f3(b, c, d) + 0x8F1BBCDC + m[t]; \"#,
  text! r#"	}"#,
  text! r#"#define HASHCLASH_SHA1COMPRESS_ROUND4_STEP_BW(a, b, c, d, e, m, t)     \"#,
  text! r#"	{                                                                  \"#,
  text! r#"		b = rotate_right(b, 30);                                       \"#,
  text! r#"		e -= rotate_left(a, 5) + sha1_f4(b, c, d) + 0xCA62C1D6 + m[t]; \"#,
  text! r#"	}"#,
  text! r#""#,
  text! r#"#define SHA1COMPRESS_FULL_ROUND1_STEP_LOAD(a, b, c, d, e, m, W, t, temp) \"#,
  text! r#"	{                                                                    \"#,
  text! r#"		sha1_load(m, t, temp);                                           \"#,
  text! r#"		sha1_store(W, t, temp);                                          \"#,
  text! r#"		e += temp + rotate_left(a, 5) + sha1_f1(b, c, d) + 0x5A827999;   \"#,
  text! r#"		b = rotate_left(b, 30);                                          \"#,
  text! r#"	}"#,
  text! r#""#,
  text! r#"#define SHA1COMPRESS_FULL_ROUND1_STEP_EXPAND(a, b, c, d, e, W, t, temp) \"#,
  text! r#"	{                                                                   \"#,
  text! r#"		temp = sha1_mix(W, t);                                          \"#,
  text! r#"		sha1_store(W, t, temp);                                         \"#,
  text! r#"		e += temp + rotate_left(a, 5) + sha1_f1(b, c, d) + 0x5A827999;  \"#,
  text! r#"		b = rotate_left(b, 30);                                         \"#,
  text! r#"	}"#,
  text! r#""#,
  text! r#"#define SHA1COMPRESS_FULL_ROUND2_STEP(a, b, c, d, e, W, t, temp)       \"#,
  text! r#"	{                                                                  \"#,
  text! r#"		temp = sha1_mix(W, t);                                         \"#,
  text! r#"		sha1_store(W, t, temp);                                        \"#,
  text! r#"		e += temp + rotate_left(a, 5) + sha1_f2(b, c, d) + 0x6ED9EBA1; \"#,
  text! r#"		b = rotate_left(b, 30);                                        \"#,
  text! r#"	}"#,
  text! r#""#,
  text! r#"#define SHA1COMPRESS_FULL_ROUND3_STEP(a, b, c, d, e, W, t, temp)       \"#,
  text! r#"	{                                                                  \"#,
  text! r#"		temp = sha1_mix(W, t);                                         \"#,
  text! r#"		sha1_store(W, t, temp);                                        \"#,
  text! r#"		e += temp + rotate_left(a, 5) + sha1_f3(b, c, d) + 0x8F1BBCDC; \"#,
  text! r#"		b = rotate_left(b, 30);                                        \"#,
  text! r#"	}"#,
  text! r#""#,
  text! r#"#define SHA1COMPRESS_FULL_ROUND4_STEP(a, b, c, d, e, W, t, temp)       \"#,
  text! r#"	{                                                                  \"#,
  text! r#"		temp = sha1_mix(W, t);                                         \"#,
  text! r#"		sha1_store(W, t, temp);                                        \"#,
  text! r#"		e += temp + rotate_left(a, 5) + sha1_f4(b, c, d) + 0xCA62C1D6; \"#,
  text! r#"		b = rotate_left(b, 30);                                        \"#,
  text! r#"	}"#,
  text! r#""#,
  text! r#"#define SHA1_STORE_STATE(i) \"#,
  text! r#"	states[i][0] = a;       \"#,
  text! r#"	states[i][1] = b;       \"#,
  text! r#"	states[i][2] = c;       \"#,
  text! r#"	states[i][3] = d;       \"#,
  text! r#"	states[i][4] = e;"#,
  text! r#""#,
  text! r#"#ifdef BUILDNOCOLLDETECTSHA1COMPRESSION"#,
  text! r#"void sha1_compression(uint32_t ihv[5], const uint32_t m[16])"#,
  text! r#"{"#,
  text! r#"	uint32_t W[80];"#,
  text! r#"	uint32_t a, b, c, d, e;"#,
  text! r#"	unsigned i;"#,
  text! r#""#,
  text! r#"	memcpy(W, m, 16 * 4);"#,
  text! r#"	for (i = 16; i < 80; ++i)"#,
  text! r#"		W[i] = sha1_mix(W, i);"#,
  text! r#""#,
  text! r#"	a = ihv[0];"#,
  text! r#"	b = ihv[1];"#,
  text! r#"	c = ihv[2];"#,
  text! r#"	d = ihv[3];"#,
  text! r#"	e = ihv[4];"#,
  text! r#""#,
  text! r#"	HASHCLASH_SHA1COMPRESS_ROUND1_STEP(a, b, c, d, e, W, 0);"#,
  text! r#"	HASHCLASH_SHA1COMPRESS_ROUND1_STEP(e, a, b, c, d, W, 1);"#,
  text! r#"	HASHCLASH_SHA1COMPRESS_ROUND1_STEP(d, e, a, b, c, W, 2);"#,
  text! r#"	HASHCLASH_SHA1COMPRESS_ROUND1_STEP(c, d, e, a, b, W, 3);"#,
  text! r#"	HASHCLASH_SHA1COMPRESS_ROUND1_STEP(b, c, d, e, a, W, 4);"#,
  text! r#"	HASHCLASH_SHA1COMPRESS_ROUND1_STEP(a, b, c, d, e, W, 5);"#,
  text! r#"	HASHCLASH_SHA1COMPRESS_ROUND1_STEP(e, a, b, c, d, W, 6);"#,
  text! r#"	HASHCLASH_SHA1COMPRESS_ROUND1_STEP(d, e, a, b, c, W, 7);"#,
  text! r#"	HASHCLASH_SHA1COMPRESS_ROUND1_STEP(c, d, e, a, b, W, 8);"#,
  text! r#"	HASHCLASH_SHA1COMPRESS_ROUND1_STEP(b, c, d, e, a, W, 9);"#,
  text! r#"	HASHCLASH_SHA1COMPRESS_ROUND1_STEP(a, b, c, d, e, W, 10);"#,
  text! r#"	HASHCLASH_SHA1COMPRESS_ROUND1_STEP(e, a, b, c, d, W, 11);"#,
  text! r#"	HASHCLASH_SHA1COMPRESS_ROUND1_STEP(d, e, a, b, c, W, 12);"#,
  text! r#"	HASHCLASH_SHA1COMPRESS_ROUND1_STEP(c, d, e, a, b, W, 13);"#,
  text! r#"	HASHCLASH_SHA1COMPRESS_ROUND1_STEP(b, c, d, e, a, W, 14);"#,
  text! r#"	HASHCLASH_SHA1COMPRESS_ROUND1_STEP(a, b, c, d, e, W, 15);"#,
  text! r#"	HASHCLASH_SHA1COMPRESS_ROUND1_STEP(e, a, b, c, d, W, 16);"#,
  text! r#"	HASHCLASH_SHA1COMPRESS_ROUND1_STEP(d, e, a, b, c, W, 17);"#,
  text! r#"	HASHCLASH_SHA1COMPRESS_ROUND1_STEP(c, d, e, a, b, W, 18);"#,
  text! r#"	HASHCLASH_SHA1COMPRESS_ROUND1_STEP(b, c, d, e, a, W, 19);"#,
  text! r#""#,
  text! r#"	HASHCLASH_SHA1COMPRESS_ROUND2_STEP(a, b, c, d, e, W, 20);"#,
  text! r#"	HASHCLASH_SHA1COMPRESS_ROUND2_STEP(e, a, b, c, d, W, 21);"#,
  text! r#"	HASHCLASH_SHA1COMPRESS_ROUND2_STEP(d, e, a, b, c, W, 22);"#,
  text! r#"	HASHCLASH_SHA1COMPRESS_ROUND2_STEP(c, d, e, a, b, W, 23);"#,
  text! r#"	HASHCLASH_SHA1COMPRESS_ROUND2_STEP(b, c, d, e, a, W, 24);"#,
  text! r#"	HASHCLASH_SHA1COMPRESS_ROUND2_STEP(a, b, c, d, e, W, 25);"#,
  text! r#"	HASHCLASH_SHA1COMPRESS_ROUND2_STEP(e, a, b, c, d, W, 26);"#,
  text! r#"	HASHCLASH_SHA1COMPRESS_ROUND2_STEP(d, e, a, b, c, W, 27);"#,
  text! r#"	HASHCLASH_SHA1COMPRESS_ROUND2_STEP(c, d, e, a, b, W, 28);"#,
  text! r#"	HASHCLASH_SHA1COMPRESS_ROUND2_STEP(b, c, d, e, a, W, 29);"#,
  text! r#"	HASHCLASH_SHA1COMPRESS_ROUND2_STEP(a, b, c, d, e, W, 30);"#,
  text! r#"	HASHCLASH_SHA1COMPRESS_ROUND2_STEP(e, a, b, c, d, W, 31);"#,
  text! r#"	HASHCLASH_SHA1COMPRESS_ROUND2_STEP(d, e, a, b, c, W, 32);"#,
  text! r#"	HASHCLASH_SHA1COMPRESS_ROUND2_STEP(c, d, e, a, b, W, 33);"#,
  text! r#"	HASHCLASH_SHA1COMPRESS_ROUND2_STEP(b, c, d, e, a, W, 34);"#,
  text! r#"	HASHCLASH_SHA1COMPRESS_ROUND2_STEP(a, b, c, d, e, W, 35);"#,
  text! r#"	HASHCLASH_SHA1COMPRESS_ROUND2_STEP(e, a, b, c, d, W, 36);"#,
  text! r#"	HASHCLASH_SHA1COMPRESS_ROUND2_STEP(d, e, a, b, c, W, 37);"#,
  text! r#"	HASHCLASH_SHA1COMPRESS_ROUND2_STEP(c, d, e, a, b, W, 38);"#,
  text! r#"	HASHCLASH_SHA1COMPRESS_ROUND2_STEP(b, c, d, e, a, W, 39);"#,
  text! r#""#,
  text! r#"	HASHCLASH_SHA1COMPRESS_ROUND3_STEP(a, b, c, d, e, W, 40);"#,
  text! r#"	HASHCLASH_SHA1COMPRESS_ROUND3_STEP(e, a, b, c, d, W, 41);"#,
  text! r#"	HASHCLASH_SHA1COMPRESS_ROUND3_STEP(d, e, a, b, c, W, 42);"#,
  text! r#"	HASHCLASH_SHA1COMPRESS_ROUND3_STEP(c, d, e, a, b, W, 43);"#,
  text! r#"	HASHCLASH_SHA1COMPRESS_ROUND3_STEP(b, c, d, e, a, W, 44);"#,
  text! r#"	HASHCLASH_SHA1COMPRESS_ROUND3_STEP(a, b, c, d, e, W, 45);"#,
  text! r#"	HASHCLASH_SHA1COMPRESS_ROUND3_STEP(e, a, b, c, d, W, 46);"#,
  text! r#"	HASHCLASH_SHA1COMPRESS_ROUND3_STEP(d, e, a, b, c, W, 47);"#,
  text! r#"	HASHCLASH_SHA1COMPRESS_ROUND3_STEP(c, d, e, a, b, W, 48);"#,
  text! r#"	HASHCLASH_SHA1COMPRESS_ROUND3_STEP(b, c, d, e, a, W, 49);"#,
  text! r#"	HASHCLASH_SHA1COMPRESS_ROUND3_STEP(a, b, c, d, e, W, 50);"#,
  text! r#"	HASHCLASH_SHA1COMPRESS_ROUND3_STEP(e, a, b, c, d, W, 51);"#,
  text! r#"	HASHCLASH_SHA1COMPRESS_ROUND3_STEP(d, e, a, b, c, W, 52);"#,
  text! r#"	HASHCLASH_SHA1COMPRESS_ROUND3_STEP(c, d, e, a, b, W, 53);"#,
  text! r#"	HASHCLASH_SHA1COMPRESS_ROUND3_STEP(b, c, d, e, a, W, 54);"#,
  text! r#"	HASHCLASH_SHA1COMPRESS_ROUND3_STEP(a, b, c, d, e, W, 55);"#,
  text! r#"	HASHCLASH_SHA1COMPRESS_ROUND3_STEP(e, a, b, c, d, W, 56);"#,
  text! r#"	HASHCLASH_SHA1COMPRESS_ROUND3_STEP(d, e, a, b, c, W, 57);"#,
  text! r#"	HASHCLASH_SHA1COMPRESS_ROUND3_STEP(c, d, e, a, b, W, 58);"#,
  text! r#"	HASHCLASH_SHA1COMPRESS_ROUND3_STEP(b, c, d, e, a, W, 59);"#,
  text! r#""#,
  text! r#"	HASHCLASH_SHA1COMPRESS_ROUND4_STEP(a, b, c, d, e, W, 60);"#,
  text! r#"	HASHCLASH_SHA1COMPRESS_ROUND4_STEP(e, a, b, c, d, W, 61);"#,
  text! r#"	HASHCLASH_SHA1COMPRESS_ROUND4_STEP(d, e, a, b, c, W, 62);"#,
  text! r#"	HASHCLASH_SHA1COMPRESS_ROUND4_STEP(c, d, e, a, b, W, 63);"#,
  text! r#"	HASHCLASH_SHA1COMPRESS_ROUND4_STEP(b, c, d, e, a, W, 64);"#,
  text! r#"	HASHCLASH_SHA1COMPRESS_ROUND4_STEP(a, b, c, d, e, W, 65);"#,
  text! r#"	HASHCLASH_SHA1COMPRESS_ROUND4_STEP(e, a, b, c, d, W, 66);"#,
  text! r#"	HASHCLASH_SHA1COMPRESS_ROUND4_STEP(d, e, a, b, c, W, 67);"#,
  text! r#"	HASHCLASH_SHA1COMPRESS_ROUND4_STEP(c, d, e, a, b, W, 68);"#,
  text! r#"	HASHCLASH_SHA1COMPRESS_ROUND4_STEP(b, c, d, e, a, W, 69);"#,
  text! r#"	HASHCLASH_SHA1COMPRESS_ROUND4_STEP(a, b, c, d, e, W, 70);"#,
  text! r#"	HASHCLASH_SHA1COMPRESS_ROUND4_STEP(e, a, b, c, d, W, 71);"#,
  text! r#"	HASHCLASH_SHA1COMPRESS_ROUND4_STEP(d, e, a, b, c, W, 72);"#,
  text! r#"	HASHCLASH_SHA1COMPRESS_ROUND4_STEP(c, d, e, a, b, W, 73);"#,
  text! r#"	HASHCLASH_SHA1COMPRESS_ROUND4_STEP(b, c, d, e, a, W, 74);"#,
  text! r#"	HASHCLASH_SHA1COMPRESS_ROUND4_STEP(a, b, c, d, e, W, 75);"#,
  text! r#"	HASHCLASH_SHA1COMPRESS_ROUND4_STEP(e, a, b, c, d, W, 76);"#,
  text! r#"	HASHCLASH_SHA1COMPRESS_ROUND4_STEP(d, e, a, b, c, W, 77);"#,
  text! r#"	HASHCLASH_SHA1COMPRESS_ROUND4_STEP(c, d, e, a, b, W, 78);"#,
  text! r#"	HASHCLASH_SHA1COMPRESS_ROUND4_STEP(b, c, d, e, a, W, 79);"#,
  text! r#""#,
  text! r#"	ihv[0] += a;"#,
  text! r#"	ihv[1] += b;"#,
  text! r#"	ihv[2] += c;"#,
  text! r#"	ihv[3] += d;"#,
  text! r#"	ihv[4] += e;"#,
  text! r#"}"#,
  text! r#"#endif /*BUILDNOCOLLDETECTSHA1COMPRESSION*/"#,
  text! r#""#,
  text! r#"static void sha1_compression_W(uint32_t ihv[5], const uint32_t W[80])"#,
  text! r#"{"#,
  text! r#"	uint32_t a = ihv[0], b = ihv[1], c = ihv[2], d = ihv[3], e = ihv[4];"#,
  text! r#""#,
  text! r#"	HASHCLASH_SHA1COMPRESS_ROUND1_STEP(a, b, c, d, e, W, 0);"#,
  text! r#"	HASHCLASH_SHA1COMPRESS_ROUND1_STEP(e, a, b, c, d, W, 1);"#,
  text! r#"	HASHCLASH_SHA1COMPRESS_ROUND1_STEP(d, e, a, b, c, W, 2);"#,
  text! r#"	HASHCLASH_SHA1COMPRESS_ROUND1_STEP(c, d, e, a, b, W, 3);"#,
  text! r#"	HASHCLASH_SHA1COMPRESS_ROUND1_STEP(b, c, d, e, a, W, 4);"#,
  text! r#"	HASHCLASH_SHA1COMPRESS_ROUND1_STEP(a, b, c, d, e, W, 5);"#,
  text! r#"	HASHCLASH_SHA1COMPRESS_ROUND1_STEP(e, a, b, c, d, W, 6);"#,
  text! r#"	HASHCLASH_SHA1COMPRESS_ROUND1_STEP(d, e, a, b, c, W, 7);"#,
  text! r#"	HASHCLASH_SHA1COMPRESS_ROUND1_STEP(c, d, e, a, b, W, 8);"#,
  text! r#"	HASHCLASH_SHA1COMPRESS_ROUND1_STEP(b, c, d, e, a, W, 9);"#,
  text! r#"	HASHCLASH_SHA1COMPRESS_ROUND1_STEP(a, b, c, d, e, W, 10);"#,
  text! r#"	HASHCLASH_SHA1COMPRESS_ROUND1_STEP(e, a, b, c, d, W, 11);"#,
  text! r#"	HASHCLASH_SHA1COMPRESS_ROUND1_STEP(d, e, a, b, c, W, 12);"#,
  text! r#"	HASHCLASH_SHA1COMPRESS_ROUND1_STEP(c, d, e, a, b, W, 13);"#,
  text! r#"	HASHCLASH_SHA1COMPRESS_ROUND1_STEP(b, c, d, e, a, W, 14);"#,
  text! r#"	HASHCLASH_SHA1COMPRESS_ROUND1_STEP(a, b, c, d, e, W, 15);"#,
  text! r#"	HASHCLASH_SHA1COMPRESS_ROUND1_STEP(e, a, b, c, d, W, 16);"#,
  text! r#"	HASHCLASH_SHA1COMPRESS_ROUND1_STEP(d, e, a, b, c, W, 17);"#,
  text! r#"	HASHCLASH_SHA1COMPRESS_ROUND1_STEP(c, d, e, a, b, W, 18);"#,
  text! r#"	HASHCLASH_SHA1COMPRESS_ROUND1_STEP(b, c, d, e, a, W, 19);"#,
  text! r#""#,
  text! r#"	HASHCLASH_SHA1COMPRESS_ROUND2_STEP(a, b, c, d, e, W, 20);"#,
  text! r#"	HASHCLASH_SHA1COMPRESS_ROUND2_STEP(e, a, b, c, d, W, 21);"#,
  text! r#"	HASHCLASH_SHA1COMPRESS_ROUND2_STEP(d, e, a, b, c, W, 22);"#,
  text! r#"	HASHCLASH_SHA1COMPRESS_ROUND2_STEP(c, d, e, a, b, W, 23);"#,
  text! r#"	HASHCLASH_SHA1COMPRESS_ROUND2_STEP(b, c, d, e, a, W, 24);"#,
  text! r#"	HASHCLASH_SHA1COMPRESS_ROUND2_STEP(a, b, c, d, e, W, 25);"#,
  text! r#"	HASHCLASH_SHA1COMPRESS_ROUND2_STEP(e, a, b, c, d, W, 26);"#,
  text! r#"	HASHCLASH_SHA1COMPRESS_ROUND2_STEP(d, e, a, b, c, W, 27);"#,
  text! r#"	HASHCLASH_SHA1COMPRESS_ROUND2_STEP(c, d, e, a, b, W, 28);"#,
  text! r#"	HASHCLASH_SHA1COMPRESS_ROUND2_STEP(b, c, d, e, a, W, 29);"#,
  text! r#"	HASHCLASH_SHA1COMPRESS_ROUND2_STEP(a, b, c, d, e, W, 30);"#,
  text! r#"	HASHCLASH_SHA1COMPRESS_ROUND2_STEP(e, a, b, c, d, W, 31);"#,
  text! r#"	HASHCLASH_SHA1COMPRESS_ROUND2_STEP(d, e, a, b, c, W, 32);"#,
  text! r#"	HASHCLASH_SHA1COMPRESS_ROUND2_STEP(c, d, e, a, b, W, 33);"#,
  text! r#"	HASHCLASH_SHA1COMPRESS_ROUND2_STEP(b, c, d, e, a, W, 34);"#,
  text! r#"	HASHCLASH_SHA1COMPRESS_ROUND2_STEP(a, b, c, d, e, W, 35);"#,
  text! r#"	HASHCLASH_SHA1COMPRESS_ROUND2_STEP(e, a, b, c, d, W, 36);"#,
  text! r#"	HASHCLASH_SHA1COMPRESS_ROUND2_STEP(d, e, a, b, c, W, 37);"#,
  text! r#"	HASHCLASH_SHA1COMPRESS_ROUND2_STEP(c, d, e, a, b, W, 38);"#,
  text! r#"	HASHCLASH_SHA1COMPRESS_ROUND2_STEP(b, c, d, e, a, W, 39);"#,
  text! r#""#,
  text! r#"	HASHCLASH_SHA1COMPRESS_ROUND3_STEP(a, b, c, d, e, W, 40);"#,
  text! r#"	HASHCLASH_SHA1COMPRESS_ROUND3_STEP(e, a, b, c, d, W, 41);"#,
  text! r#"	HASHCLASH_SHA1COMPRESS_ROUND3_STEP(d, e, a, b, c, W, 42);"#,
  text! r#"	HASHCLASH_SHA1COMPRESS_ROUND3_STEP(c, d, e, a, b, W, 43);"#,
  text! r#"	HASHCLASH_SHA1COMPRESS_ROUND3_STEP(b, c, d, e, a, W, 44);"#,
  text! r#"	HASHCLASH_SHA1COMPRESS_ROUND3_STEP(a, b, c, d, e, W, 45);"#,
  text! r#"	HASHCLASH_SHA1COMPRESS_ROUND3_STEP(e, a, b, c, d, W, 46);"#,
  text! r#"	HASHCLASH_SHA1COMPRESS_ROUND3_STEP(d, e, a, b, c, W, 47);"#,
  text! r#"	HASHCLASH_SHA1COMPRESS_ROUND3_STEP(c, d, e, a, b, W, 48);"#,
  text! r#"	HASHCLASH_SHA1COMPRESS_ROUND3_STEP(b, c, d, e, a, W, 49);"#,
  text! r#"	HASHCLASH_SHA1COMPRESS_ROUND3_STEP(a, b, c, d, e, W, 50);"#,
  text! r#"	HASHCLASH_SHA1COMPRESS_ROUND3_STEP(e, a, b, c, d, W, 51);"#,
  text! r#"	HASHCLASH_SHA1COMPRESS_ROUND3_STEP(d, e, a, b, c, W, 52);"#,
  text! r#"	HASHCLASH_SHA1COMPRESS_ROUND3_STEP(c, d, e, a, b, W, 53);"#,
  text! r#"	HASHCLASH_SHA1COMPRESS_ROUND3_STEP(b, c, d, e, a, W, 54);"#,
  text! r#"	HASHCLASH_SHA1COMPRESS_ROUND3_STEP(a, b, c, d, e, W, 55);"#,
  text! r#"	HASHCLASH_SHA1COMPRESS_ROUND3_STEP(e, a, b, c, d, W, 56);"#,
  text! r#"	HASHCLASH_SHA1COMPRESS_ROUND3_STEP(d, e, a, b, c, W, 57);"#,
  text! r#"	HASHCLASH_SHA1COMPRESS_ROUND3_STEP(c, d, e, a, b, W, 58);"#,
  text! r#"	HASHCLASH_SHA1COMPRESS_ROUND3_STEP(b, c, d, e, a, W, 59);"#,
  text! r#""#,
  text! r#"	HASHCLASH_SHA1COMPRESS_ROUND4_STEP(a, b, c, d, e, W, 60);"#,
  text! r#"	HASHCLASH_SHA1COMPRESS_ROUND4_STEP(e, a, b, c, d, W, 61);"#,
  text! r#"	HASHCLASH_SHA1COMPRESS_ROUND4_STEP(d, e, a, b, c, W, 62);"#,
  text! r#"	HASHCLASH_SHA1COMPRESS_ROUND4_STEP(c, d, e, a, b, W, 63);"#,
  text! r#"	HASHCLASH_SHA1COMPRESS_ROUND4_STEP(b, c, d, e, a, W, 64);"#,
  text! r#"	HASHCLASH_SHA1COMPRESS_ROUND4_STEP(a, b, c, d, e, W, 65);"#,
  text! r#"	HASHCLASH_SHA1COMPRESS_ROUND4_STEP(e, a, b, c, d, W, 66);"#,
  text! r#"	HASHCLASH_SHA1COMPRESS_ROUND4_STEP(d, e, a, b, c, W, 67);"#,
  text! r#"	HASHCLASH_SHA1COMPRESS_ROUND4_STEP(c, d, e, a, b, W, 68);"#,
  text! r#"	HASHCLASH_SHA1COMPRESS_ROUND4_STEP(b, c, d, e, a, W, 69);"#,
  text! r#"	HASHCLASH_SHA1COMPRESS_ROUND4_STEP(a, b, c, d, e, W, 70);"#,
  text! r#"	HASHCLASH_SHA1COMPRESS_ROUND4_STEP(e, a, b, c, d, W, 71);"#,
  text! r#"	HASHCLASH_SHA1COMPRESS_ROUND4_STEP(d, e, a, b, c, W, 72);"#,
  text! r#"	HASHCLASH_SHA1COMPRESS_ROUND4_STEP(c, d, e, a, b, W, 73);"#,
  text! r#"	HASHCLASH_SHA1COMPRESS_ROUND4_STEP(b, c, d, e, a, W, 74);"#,
  text! r#"	HASHCLASH_SHA1COMPRESS_ROUND4_STEP(a, b, c, d, e, W, 75);"#,
  text! r#"	HASHCLASH_SHA1COMPRESS_ROUND4_STEP(e, a, b, c, d, W, 76);"#,
  text! r#"	HASHCLASH_SHA1COMPRESS_ROUND4_STEP(d, e, a, b, c, W, 77);"#,
  text! r#"	HASHCLASH_SHA1COMPRESS_ROUND4_STEP(c, d, e, a, b, W, 78);"#,
  text! r#"	HASHCLASH_SHA1COMPRESS_ROUND4_STEP(b, c, d, e, a, W, 79);"#,
  text! r#""#,
  text! r#"	ihv[0] += a;"#,
  text! r#"	ihv[1] += b;"#,
  text! r#"	ihv[2] += c;"#,
  text! r#"	ihv[3] += d;"#,
  text! r#"	ihv[4] += e;"#,
  text! r#"}"#,
  text! r#""#,
  text! r#"void sha1_compression_states(uint32_t ihv[5], const uint32_t m[16], uint32_t W[80], uint32_t states[80][5])"#,
  text! r#"{"#,
  text! r#"	uint32_t a = ihv[0], b = ihv[1], c = ihv[2], d = ihv[3], e = ihv[4];"#,
  text! r#"	uint32_t temp;"#,
  text! r#""#,
  text! r#"#ifdef DOSTORESTATE00"#,
  text! r#"	SHA1_STORE_STATE(0)"#,
  text! r#"#endif"#,
  text! r#"	SHA1COMPRESS_FULL_ROUND1_STEP_LOAD(a, b, c, d, e, m, W, 0, temp);"#,
  text! r#""#,
  text! r#"#ifdef DOSTORESTATE01"#,
  text! r#"	SHA1_STORE_STATE(1)"#,
  text! r#"#endif"#,
  text! r#"	SHA1COMPRESS_FULL_ROUND1_STEP_LOAD(e, a, b, c, d, m, W, 1, temp);"#,
  text! r#""#,
  text! r#"#ifdef DOSTORESTATE02"#,
  text! r#"	SHA1_STORE_STATE(2)"#,
  text! r#"#endif"#,
  text! r#"	SHA1COMPRESS_FULL_ROUND1_STEP_LOAD(d, e, a, b, c, m, W, 2, temp);"#,
  text! r#""#,
  text! r#"#ifdef DOSTORESTATE03"#,
  text! r#"	SHA1_STORE_STATE(3)"#,
  text! r#"#endif"#,
  text! r#"	SHA1COMPRESS_FULL_ROUND1_STEP_LOAD(c, d, e, a, b, m, W, 3, temp);"#,
  text! r#""#,
  text! r#"#ifdef DOSTORESTATE04"#,
  text! r#"	SHA1_STORE_STATE(4)"#,
  text! r#"#endif"#,
  text! r#"	SHA1COMPRESS_FULL_ROUND1_STEP_LOAD(b, c, d, e, a, m, W, 4, temp);"#,
  text! r#""#,
  text! r#"#ifdef DOSTORESTATE05"#,
  text! r#"	SHA1_STORE_STATE(5)"#,
  text! r#"#endif"#,
  text! r#"	SHA1COMPRESS_FULL_ROUND1_STEP_LOAD(a, b, c, d, e, m, W, 5, temp);"#,
  text! r#""#,
  text! r#"#ifdef DOSTORESTATE06"#,
  text! r#"	SHA1_STORE_STATE(6)"#,
  text! r#"#endif"#,
  text! r#"	SHA1COMPRESS_FULL_ROUND1_STEP_LOAD(e, a, b, c, d, m, W, 6, temp);"#,
  text! r#""#,
  text! r#"#ifdef DOSTORESTATE07"#,
  text! r#"	SHA1_STORE_STATE(7)"#,
  text! r#"#endif"#,
  text! r#"	SHA1COMPRESS_FULL_ROUND1_STEP_LOAD(d, e, a, b, c, m, W, 7, temp);"#,
  text! r#""#,
  text! r#"#ifdef DOSTORESTATE08"#,
  text! r#"	SHA1_STORE_STATE(8)"#,
  text! r#"#endif"#,
  text! r#"	SHA1COMPRESS_FULL_ROUND1_STEP_LOAD(c, d, e, a, b, m, W, 8, temp);"#,
  text! r#""#,
  text! r#"#ifdef DOSTORESTATE09"#,
  text! r#"	SHA1_STORE_STATE(9)"#,
  text! r#"#endif"#,
  text! r#"	SHA1COMPRESS_FULL_ROUND1_STEP_LOAD(b, c, d, e, a, m, W, 9, temp);"#,
  text! r#""#,
  text! r#"#ifdef DOSTORESTATE10"#,
  text! r#"	SHA1_STORE_STATE(10)"#,
  text! r#"#endif"#,
  text! r#"	SHA1COMPRESS_FULL_ROUND1_STEP_LOAD(a, b, c, d, e, m, W, 10, temp);"#,
  text! r#""#,
  text! r#"#ifdef DOSTORESTATE11"#,
  text! r#"	SHA1_STORE_STATE(11)"#,
  text! r#"#endif"#,
  text! r#"	SHA1COMPRESS_FULL_ROUND1_STEP_LOAD(e, a, b, c, d, m, W, 11, temp);"#,
  text! r#""#,
  text! r#"#ifdef DOSTORESTATE12"#,
  text! r#"	SHA1_STORE_STATE(12)"#,
  text! r#"#endif"#,
  text! r#"	SHA1COMPRESS_FULL_ROUND1_STEP_LOAD(d, e, a, b, c, m, W, 12, temp);"#,
  text! r#""#,
  text! r#"#ifdef DOSTORESTATE13"#,
  text! r#"	SHA1_STORE_STATE(13)"#,
  text! r#"#endif"#,
  text! r#"	SHA1COMPRESS_FULL_ROUND1_STEP_LOAD(c, d, e, a, b, m, W, 13, temp);"#,
  text! r#""#,
  text! r#"#ifdef DOSTORESTATE14"#,
  text! r#"	SHA1_STORE_STATE(14)"#,
  text! r#"#endif"#,
  text! r#"	SHA1COMPRESS_FULL_ROUND1_STEP_LOAD(b, c, d, e, a, m, W, 14, temp);"#,
  text! r#""#,
  text! r#"#ifdef DOSTORESTATE15"#,
  text! r#"	SHA1_STORE_STATE(15)"#,
  text! r#"#endif"#,
  text! r#"	SHA1COMPRESS_FULL_ROUND1_STEP_LOAD(a, b, c, d, e, m, W, 15, temp);"#,
  text! r#""#,
  text! r#"#ifdef DOSTORESTATE16"#,
  text! r#"	SHA1_STORE_STATE(16)"#,
  text! r#"#endif"#,
  text! r#"	SHA1COMPRESS_FULL_ROUND1_STEP_EXPAND(e, a, b, c, d, W, 16, temp);"#,
  text! r#""#,
  text! r#"#ifdef DOSTORESTATE17"#,
  text! r#"	SHA1_STORE_STATE(17)"#,
  text! r#"#endif"#,
  text! r#"	SHA1COMPRESS_FULL_ROUND1_STEP_EXPAND(d, e, a, b, c, W, 17, temp);"#,
  text! r#""#,
  text! r#"#ifdef DOSTORESTATE18"#,
  text! r#"	SHA1_STORE_STATE(18)"#,
  text! r#"#endif"#,
  text! r#"	SHA1COMPRESS_FULL_ROUND1_STEP_EXPAND(c, d, e, a, b, W, 18, temp);"#,
  text! r#""#,
  text! r#"#ifdef DOSTORESTATE19"#,
  text! r#"	SHA1_STORE_STATE(19)"#,
  text! r#"#endif"#,
  text! r#"	SHA1COMPRESS_FULL_ROUND1_STEP_EXPAND(b, c, d, e, a, W, 19, temp);"#,
  text! r#""#,
  text! r#"#ifdef DOSTORESTATE20"#,
  text! r#"	SHA1_STORE_STATE(20)"#,
  text! r#"#endif"#,
  text! r#"	SHA1COMPRESS_FULL_ROUND2_STEP(a, b, c, d, e, W, 20, temp);"#,
  text! r#""#,
  text! r#"#ifdef DOSTORESTATE21"#,
  text! r#"	SHA1_STORE_STATE(21)"#,
  text! r#"#endif"#,
  text! r#"	SHA1COMPRESS_FULL_ROUND2_STEP(e, a, b, c, d, W, 21, temp);"#,
  text! r#""#,
  text! r#"#ifdef DOSTORESTATE22"#,
  text! r#"	SHA1_STORE_STATE(22)"#,
  text! r#"#endif"#,
  text! r#"	SHA1COMPRESS_FULL_ROUND2_STEP(d, e, a, b, c, W, 22, temp);"#,
  text! r#""#,
  text! r#"#ifdef DOSTORESTATE23"#,
  text! r#"	SHA1_STORE_STATE(23)"#,
  text! r#"#endif"#,
  text! r#"	SHA1COMPRESS_FULL_ROUND2_STEP(c, d, e, a, b, W, 23, temp);"#,
  text! r#""#,
  text! r#"#ifdef DOSTORESTATE24"#,
  text! r#"	SHA1_STORE_STATE(24)"#,
  text! r#"#endif"#,
  text! r#"	SHA1COMPRESS_FULL_ROUND2_STEP(b, c, d, e, a, W, 24, temp);"#,
  text! r#""#,
  text! r#"#ifdef DOSTORESTATE25"#,
  text! r#"	SHA1_STORE_STATE(25)"#,
  text! r#"#endif"#,
  text! r#"	SHA1COMPRESS_FULL_ROUND2_STEP(a, b, c, d, e, W, 25, temp);"#,
  text! r#""#,
  text! r#"#ifdef DOSTORESTATE26"#,
  text! r#"	SHA1_STORE_STATE(26)"#,
  text! r#"#endif"#,
  text! r#"	SHA1COMPRESS_FULL_ROUND2_STEP(e, a, b, c, d, W, 26, temp);"#,
  text! r#""#,
  text! r#"#ifdef DOSTORESTATE27"#,
  text! r#"	SHA1_STORE_STATE(27)"#,
  text! r#"#endif"#,
  text! r#"	SHA1COMPRESS_FULL_ROUND2_STEP(d, e, a, b, c, W, 27, temp);"#,
  text! r#""#,
  text! r#"#ifdef DOSTORESTATE28"#,
  text! r#"	SHA1_STORE_STATE(28)"#,
  text! r#"#endif"#,
  text! r#"	SHA1COMPRESS_FULL_ROUND2_STEP(c, d, e, a, b, W, 28, temp);"#,
  text! r#""#,
  text! r#"#ifdef DOSTORESTATE29"#,
  text! r#"	SHA1_STORE_STATE(29)"#,
  text! r#"#endif"#,
  text! r#"	SHA1COMPRESS_FULL_ROUND2_STEP(b, c, d, e, a, W, 29, temp);"#,
  text! r#""#,
  text! r#"#ifdef DOSTORESTATE30"#,
  text! r#"	SHA1_STORE_STATE(30)"#,
  text! r#"#endif"#,
  text! r#"	SHA1COMPRESS_FULL_ROUND2_STEP(a, b, c, d, e, W, 30, temp);"#,
  text! r#""#,
  text! r#"#ifdef DOSTORESTATE31"#,
  text! r#"	SHA1_STORE_STATE(31)"#,
  text! r#"#endif"#,
  text! r#"	SHA1COMPRESS_FULL_ROUND2_STEP(e, a, b, c, d, W, 31, temp);"#,
  text! r#""#,
  text! r#"#ifdef DOSTORESTATE32"#,
  text! r#"	SHA1_STORE_STATE(32)"#,
  text! r#"#endif"#,
  text! r#"	SHA1COMPRESS_FULL_ROUND2_STEP(d, e, a, b, c, W, 32, temp);"#,
  text! r#""#,
  text! r#"#ifdef DOSTORESTATE33"#,
  text! r#"	SHA1_STORE_STATE(33)"#,
  text! r#"#endif"#,
  text! r#"	SHA1COMPRESS_FULL_ROUND2_STEP(c, d, e, a, b, W, 33, temp);"#,
  text! r#""#,
  text! r#"#ifdef DOSTORESTATE34"#,
  text! r#"	SHA1_STORE_STATE(34)"#,
  text! r#"#endif"#,
  text! r#"	SHA1COMPRESS_FULL_ROUND2_STEP(b, c, d, e, a, W, 34, temp);"#,
  text! r#""#,
  text! r#"#ifdef DOSTORESTATE35"#,
  text! r#"	SHA1_STORE_STATE(35)"#,
  text! r#"#endif"#,
  text! r#"	SHA1COMPRESS_FULL_ROUND2_STEP(a, b, c, d, e, W, 35, temp);"#,
  text! r#""#,
  text! r#"#ifdef DOSTORESTATE36"#,
  text! r#"	SHA1_STORE_STATE(36)"#,
  text! r#"#endif"#,
  text! r#"	SHA1COMPRESS_FULL_ROUND2_STEP(e, a, b, c, d, W, 36, temp);"#,
  text! r#""#,
  text! r#"#ifdef DOSTORESTATE37"#,
  text! r#"	SHA1_STORE_STATE(37)"#,
  text! r#"#endif"#,
  text! r#"	SHA1COMPRESS_FULL_ROUND2_STEP(d, e, a, b, c, W, 37, temp);"#,
  text! r#""#,
  text! r#"#ifdef DOSTORESTATE38"#,
  text! r#"	SHA1_STORE_STATE(38)"#,
  text! r#"#endif"#,
  text! r#"	SHA1COMPRESS_FULL_ROUND2_STEP(c, d, e, a, b, W, 38, temp);"#,
  text! r#""#,
  text! r#"#ifdef DOSTORESTATE39"#,
  text! r#"	SHA1_STORE_STATE(39)"#,
  text! r#"#endif"#,
  text! r#"	SHA1COMPRESS_FULL_ROUND2_STEP(b, c, d, e, a, W, 39, temp);"#,
  text! r#""#,
  text! r#"#ifdef DOSTORESTATE40"#,
  text! r#"	SHA1_STORE_STATE(40)"#,
  text! r#"#endif"#,
  text! r#"	SHA1COMPRESS_FULL_ROUND3_STEP(a, b, c, d, e, W, 40, temp);"#,
  text! r#""#,
  text! r#"#ifdef DOSTORESTATE41"#,
  text! r#"	SHA1_STORE_STATE(41)"#,
  text! r#"#endif"#,
  text! r#"	SHA1COMPRESS_FULL_ROUND3_STEP(e, a, b, c, d, W, 41, temp);"#,
  text! r#""#,
  text! r#"#ifdef DOSTORESTATE42"#,
  text! r#"	SHA1_STORE_STATE(42)"#,
  text! r#"#endif"#,
  text! r#"	SHA1COMPRESS_FULL_ROUND3_STEP(d, e, a, b, c, W, 42, temp);"#,
  text! r#""#,
  text! r#"#ifdef DOSTORESTATE43"#,
  text! r#"	SHA1_STORE_STATE(43)"#,
  text! r#"#endif"#,
  text! r#"	SHA1COMPRESS_FULL_ROUND3_STEP(c, d, e, a, b, W, 43, temp);"#,
  text! r#""#,
  text! r#"#ifdef DOSTORESTATE44"#,
  text! r#"	SHA1_STORE_STATE(44)"#,
  text! r#"#endif"#,
  text! r#"	SHA1COMPRESS_FULL_ROUND3_STEP(b, c, d, e, a, W, 44, temp);"#,
  text! r#""#,
  text! r#"#ifdef DOSTORESTATE45"#,
  text! r#"	SHA1_STORE_STATE(45)"#,
  text! r#"#endif"#,
  text! r#"	SHA1COMPRESS_FULL_ROUND3_STEP(a, b, c, d, e, W, 45, temp);"#,
  text! r#""#,
  text! r#"#ifdef DOSTORESTATE46"#,
  text! r#"	SHA1_STORE_STATE(46)"#,
  text! r#"#endif"#,
  text! r#"	SHA1COMPRESS_FULL_ROUND3_STEP(e, a, b, c, d, W, 46, temp);"#,
  text! r#""#,
  text! r#"#ifdef DOSTORESTATE47"#,
  text! r#"	SHA1_STORE_STATE(47)"#,
  text! r#"#endif"#,
  text! r#"	SHA1COMPRESS_FULL_ROUND3_STEP(d, e, a, b, c, W, 47, temp);"#,
  text! r#""#,
  text! r#"#ifdef DOSTORESTATE48"#,
  text! r#"	SHA1_STORE_STATE(48)"#,
  text! r#"#endif"#,
  text! r#"	SHA1COMPRESS_FULL_ROUND3_STEP(c, d, e, a, b, W, 48, temp);"#,
  text! r#""#,
  text! r#"#ifdef DOSTORESTATE49"#,
  text! r#"	SHA1_STORE_STATE(49)"#,
  text! r#"#endif"#,
  text! r#"	SHA1COMPRESS_FULL_ROUND3_STEP(b, c, d, e, a, W, 49, temp);"#,
  text! r#""#,
  text! r#"#ifdef DOSTORESTATE50"#,
  text! r#"	SHA1_STORE_STATE(50)"#,
  text! r#"#endif"#,
  text! r#"	SHA1COMPRESS_FULL_ROUND3_STEP(a, b, c, d, e, W, 50, temp);"#,
  text! r#""#,
  text! r#"#ifdef DOSTORESTATE51"#,
  text! r#"	SHA1_STORE_STATE(51)"#,
  text! r#"#endif"#,
  text! r#"	SHA1COMPRESS_FULL_ROUND3_STEP(e, a, b, c, d, W, 51, temp);"#,
  text! r#""#,
  text! r#"#ifdef DOSTORESTATE52"#,
  text! r#"	SHA1_STORE_STATE(52)"#,
  text! r#"#endif"#,
  text! r#"	SHA1COMPRESS_FULL_ROUND3_STEP(d, e, a, b, c, W, 52, temp);"#,
  text! r#""#,
  text! r#"#ifdef DOSTORESTATE53"#,
  text! r#"	SHA1_STORE_STATE(53)"#,
  text! r#"#endif"#,
  text! r#"	SHA1COMPRESS_FULL_ROUND3_STEP(c, d, e, a, b, W, 53, temp);"#,
  text! r#""#,
  text! r#"#ifdef DOSTORESTATE54"#,
  text! r#"	SHA1_STORE_STATE(54)"#,
  text! r#"#endif"#,
  text! r#"	SHA1COMPRESS_FULL_ROUND3_STEP(b, c, d, e, a, W, 54, temp);"#,
  text! r#""#,
  text! r#"#ifdef DOSTORESTATE55"#,
  text! r#"	SHA1_STORE_STATE(55)"#,
  text! r#"#endif"#,
  text! r#"	SHA1COMPRESS_FULL_ROUND3_STEP(a, b, c, d, e, W, 55, temp);"#,
  text! r#""#,
  text! r#"#ifdef DOSTORESTATE56"#,
  text! r#"	SHA1_STORE_STATE(56)"#,
  text! r#"#endif"#,
  text! r#"	SHA1COMPRESS_FULL_ROUND3_STEP(e, a, b, c, d, W, 56, temp);"#,
  text! r#""#,
  text! r#"#ifdef DOSTORESTATE57"#,
  text! r#"	SHA1_STORE_STATE(57)"#,
  text! r#"#endif"#,
  text! r#"	SHA1COMPRESS_FULL_ROUND3_STEP(d, e, a, b, c, W, 57, temp);"#,
  text! r#""#,
  text! r#"#ifdef DOSTORESTATE58"#,
  text! r#"	SHA1_STORE_STATE(58)"#,
  text! r#"#endif"#,
  text! r#"	SHA1COMPRESS_FULL_ROUND3_STEP(c, d, e, a, b, W, 58, temp);"#,
  text! r#""#,
  text! r#"#ifdef DOSTORESTATE59"#,
  text! r#"	SHA1_STORE_STATE(59)"#,
  text! r#"#endif"#,
  text! r#"	SHA1COMPRESS_FULL_ROUND3_STEP(b, c, d, e, a, W, 59, temp);"#,
  text! r#""#,
  text! r#"#ifdef DOSTORESTATE60"#,
  text! r#"	SHA1_STORE_STATE(60)"#,
  text! r#"#endif"#,
  text! r#"	SHA1COMPRESS_FULL_ROUND4_STEP(a, b, c, d, e, W, 60, temp);"#,
  text! r#""#,
  text! r#"#ifdef DOSTORESTATE61"#,
  text! r#"	SHA1_STORE_STATE(61)"#,
  text! r#"#endif"#,
  text! r#"	SHA1COMPRESS_FULL_ROUND4_STEP(e, a, b, c, d, W, 61, temp);"#,
  text! r#""#,
  text! r#"#ifdef DOSTORESTATE62"#,
  text! r#"	SHA1_STORE_STATE(62)"#,
  text! r#"#endif"#,
  text! r#"	SHA1COMPRESS_FULL_ROUND4_STEP(d, e, a, b, c, W, 62, temp);"#,
  text! r#""#,
  text! r#"#ifdef DOSTORESTATE63"#,
  text! r#"	SHA1_STORE_STATE(63)"#,
  text! r#"#endif"#,
  text! r#"	SHA1COMPRESS_FULL_ROUND4_STEP(c, d, e, a, b, W, 63, temp);"#,
  text! r#""#,
  text! r#"#ifdef DOSTORESTATE64"#,
  text! r#"	SHA1_STORE_STATE(64)"#,
  text! r#"#endif"#,
  text! r#"	SHA1COMPRESS_FULL_ROUND4_STEP(b, c, d, e, a, W, 64, temp);"#,
  text! r#""#,
  text! r#"#ifdef DOSTORESTATE65"#,
  text! r#"	SHA1_STORE_STATE(65)"#,
  text! r#"#endif"#,
  text! r#"	SHA1COMPRESS_FULL_ROUND4_STEP(a, b, c, d, e, W, 65, temp);"#,
  text! r#""#,
  text! r#"#ifdef DOSTORESTATE66"#,
  text! r#"	SHA1_STORE_STATE(66)"#,
  text! r#"#endif"#,
  text! r#"	SHA1COMPRESS_FULL_ROUND4_STEP(e, a, b, c, d, W, 66, temp);"#,
  text! r#""#,
  text! r#"#ifdef DOSTORESTATE67"#,
  text! r#"	SHA1_STORE_STATE(67)"#]

/-- cgo/sha1.c:801-1600 -/
def sha1CLines2 : List (List Nat) := [
  text! r#"#endif"#,
  text! r#"	SHA1COMPRESS_FULL_ROUND4_STEP(d, e, a, b, c, W, 67, temp);"#,
  text! r#""#,
  text! r#"#ifdef DOSTORESTATE68"#,
  text! r#"	SHA1_STORE_STATE(68)"#,
  text! r#"#endif"#,
  text! r#"	SHA1COMPRESS_FULL_ROUND4_STEP(c, d, e, a, b, W, 68, temp);"#,
  text! r#""#,
  text! r#"#ifdef DOSTORESTATE69"#,
  text! r#"	SHA1_STORE_STATE(69)"#,
  text! r#"#endif"#,
  text! r#"	SHA1COMPRESS_FULL_ROUND4_STEP(b, c, d, e, a, W, 69, temp);"#,
  text! r#""#,
  text! r#"#ifdef DOSTORESTATE70"#,
  text! r#"	SHA1_STORE_STATE(70)"#,
  text! r#"#endif"#,
  text! r#"	SHA1COMPRESS_FULL_ROUND4_STEP(a, b, c, d, e, W, 70, temp);"#,
  text! r#""#,
  text! r#"#ifdef DOSTORESTATE71"#,
  text! r#"	SHA1_STORE_STATE(71)"#,
  text! r#"#endif"#,
  text! r#"	SHA1COMPRESS_FULL_ROUND4_STEP(e, a, b, c, d, W, 71, temp);"#,
  text! r#""#,
  text! r#"#ifdef DOSTORESTATE72"#,
  text! r#"	SHA1_STORE_STATE(72)"#,
  text! r#"#endif"#,
  text! r#"	SHA1COMPRESS_FULL_ROUND4_STEP(d, e, a, b, c, W, 72, temp);"#,
  text! r#""#,
  text! r#"#ifdef DOSTORESTATE73"#,
  text! r#"	SHA1_STORE_STATE(73)"#,
  text! r#"#endif"#,
  text! r#"	SHA1COMPRESS_FULL_ROUND4_STEP(c, d, e, a, b, W, 73, temp);"#,
  text! r#""#,
  text! r#"#ifdef DOSTORESTATE74"#,
  text! r#"	SHA1_STORE_STATE(74)"#,
  text! r#"#endif"#,
  text! r#"	SHA1COMPRESS_FULL_ROUND4_STEP(b, c, d, e, a, W, 74, temp);"#,
  text! r#""#,
  text! r#"#ifdef DOSTORESTATE75"#,
  text! r#"	SHA1_STORE_STATE(75)"#,
  text! r#"#endif"#,
  text! r#"	SHA1COMPRESS_FULL_ROUND4_STEP(a, b, c, d, e, W, 75, temp);"#,
  text! r#""#,
  text! r#"#ifdef DOSTORESTATE76"#,
  text! r#"	SHA1_STORE_STATE(76)"#,
  text! r#"#endif"#,
  text! r#"	SHA1COMPRESS_FULL_ROUND4_STEP(e, a, b, c, d, W, 76, temp);"#,
  text! r#""#,
  text! r#"#ifdef DOSTORESTATE77"#,
  text! r#"	SHA1_STORE_STATE(77)"#,
  text! r#"#endif"#,
  text! r#"	SHA1COMPRESS_FULL_ROUND4_STEP(d, e, a, b, c, W, 77, temp);"#,
  text! r#""#,
  text! r#"#ifdef DOSTORESTATE78"#,
  text! r#"	SHA1_STORE_STATE(78)"#,
  text! r#"#endif"#,
  text! r#"	SHA1COMPRESS_FULL_ROUND4_STEP(c, d, e, a, b, W, 78, temp);"#,
  text! r#""#,
  text! r#"#ifdef DOSTORESTATE79"#,
  text! r#"	SHA1_STORE_STATE(79)"#,
  text! r#"#endif"#,
  text! r#"	SHA1COMPRESS_FULL_ROUND4_STEP(b, c, d, e, a, W, 79, temp);"#,
  text! r#""#,
  text! r#"	ihv[0] += a;"#,
  text! r#"	ihv[1] += b;"#,
  text! r#"	ihv[2] += c;"#,
  text! r#"	ihv[3] += d;"#,
  text! r#"	ihv[4] += e;"#,
  text! r#"}"#,
  text! r#""#,
  text! r#"#define SHA1_RECOMPRESS(t)                                                                                                      \"#,
  text! r#"	static void sha1recompress_fast_##t(uint32_t ihvin[5], uint32_t ihvout[5], const uint32_t me2[80], const uint32_t state[5]) \"#,
  text! r#"	{                                                                                                                           \"#,
  text! r#"		uint32_t a = state[0], b = state[1], c = state[2], d = state[3], e = state[4];                                          \"#,
  text! r#"		if (t > 79)                                                                                                             \"#,
  text! r#"			HASHCLASH_SHA1COMPRESS_ROUND4_STEP_BW(b, c, d, e, a, me2, 79);                                                      \"#,
  text! r#"		if (t > 78)                                                                                                             \"#,
  text! r#"			HASHCLASH_SHA1COMPRESS_ROUND4_STEP_BW(c, d, e, a, b, me2, 78);                                                      \"#,
  text! r#"		if (t > 77)                                                                                                             \"#,
  text! r#"			HASHCLASH_SHA1COMPRESS_ROUND4_STEP_BW(d, e, a, b, c, me2, 77);                                                      \"#,
  text! r#"		if (t > 76)                                                                                                             \"#,
  text! r#"			HASHCLASH_SHA1COMPRESS_ROUND4_STEP_BW(e, a, b, c, d, me2, 76);                                                      \"#,
  text! r#"		if (t > 75)                                                                                                             \"#,
  text! r#"			HASHCLASH_SHA1COMPRESS_ROUND4_STEP_BW(a, b, c, d, e, me2, 75);                                                      \"#,
  text! r#"		if (t > 74)                                                                                                             \"#,
  text! r#"			HASHCLASH_SHA1COMPRESS_ROUND4_STEP_BW(b, c, d, e, a, me2, 74);                                                      \"#,
  text! r#"		if (t > 73)                                                                                                             \"#,
  text! r#"			HASHCLASH_SHA1COMPRESS_ROUND4_STEP_BW(c, d, e, a, b, me2, 73);                                                      \"#,
  text! r#"		if (t > 72)                                                                                                             \"#,
  text! r#"			HASHCLASH_SHA1COMPRESS_ROUND4_STEP_BW(d, e, a, b, c, me2, 72);                                                      \"#,
  text! r#"		if (t > 71)                                                                                                             \"#,
  text! r#"			HASHCLASH_SHA1COMPRESS_ROUND4_STEP_BW(e, a, b, c, d, me2, 71);                                                      \"#,
  text! r#"		if (t > 70)                                                                                                             \"#,
  text! r#"			HASHCLASH_SHA1COMPRESS_ROUND4_STEP_BW(a, b, c, d, e, me2, 70);                                                      \"#,
  text! r#"		if (t > 69)                                                                                                             \"#,
  text! r#"			HASHCLASH_SHA1COMPRESS_ROUND4_STEP_BW(b, c, d, e, a, me2, 69);                                                      \"#,
  text! r#"		if (t > 68)                                                                                                             \"#,
  text! r#"			HASHCLASH_SHA1COMPRESS_ROUND4_STEP_BW(c, d, e, a, b, me2, 68);                                                      \"#,
  text! r#"		if (t > 67)                                                                                                             \"#,
  text! r#"			HASHCLASH_SHA1COMPRESS_ROUND4_STEP_BW(d, e, a, b, c, me2, 67);                                                      \"#,
  text! r#"		if (t > 66)                                                                                                             \"#,
  text! r#"			HASHCLASH_SHA1COMPRESS_ROUND4_STEP_BW(e, a, b, c, d, me2, 66);                                                      \"#,
  text! r#"		if (t > 65)                                                                                                             \"#,
  text! r#"			HASHCLASH_SHA1COMPRESS_ROUND4_STEP_BW(a, b, c, d, e, me2, 65);                                                      \"#,
  text! r#"		if (t > 64)                                                                                                             \"#,
  text! r#"			HASHCLASH_SHA1COMPRESS_ROUND4_STEP_BW(b, c, d, e, a, me2, 64);                                                      \"#,
  text! r#"		if (t > 63)                                                                                                             \"#,
  text! r#"			HASHCLASH_SHA1COMPRESS_ROUND4_STEP_BW(c, d, e, a, b, me2, 63);                                                      \"#,
  text! r#"		if (t > 62)                                                                                                             \"#,
  text! r#"			HASHCLASH_SHA1COMPRESS_ROUND4_STEP_BW(d, e, a, b, c, me2, 62);                                                      \"#,
  text! r#"		if (t > 61)                                                                                                             \"#,
  text! r#"			HASHCLASH_SHA1COMPRESS_ROUND4_STEP_BW(e, a, b, c, d, me2, 61);                                                      \"#,
  text! r#"		if (t > 60)                                                                                                             \"#,
  text! r#"			HASHCLASH_SHA1COMPRESS_ROUND4_STEP_BW(a, b, c, d, e, me2, 60);                                                      \"#,
  text! r#"		if (t > 59)                                                                                                             \"#,
  text! r#"			HASHCLASH_SHA1COMPRESS_ROUND3_STEP_BW(b, c, d, e, a, me2, 59);                                                      \"#,
  text! r#"		if (t > 58)                                                                                                             \"#,
  text! r#"			HASHCLASH_SHA1COMPRESS_ROUND3_STEP_BW(c, d, e, a, b, me2, 58);                                                      \"#,
  text! r#"		if (t > 57)                                                                                                             \"#,
  text! r#"			HASHCLASH_SHA1COMPRESS_ROUND3_STEP_BW(d, e, a, b, c, me2, 57);                                                      \"#,
  text! r#"		if (t > 56)                                                                                                             \"#,
  text! r#"			HASHCLASH_SHA1COMPRESS_ROUND3_STEP_BW(e, a, b, c, d, me2, 56);                                                      \"#,
  text! r#"		if (t > 55)                                                                                                             \"#,
  text! r#"			HASHCLASH_SHA1COMPRESS_ROUND3_STEP_BW(a, b, c, d, e, me2, 55);                                                      \"#,
  text! r#"		if (t > 54)                                                                                                             \"#,
  text! r#"			HASHCLASH_SHA1COMPRESS_ROUND3_STEP_BW(b, c, d, e, a, me2, 54);                                                      \"#,
  text! r#"		if (t > 53)                                                                                                             \"#,
  text! r#"			HASHCLASH_SHA1COMPRESS_ROUND3_STEP_BW(c, d, e, a, b, me2, 53);                                                      \"#,
  text! r#"		if (t > 52)                                                                                                             \"#,
  text! r#"			HASHCLASH_SHA1COMPRESS_ROUND3_STEP_BW(d, e, a, b, c, me2, 52);                                                      \"#,
  text! r#"		if (t > 51)                                                                                                             \"#,
  text! r#"			HASHCLASH_SHA1COMPRESS_ROUND3_STEP_BW(e, a, b, c, d, me2, 51);                                                      \"#,
  text! r#"		if (t > 50)                                                                                                             \"#,
  text! r#"			HASHCLASH_SHA1COMPRESS_ROUND3_STEP_BW(a, b, c, d, e, me2, 50);                                                      \"#,
  text! r#"		if (t > 49)                                                                                                             \"#,
  text! r#"			HASHCLASH_SHA1COMPRESS_ROUND3_STEP_BW(b, c, d, e, a, me2, 49);                                                      \"#,
  text! r#"		if (t > 48)                                                                                                             \"#,
  text! r#"			HASHCLASH_SHA1COMPRESS_ROUND3_STEP_BW(c, d, e, a, b, me2, 48);                                                      \"#,
  text! r#"		if (t > 47)                                                                                                             \"#,
  text! r#"			HASHCLASH_SHA1COMPRESS_ROUND3_STEP_BW(d, e, a, b, c, me2, 47);                                                      \"#,
  text! r#"		if (t > 46)                                                                                                             \"#,
  text! r#"			HASHCLASH_SHA1COMPRESS_ROUND3_STEP_BW(e, a, b, c, d, me2, 46);                                                      \"#,
  text! r#"		if (t > 45)                                                                                                             \"#,
  text! r#"			HASHCLASH_SHA1COMPRESS_ROUND3_STEP_BW(a, b, c, d, e, me2, 45);                                                      \"#,
  text! r#"		if (t > 44)                                                                                                             \"#,
  text! r#"			HASHCLASH_SHA1COMPRESS_ROUND3_STEP_BW(b, c, d, e, a, me2, 44);                                                      \"#,
  text! r#"		if (t > 43)                                                                                                             \"#,
  text! r#"			HASHCLASH_SHA1COMPRESS_ROUND3_STEP_BW(c, d, e, a, b, me2, 43);                                                      \"#,
  text! r#"		if (t > 42)                                                                                                             \"#,
  text! r#"			HASHCLASH_SHA1COMPRESS_ROUND3_STEP_BW(d, e, a, b, c, me2, 42);                                                      \"#,
  text! r#"		if (t > 41)                                                                                                             \"#,
  text! r#"			HASHCLASH_SHA1COMPRESS_ROUND3_STEP_BW(e, a, b, c, d, me2, 41);                                                      \"#,
  text! r#"		if (t > 40)                                                                                                             \"#,
  text! r#"			HASHCLASH_SHA1COMPRESS_ROUND3_STEP_BW(a, b, c, d, e, me2, 40);                                                      \"#,
  text! r#"		if (t > 39)                                                                                                             \"#,
  text! r#"			HASHCLASH_SHA1COMPRESS_ROUND2_STEP_BW(b, c, d, e, a, me2, 39);                                                      \"#,
  text! r#"		if (t > 38)                                                                                                             \"#,
  text! r#"			HASHCLASH_SHA1COMPRESS_ROUND2_STEP_BW(c, d, e, a, b, me2, 38);                                                      \"#,
  text! r#"		if (t > 37)                                                                                                             \"#,
  text! r#"			HASHCLASH_SHA1COMPRESS_ROUND2_STEP_BW(d, e, a, b, c, me2, 37);                                                      \"#,
  text! r#"		if (t > 36)                                                                                                             \"#,
  text! r#"			HASHCLASH_SHA1COMPRESS_ROUND2_STEP_BW(e, a, b, c, d, me2, 36);                                                      \"#,
  text! r#"		if (t > 35)                                                                                                             \"#,
  text! r#"			HASHCLASH_SHA1COMPRESS_ROUND2_STEP_BW(a, b, c, d, e, me2, 35);                                                      \"#,
  text! r#"		if (t > 34)                                                                                                             \"#,
  text! r#"			HASHCLASH_SHA1COMPRESS_ROUND2_STEP_BW(b, c, d, e, a, me2, 34);                                                      \"#,
  text! r#"		if (t > 33)                                                                                                             \"#,
  text! r#"			HASHCLASH_SHA1COMPRESS_ROUND2_STEP_BW(c, d, e, a, b, me2, 33);                                                      \"#,
  text! r#"		if (t > 32)                                                                                                             \"#,
  text! r#"			HASHCLASH_SHA1COMPRESS_ROUND2_STEP_BW(d, e, a, b, c, me2, 32);                                                      \"#,
  text! r#"		if (t > 31)                                                                                                             \"#,
  text! r#"			HASHCLASH_SHA1COMPRESS_ROUND2_STEP_BW(e, a, b, c, d, me2, 31);                                                      \"#,
  text! r#"		if (t > 30)                                                                                                             \"#,
  text! r#"			HASHCLASH_SHA1COMPRESS_ROUND2_STEP_BW(a, b, c, d, e, me2, 30);                                                      \"#,
  text! r#"		if (t > 29)                                                                                                             \"#,
  text! r#"			HASHCLASH_SHA1COMPRESS_ROUND2_STEP_BW(b, c, d, e, a, me2, 29);                                                      \"#,
  text! r#"		if (t > 28)                                                                                                             \"#,
  text! r#"			HASHCLASH_SHA1COMPRESS_ROUND2_STEP_BW(c, d, e, a, b, me2, 28);                                                      \"#,
  text! r#"		if (t > 27)                                                                                                             \"#,
  text! r#"			HASHCLASH_SHA1COMPRESS_ROUND2_STEP_BW(d, e, a, b, c, me2, 27);                                                      \"#,
  text! r#"		if (t > 26)                                                                                                             \"#,
  text! r#"			HASHCLASH_SHA1COMPRESS_ROUND2_STEP_BW(e, a, b, c, d, me2, 26);                                                      \"#,
  text! r#"		if (t > 25)                                                                                                             \"#,
  text! r#"			HASHCLASH_SHA1COMPRESS_ROUND2_STEP_BW(a, b, c, d, e, me2, 25);                                                      \"#,
  text! r#"		if (t > 24)                                                                                                             \"#,
  text! r#"			HASHCLASH_SHA1COMPRESS_ROUND2_STEP_BW(b, c, d, e, a, me2, 24);                                                      \"#,
  text! r#"		if (t > 23)                                                                                                             \"#,
  text! r#"			HASHCLASH_SHA1COMPRESS_ROUND2_STEP_BW(c, d, e, a, b, me2, 23);                                                      \"#,
  text! r#"		if (t > 22)                                                                                                             \"#,
  text! r#"			HASHCLASH_SHA1COMPRESS_ROUND2_STEP_BW(d, e, a, b, c, me2, 22);                                                      \"#,
  text! r#"		if (t > 21)                                                                                                             \"#,
  text! r#"			HASHCLASH_SHA1COMPRESS_ROUND2_STEP_BW(e, a, b, c, d, me2, 21);                                                      \"#,
  text! r#"		if (t > 20)                                                                                                             \"#,
  text! r#"			HASHCLASH_SHA1COMPRESS_ROUND2_STEP_BW(a, b, c, d, e, me2, 20);                                                      \"#,
  text! r#"		if (t > 19)                                                                                                             \"#,
  text! r#"			HASHCLASH_SHA1COMPRESS_ROUND1_STEP_BW(b, c, d, e, a, me2, 19);                                                      \"#,
  text! r#"		if (t > 18)                                                                                                             \"#,
  text! r#"			HASHCLASH_SHA1COMPRESS_ROUND1_STEP_BW(c, d, e, a, b, me2, 18);                                                      \"#,
  text! r#"		if (t > 17)                                                                                                             \"#,
  text! r#"			HASHCLASH_SHA1COMPRESS_ROUND1_STEP_BW(d, e, a, b, c, me2, 17);                                                      \"#,
  text! r#"		if (t > 16)                                                                                                             \"#,
  text! r#"			HASHCLASH_SHA1COMPRESS_ROUND1_STEP_BW(e, a, b, c, d, me2, 16);                                                      \"#,
  text! r#"		if (t > 15)                                                                                                             \"#,
  text! r#"			HASHCLASH_SHA1COMPRESS_ROUND1_STEP_BW(a, b, c, d, e, me2, 15);                                                      \"#,
  text! r#"		if (t > 14)                                                                                                             \"#,
  text! r#"			HASHCLASH_SHA1COMPRESS_ROUND1_STEP_BW(b, c, d, e, a, me2, 14);                                                      \"#,
  text! r#"		if (t > 13)                                                                                                             \"#,
  text! r#"			HASHCLASH_SHA1COMPRESS_ROUND1_STEP_BW(c, d, e, a, b, me2, 13);                                                      \"#,
  text! r#"		if (t > 12)                                                                                                             \"#,
  text! r#"			HASHCLASH_SHA1COMPRESS_ROUND1_STEP_BW(d, e, a, b, c, me2, 12);                                                      \"#,
  text! r#"		if (t > 11)                                                                                                             \"#,
  text! r#"			HASHCLASH_SHA1COMPRESS_ROUND1_STEP_BW(e, a, b, c, d, me2, 11);                                                      \"#,
  text! r#"		if (t > 10)                                                                                                             \"#,
  text! r#"			HASHCLASH_SHA1COMPRESS_ROUND1_STEP_BW(a, b, c, d, e, me2, 10);                                                      \"#,
  text! r#"		if (t > 9)                                                                                                              \"#,
  text! r#"			HASHCLASH_SHA1COMPRESS_ROUND1_STEP_BW(b, c, d, e, a, me2, 9);                                                       \"#,
  text! r#"		if (t > 8)                                                                                                              \"#,
  text! r#"			HASHCLASH_SHA1COMPRESS_ROUND1_STEP_BW(c, d, e, a, b, me2, 8);                                                       \"#,
  text! r#"		if (t > 7)                                                                                                              \"#,
  text! r#"			HASHCLASH_SHA1COMPRESS_ROUND1_STEP_BW(d, e, a, b, c, me2, 7);                                                       \"#,
  text! r#"		if (t > 6)                                                                                                              \"#,
  text! r#"			HASHCLASH_SHA1COMPRESS_ROUND1_STEP_BW(e, a, b, c, d, me2, 6);                                                       \"#,
  text! r#"		if (t > 5)                                                                                                              \"#,
  text! r#"			HASHCLASH_SHA1COMPRESS_ROUND1_STEP_BW(a, b, c, d, e, me2, 5);                                                       \"#,
  text! r#"		if (t > 4)                                                                                                              \"#,
  text! r#"			HASHCLASH_SHA1COMPRESS_ROUND1_STEP_BW(b, c, d, e, a, me2, 4);                                                       \"#,
  text! r#"		if (t > 3)                                                                                                              \"#,
  text! r#"			HASHCLASH_SHA1COMPRESS_ROUND1_STEP_BW(c, d, e, a, b, me2, 3);                                                       \"#,
  text! r#"		if (t > 2)                                                                                                              \"#,
  text! r#"			HASHCLASH_SHA1COMPRESS_ROUND1_STEP_BW(d, e, a, b, c, me2, 2);                                                       \"#,
  text! r#"		if (t > 1)                                                                                                              \"#,
  text! r#"			HASHCLASH_SHA1COMPRESS_ROUND1_STEP_BW(e, a, b, c, d, me2, 1);                                                       \"#,
  text! r#"		if (t > 0)                                                                                                              \"#,
  text! r#"			HASHCLASH_SHA1COMPRESS_ROUND1_STEP_BW(a, b, c, d, e, me2, 0);                                                       \"#,
  text! r#"		ihvin[0] = a;                                                                                                           \"#,
  text! r#"		ihvin[1] = b;                                                                                                           \"#,
  text! r#"		ihvin[2] = c;                                                                                                           \"#,
  text! r#"		ihvin[3] = d;                                                                                                           \"#,
  text! r#"		ihvin[4] = e;                                                                                                           \"#,
  text! r#"		a = state[0];                                                                                                           \"#,
  text! r#"		b = state[1];                                                                                                           \"#,
  text! r#"		c = state[2];                                                                                                           \"#,
  text! r#"		d = state[3];                                                                                                           \"#,
  text! r#"		e = state[4];                                                                                                           \"#,
  text! r#"		if (t <= 0)                                                                                                             \"#,
  text! r#"			HASHCLASH_SHA1COMPRESS_ROUND1_STEP(a, b, c, d, e, me2, 0);                                                          \"#,
  text! r#"		if (t <= 1)                                                                                                             \"#,
  text! r#"			HASHCLASH_SHA1COMPRESS_ROUND1_STEP(e, a, b, c, d, me2, 1);                                                          \"#,
  text! r#"		if (t <= 2)                                                                                                             \"#,
  text! r#"			HASHCLASH_SHA1COMPRESS_ROUND1_STEP(d, e, a, b, c, me2, 2);                                                          \"#,
  text! r#"		if (t <= 3)                                                                                                             \"#,
  text! r#"			HASHCLASH_SHA1COMPRESS_ROUND1_STEP(c, d, e, a, b, me2, 3);                                                          \"#,
  text! r#"		if (t <= 4)                                                                                                             \"#,
  text! r#"			HASHCLASH_SHA1COMPRESS_ROUND1_STEP(b, c, d, e, a, me2, 4);                                                          \"#,
  text! r#"		if (t <= 5)                                                                                                             \"#,
  text! r#"			HASHCLASH_SHA1COMPRESS_ROUND1_STEP(a, b, c, d, e, me2, 5);                                                          \"#,
  text! r#"		if (t <= 6)                                                                                                             \"#,
  text! r#"			HASHCLASH_SHA1COMPRESS_ROUND1_STEP(e, a, b, c, d, me2, 6);                                                          \"#,
  text! r#"		if (t <= 7)                                                                                                             \"#,
  text! r#"			HASHCLASH_SHA1COMPRESS_ROUND1_STEP(d, e, a, b, c, me2, 7);                                                          \"#,
  text! r#"		if (t <= 8)                                                                                                             \"#,
  text! r#"			HASHCLASH_SHA1COMPRESS_ROUND1_STEP(c, d, e, a, b, me2, 8);                                                          \"#,
  text! r#"		if (t <= 9)                                                                                                             \"#,
  text! r#"			HASHCLASH_SHA1COMPRESS_ROUND1_STEP(b, c, d, e, a, me2, 9);                                                          \"#,
  text! r#"		if (t <= 10)                                                                                                            \"#,
  text! r#"			HASHCLASH_SHA1COMPRESS_ROUND1_STEP(a, b, c, d, e, me2, 10);                                                         \"#,
  text! r#"		if (t <= 11)                                                                                                            \"#,
  text! r#"			HASHCLASH_SHA1COMPRESS_ROUND1_STEP(e, a, b, c, d, me2, 11);                                                         \"#,
  text! r#"		if (t <= 12)                                                                                                            \"#,
  text! r#"			HASHCLASH_SHA1COMPRESS_ROUND1_STEP(d, e, a, b, c, me2, 12);                                                         \"#,
  text! r#"		if (t <= 13)                                                                                                            \"#,
  text! r#"			HASHCLASH_SHA1COMPRESS_ROUND1_STEP(c, d, e, a, b, me2, 13);                                                         \"#,
  text! r#"		if (t <= 14)                                                                                                            \"#,
  text! r#"			HASHCLASH_SHA1COMPRESS_ROUND1_STEP(b, c, d, e, a, me2, 14);                                                         \"#,
  text! r#"		if (t <= 15)                                                                                                            \"#,
  text! r#"			HASHCLASH_SHA1COMPRESS_ROUND1_STEP(a, b, c, d, e, me2, 15);                                                         \"#,
  text! r#"		if (t <= 16)                                                                                                            \"#,
  text! r#"			HASHCLASH_SHA1COMPRESS_ROUND1_STEP(e, a, b, c, d, me2, 16);                                                         \"#,
  text! r#"		if (t <= 17)                                                                                                            \"#,
  text! r#"			HASHCLASH_SHA1COMPRESS_ROUND1_STEP(d, e, a, b, c, me2, 17);                                                         \"#,
  text! r#"		if (t <= 18)                                                                                                            \"#,
  text! r#"			HASHCLASH_SHA1COMPRESS_ROUND1_STEP(c, d, e, a, b, me2, 18);                                                         \"#,
  text! r#"		if (t <= 19)                                                                                                            \"#,
  text! r#"			HASHCLASH_SHA1COMPRESS_ROUND1_STEP(b, c, d, e, a, me2, 19);                                                         \"#,
  text! r#"		if (t <= 20)                                                                                                            \"#,
  text! r#"			HASHCLASH_SHA1COMPRESS_ROUND2_STEP(a, b, c, d, e, me2, 20);                                                         \"#,
  text! r#"		if (t <= 21)                                                                                                            \"#,
  text! r#"			HASHCLASH_SHA1COMPRESS_ROUND2_STEP(e, a, b, c, d, me2, 21);                                                         \"#,
  text! r#"		if (t <= 22)                                                                                                            \"#,
  text! r#"			HASHCLASH_SHA1COMPRESS_ROUND2_STEP(d, e, a, b, c, me2, 22);                                                         \"#,
  text! r#"		if (t <= 23)                                                                                                            \"#,
  text! r#"			HASHCLASH_SHA1COMPRESS_ROUND2_STEP(c, d, e, a, b, me2, 23);                                                         \"#,
  text! r#"		if (t <= 24)                                                                                                            \"#,
  text! r#"			HASHCLASH_SHA1COMPRESS_ROUND2_STEP(b, c, d, e, a, me2, 24);                                                         \"#,
  text! r#"		if (t <= 25)                                                                                                            \"#,
  text! r#"			HASHCLASH_SHA1COMPRESS_ROUND2_STEP(a, b, c, d, e, me2, 25);                                                         \"#,
  text! r#"		if (t <= 26)                                                                                                            \"#,
  text! r#"			HASHCLASH_SHA1COMPRESS_ROUND2_STEP(e, a, b, c, d, me2, 26);                                                         \"#,
  text! r#"		if (t <= 27)                                                                                                            \"#,
  text! r#"			HASHCLASH_SHA1COMPRESS_ROUND2_STEP(d, e, a, b, c, me2, 27);                                                         \"#,
  text! r#"		if (t <= 28)                                                                                                            \"#,
  text! r#"			HASHCLASH_SHA1COMPRESS_ROUND2_STEP(c, d, e, a, b, me2, 28);                                                         \"#,
  text! r#"		if (t <= 29)                                                                                                            \"#,
  text! r#"			HASHCLASH_SHA1COMPRESS_ROUND2_STEP(b, c, d, e, a, me2, 29);                                                         \"#,
  text! r#"		if (t <= 30)                                                                                                            \"#,
  text! r#"			HASHCLASH_SHA1COMPRESS_ROUND2_STEP(a, b, c, d, e, me2, 30);                                                         \"#,
  text! r#"		if (t <= 31)                                                                                                            \"#,
  text! r#"			HASHCLASH_SHA1COMPRESS_ROUND2_STEP(e, a, b, c, d, me2, 31);                                                         \"#,
  text! r#"		if (t <= 32)                                                                                                            \"#,
  text! r#"			HASHCLASH_SHA1COMPRESS_ROUND2_STEP(d, e, a, b, c, me2, 32);                                                         \"#,
  text! r#"		if (t <= 33)                                                                                                            \"#,
  text! r#"			HASHCLASH_SHA1COMPRESS_ROUND2_STEP(c, d, e, a, b, me2, 33);                                                         \"#,
  text! r#"		if (t <= 34)                                                                                                            \"#,
  text! r#"			HASHCLASH_SHA1COMPRESS_ROUND2_STEP(b, c, d, e, a, me2, 34);                                                         \"#,
  text! r#"		if (t <= 35)                                                                                                            \"#,
  text! r#"			HASHCLASH_SHA1COMPRESS_ROUND2_STEP(a, b, c, d, e, me2, 35);                                                         \"#,
  text! r#"		if (t <= 36)                                                                                                            \"#,
  text! r#"			HASHCLASH_SHA1COMPRESS_ROUND2_STEP(e, a, b, c, d, me2, 36);                                                         \"#,
  text! r#"		if (t <= 37)                                                                                                            \"#,
  text! r#"			HASHCLASH_SHA1COMPRESS_ROUND2_STEP(d, e, a, b, c, me2, 37);                                                         \"#,
  text! r#"		if (t <= 38)                                                                                                            \"#,
  text! r#"			HASHCLASH_SHA1COMPRESS_ROUND2_STEP(c, d, e, a, b, me2, 38);                                                         \"#,
  text! r#"		if (t <= 39)                                                                                                            \"#,
  text! r#"			HASHCLASH_SHA1COMPRESS_ROUND2_STEP(b, c, d, e, a, me2, 39);                                                         \"#,
  text! r#"		if (t <= 40)                                                                                                            \"#,
  text! r#"			HASHCLASH_SHA1COMPRESS_ROUND3_STEP(a, b, c, d, e, me2, 40);                                                         \"#,
  text! r#"		if (t <= 41)                                                                                                            \"#,
  text! r#"			HASHCLASH_SHA1COMPRESS_ROUND3_STEP(e, a, b, c, d, me2, 41);                                                         \"#,
  text! r#"		if (t <= 42)                                                                                                            \"#,
  text! r#"			HASHCLASH_SHA1COMPRESS_ROUND3_STEP(d, e, a, b, c, me2, 42);                                                         \"#,
  text! r#"		if (t <= 43)                                                                                                            \"#,
  text! r#"			HASHCLASH_SHA1COMPRESS_ROUND3_STEP(c, d, e, a, b, me2, 43);                                                         \"#,
  text! r#"		if (t <= 44)                                                                                                            \"#,
  text! r#"			HASHCLASH_SHA1COMPRESS_ROUND3_STEP(b, c, d, e, a, me2, 44);                                                         \"#,
  text! r#"		if (t <= 45)                                                                                                            \"#,
  text! r#"			HASHCLASH_SHA1COMPRESS_ROUND3_STEP(a, b, c, d, e, me2, 45);                                                         \"#,
  text! r#"		if (t <= 46)                                                                                                            \"#,
  text! r#"			HASHCLASH_SHA1COMPRESS_ROUND3_STEP(e, a, b, c, d, me2, 46);                                                         \"#,
  text! r#"		if (t <= 47)                                                                                                            \"#,
  text! r#"			HASHCLASH_SHA1COMPRESS_ROUND3_STEP(d, e, a, b, c, me2, 47);                                                         \"#,
  text! r#"		if (t <= 48)                                                                                                            \"#,
  text! r#"			HASHCLASH_SHA1COMPRESS_ROUND3_STEP(c, d, e, a, b, me2, 48);                                                         \"#,
  text! r#"		if (t <= 49)                                                                                                            \"#,
  text! r#"			HASHCLASH_SHA1COMPRESS_ROUND3_STEP(b, c, d, e, a, me2, 49);                                                         \"#,
  text! r#"		if (t <= 50)                                                                                                            \"#,
  text! r#"			HASHCLASH_SHA1COMPRESS_ROUND3_STEP(a, b, c, d, e, me2, 50);                                                         \"#,
  text! r#"		if (t <= 51)                                                                                                            \"#,
  text! r#"			HASHCLASH_SHA1COMPRESS_ROUND3_STEP(e, a, b, c, d, me2, 51);                                                         \"#,
  text! r#"		if (t <= 52)                                                                                                            \"#,
  text! r#"			HASHCLASH_SHA1COMPRESS_ROUND3_STEP(d, e, a, b, c, me2, 52);                                                         \"#,
  text! r#"		if (t <= 53)                                                                                                            \"#,
  text! r#"			HASHCLASH_SHA1COMPRESS_ROUND3_STEP(c, d, e, a, b, me2, 53);                                                         \"#,
  text! r#"		if (t <= 54)                                                                                                            \"#,
  text! r#"			HASHCLASH_SHA1COMPRESS_ROUND3_STEP(b, c, d, e, a, me2, 54);                                                         \"#,
  text! r#"		if (t <= 55)                                                                                                            \"#,
  text! r#"			HASHCLASH_SHA1COMPRESS_ROUND3_STEP(a, b, c, d, e, me2, 55);                                                         \"#,
  text! r#"		if (t <= 56)                                                                                                            \"#,
  text! r#"			HASHCLASH_SHA1COMPRESS_ROUND3_STEP(e, a, b, c, d, me2, 56);                                                         \"#,
  text! r#"		if (t <= 57)                                                                                                            \"#,
  text! r#"			HASHCLASH_SHA1COMPRESS_ROUND3_STEP(d, e, a, b, c, me2, 57);                                                         \"#,
  text! r#"		if (t <= 58)                                                                                                            \"#,
  text! r#"			HASHCLASH_SHA1COMPRESS_ROUND3_STEP(c, d, e, a, b, me2, 58);                                                         \"#,
  text! r#"		if (t <= 59)                                                                                                            \"#,
  text! r#"			HASHCLASH_SHA1COMPRESS_ROUND3_STEP(b, c, d, e, a, me2, 59);                                                         \"#,
  text! r#"		if (t <= 60)                                                                                                            \"#,
  text! r#"			HASHCLASH_SHA1COMPRESS_ROUND4_STEP(a, b, c, d, e, me2, 60);                                                         \"#,
  text! r#"		if (t <= 61)                                                                                                            \"#,
  text! r#"			HASHCLASH_SHA1COMPRESS_ROUND4_STEP(e, a, b, c, d, me2, 61);                                                         \"#,
  text! r#"		if (t <= 62)                                                                                                            \"#,
  text! r#"			HASHCLASH_SHA1COMPRESS_ROUND4_STEP(d, e, a, b, c, me2, 62);                                                         \"#,
  text! r#"		if (t <= 63)                                                                                                            \"#,
  text! r#"			HASHCLASH_SHA1COMPRESS_ROUND4_STEP(c, d, e, a, b, me2, 63);                                                         \"#,
  text! r#"		if (t <= 64)                                                                                                            \"#,
  text! r#"			HASHCLASH_SHA1COMPRESS_ROUND4_STEP(b, c, d, e, a, me2, 64);                                                         \"#,
  text! r#"		if (t <= 65)                                                                                                            \"#,
  text! r#"			HASHCLASH_SHA1COMPRESS_ROUND4_STEP(a, b, c, d, e, me2, 65);                                                         \"#,
  text! r#"		if (t <= 66)                                                                                                            \"#,
  text! r#"			HASHCLASH_SHA1COMPRESS_ROUND4_STEP(e, a, b, c, d, me2, 66);                                                         \"#,
  text! r#"		if (t <= 67)                                                                                                            \"#,
  text! r#"			HASHCLASH_SHA1COMPRESS_ROUND4_STEP(d, e, a, b, c, me2, 67);                                                         \"#,
  text! r#"		if (t <= 68)                                                                                                            \"#,
  text! r#"			HASHCLASH_SHA1COMPRESS_ROUND4_STEP(c, d, e, a, b, me2, 68);                                                         \"#,
  text! r#"		if (t <= 69)                                                                                                            \"#,
  text! r#"			HASHCLASH_SHA1COMPRESS_ROUND4_STEP(b, c, d, e, a, me2, 69);                                                         \"#,
  text! r#"		if (t <= 70)                                                                                                            \"#,
  text! r#"			HASHCLASH_SHA1COMPRESS_ROUND4_STEP(a, b, c, d, e, me2, 70);                                                         \"#,
  text! r#"		if (t <= 71)                                                                                                            \"#,
  text! r#"			HASHCLASH_SHA1COMPRESS_ROUND4_STEP(e, a, b, c, d, me2, 71);                                                         \"#,
  text! r#"		if (t <= 72)                                                                                                            \"#,
  text! r#"			HASHCLASH_SHA1COMPRESS_ROUND4_STEP(d, e, a, b, c, me2, 72);                                                         \"#,
  text! r#"		if (t <= 73)                                                                                                            \"#,
  text! r#"			HASHCLASH_SHA1COMPRESS_ROUND4_STEP(c, d, e, a, b, me2, 73);                                                         \"#,
  text! r#"		if (t <= 74)                                                                                                            \"#,
  text! r#"			HASHCLASH_SHA1COMPRESS_ROUND4_STEP(b, c, d, e, a, me2, 74);                                                         \"#,
  text! r#"		if (t <= 75)                                                                                                            \"#,
  text! r#"			HASHCLASH_SHA1COMPRESS_ROUND4_STEP(a, b, c, d, e, me2, 75);                                                         \"#,
  text! r#"		if (t <= 76)                                                                                                            \"#,
  text! r#"			HASHCLASH_SHA1COMPRESS_ROUND4_STEP(e, a, b, c, d, me2, 76);                                                         \"#,
  text! r#"		if (t <= 77)                                                                                                            \"#,
  text! r#"			HASHCLASH_SHA1COMPRESS_ROUND4_STEP(d, e, a, b, c, me2, 77);                                                         \"#,
  text! r#"		if (t <= 78)                                                                                                            \"#,
  text! r#"			HASHCLASH_SHA1COMPRESS_ROUND4_STEP(c, d, e, a, b, me2, 78);                                                         \"#,
  text! r#"		if (t <= 79)                                                                                                            \"#,
  text! r#"			HASHCLASH_SHA1COMPRESS_ROUND4_STEP(b, c, d, e, a, me2, 79);                                                         \"#,
  text! r#"		ihvout[0] = ihvin[0] + a;                                                                                               \"#,
  text! r#"		ihvout[1] = ihvin[1] + b;                                                                                               \"#,
  text! r#"		ihvout[2] = ihvin[2] + c;                                                                                               \"#,
  text! r#"		ihvout[3] = ihvin[3] + d;                                                                                               \"#,
  text! r#"		ihvout[4] = ihvin[4] + e;                                                                                               \"#,
  text! r#"	}"#,
  text! r#""#,
  text! r#"#ifdef _MSC_VER"#,
  text! r#"#pragma warning(push)"#,
  text! r#"#pragma warning(disable : 4127) /* Compiler complains about the checks in the above macro being constant. */"#,
  text! r#"#endif"#,
  text! r#""#,
  text! r#"#ifdef DOSTORESTATE0"#,
  text! r#"SHA1_RECOMPRESS(0)"#,
  text! r#"#endif"#,
  text! r#""#,
  text! r#"#ifdef DOSTORESTATE1"#,
  text! r#"SHA1_RECOMPRESS(1)"#,
  text! r#"#endif"#,
  text! r#""#,
  text! r#"#ifdef DOSTORESTATE2"#,
  text! r#"SHA1_RECOMPRESS(2)"#,
  text! r#"#endif"#,
  text! r#""#,
  text! r#"#ifdef DOSTORESTATE3"#,
  text! r#"SHA1_RECOMPRESS(3)"#,
  text! r#"#endif"#,
  text! r#""#,
  text! r#"#ifdef DOSTORESTATE4"#,
  text! r#"SHA1_RECOMPRESS(4)"#,
  text! r#"#endif"#,
  text! r#""#,
  text! r#"#ifdef DOSTORESTATE5"#,
  text! r#"SHA1_RECOMPRESS(5)"#,
  text! r#"#endif"#,
  text! r#""#,
  text! r#"#ifdef DOSTORESTATE6"#,
  text! r#"SHA1_RECOMPRESS(6)"#,
  text! r#"#endif"#,
  text! r#""#,
  text! r#"#ifdef DOSTORESTATE7"#,
  text! r#"SHA1_RECOMPRESS(7)"#,
  text! r#"#endif"#,
  text! r#""#,
  text! r#"#ifdef DOSTORESTATE8"#,
  text! r#"SHA1_RECOMPRESS(8)"#,
  text! r#"#endif"#,
  text! r#""#,
  text! r#"#ifdef DOSTORESTATE9"#,
  text! r#"SHA1_RECOMPRESS(9)"#,
  text! r#"#endif"#,
  text! r#""#,
  text! r#"#ifdef DOSTORESTATE10"#,
  text! r#"SHA1_RECOMPRESS(10)"#,
  text! r#"#endif"#,
  text! r#""#,
  text! r#"#ifdef DOSTORESTATE11"#,
  text! r#"SHA1_RECOMPRESS(11)"#,
  text! r#"#endif"#,
  text! r#""#,
  text! r#"#ifdef DOSTORESTATE12"#,
  text! r#"SHA1_RECOMPRESS(12)"#,
  text! r#"#endif"#,
  text! r#""#,
  text! r#"#ifdef DOSTORESTATE13"#,
  text! r#"SHA1_RECOMPRESS(13)"#,
  text! r#"#endif"#,
  text! r#""#,
  text! r#"#ifdef DOSTORESTATE14"#,
  text! r#"SHA1_RECOMPRESS(14)"#,
  text! r#"#endif"#,
  text! r#""#,
  text! r#"#ifdef DOSTORESTATE15"#,
  text! r#"SHA1_RECOMPRESS(15)"#,
  text! r#"#endif"#,
  text! r#""#,
  text! r#"#ifdef DOSTORESTATE16"#,
  text! r#"SHA1_RECOMPRESS(16)"#,
  text! r#"#endif"#,
  text! r#""#,
  text! r#"#ifdef DOSTORESTATE17"#,
  text! r#"SHA1_RECOMPRESS(17)"#,
  text! r#"#endif"#,
  text! r#""#,
  text! r#"#ifdef DOSTORESTATE18"#,
  text! r#"SHA1_RECOMPRESS(18)"#,
  text! r#"#endif"#,
  text! r#""#,
  text! r#"#ifdef DOSTORESTATE19"#,
  text! r#"SHA1_RECOMPRESS(19)"#,
  text! r#"#endif"#,
  text! r#""#,
  text! r#"#ifdef DOSTORESTATE20"#,
  text! r#"SHA1_RECOMPRESS(20)"#,
  text! r#"#endif"#,
  text! r#""#,
  text! r#"#ifdef DOSTORESTATE21"#,
  text! r#"SHA1_RECOMPRESS(21)"#,
  text! r#"#endif"#,
  text! r#""#,
  text! r#"#ifdef DOSTORESTATE22"#,
  text! r#"SHA1_RECOMPRESS(22)"#,
  text! r#"#endif"#,
  text! r#""#,
  text! r#"#ifdef DOSTORESTATE23"#,
  text! r#"SHA1_RECOMPRESS(23)"#,
  text! r#"#endif"#,
  text! r#""#,
  text! r#"#ifdef DOSTORESTATE24"#,
  text! r#"SHA1_RECOMPRESS(24)"#,
  text! r#"#endif"#,
  text! r#""#,
  text! r#"#ifdef DOSTORESTATE25"#,
  text! r#"SHA1_RECOMPRESS(25)"#,
  text! r#"#endif"#,
  text! r#""#,
  text! r#"#ifdef DOSTORESTATE26"#,
  text! r#"SHA1_RECOMPRESS(26)"#,
  text! r#"#endif"#,
  text! r#""#,
  text! r#"#ifdef DOSTORESTATE27"#,
  text! r#"SHA1_RECOMPRESS(27)"#,
  text! r#"#endif"#,
  text! r#""#,
  text! r#"#ifdef DOSTORESTATE28"#,
  text! r#"SHA1_RECOMPRESS(28)"#,
  text! r#"#endif"#,
  text! r#""#,
  text! r#"#ifdef DOSTORESTATE29"#,
  text! r#"SHA1_RECOMPRESS(29)"#,
  text! r#"#endif"#,
  text! r#""#,
  text! r#"#ifdef DOSTORESTATE30"#,
  text! r#"SHA1_RECOMPRESS(30)"#,
  text! r#"#endif"#,
  text! r#""#,
  text! r#"#ifdef DOSTORESTATE31"#,
  text! r#"SHA1_RECOMPRESS(31)"#,
  text! r#"#endif"#,
  text! r#""#,
  text! r#"#ifdef DOSTORESTATE32"#,
  text! r#"SHA1_RECOMPRESS(32)"#,
  text! r#"#endif"#,
  text! r#""#,
  text! r#"#ifdef DOSTORESTATE33"#,
  text! r#"SHA1_RECOMPRESS(33)"#,
  text! r#"#endif"#,
  text! r#""#,
  text! r#"#ifdef DOSTORESTATE34"#,
  text! r#"SHA1_RECOMPRESS(34)"#,
  text! r#"#endif"#,
  text! r#""#,
  text! r#"#ifdef DOSTORESTATE35"#,
  text! r#"SHA1_RECOMPRESS(35)"#,
  text! r#"#endif"#,
  text! r#""#,
  text! r#"#ifdef DOSTORESTATE36"#,
  text! r#"SHA1_RECOMPRESS(36)"#,
  text! r#"#endif"#,
  text! r#""#,
  text! r#"#ifdef DOSTORESTATE37"#,
  text! r#"SHA1_RECOMPRESS(37)"#,
  text! r#"#endif"#,
  text! r#""#,
  text! r#"#ifdef DOSTORESTATE38"#,
  text! r#"SHA1_RECOMPRESS(38)"#,
  text! r#"#endif"#,
  text! r#""#,
  text! r#"#ifdef DOSTORESTATE39"#,
  text! r#"SHA1_RECOMPRESS(39)"#,
  text! r#"#endif"#,
  text! r#""#,
  text! r#"#ifdef DOSTORESTATE40"#,
  text! r#"SHA1_RECOMPRESS(40)"#,
  text! r#"#endif"#,
  text! r#""#,
  text! r#"#ifdef DOSTORESTATE41"#,
  text! r#"SHA1_RECOMPRESS(41)"#,
  text! r#"#endif"#,
  text! r#""#,
  text! r#"#ifdef DOSTORESTATE42"#,
  text! r#"SHA1_RECOMPRESS(42)"#,
  text! r#"#endif"#,
  text! r#""#,
  text! r#"#ifdef DOSTORESTATE43"#,
  text! r#"SHA1_RECOMPRESS(43)"#,
  text! r#"#endif"#,
  text! r#""#,
  text! r#"#ifdef DOSTORESTATE44"#,
  text! r#"SHA1_RECOMPRESS(44)"#,
  text! r#"#endif"#,
  text! r#""#,
  text! r#"#ifdef DOSTORESTATE45"#,
  text! r#"SHA1_RECOMPRESS(45)"#,
  text! r#"#endif"#,
  text! r#""#,
  text! r#"#ifdef DOSTORESTATE46"#,
  text! r#"SHA1_RECOMPRESS(46)"#,
  text! r#"#endif"#,
  text! r#""#,
  text! r#"#ifdef DOSTORESTATE47"#,
  text! r#"SHA1_RECOMPRESS(47)"#,
  text! r#"#endif"#,
  text! r#""#,
  text! r#"#ifdef DOSTORESTATE48"#,
  text! r#"SHA1_RECOMPRESS(48)"#,
  text! r#"#endif"#,
  text! r#""#,
  text! r#"#ifdef DOSTORESTATE49"#,
  text! r#"SHA1_RECOMPRESS(49)"#,
  text! r#"#endif"#,
  text! r#""#,
  text! r#"#ifdef DOSTORESTATE50"#,
  text! r#"SHA1_RECOMPRESS(50)"#,
  text! r#"#endif"#,
  text! r#""#,
  text! r#"#ifdef DOSTORESTATE51"#,
  text! r#"SHA1_RECOMPRESS(51)"#,
  text! r#"#endif"#,
  text! r#""#,
  text! r#"#ifdef DOSTORESTATE52"#,
  text! r#"SHA1_RECOMPRESS(52)"#,
  text! r#"#endif"#,
  text! r#""#,
  text! r#"#ifdef DOSTORESTATE53"#,
  text! r#"SHA1_RECOMPRESS(53)"#,
  text! r#"#endif"#,
  text! r#""#,
  text! r#"#ifdef DOSTORESTATE54"#,
  text! r#"SHA1_RECOMPRESS(54)"#,
  text! r#"#endif"#,
  text! r#""#,
  text! r#"#ifdef DOSTORESTATE55"#,
  text! r#"SHA1_RECOMPRESS(55)"#,
  text! r#"#endif"#,
  text! r#""#,
  text! r#"#ifdef DOSTORESTATE56"#,
  text! r#"SHA1_RECOMPRESS(56)"#,
  text! r#"#endif"#,
  text! r#""#,
  text! r#"#ifdef DOSTORESTATE57"#,
  text! r#"SHA1_RECOMPRESS(57)"#,
  text! r#"#endif"#,
  text! r#""#,
  text! r#"#ifdef DOSTORESTATE58"#,
  text! r#"SHA1_RECOMPRESS(58)"#,
  text! r#"#endif"#,
  text! r#""#,
  text! r#"#ifdef DOSTORESTATE59"#,
  text! r#"SHA1_RECOMPRESS(59)"#,
  text! r#"#endif"#,
  text! r#""#,
  text! r#"#ifdef DOSTORESTATE60"#,
  text! r#"SHA1_RECOMPRESS(60)"#,
  text! r#"#endif"#,
  text! r#""#,
  text! r#"#ifdef DOSTORESTATE61"#,
  text! r#"SHA1_RECOMPRESS(61)"#,
  text! r#"#endif"#,
  text! r#""#,
  text! r#"#ifdef DOSTORESTATE62"#,
  text! r#"SHA1_RECOMPRESS(62)"#,
  text! r#"#endif"#,
  text! r#""#,
  text! r#"#ifdef DOSTORESTATE63"#,
  text! r#"SHA1_RECOMPRESS(63)"#,
  text! r#"#endif"#,
  text! r#""#,
  text! r#"#ifdef DOSTORESTATE64"#,
  text! r#"SHA1_RECOMPRESS(64)"#,
  text! r#"#endif"#,
  text! r#""#,
  text! r#"#ifdef DOSTORESTATE65"#,
  text! r#"SHA1_RECOMPRESS(65)"#,
  text! r#"#endif"#,
  text! r#""#,
  text! r#"#ifdef DOSTORESTATE66"#,
  text! r#"SHA1_RECOMPRESS(66)"#,
  text! r#"#endif"#,
  text! r#""#,
  text! r#"#ifdef DOSTORESTATE67"#,
  text! r#"SHA1_RECOMPRESS(67)"#,
  text! r#"#endif"#,
  text! r#""#,
  text! r#"#ifdef DOSTORESTATE68"#,
  text! r#"SHA1_RECOMPRESS(68)"#,
  text! r#"#endif"#,
  text! r#""#,
  text! r#"#ifdef DOSTORESTATE69"#,
  text! r#"SHA1_RECOMPRESS(69)"#,
  text! r#"#endif"#,
  text! r#""#,
  text! r#"#ifdef DOSTORESTATE70"#,
  text! r#"SHA1_RECOMPRESS(70)"#,
  text! r#"#endif"#,
  text! r#""#,
  text! r#"#ifdef DOSTORESTATE71"#,
  text! r#"SHA1_RECOMPRESS(71)"#,
  text! r#"#endif"#,
  text! r#""#,
  text! r#"#ifdef DOSTORESTATE72"#,
  text! r#"SHA1_RECOMPRESS(72)"#,
  text! r#"#endif"#,
  text! r#""#,
  text! r#"#ifdef DOSTORESTATE73"#,
  text! r#"SHA1_RECOMPRESS(73)"#,
  text! r#"#endif"#,
  text! r#""#,
  text! r#"#ifdef DOSTORESTATE74"#,
  text! r#"SHA1_RECOMPRESS(74)"#,
  text! r#"#endif"#,
  text! r#""#,
  text! r#"#ifdef DOSTORESTATE75"#,
  text! r#"SHA1_RECOMPRESS(75)"#,
  text! r#"#endif"#,
  text! r#""#,
  text! r#"#ifdef DOSTORESTATE76"#,
  text! r#"SHA1_RECOMPRESS(76)"#,
  text! r#"#endif"#,
  text! r#""#,
  text! r#"#ifdef DOSTORESTATE77"#,
  text! r#"SHA1_RECOMPRESS(77)"#,
  text! r#"#endif"#,
  text! r#""#,
  text! r#"#ifdef DOSTORESTATE78"#,
  text! r#"SHA1_RECOMPRESS(78)"#,
  text! r#"#endif"#,
  text! r#""#,
  text! r#"#ifdef DOSTORESTATE79"#,
  text! r#"SHA1_RECOMPRESS(79)"#,
  text! r#"#endif"#,
  text! r#""#,
  text! r#"#ifdef _MSC_VER"#,
  text! r#"#pragma warning(pop)"#,
  text! r#"#endif"#,
  text! r#""#,
  text! r#"static void sha1_recompression_step(uint32_t step, uint32_t ihvin[5], uint32_t ihvout[5], const uint32_t me2[80], const uint32_t state[5])"#,
  text! r#"{"#,
  text! r#"	switch (step)"#,
  text! r#"	{"#,
  text! r#"#ifdef DOSTORESTATE0"#,
  text! r#"	case 0:"#,
  text! r#"		sha1recompress_fast_0(ihvin, ihvout, me2, state);"#,
  text! r#"		break;"#,
  text! r#"#endif"#,
  text! r#"#ifdef DOSTORESTATE1"#,
  text! r#"	case 1:"#,
  text! r#"		sha1recompress_fast_1(ihvin, ihvout, me2, state);"#,
  text! r#"		break;"#,
  text! r#"#endif"#,
  text! r#"#ifdef DOSTORESTATE2"#,
  text! r#"	case 2:"#,
  text! r#"		sha1recompress_fast_2(ihvin, ihvout, me2, state);"#,
  text! r#"		break;"#,
  text! r#"#endif"#,
  text! r#"#ifdef DOSTORESTATE3"#,
  text! r#"	case 3:"#,
  text! r#"		sha1recompress_fast_3(ihvin, ihvout, me2, state);"#,
  text! r#"		break;"#,
  text! r#"#endif"#,
  text! r#"#ifdef DOSTORESTATE4"#,
  text! r#"	case 4:"#,
  text! r#"		sha1recompress_fast_4(ihvin, ihvout, me2, state);"#,
  text! r#"		break;"#,
  text! r#"#endif"#,
  text! r#"#ifdef DOSTORESTATE5"#,
  text! r#"	case 5:"#,
  text! r#"		sha1recompress_fast_5(ihvin, ihvout, me2, state);"#,
  text! r#"		break;"#,
  text! r#"#endif"#,
  text! r#"#ifdef DOSTORESTATE6"#,
  text! r#"	case 6:"#,
  text! r#"		sha1recompress_fast_6(ihvin, ihvout, me2, state);"#,
  text! r#"		break;"#,
  text! r#"#endif"#,
  text! r#"#ifdef DOSTORESTATE7"#,
  text! r#"	case 7:"#,
  text! r#"		sha1recompress_fast_7(ihvin, ihvout, me2, state);"#,
  text! r#"		break;"#,
  text! r#"#endif"#,
  text! r#"#ifdef DOSTORESTATE8"#,
  text! r#"	case 8:"#,
  text! r#"		sha1recompress_fast_8(ihvin, ihvout, me2, state);"#,
  text! r#"		break;"#,
  text! r#"#endif"#,
  text! r#"#ifdef DOSTORESTATE9"#,
  text! r#"	case 9:"#,
  text! r#"		sha1recompress_fast_9(ihvin, ihvout, me2, state);"#,
  text! r#"		break;"#,
  text! r#"#endif"#,
  text! r#"#ifdef DOSTORESTATE10"#,
  text! r#"	case 10:"#,
  text! r#"		sha1recompress_fast_10(ihvin, ihvout, me2, state);"#,
  text! r#"		break;"#,
  text! r#"#endif"#,
  text! r#"#ifdef DOSTORESTATE11"#]

/-- cgo/sha1.c:1601-2144 -/
def sha1CLines3 : List (List Nat) := [
  text! r#"	case 11:"#,
  text! r#"		sha1recompress_fast_11(ihvin, ihvout, me2, state);"#,
  text! r#"		break;"#,
  text! r#"#endif"#,
  text! r#"#ifdef DOSTORESTATE12"#,
  text! r#"	case 12:"#,
  text! r#"		sha1recompress_fast_12(ihvin, ihvout, me2, state);"#,
  text! r#"		break;"#,
  text! r#"#endif"#,
  text! r#"#ifdef DOSTORESTATE13"#,
  text! r#"	case 13:"#,
  text! r#"		sha1recompress_fast_13(ihvin, ihvout, me2, state);"#,
  text! r#"		break;"#,
  text! r#"#endif"#,
  text! r#"#ifdef DOSTORESTATE14"#,
  text! r#"	case 14:"#,
  text! r#"		sha1recompress_fast_14(ihvin, ihvout, me2, state);"#,
  text! r#"		break;"#,
  text! r#"#endif"#,
  text! r#"#ifdef DOSTORESTATE15"#,
  text! r#"	case 15:"#,
  text! r#"		sha1recompress_fast_15(ihvin, ihvout, me2, state);"#,
  text! r#"		break;"#,
  text! r#"#endif"#,
  text! r#"#ifdef DOSTORESTATE16"#,
  text! r#"	case 16:"#,
  text! r#"		sha1recompress_fast_16(ihvin, ihvout, me2, state);"#,
  text! r#"		break;"#,
  text! r#"#endif"#,
  text! r#"#ifdef DOSTORESTATE17"#,
  text! r#"	case 17:"#,
  text! r#"		sha1recompress_fast_17(ihvin, ihvout, me2, state);"#,
  text! r#"		break;"#,
  text! r#"#endif"#,
  text! r#"#ifdef DOSTORESTATE18"#,
  text! r#"	case 18:"#,
  text! r#"		sha1recompress_fast_18(ihvin, ihvout, me2, state);"#,
  text! r#"		break;"#,
  text! r#"#endif"#,
  text! r#"#ifdef DOSTORESTATE19"#,
  text! r#"	case 19:"#,
  text! r#"		sha1recompress_fast_19(ihvin, ihvout, me2, state);"#,
  text! r#"		break;"#,
  text! r#"#endif"#,
  text! r#"#ifdef DOSTORESTATE20"#,
  text! r#"	case 20:"#,
  text! r#"		sha1recompress_fast_20(ihvin, ihvout, me2, state);"#,
  text! r#"		break;"#,
  text! r#"#endif"#,
  text! r#"#ifdef DOSTORESTATE21"#,
  text! r#"	case 21:"#,
  text! r#"		sha1recompress_fast_21(ihvin, ihvout, me2, state);"#,
  text! r#"		break;"#,
  text! r#"#endif"#,
  text! r#"#ifdef DOSTORESTATE22"#,
  text! r#"	case 22:"#,
  text! r#"		sha1recompress_fast_22(ihvin, ihvout, me2, state);"#,
  text! r#"		break;"#,
  text! r#"#endif"#,
  text! r#"#ifdef DOSTORESTATE23"#,
  text! r#"	case 23:"#,
  text! r#"		sha1recompress_fast_23(ihvin, ihvout, me2, state);"#,
  text! r#"		break;"#,
  text! r#"#endif"#,
  text! r#"#ifdef DOSTORESTATE24"#,
  text! r#"	case 24:"#,
  text! r#"		sha1recompress_fast_24(ihvin, ihvout, me2, state);"#,
  text! r#"		break;"#,
  text! r#"#endif"#,
  text! r#"#ifdef DOSTORESTATE25"#,
  text! r#"	case 25:"#,
  text! r#"		sha1recompress_fast_25(ihvin, ihvout, me2, state);"#,
  text! r#"		break;"#,
  text! r#"#endif"#,
  text! r#"#ifdef DOSTORESTATE26"#,
  text! r#"	case 26:"#,
  text! r#"		sha1recompress_fast_26(ihvin, ihvout, me2, state);"#,
  text! r#"		break;"#,
  text! r#"#endif"#,
  text! r#"#ifdef DOSTORESTATE27"#,
  text! r#"	case 27:"#,
  text! r#"		sha1recompress_fast_27(ihvin, ihvout, me2, state);"#,
  text! r#"		break;"#,
  text! r#"#endif"#,
  text! r#"#ifdef DOSTORESTATE28"#,
  text! r#"	case 28:"#,
  text! r#"		sha1recompress_fast_28(ihvin, ihvout, me2, state);"#,
  text! r#"		break;"#,
  text! r#"#endif"#,
  text! r#"#ifdef DOSTORESTATE29"#,
  text! r#"	case 29:"#,
  text! r#"		sha1recompress_fast_29(ihvin, ihvout, me2, state);"#,
  text! r#"		break;"#,
  text! r#"#endif"#,
  text! r#"#ifdef DOSTORESTATE30"#,
  text! r#"	case 30:"#,
  text! r#"		sha1recompress_fast_30(ihvin, ihvout, me2, state);"#,
  text! r#"		break;"#,
  text! r#"#endif"#,
  text! r#"#ifdef DOSTORESTATE31"#,
  text! r#"	case 31:"#,
  text! r#"		sha1recompress_fast_31(ihvin, ihvout, me2, state);"#,
  text! r#"		break;"#,
  text! r#"#endif"#,
  text! r#"#ifdef DOSTORESTATE32"#,
  text! r#"	case 32:"#,
  text! r#"		sha1recompress_fast_32(ihvin, ihvout, me2, state);"#,
  text! r#"		break;"#,
  text! r#"#endif"#,
  text! r#"#ifdef DOSTORESTATE33"#,
  text! r#"	case 33:"#,
  text! r#"		sha1recompress_fast_33(ihvin, ihvout, me2, state);"#,
  text! r#"		break;"#,
  text! r#"#endif"#,
  text! r#"#ifdef DOSTORESTATE34"#,
  text! r#"	case 34:"#,
  text! r#"		sha1recompress_fast_34(ihvin, ihvout, me2, state);"#,
  text! r#"		break;"#,
  text! r#"#endif"#,
  text! r#"#ifdef DOSTORESTATE35"#,
  text! r#"	case 35:"#,
  text! r#"		sha1recompress_fast_35(ihvin, ihvout, me2, state);"#,
  text! r#"		break;"#,
  text! r#"#endif"#,
  text! r#"#ifdef DOSTORESTATE36"#,
  text! r#"	case 36:"#,
  text! r#"		sha1recompress_fast_36(ihvin, ihvout, me2, state);"#,
  text! r#"		break;"#,
  text! r#"#endif"#,
  text! r#"#ifdef DOSTORESTATE37"#,
  text! r#"	case 37:"#,
  text! r#"		sha1recompress_fast_37(ihvin, ihvout, me2, state);"#,
  text! r#"		break;"#,
  text! r#"#endif"#,
  text! r#"#ifdef DOSTORESTATE38"#,
  text! r#"	case 38:"#,
  text! r#"		sha1recompress_fast_38(ihvin, ihvout, me2, state);"#,
  text! r#"		break;"#,
  text! r#"#endif"#,
  text! r#"#ifdef DOSTORESTATE39"#,
  text! r#"	case 39:"#,
  text! r#"		sha1recompress_fast_39(ihvin, ihvout, me2, state);"#,
  text! r#"		break;"#,
  text! r#"#endif"#,
  text! r#"#ifdef DOSTORESTATE40"#,
  text! r#"	case 40:"#,
  text! r#"		sha1recompress_fast_40(ihvin, ihvout, me2, state);"#,
  text! r#"		break;"#,
  text! r#"#endif"#,
  text! r#"#ifdef DOSTORESTATE41"#,
  text! r#"	case 41:"#,
  text! r#"		sha1recompress_fast_41(ihvin, ihvout, me2, state);"#,
  text! r#"		break;"#,
  text! r#"#endif"#,
  text! r#"#ifdef DOSTORESTATE42"#,
  text! r#"	case 42:"#,
  text! r#"		sha1recompress_fast_42(ihvin, ihvout, me2, state);"#,
  text! r#"		break;"#,
  text! r#"#endif"#,
  text! r#"#ifdef DOSTORESTATE43"#,
  text! r#"	case 43:"#,
  text! r#"		sha1recompress_fast_43(ihvin, ihvout, me2, state);"#,
  text! r#"		break;"#,
  text! r#"#endif"#,
  text! r#"#ifdef DOSTORESTATE44"#,
  text! r#"	case 44:"#,
  text! r#"		sha1recompress_fast_44(ihvin, ihvout, me2, state);"#,
  text! r#"		break;"#,
  text! r#"#endif"#,
  text! r#"#ifdef DOSTORESTATE45"#,
  text! r#"	case 45:"#,
  text! r#"		sha1recompress_fast_45(ihvin, ihvout, me2, state);"#,
  text! r#"		break;"#,
  text! r#"#endif"#,
  text! r#"#ifdef DOSTORESTATE46"#,
  text! r#"	case 46:"#,
  text! r#"		sha1recompress_fast_46(ihvin, ihvout, me2, state);"#,
  text! r#"		break;"#,
  text! r#"#endif"#,
  text! r#"#ifdef DOSTORESTATE47"#,
  text! r#"	case 47:"#,
  text! r#"		sha1recompress_fast_47(ihvin, ihvout, me2, state);"#,
  text! r#"		break;"#,
  text! r#"#endif"#,
  text! r#"#ifdef DOSTORESTATE48"#,
  text! r#"	case 48:"#,
  text! r#"		sha1recompress_fast_48(ihvin, ihvout, me2, state);"#,
  text! r#"		break;"#,
  text! r#"#endif"#,
  text! r#"#ifdef DOSTORESTATE49"#,
  text! r#"	case 49:"#,
  text! r#"		sha1recompress_fast_49(ihvin, ihvout, me2, state);"#,
  text! r#"		break;"#,
  text! r#"#endif"#,
  text! r#"#ifdef DOSTORESTATE50"#,
  text! r#"	case 50:"#,
  text! r#"		sha1recompress_fast_50(ihvin, ihvout, me2, state);"#,
  text! r#"		break;"#,
  text! r#"#endif"#,
  text! r#"#ifdef DOSTORESTATE51"#,
  text! r#"	case 51:"#,
  text! r#"		sha1recompress_fast_51(ihvin, ihvout, me2, state);"#,
  text! r#"		break;"#,
  text! r#"#endif"#,
  text! r#"#ifdef DOSTORESTATE52"#,
  text! r#"	case 52:"#,
  text! r#"		sha1recompress_fast_52(ihvin, ihvout, me2, state);"#,
  text! r#"		break;"#,
  text! r#"#endif"#,
  text! r#"#ifdef DOSTORESTATE53"#,
  text! r#"	case 53:"#,
  text! r#"		sha1recompress_fast_53(ihvin, ihvout, me2, state);"#,
  text! r#"		break;"#,
  text! r#"#endif"#,
  text! r#"#ifdef DOSTORESTATE54"#,
  text! r#"	case 54:"#,
  text! r#"		sha1recompress_fast_54(ihvin, ihvout, me2, state);"#,
  text! r#"		break;"#,
  text! r#"#endif"#,
  text! r#"#ifdef DOSTORESTATE55"#,
  text! r#"	case 55:"#,
  text! r#"		sha1recompress_fast_55(ihvin, ihvout, me2, state);"#,
  text! r#"		break;"#,
  text! r#"#endif"#,
  text! r#"#ifdef DOSTORESTATE56"#,
  text! r#"	case 56:"#,
  text! r#"		sha1recompress_fast_56(ihvin, ihvout, me2, state);"#,
  text! r#"		break;"#,
  text! r#"#endif"#,
  text! r#"#ifdef DOSTORESTATE57"#,
  text! r#"	case 57:"#,
  text! r#"		sha1recompress_fast_57(ihvin, ihvout, me2, state);"#,
  text! r#"		break;"#,
  text! r#"#endif"#,
  text! r#"#ifdef DOSTORESTATE58"#,
  text! r#"	case 58:"#,
  text! r#"		sha1recompress_fast_58(ihvin, ihvout, me2, state);"#,
  text! r#"		break;"#,
  text! r#"#endif"#,
  text! r#"#ifdef DOSTORESTATE59"#,
  text! r#"	case 59:"#,
  text! r#"		sha1recompress_fast_59(ihvin, ihvout, me2, state);"#,
  text! r#"		break;"#,
  text! r#"#endif"#,
  text! r#"#ifdef DOSTORESTATE60"#,
  text! r#"	case 60:"#,
  text! r#"		sha1recompress_fast_60(ihvin, ihvout, me2, state);"#,
  text! r#"		break;"#,
  text! r#"#endif"#,
  text! r#"#ifdef DOSTORESTATE61"#,
  text! r#"	case 61:"#,
  text! r#"		sha1recompress_fast_61(ihvin, ihvout, me2, state);"#,
  text! r#"		break;"#,
  text! r#"#endif"#,
  text! r#"#ifdef DOSTORESTATE62"#,
  text! r#"	case 62:"#,
  text! r#"		sha1recompress_fast_62(ihvin, ihvout, me2, state);"#,
  text! r#"		break;"#,
  text! r#"#endif"#,
  text! r#"#ifdef DOSTORESTATE63"#,
  text! r#"	case 63:"#,
  text! r#"		sha1recompress_fast_63(ihvin, ihvout, me2, state);"#,
  text! r#"		break;"#,
  text! r#"#endif"#,
  text! r#"#ifdef DOSTORESTATE64"#,
  text! r#"	case 64:"#,
  text! r#"		sha1recompress_fast_64(ihvin, ihvout, me2, state);"#,
  text! r#"		break;"#,
  text! r#"#endif"#,
  text! r#"#ifdef DOSTORESTATE65"#,
  text! r#"	case 65:"#,
  text! r#"		sha1recompress_fast_65(ihvin, ihvout, me2, state);"#,
  text! r#"		break;"#,
  text! r#"#endif"#,
  text! r#"#ifdef DOSTORESTATE66"#,
  text! r#"	case 66:"#,
  text! r#"		sha1recompress_fast_66(ihvin, ihvout, me2, state);"#,
  text! r#"		break;"#,
  text! r#"#endif"#,
  text! r#"#ifdef DOSTORESTATE67"#,
  text! r#"	case 67:"#,
  text! r#"		sha1recompress_fast_67(ihvin, ihvout, me2, state);"#,
  text! r#"		break;"#,
  text! r#"#endif"#,
  text! r#"#ifdef DOSTORESTATE68"#,
  text! r#"	case 68:"#,
  text! r#"		sha1recompress_fast_68(ihvin, ihvout, me2, state);"#,
  text! r#"		break;"#,
  text! r#"#endif"#,
  text! r#"#ifdef DOSTORESTATE69"#,
  text! r#"	case 69:"#,
  text! r#"		sha1recompress_fast_69(ihvin, ihvout, me2, state);"#,
  text! r#"		break;"#,
  text! r#"#endif"#,
  text! r#"#ifdef DOSTORESTATE70"#,
  text! r#"	case 70:"#,
  text! r#"		sha1recompress_fast_70(ihvin, ihvout, me2, state);"#,
  text! r#"		break;"#,
  text! r#"#endif"#,
  text! r#"#ifdef DOSTORESTATE71"#,
  text! r#"	case 71:"#,
  text! r#"		sha1recompress_fast_71(ihvin, ihvout, me2, state);"#,
  text! r#"		break;"#,
  text! r#"#endif"#,
  text! r#"#ifdef DOSTORESTATE72"#,
  text! r#"	case 72:"#,
  text! r#"		sha1recompress_fast_72(ihvin, ihvout, me2, state);"#,
  text! r#"		break;"#,
  text! r#"#endif"#,
  text! r#"#ifdef DOSTORESTATE73"#,
  text! r#"	case 73:"#,
  text! r#"		sha1recompress_fast_73(ihvin, ihvout, me2, state);"#,
  text! r#"		break;"#,
  text! r#"#endif"#,
  text! r#"#ifdef DOSTORESTATE74"#,
  text! r#"	case 74:"#,
  text! r#"		sha1recompress_fast_74(ihvin, ihvout, me2, state);"#,
  text! r#"		break;"#,
  text! r#"#endif"#,
  text! r#"#ifdef DOSTORESTATE75"#,
  text! r#"	case 75:"#,
  text! r#"		sha1recompress_fast_75(ihvin, ihvout, me2, state);"#,
  text! r#"		break;"#,
  text! r#"#endif"#,
  text! r#"#ifdef DOSTORESTATE76"#,
  text! r#"	case 76:"#,
  text! r#"		sha1recompress_fast_76(ihvin, ihvout, me2, state);"#,
  text! r#"		break;"#,
  text! r#"#endif"#,
  text! r#"#ifdef DOSTORESTATE77"#,
  text! r#"	case 77:"#,
  text! r#"		sha1recompress_fast_77(ihvin, ihvout, me2, state);"#,
  text! r#"		break;"#,
  text! r#"#endif"#,
  text! r#"#ifdef DOSTORESTATE78"#,
  text! r#"	case 78:"#,
  text! r#"		sha1recompress_fast_78(ihvin, ihvout, me2, state);"#,
  text! r#"		break;"#,
  text! r#"#endif"#,
  text! r#"#ifdef DOSTORESTATE79"#,
  text! r#"	case 79:"#,
  text! r#"		sha1recompress_fast_79(ihvin, ihvout, me2, state);"#,
  text! r#"		break;"#,
  text! r#"#endif"#,
  text! r#"	default:"#,
  text! r#"		abort();"#,
  text! r#"	}"#,
  text! r#"}"#,
  text! r#""#,
  text! r#"static void sha1_process(SHA1_CTX *ctx, const uint32_t block[16])"#,
  text! r#"{"#,
  text! r#"	unsigned i, j;"#,
  text! r#"	uint32_t ubc_dv_mask[DVMASKSIZE] = {0xFFFFFFFF};"#,
  text! r#"	uint32_t ihvtmp[5];"#,
  text! r#""#,
  text! r#"	ctx->ihv1[0] = ctx->ihv[0];"#,
  text! r#"	ctx->ihv1[1] = ctx->ihv[1];"#,
  text! r#"	ctx->ihv1[2] = ctx->ihv[2];"#,
  text! r#"	ctx->ihv1[3] = ctx->ihv[3];"#,
  text! r#"	ctx->ihv1[4] = ctx->ihv[4];"#,
  text! r#""#,
  text! r#"	sha1_compression_states(ctx->ihv, block, ctx->m1, ctx->states);"#,
  text! r#""#,
  text! r#"	if (ctx->detect_coll)"#,
  text! r#"	{"#,
  text! r#"		if (ctx->ubc_check)"#,
  text! r#"		{"#,
  text! r#"			ubc_check(ctx->m1, ubc_dv_mask);"#,
  text! r#"		}"#,
  text! r#""#,
  text! r#"		if (ubc_dv_mask[0] != 0)"#,
  text! r#"		{"#,
  text! r#"			for (i = 0; sha1_dvs[i].dvType != 0; ++i)"#,
  text! r#"			{"#,
  text! r#"				if (ubc_dv_mask[0] & ((uint32_t)(1) << sha1_dvs[i].maskb))"#,
  text! r#"				{"#,
  text! r#"					for (j = 0; j < 80; ++j)"#,
  text! r#"						ctx->m2[j] = ctx->m1[j] ^ sha1_dvs[i].dm[j];"#,
  text! r#""#,
  text! r#"					sha1_recompression_step(sha1_dvs[i].testt, ctx->ihv2, ihvtmp, ctx->m2, ctx->states[sha1_dvs[i].testt]);"#,
  text! r#""#,
  text! r#"					/* to verify SHA-1 collision detection code with collisions for reduced-step SHA-1 */"#,
  text! r#"					if ((0 == ((ihvtmp[0] ^ ctx->ihv[0]) | (ihvtmp[1] ^ ctx->ihv[1]) | (ihvtmp[2] ^ ctx->ihv[2]) | (ihvtmp[3] ^ ctx->ihv[3]) | (ihvtmp[4] ^ ctx->ihv[4]))) ||"#,
  text! r#"						(ctx->reduced_round_coll && 0 == ((ctx->ihv1[0] ^ ctx->ihv2[0]) | (ctx->ihv1[1] ^ ctx->ihv2[1]) | (ctx->ihv1[2] ^ ctx->ihv2[2]) | (ctx->ihv1[3] ^ ctx->ihv2[3]) | (ctx->ihv1[4] ^ ctx->ihv2[4]))))"#,
  text! r#"					{"#,
  text! r#"						ctx->found_collision = 1;"#,
  text! r#""#,
  text! r#"						if (ctx->safe_hash)"#,
  text! r#"						{"#,
  text! r#"							sha1_compression_W(ctx->ihv, ctx->m1);"#,
  text! r#"							sha1_compression_W(ctx->ihv, ctx->m1);"#,
  text! r#"						}"#,
  text! r#""#,
  text! r#"						break;"#,
  text! r#"					}"#,
  text! r#"				}"#,
  text! r#"			}"#,
  text! r#"		}"#,
  text! r#"	}"#,
  text! r#"}"#,
  text! r#""#,
  text! r#"void SHA1DCInit(SHA1_CTX *ctx)"#,
  text! r#"{"#,
  text! r#"	ctx->total = 0;"#,
  text! r#"	ctx->ihv[0] = 0x67452301;"#,
  text! r#"	ctx->ihv[1] = 0xEFCDAB89;"#,
  text! r#"	ctx->ihv[2] = 0x98BADCFE;"#,
  text! r#"	ctx->ihv[3] = 0x10325476;"#,
  text! r#"	ctx->ihv[4] = 0xC3D2E1F0;"#,
  text! r#"	ctx->found_collision = 0;"#,
  text! r#"	ctx->safe_hash = SHA1DC_INIT_SAFE_HASH_DEFAULT;"#,
  text! r#"	ctx->ubc_check = 1;"#,
  text! r#"	ctx->detect_coll = 1;"#,
  text! r#"	ctx->reduced_round_coll = 0;"#,
  text! r#"	ctx->callback = NULL;"#,
  text! r#"}"#,
  text! r#""#,
  text! r#"void SHA1DCSetSafeHash(SHA1_CTX *ctx, int safehash)"#,
  text! r#"{"#,
  text! r#"	if (safehash)"#,
  text! r#"		ctx->safe_hash = 1;"#,
  text! r#"	else"#,
  text! r#"		ctx->safe_hash = 0;"#,
  text! r#"}"#,
  text! r#""#,
  text! r#"void SHA1DCSetUseUBC(SHA1_CTX *ctx, int ubc_check)"#,
  text! r#"{"#,
  text! r#"	if (ubc_check)"#,
  text! r#"		ctx->ubc_check = 1;"#,
  text! r#"	else"#,
  text! r#"		ctx->ubc_check = 0;"#,
  text! r#"}"#,
  text! r#""#,
  text! r#"void SHA1DCSetUseDetectColl(SHA1_CTX *ctx, int detect_coll)"#,
  text! r#"{"#,
  text! r#"	if (detect_coll)"#,
  text! r#"		ctx->detect_coll = 1;"#,
  text! r#"	else"#,
  text! r#"		ctx->detect_coll = 0;"#,
  text! r#"}"#,
  text! r#""#,
  text! r#"void SHA1DCSetDetectReducedRoundCollision(SHA1_CTX *ctx, int reduced_round_coll)"#,
  text! r#"{"#,
  text! r#"	if (reduced_round_coll)"#,
  text! r#"		ctx->reduced_round_coll = 1;"#,
  text! r#"	else"#,
  text! r#"		ctx->reduced_round_coll = 0;"#,
  text! r#"}"#,
  text! r#""#,
  text! r#"void SHA1DCSetCallback(SHA1_CTX *ctx, collision_block_callback callback)"#,
  text! r#"{"#,
  text! r#"	ctx->callback = callback;"#,
  text! r#"}"#,
  text! r#""#,
  text! r#"void SHA1DCUpdate(SHA1_CTX *ctx, const char *buf, size_t len)"#,
  text! r#"{"#,
  text! r#"	unsigned left, fill;"#,
  text! r#""#,
  text! r#"	if (len == 0)"#,
  text! r#"		return;"#,
  text! r#""#,
  text! r#"	left = ctx->total & 63;"#,
  text! r#"	fill = 64 - left;"#,
  text! r#""#,
  text! r#"	if (left && len >= fill)"#,
  text! r#"	{"#,
  text! r#"		ctx->total += fill;"#,
  text! r#"		memcpy(ctx->buffer + left, buf, fill);"#,
  text! r#"		sha1_process(ctx, (uint32_t *)(ctx->buffer));"#,
  text! r#"		buf += fill;"#,
  text! r#"		len -= fill;"#,
  text! r#"		left = 0;"#,
  text! r#"	}"#,
  text! r#"	while (len >= 64)"#,
  text! r#"	{"#,
  text! r#"		ctx->total += 64;"#,
  text! r#""#,
  text! r#"#if defined(SHA1DC_ALLOW_UNALIGNED_ACCESS)"#,
  text! r#"		sha1_process(ctx, (uint32_t *)(buf));"#,
  text! r#"#else"#,
  text! r#"		memcpy(ctx->buffer, buf, 64);"#,
  text! r#"		sha1_process(ctx, (uint32_t *)(ctx->buffer));"#,
  text! r#"#endif /* defined(SHA1DC_ALLOW_UNALIGNED_ACCESS) */"#,
  text! r#"		buf += 64;"#,
  text! r#"		len -= 64;"#,
  text! r#"	}"#,
  text! r#"	if (len > 0)"#,
  text! r#"	{"#,
  text! r#"		ctx->total += len;"#,
  text! r#"		memcpy(ctx->buffer + left, buf, len);"#,
  text! r#"	}"#,
  text! r#"}"#,
  text! r#""#,
  text! r#"static const unsigned char sha1_padding[64] ="#,
  text! r#"	{"#,
  text! r#"		0x80, 0, 0, 0, 0, 0, 0, 0, 0, 0, 0, 0, 0, 0, 0, 0,"#,
  text! r#"		0, 0, 0, 0, 0, 0, 0, 0, 0, 0, 0, 0, 0, 0, 0, 0,"#,
  text! r#"		0, 0, 0, 0, 0, 0, 0, 0, 0, 0, 0, 0, 0, 0, 0, 0,"#,
  text! r#"		0, 0, 0, 0, 0, 0, 0, 0, 0, 0, 0, 0, 0, 0, 0, 0};"#,
  text! r#""#,
  text! r#"int SHA1DCFinal(unsigned char output[20], SHA1_CTX *ctx)"#,
  text! r#"{"#,
  text! r#"	uint32_t last = ctx->total & 63;"#,
  text! r#"	uint32_t padn = (last < 56) ? (56 - last) : (120 - last);"#,
  text! r#"	uint64_t total;"#,
  text! r#"	SHA1DCUpdate(ctx, (const char *)(sha1_padding), padn);"#,
  text! r#""#,
  text! r#"	total = ctx->total - padn;"#,
  text! r#"	total <<= 3;"#,
  text! r#"	ctx->buffer[56] = (unsigned char)(total >> 56);"#,
  text! r#"	ctx->buffer[57] = (unsigned char)(total >> 48);"#,
  text! r#"	ctx->buffer[58] = (unsigned char)(total >> 40);"#,
  text! r#"	ctx->buffer[59] = (unsigned char)(total >> 32);"#,
  text! r#"	ctx->buffer[60] = (unsigned char)(total >> 24);"#,
  text! r#"	ctx->buffer[61] = (unsigned char)(total >> 16);"#,
  text! r#"	ctx->buffer[62] = (unsigned char)(total >> 8);"#,
  text! r#"	ctx->buffer[63] = (unsigned char)(total);"#,
  text! r#"	sha1_process(ctx, (uint32_t *)(ctx->buffer));"#,
  text! r#"	output[0] = (unsigned char)(ctx->ihv[0] >> 24);"#,
  text! r#"	output[1] = (unsigned char)(ctx->ihv[0] >> 16);"#,
  text! r#"	output[2] = (unsigned char)(ctx->ihv[0] >> 8);"#,
  text! r#"	output[3] = (unsigned char)(ctx->ihv[0]);"#,
  text! r#"	output[4] = (unsigned char)(ctx->ihv[1] >> 24);"#,
  text! r#"	output[5] = (unsigned char)(ctx->ihv[1] >> 16);"#,
  text! r#"	output[6] = (unsigned char)(ctx->ihv[1] >> 8);"#,
  text! r#"	output[7] = (unsigned char)(ctx->ihv[1]);"#,
  text! r#"	output[8] = (unsigned char)(ctx->ihv[2] >> 24);"#,
  text! r#"	output[9] = (unsigned char)(ctx->ihv[2] >> 16);"#,
  text! r#"	output[10] = (unsigned char)(ctx->ihv[2] >> 8);"#,
  text! r#"	output[11] = (unsigned char)(ctx->ihv[2]);"#,
  text! r#"	output[12] = (unsigned char)(ctx->ihv[3] >> 24);"#,
  text! r#"	output[13] = (unsigned char)(ctx->ihv[3] >> 16);"#,
  text! r#"	output[14] = (unsigned char)(ctx->ihv[3] >> 8);"#,
  text! r#"	output[15] = (unsigned char)(ctx->ihv[3]);"#,
  text! r#"	output[16] = (unsigned char)(ctx->ihv[4] >> 24);"#,
  text! r#"	output[17] = (unsigned char)(ctx->ihv[4] >> 16);"#,
  text! r#"	output[18] = (unsigned char)(ctx->ihv[4] >> 8);"#,
  text! r#"	output[19] = (unsigned char)(ctx->ihv[4]);"#,
  text! r#"	return ctx->found_collision;"#,
  text! r#"}"#,
  text! r#""#,
  text! r#"#ifdef SHA1DC_CUSTOM_TRAILING_INCLUDE_SHA1_C"#,
  text! r#"#include SHA1DC_CUSTOM_TRAILING_INCLUDE_SHA1_C"#,
  text! r#"#endif"#]

/-- cgo/sha1.c:1-2144 -/
def sha1CLines : List (List Nat) := sha1CLines1 ++ (sha1CLines2 ++ (sha1CLines3))

end Verif.Source
