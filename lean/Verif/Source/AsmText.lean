import Verif.Source.Chars

/-! The assembly files, line by line, written by `tools/source_text.py`. -/

namespace Verif.Source

/-- sha1cdblock_amd64.s:1-274 -/
def amd64Lines : List (List Nat) := [
  chars! r#"//go:build !noasm && gc && amd64 && !arm64"#,
  chars! r#""#,
  chars! r#"#include "textflag.h""#,
  chars! r#""#,
  chars! r#"// License information for the original SHA1 arm64 implemention:"#,
  chars! r#"// Copyright 2024 The Go Authors. All rights reserved."#,
  chars! r#"// Use of this source code is governed by a BSD-style"#,
  chars! r#"// license that can be found at:"#,
  chars! r#"// 	- https://github.com/golang/go/blob/master/LICENSE"#,
  chars! r#"//"#,
  chars! r#"// Reference implementations:"#,
  chars! r#"// 	- https://github.com/golang/go/blob/master/src/crypto/sha1/sha1block_amd64.s"#,
  chars! r#""#,
  chars! r#"// Reverse the dword order in abcd via PSHUFD then store the 16 bytes in one"#,
  chars! r#"// move, instead of issuing four VPEXTRD's that each go through the store port."#,
  chars! r#"#define LOADCS(abcd, e, index, target) \"#,
  chars! r#"	VPSHUFD $0x1B, abcd, X8; \"#,
  chars! r#"	VMOVDQU X8, ((index*20)+0)(target); \"#,
  chars! r#"	MOVL e, ((index*20)+16)(target);"#,
  chars! r#""#,
  chars! r#"#define LOADM1(m1, index, target) \"#,
  chars! r#"	VPSHUFD $0x1B, m1, X8; \"#,
  chars! r#"	VMOVDQU X8, ((index*16)+0)(target);"#,
  chars! r#"	"#,
  chars! r#"// func blockAMD64(h []uint32, p []byte, m1 []uint32, cs [][5]uint32)"#,
  chars! r#"// Requires: AVX, SHA, SSE2, SSE4.1, SSSE3"#,
  chars! r#"TEXT ·blockAMD64(SB), NOSPLIT, $80-96"#,
  chars! r#"	MOVQ h_base+0(FP), DI"#,
  chars! r#"	MOVQ p_base+24(FP), SI"#,
  chars! r#"	MOVQ p_len+32(FP), DX"#,
  chars! r#"	MOVQ m1_base+48(FP), R13"#,
  chars! r#"	MOVQ cs_base+72(FP), R15"#,
  chars! r#"	CMPQ DX, $0x00"#,
  chars! r#"	JEQ  done"#,
  chars! r#"	ADDQ SI, DX"#,
  chars! r#""#,
  chars! r#"	// Allocate space on the stack for saving ABCD and E0, and align it to 16 bytes"#,
  chars! r#"	LEAQ 15(SP), AX"#,
  chars! r#"	MOVQ $0x000000000000000f, CX"#,
  chars! r#"	NOTQ CX"#,
  chars! r#"	ANDQ CX, AX"#,
  chars! r#""#,
  chars! r#"	// Load initial hash state"#,
  chars! r#"	PINSRD  $0x03, 16(DI), X5"#,
  chars! r#"	VMOVDQU (DI), X0"#,
  chars! r#"	PAND    upper_mask<>+0(SB), X5"#,
  chars! r#"	PSHUFD  $0x1b, X0, X0"#,
  chars! r#"	VMOVDQA shuffle_mask<>+0(SB), X7"#,
  chars! r#""#,
  chars! r#"loop:"#,
  chars! r#"	// Save ABCD and E working values"#,
  chars! r#"	VMOVDQA X5, (AX)"#,
  chars! r#"	VMOVDQA X0, 16(AX)"#,
  chars! r#""#,
  chars! r#"	// LOAD CS 0"#,
  chars! r#"	VPEXTRD $3, X5, R12"#,
  chars! r#"	LOADCS(X0, R12, 0, R15)"#,
  chars! r#""#,
  chars! r#"	// Rounds 0-3"#,
  chars! r#"	VMOVDQU   (SI), X1"#,
  chars! r#"	PSHUFB    X7, X1"#,
  chars! r#"	PADDD     X1, X5"#,
  chars! r#"	VMOVDQA   X0, X6"#,
  chars! r#"	SHA1RNDS4 $0x00, X5, X0"#,
  chars! r#"	LOADM1(X1, 0, R13)"#,
  chars! r#""#,
  chars! r#"	// Rounds 4-7"#,
  chars! r#"	VMOVDQU   16(SI), X2"#,
  chars! r#"	PSHUFB    X7, X2"#,
  chars! r#"	SHA1NEXTE X2, X6"#,
  chars! r#"	VMOVDQA   X0, X5"#,
  chars! r#"	SHA1RNDS4 $0x00, X6, X0"#,
  chars! r#"	SHA1MSG1  X2, X1"#,
  chars! r#"	LOADM1(X2, 1, R13)"#,
  chars! r#""#,
  chars! r#"	// Rounds 8-11"#,
  chars! r#"	VMOVDQU   32(SI), X3"#,
  chars! r#"	PSHUFB    X7, X3"#,
  chars! r#"	SHA1NEXTE X3, X5"#,
  chars! r#"	VMOVDQA   X0, X6"#,
  chars! r#"	SHA1RNDS4 $0x00, X5, X0"#,
  chars! r#"	SHA1MSG1  X3, X2"#,
  chars! r#"	PXOR      X3, X1"#,
  chars! r#"	LOADM1(X3, 2, R13)"#,
  chars! r#""#,
  chars! r#"	// Rounds 12-15"#,
  chars! r#"	VMOVDQU   48(SI), X4"#,
  chars! r#"	PSHUFB    X7, X4"#,
  chars! r#"	SHA1NEXTE X4, X6"#,
  chars! r#"	VMOVDQA   X0, X5"#,
  chars! r#"	SHA1MSG2  X4, X1"#,
  chars! r#"	SHA1RNDS4 $0x00, X6, X0"#,
  chars! r#"	SHA1MSG1  X4, X3"#,
  chars! r#"	PXOR      X4, X2"#,
  chars! r#"	LOADM1(X4, 3, R13)"#,
  chars! r#""#,
  chars! r#"	// Rounds 16-19"#,
  chars! r#"	SHA1NEXTE X1, X5"#,
  chars! r#"	VMOVDQA   X0, X6"#,
  chars! r#"	SHA1MSG2  X1, X2"#,
  chars! r#"	SHA1RNDS4 $0x00, X5, X0"#,
  chars! r#"	SHA1MSG1  X1, X4"#,
  chars! r#"	PXOR      X1, X3"#,
  chars! r#"	LOADM1(X1, 4, R13)"#,
  chars! r#""#,
  chars! r#"	// Rounds 20-23"#,
  chars! r#"	SHA1NEXTE X2, X6"#,
  chars! r#"	VMOVDQA   X0, X5"#,
  chars! r#"	SHA1MSG2  X2, X3"#,
  chars! r#"	SHA1RNDS4 $0x01, X6, X0"#,
  chars! r#"	SHA1MSG1  X2, X1"#,
  chars! r#"	PXOR      X2, X4"#,
  chars! r#"	LOADM1(X2, 5, R13)"#,
  chars! r#""#,
  chars! r#"	// Rounds 24-27"#,
  chars! r#"	SHA1NEXTE X3, X5"#,
  chars! r#"	VMOVDQA   X0, X6"#,
  chars! r#"	SHA1MSG2  X3, X4"#,
  chars! r#"	SHA1RNDS4 $0x01, X5, X0"#,
  chars! r#"	SHA1MSG1  X3, X2"#,
  chars! r#"	PXOR      X3, X1"#,
  chars! r#"	LOADM1(X3, 6, R13)"#,
  chars! r#""#,
  chars! r#"	// Rounds 28-31"#,
  chars! r#"	SHA1NEXTE X4, X6"#,
  chars! r#"	VMOVDQA   X0, X5"#,
  chars! r#"	SHA1MSG2  X4, X1"#,
  chars! r#"	SHA1RNDS4 $0x01, X6, X0"#,
  chars! r#"	SHA1MSG1  X4, X3"#,
  chars! r#"	PXOR      X4, X2"#,
  chars! r#"	LOADM1(X4, 7, R13)"#,
  chars! r#""#,
  chars! r#"	// Rounds 32-35"#,
  chars! r#"	SHA1NEXTE X1, X5"#,
  chars! r#"	VMOVDQA   X0, X6"#,
  chars! r#"	SHA1MSG2  X1, X2"#,
  chars! r#"	SHA1RNDS4 $0x01, X5, X0"#,
  chars! r#"	SHA1MSG1  X1, X4"#,
  chars! r#"	PXOR      X1, X3"#,
  chars! r#"	LOADM1(X1, 8, R13)"#,
  chars! r#""#,
  chars! r#"	// Rounds 36-39"#,
  chars! r#"	SHA1NEXTE X2, X6"#,
  chars! r#"	VMOVDQA   X0, X5"#,
  chars! r#"	SHA1MSG2  X2, X3"#,
  chars! r#"	SHA1RNDS4 $0x01, X6, X0"#,
  chars! r#"	SHA1MSG1  X2, X1"#,
  chars! r#"	PXOR      X2, X4"#,
  chars! r#"	LOADM1(X2, 9, R13)"#,
  chars! r#""#,
  chars! r#"	// Rounds 40-43"#,
  chars! r#"	SHA1NEXTE X3, X5"#,
  chars! r#"	VMOVDQA   X0, X6"#,
  chars! r#"	SHA1MSG2  X3, X4"#,
  chars! r#"	SHA1RNDS4 $0x02, X5, X0"#,
  chars! r#"	SHA1MSG1  X3, X2"#,
  chars! r#"	PXOR      X3, X1"#,
  chars! r#"	LOADM1(X3, 10, R13)"#,
  chars! r#""#,
  chars! r#"	// Rounds 44-47"#,
  chars! r#"	SHA1NEXTE X4, X6"#,
  chars! r#"	VMOVDQA   X0, X5"#,
  chars! r#"	SHA1MSG2  X4, X1"#,
  chars! r#"	SHA1RNDS4 $0x02, X6, X0"#,
  chars! r#"	SHA1MSG1  X4, X3"#,
  chars! r#"	PXOR      X4, X2"#,
  chars! r#"	LOADM1(X4, 11, R13)"#,
  chars! r#""#,
  chars! r#"	// Rounds 48-51"#,
  chars! r#"	SHA1NEXTE X1, X5"#,
  chars! r#"	VMOVDQA   X0, X6"#,
  chars! r#"	SHA1MSG2  X1, X2"#,
  chars! r#"	SHA1RNDS4 $0x02, X5, X0"#,
  chars! r#"	VPEXTRD $0, X5, R12"#,
  chars! r#"	SHA1MSG1  X1, X4"#,
  chars! r#"	PXOR      X1, X3"#,
  chars! r#"	LOADM1(X1, 12, R13)"#,
  chars! r#""#,
  chars! r#"	// derive pre-round 56's E out of round 51's A."#,
  chars! r#"	VPEXTRD $3, X0, R12"#,
  chars! r#"	ROLL $30, R12"#,
  chars! r#""#,
  chars! r#"	// Rounds 52-55"#,
  chars! r#"	SHA1NEXTE X2, X6"#,
  chars! r#"	VMOVDQA   X0, X5"#,
  chars! r#"	SHA1MSG2  X2, X3"#,
  chars! r#"	SHA1RNDS4 $0x02, X6, X0"#,
  chars! r#"	SHA1MSG1  X2, X1"#,
  chars! r#"	PXOR      X2, X4"#,
  chars! r#"	LOADM1(X2, 13, R13)"#,
  chars! r#""#,
  chars! r#"	// LOAD CS 58 (gathers 56 which will be rectified in Go)"#,
  chars! r#"	LOADCS(X0, R12, 1, R15)"#,
  chars! r#""#,
  chars! r#"	// Rounds 56-59"#,
  chars! r#"	SHA1NEXTE X3, X5"#,
  chars! r#"	VMOVDQA   X0, X6"#,
  chars! r#"	SHA1MSG2  X3, X4"#,
  chars! r#"	SHA1RNDS4 $0x02, X5, X0"#,
  chars! r#"	VPEXTRD $0, X5, R12"#,
  chars! r#"	SHA1MSG1  X3, X2"#,
  chars! r#"	PXOR      X3, X1"#,
  chars! r#"	LOADM1(X3, 14, R13)"#,
  chars! r#""#,
  chars! r#"	// derive pre-round 64's E out of round 59's A."#,
  chars! r#"	VPEXTRD $3, X0, R12"#,
  chars! r#"	ROLL $30, R12"#,
  chars! r#""#,
  chars! r#"	// Rounds 60-63"#,
  chars! r#"	SHA1NEXTE X4, X6"#,
  chars! r#"	VMOVDQA   X0, X5"#,
  chars! r#"	SHA1MSG2  X4, X1"#,
  chars! r#"	SHA1RNDS4 $0x03, X6, X0"#,
  chars! r#"	SHA1MSG1  X4, X3"#,
  chars! r#"	PXOR      X4, X2"#,
  chars! r#"	LOADM1(X4, 15, R13)"#,
  chars! r#""#,
  chars! r#"	// LOAD CS 65 (gathers 64 which will be rectified in Go)"#,
  chars! r#"	LOADCS(X0, R12, 2, R15)"#,
  chars! r#""#,
  chars! r#"	// Rounds 64-67"#,
  chars! r#"	SHA1NEXTE X1, X5"#,
  chars! r#"	VMOVDQA   X0, X6"#,
  chars! r#"	SHA1MSG2  X1, X2"#,
  chars! r#"	SHA1RNDS4 $0x03, X5, X0"#,
  chars! r#"	SHA1MSG1  X1, X4"#,
  chars! r#"	PXOR      X1, X3"#,
  chars! r#"	LOADM1(X1, 16, R13)"#,
  chars! r#""#,
  chars! r#"	// Rounds 68-71"#,
  chars! r#"	SHA1NEXTE X2, X6"#,
  chars! r#"	VMOVDQA   X0, X5"#,
  chars! r#"	SHA1MSG2  X2, X3"#,
  chars! r#"	SHA1RNDS4 $0x03, X6, X0"#,
  chars! r#"	PXOR      X2, X4"#,
  chars! r#"	LOADM1(X2, 17, R13)"#,
  chars! r#""#,
  chars! r#"	// Rounds 72-75"#,
  chars! r#"	SHA1NEXTE X3, X5"#,
  chars! r#"	VMOVDQA   X0, X6"#,
  chars! r#"	SHA1MSG2  X3, X4"#,
  chars! r#"	SHA1RNDS4 $0x03, X5, X0"#,
  chars! r#"	LOADM1(X3, 18, R13)"#,
  chars! r#""#,
  chars! r#"	// Rounds 76-79"#,
  chars! r#"	SHA1NEXTE X4, X6"#,
  chars! r#"	VMOVDQA   X0, X5"#,
  chars! r#"	SHA1RNDS4 $0x03, X6, X0"#,
  chars! r#"	LOADM1(X4, 19, R13)"#,
  chars! r#""#,
  chars! r#"	// Add saved E and ABCD"#,
  chars! r#"	SHA1NEXTE (AX), X5"#,
  chars! r#"	PADDD     16(AX), X0"#,
  chars! r#""#,
  chars! r#"	// Check if we are done, if not return to the loop"#,
  chars! r#"	ADDQ $0x40, SI"#,
  chars! r#"	CMPQ SI, DX"#,
  chars! r#"	JNE  loop"#,
  chars! r#""#,
  chars! r#"	// Write the hash state back to digest"#,
  chars! r#"	PSHUFD  $0x1b, X0, X0"#,
  chars! r#"	VMOVDQU X0, (DI)"#,
  chars! r#"	PEXTRD  $0x03, X5, 16(DI)"#,
  chars! r#""#,
  chars! r#"done:"#,
  chars! r#"	RET"#,
  chars! r#""#,
  chars! r#"DATA upper_mask<>+0(SB)/8, $0x0000000000000000"#,
  chars! r#"DATA upper_mask<>+8(SB)/8, $0xffffffff00000000"#,
  chars! r#"GLOBL upper_mask<>(SB), RODATA, $16"#,
  chars! r#""#,
  chars! r#"DATA shuffle_mask<>+0(SB)/8, $0x08090a0b0c0d0e0f"#,
  chars! r#"DATA shuffle_mask<>+8(SB)/8, $0x0001020304050607"#,
  chars! r#"GLOBL shuffle_mask<>(SB), RODATA, $16"#]

/-- sha1cdblock_arm64.s:1-249 -/
def arm64Lines : List (List Nat) := [
  chars! r#"//go:build !noasm && gc && arm64 && !amd64"#,
  chars! r#""#,
  chars! r#"#include "textflag.h""#,
  chars! r#""#,
  chars! r#"// License information for the original SHA1 arm64 implemention:"#,
  chars! r#"// Copyright 2017 The Go Authors. All rights reserved."#,
  chars! r#"// Use of this source code is governed by a BSD-style"#,
  chars! r#"// license that can be found at:"#,
  chars! r#"// 	- https://github.com/golang/go/blob/master/LICENSE"#,
  chars! r#"//"#,
  chars! r#"// Reference implementations:"#,
  chars! r#"// 	- https://github.com/noloader/SHA-Intrinsics/blob/master/sha1-arm.c"#,
  chars! r#"// 	- https://github.com/golang/go/blob/master/src/crypto/sha1/sha1block_arm64.s"#,
  chars! r#""#,
  chars! r#"#define HASHUPDATECHOOSE \"#,
  chars! r#"	SHA1C	V16.S4, V1, V2 \"#,
  chars! r#"	SHA1H	V3, V1 \"#,
  chars! r#"	VMOV	V2.B16, V3.B16"#,
  chars! r#""#,
  chars! r#"#define HASHUPDATEPARITY \"#,
  chars! r#"	SHA1P	V16.S4, V1, V2 \"#,
  chars! r#"	SHA1H	V3, V1 \"#,
  chars! r#"	VMOV	V2.B16, V3.B16"#,
  chars! r#""#,
  chars! r#"#define HASHUPDATEMAJ \"#,
  chars! r#"	SHA1M	V16.S4, V1, V2 \"#,
  chars! r#"	SHA1H	V3, V1 \"#,
  chars! r#"	VMOV	V2.B16, V3.B16"#,
  chars! r#""#,
  chars! r#"// func blockARM64(h []uint32, p []byte, m1 []uint32, cs [][5]uint32)"#,
  chars! r#"TEXT ·blockARM64(SB), NOSPLIT, $80-96"#,
  chars! r#"	MOVD	h_base+0(FP), R0"#,
  chars! r#"	MOVD	p_base+24(FP), R1"#,
  chars! r#"	MOVD	p_len+32(FP), R2"#,
  chars! r#"	MOVD	m1_base+48(FP), R3"#,
  chars! r#"	MOVD	cs_base+72(FP), R4"#,
  chars! r#""#,
  chars! r#"    LSR     $6, R2, R2"#,
  chars! r#"    LSL     $6, R2, R2"#,
  chars! r#"    ADD     R16, R2, R21"#,
  chars! r#""#,
  chars! r#"	VLD1.P	16(R0), [V0.S4]"#,
  chars! r#"	FMOVS	(R0), F20"#,
  chars! r#"	SUB	$16, R0, R0"#,
  chars! r#""#,
  chars! r#"loop:"#,
  chars! r#"	CMP     R16, R21"#,
  chars! r#"	BLS     end"#,
  chars! r#""#,
  chars! r#"	// Load block (p) into 16-bytes vectors."#,
  chars! r#"	VLD1.P	16(R1), [V4.B16]"#,
  chars! r#"	VLD1.P	16(R1), [V5.B16]"#,
  chars! r#"	VLD1.P	16(R1), [V6.B16]"#,
  chars! r#"	VLD1.P	16(R1), [V7.B16]"#,
  chars! r#"	"#,
  chars! r#"	// Load K constants to V19"#,
  chars! r#"	MOVD  $·sha1Ks(SB), R22"#,
  chars! r#"	VLD1  (R22), [V19.S4]"#,
  chars! r#"                              "#,
  chars! r#"	VMOV	V0.B16, V2.B16"#,
  chars! r#"	VMOV	V20.S[0], V1"#,
  chars! r#"	VMOV	V2.B16, V3.B16"#,
  chars! r#"	VDUP	V19.S[0], V17.S4"#,
  chars! r#"	"#,
  chars! r#"	// Little Endian"#,
  chars! r#"	VREV32	V4.B16, V4.B16"#,
  chars! r#"	VREV32	V5.B16, V5.B16"#,
  chars! r#"	VREV32	V6.B16, V6.B16"#,
  chars! r#"	VREV32	V7.B16, V7.B16"#,
  chars! r#"	"#,
  chars! r#"	// LOAD M1 rounds 0-15"#,
  chars! r#"	VST1.P    [V4.S4], (R3)"#,
  chars! r#"	VST1.P    [V5.S4], (R3)"#,
  chars! r#"	VST1.P    [V6.S4], (R3)"#,
  chars! r#"	VST1.P    [V7.S4], (R3)"#,
  chars! r#""#,
  chars! r#"	// LOAD CS 0"#,
  chars! r#"    VST1.P    [V0.S4], (R4)  // ABCD pre-round 0"#,
  chars! r#"	VST1.P    V1.S[0], 4(R4) // E pre-round 0"#,
  chars! r#""#,
  chars! r#"	// Rounds 0-3"#,
  chars! r#"	VDUP	V19.S[1], V18.S4"#,
  chars! r#"	VADD	V17.S4, V4.S4, V16.S4"#,
  chars! r#"	SHA1SU0	V6.S4, V5.S4, V4.S4"#,
  chars! r#"	HASHUPDATECHOOSE"#,
  chars! r#"	SHA1SU1	V7.S4, V4.S4"#,
  chars! r#""#,
  chars! r#"	// Rounds 4-7"#,
  chars! r#"	VADD	V17.S4, V5.S4, V16.S4"#,
  chars! r#"	SHA1SU0	V7.S4, V6.S4, V5.S4"#,
  chars! r#"	HASHUPDATECHOOSE"#,
  chars! r#"	SHA1SU1	V4.S4, V5.S4"#,
  chars! r#"	// LOAD M1 rounds 16-19"#,
  chars! r#"	VST1.P    [V4.S4], (R3)"#,
  chars! r#""#,
  chars! r#"	// Rounds 8-11"#,
  chars! r#"	VADD	V17.S4, V6.S4, V16.S4"#,
  chars! r#"	SHA1SU0	V4.S4, V7.S4, V6.S4"#,
  chars! r#"	HASHUPDATECHOOSE"#,
  chars! r#"	SHA1SU1	V5.S4, V6.S4"#,
  chars! r#"	// LOAD M1 rounds 20-23"#,
  chars! r#"	VST1.P    [V5.S4], (R3)"#,
  chars! r#""#,
  chars! r#"	// Rounds 12-15"#,
  chars! r#"	VADD	V17.S4, V7.S4, V16.S4"#,
  chars! r#"	SHA1SU0	V5.S4, V4.S4, V7.S4"#,
  chars! r#"	HASHUPDATECHOOSE"#,
  chars! r#"	SHA1SU1	V6.S4, V7.S4"#,
  chars! r#"	// LOAD M1 rounds 24-27"#,
  chars! r#"	VST1.P    [V6.S4], (R3)"#,
  chars! r#""#,
  chars! r#"	// Rounds 16-19"#,
  chars! r#"	VADD	V17.S4, V4.S4, V16.S4"#,
  chars! r#"	SHA1SU0	V6.S4, V5.S4, V4.S4"#,
  chars! r#"	HASHUPDATECHOOSE"#,
  chars! r#"	SHA1SU1	V7.S4, V4.S4"#,
  chars! r#"	// LOAD M1 rounds 28-31"#,
  chars! r#"	VST1.P    [V7.S4], (R3)"#,
  chars! r#""#,
  chars! r#"	// Rounds 20-23"#,
  chars! r#"	VDUP	V19.S[2], V17.S4"#,
  chars! r#"	VADD	V18.S4, V5.S4, V16.S4"#,
  chars! r#"	SHA1SU0	V7.S4, V6.S4, V5.S4"#,
  chars! r#"	HASHUPDATEPARITY"#,
  chars! r#"	SHA1SU1	V4.S4, V5.S4"#,
  chars! r#"	// LOAD M1 rounds 32-35"#,
  chars! r#"	VST1.P    [V4.S4], (R3)"#,
  chars! r#""#,
  chars! r#"	// Rounds 24-27"#,
  chars! r#"	VADD	V18.S4, V6.S4, V16.S4"#,
  chars! r#"	SHA1SU0	V4.S4, V7.S4, V6.S4"#,
  chars! r#"	HASHUPDATEPARITY"#,
  chars! r#"	SHA1SU1	V5.S4, V6.S4"#,
  chars! r#"	// LOAD M1 rounds 36-39"#,
  chars! r#"	VST1.P    [V5.S4], (R3)"#,
  chars! r#""#,
  chars! r#"	// Rounds 28-31"#,
  chars! r#"	VADD	V18.S4, V7.S4, V16.S4"#,
  chars! r#"	SHA1SU0	V5.S4, V4.S4, V7.S4"#,
  chars! r#"	HASHUPDATEPARITY"#,
  chars! r#"	SHA1SU1	V6.S4, V7.S4"#,
  chars! r#"	// LOAD M1 rounds 40-43"#,
  chars! r#"	VST1.P    [V6.S4], (R3)"#,
  chars! r#""#,
  chars! r#"	// Rounds 32-35"#,
  chars! r#"	VADD	V18.S4, V4.S4, V16.S4"#,
  chars! r#"	SHA1SU0	V6.S4, V5.S4, V4.S4"#,
  chars! r#"	HASHUPDATEPARITY"#,
  chars! r#"	SHA1SU1	V7.S4, V4.S4"#,
  chars! r#"	// LOAD M1 rounds 44-47"#,
  chars! r#"	VST1.P    [V7.S4], (R3)"#,
  chars! r#""#,
  chars! r#"	// Rounds 36-39"#,
  chars! r#"	VADD	V18.S4, V5.S4, V16.S4"#,
  chars! r#"	SHA1SU0	V7.S4, V6.S4, V5.S4"#,
  chars! r#"	HASHUPDATEPARITY"#,
  chars! r#"	SHA1SU1	V4.S4, V5.S4"#,
  chars! r#"	// LOAD M1 rounds 48-51"#,
  chars! r#"	VST1.P    [V4.S4], (R3)"#,
  chars! r#""#,
  chars! r#"	// Rounds 44-47"#,
  chars! r#"	VDUP	V19.S[3], V18.S4"#,
  chars! r#"	VADD	V17.S4, V6.S4, V16.S4"#,
  chars! r#"	SHA1SU0	V4.S4, V7.S4, V6.S4"#,
  chars! r#"	HASHUPDATEMAJ"#,
  chars! r#"	SHA1SU1	V5.S4, V6.S4"#,
  chars! r#"	// LOAD M1 rounds 52-55"#,
  chars! r#"	VST1.P    [V5.S4], (R3)"#,
  chars! r#""#,
  chars! r#"	// Rounds 44-47"#,
  chars! r#"	VADD	V17.S4, V7.S4, V16.S4"#,
  chars! r#"	SHA1SU0	V5.S4, V4.S4, V7.S4"#,
  chars! r#"	HASHUPDATEMAJ"#,
  chars! r#"	SHA1SU1	V6.S4, V7.S4"#,
  chars! r#"	// LOAD M1 rounds 56-59"#,
  chars! r#"	VST1.P    [V6.S4], (R3)"#,
  chars! r#""#,
  chars! r#"	// Rounds 48-51"#,
  chars! r#"	VADD	V17.S4, V4.S4, V16.S4"#,
  chars! r#"	SHA1SU0	V6.S4, V5.S4, V4.S4"#,
  chars! r#"	HASHUPDATEMAJ"#,
  chars! r#"	SHA1SU1	V7.S4, V4.S4"#,
  chars! r#"	// LOAD M1 rounds 60-63"#,
  chars! r#"	VST1.P    [V7.S4], (R3)"#,
  chars! r#"	"#,
  chars! r#"	// Rounds 52-55"#,
  chars! r#"	VADD	V17.S4, V5.S4, V16.S4"#,
  chars! r#"	SHA1SU0	V7.S4, V6.S4, V5.S4"#,
  chars! r#"	HASHUPDATEMAJ"#,
  chars! r#"	SHA1SU1	V4.S4, V5.S4"#,
  chars! r#""#,
  chars! r#"	// LOAD CS 58"#,
  chars! r#"    VST1.P    [V3.S4], (R4)  // ABCD pre-round 56"#,
  chars! r#"	VST1.P    V1.S[0], 4(R4) // E pre-round 56"#,
  chars! r#""#,
  chars! r#"	// Rounds 56-59"#,
  chars! r#"	VADD	V17.S4, V6.S4, V16.S4"#,
  chars! r#"	SHA1SU0	V4.S4, V7.S4, V6.S4"#,
  chars! r#"	HASHUPDATEMAJ"#,
  chars! r#"	SHA1SU1	V5.S4, V6.S4"#,
  chars! r#""#,
  chars! r#"	// Rounds 60-63"#,
  chars! r#"	VADD	V18.S4, V7.S4, V16.S4"#,
  chars! r#"	SHA1SU0	V5.S4, V4.S4, V7.S4"#,
  chars! r#"	HASHUPDATEPARITY"#,
  chars! r#"	SHA1SU1	V6.S4, V7.S4"#,
  chars! r#""#,
  chars! r#"	// LOAD CS 65"#,
  chars! r#"    VST1.P    [V3.S4], (R4)  // ABCD pre-round 64"#,
  chars! r#"	VST1.P    V1.S[0], 4(R4) // E pre-round 64"#,
  chars! r#""#,
  chars! r#"	// Rounds 64-67"#,
  chars! r#"	VADD	V18.S4, V4.S4, V16.S4"#,
  chars! r#"	HASHUPDATEPARITY"#,
  chars! r#""#,
  chars! r#"	// LOAD M1 rounds 68-79"#,
  chars! r#"	VST1.P    [V4.S4], (R3)"#,
  chars! r#"	VST1.P    [V5.S4], (R3)"#,
  chars! r#"	VST1.P    [V6.S4], (R3)"#,
  chars! r#"	VST1.P    [V7.S4], (R3)"#,
  chars! r#""#,
  chars! r#"	// Rounds 68-71"#,
  chars! r#"	VADD	V18.S4, V5.S4, V16.S4"#,
  chars! r#"	HASHUPDATEPARITY"#,
  chars! r#""#,
  chars! r#"	// Rounds 72-75"#,
  chars! r#"	VADD	V18.S4, V6.S4, V16.S4"#,
  chars! r#"	HASHUPDATEPARITY"#,
  chars! r#""#,
  chars! r#"	// Rounds 76-79"#,
  chars! r#"	VADD	V18.S4, V7.S4, V16.S4"#,
  chars! r#"	HASHUPDATEPARITY"#,
  chars! r#""#,
  chars! r#"	// Add working registers to hash state."#,
  chars! r#"	VADD	V2.S4, V0.S4, V0.S4"#,
  chars! r#"	VADD	V1.S4, V20.S4, V20.S4"#,
  chars! r#""#,
  chars! r#"end:"#,
  chars! r#"	// Update h with final hash values."#,
  chars! r#"	VST1.P	[V0.S4], (R0)"#,
  chars! r#"	FMOVS	F20, (R0)"#,
  chars! r#"	"#,
  chars! r#"	RET"#,
  chars! r#""#,
  chars! r#"DATA ·sha1Ks+0(SB)/4,  $0x5A827999 // K0"#,
  chars! r#"DATA ·sha1Ks+4(SB)/4,  $0x6ED9EBA1 // K1"#,
  chars! r#"DATA ·sha1Ks+8(SB)/4,  $0x8F1BBCDC // K2"#,
  chars! r#"DATA ·sha1Ks+12(SB)/4, $0xCA62C1D6 // K3"#,
  chars! r#"GLOBL ·sha1Ks(SB), RODATA, $16"#]

end Verif.Source
