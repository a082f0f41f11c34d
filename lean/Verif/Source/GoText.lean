import Verif.Source.Chars

/-! The Go files, line by line, written by `tools/source_text.py`. -/

namespace Verif.Source

/-- internal/const.go:1-42 -/
def constLines : List (List Nat) := [
  text! r#"package shared"#,
  text! r#""#,
  text! r#"const ("#,
  text! r#"	// Constants for the SHA-1 hash function."#,
  text! r#"	K0 = 0x5A827999"#,
  text! r#"	K1 = 0x6ED9EBA1"#,
  text! r#"	K2 = 0x8F1BBCDC"#,
  text! r#"	K3 = 0xCA62C1D6"#,
  text! r#""#,
  text! r#"	// Initial values for the buffer variables: h0, h1, h2, h3, h4."#,
  text! r#"	Init0 = 0x67452301"#,
  text! r#"	Init1 = 0xEFCDAB89"#,
  text! r#"	Init2 = 0x98BADCFE"#,
  text! r#"	Init3 = 0x10325476"#,
  text! r#"	Init4 = 0xC3D2E1F0"#,
  text! r#""#,
  text! r#"	// Initial values for the temporary variables (ihvtmp0, ihvtmp1, ihvtmp2, ihvtmp3, ihvtmp4) during the SHA recompression step."#,
  text! r#"	InitTmp0 = 0xD5"#,
  text! r#"	InitTmp1 = 0x394"#,
  text! r#"	InitTmp2 = 0x8152A8"#,
  text! r#"	InitTmp3 = 0x0"#,
  text! r#"	InitTmp4 = 0xA7ECE0"#,
  text! r#""#,
  text! r#"	// SHA1 contains 2 buffers, each based off 5 32-bit words."#,
  text! r#"	WordBuffers = 5"#,
  text! r#""#,
  text! r#"	// The output of SHA1 is 20 bytes (160 bits)."#,
  text! r#"	Size = 20"#,
  text! r#""#,
  text! r#"	// Rounds represents the number of steps required to process each chunk."#,
  text! r#"	Rounds = 80"#,
  text! r#""#,
  text! r#"	// SHA1 processes the input data in chunks. Each chunk contains 64 bytes."#,
  text! r#"	Chunk = 64"#,
  text! r#""#,
  text! r#"	// The number of pre-step compression state to store."#,
  text! r#"	// Currently there are 3 pre-step compression states required: 0, 58, 65."#,
  text! r#"	PreStepState = 3"#,
  text! r#""#,
  text! r#"	Magic         = "shacd\x01""#,
  text! r#"	MarshaledSize = len(Magic) + 5*4 + Chunk + 8"#,
  text! r#")"#]

/-- ubc/const.go:1-624 -/
def ubcConstLines : List (List Nat) := [
  text! r#"// Based on the C implementation from Marc Stevens and Dan Shumow."#,
  text! r#"// https://github.com/cr-marcstevens/sha1collisiondetection"#,
  text! r#""#,
  text! r#"package ubc"#,
  text! r#""#,
  text! r#"const ("#,
  text! r#"	CheckSize = 80"#,
  text! r#""#,
  text! r#"	DV_I_43_0_bit  = (uint32)(1 << 0)"#,
  text! r#"	DV_I_44_0_bit  = (uint32)(1 << 1)"#,
  text! r#"	DV_I_45_0_bit  = (uint32)(1 << 2)"#,
  text! r#"	DV_I_46_0_bit  = (uint32)(1 << 3)"#,
  text! r#"	DV_I_46_2_bit  = (uint32)(1 << 4)"#,
  text! r#"	DV_I_47_0_bit  = (uint32)(1 << 5)"#,
  text! r#"	DV_I_47_2_bit  = (uint32)(1 << 6)"#,
  text! r#"	DV_I_48_0_bit  = (uint32)(1 << 7)"#,
  text! r#"	DV_I_48_2_bit  = (uint32)(1 << 8)"#,
  text! r#"	DV_I_49_0_bit  = (uint32)(1 << 9)"#,
  text! r#"	DV_I_49_2_bit  = (uint32)(1 << 10)"#,
  text! r#"	DV_I_50_0_bit  = (uint32)(1 << 11)"#,
  text! r#"	DV_I_50_2_bit  = (uint32)(1 << 12)"#,
  text! r#"	DV_I_51_0_bit  = (uint32)(1 << 13)"#,
  text! r#"	DV_I_51_2_bit  = (uint32)(1 << 14)"#,
  text! r#"	DV_I_52_0_bit  = (uint32)(1 << 15)"#,
  text! r#"	DV_II_45_0_bit = (uint32)(1 << 16)"#,
  text! r#"	DV_II_46_0_bit = (uint32)(1 << 17)"#,
  text! r#"	DV_II_46_2_bit = (uint32)(1 << 18)"#,
  text! r#"	DV_II_47_0_bit = (uint32)(1 << 19)"#,
  text! r#"	DV_II_48_0_bit = (uint32)(1 << 20)"#,
  text! r#"	DV_II_49_0_bit = (uint32)(1 << 21)"#,
  text! r#"	DV_II_49_2_bit = (uint32)(1 << 22)"#,
  text! r#"	DV_II_50_0_bit = (uint32)(1 << 23)"#,
  text! r#"	DV_II_50_2_bit = (uint32)(1 << 24)"#,
  text! r#"	DV_II_51_0_bit = (uint32)(1 << 25)"#,
  text! r#"	DV_II_51_2_bit = (uint32)(1 << 26)"#,
  text! r#"	DV_II_52_0_bit = (uint32)(1 << 27)"#,
  text! r#"	DV_II_53_0_bit = (uint32)(1 << 28)"#,
  text! r#"	DV_II_54_0_bit = (uint32)(1 << 29)"#,
  text! r#"	DV_II_55_0_bit = (uint32)(1 << 30)"#,
  text! r#"	DV_II_56_0_bit = (uint32)(1 << 31)"#,
  text! r#")"#,
  text! r#""#,
  text! r#"// sha1_dvs contains a list of SHA-1 Disturbance Vectors (DV) which defines the"#,
  text! r#"// unavoidable bit conditions when a collision attack is in progress."#,
  text! r#"var sha1_dvs = []DvInfo{"#,
  text! r#"	{"#,
  text! r#"		DvType: 1, DvK: 43, DvB: 0, TestT: 58, MaskI: 0, MaskB: 0,"#,
  text! r#"		Dm: [CheckSize]uint32{"#,
  text! r#"			0x08000000, 0x9800000c, 0xd8000010, 0x08000010, 0xb8000010, 0x98000000, 0x60000000,"#,
  text! r#"			0x00000008, 0xc0000000, 0x90000014, 0x10000010, 0xb8000014, 0x28000000, 0x20000010,"#,
  text! r#"			0x48000000, 0x08000018, 0x60000000, 0x90000010, 0xf0000010, 0x90000008, 0xc0000000,"#,
  text! r#"			0x90000010, 0xf0000010, 0xb0000008, 0x40000000, 0x90000000, 0xf0000010, 0x90000018,"#,
  text! r#"			0x60000000, 0x90000010, 0x90000010, 0x90000000, 0x80000000, 0x00000010, 0xa0000000,"#,
  text! r#"			0x20000000, 0xa0000000, 0x20000010, 0x00000000, 0x20000010, 0x20000000, 0x00000010,"#,
  text! r#"			0x20000000, 0x00000010, 0xa0000000, 0x00000000, 0x20000000, 0x20000000, 0x00000000,"#,
  text! r#"			0x00000000, 0x00000000, 0x00000000, 0x00000000, 0x00000000, 0x00000000, 0x00000000,"#,
  text! r#"			0x00000000, 0x00000000, 0x00000001, 0x00000020, 0x00000001, 0x40000002, 0x40000040,"#,
  text! r#"			0x40000002, 0x80000004, 0x80000080, 0x80000006, 0x00000049, 0x00000103, 0x80000009,"#,
  text! r#"			0x80000012, 0x80000202, 0x00000018, 0x00000164, 0x00000408, 0x800000e6, 0x8000004c,"#,
  text! r#"			0x00000803, 0x80000161, 0x80000599},"#,
  text! r#"	}, {"#,
  text! r#"		DvType: 1, DvK: 44, DvB: 0, TestT: 58, MaskI: 0, MaskB: 1,"#,
  text! r#"		Dm: [CheckSize]uint32{"#,
  text! r#"			0xb4000008, 0x08000000, 0x9800000c, 0xd8000010, 0x08000010, 0xb8000010, 0x98000000,"#,
  text! r#"			0x60000000, 0x00000008, 0xc0000000, 0x90000014, 0x10000010, 0xb8000014, 0x28000000,"#,
  text! r#"			0x20000010, 0x48000000, 0x08000018, 0x60000000, 0x90000010, 0xf0000010, 0x90000008,"#,
  text! r#"			0xc0000000, 0x90000010, 0xf0000010, 0xb0000008, 0x40000000, 0x90000000, 0xf0000010,"#,
  text! r#"			0x90000018, 0x60000000, 0x90000010, 0x90000010, 0x90000000, 0x80000000, 0x00000010,"#,
  text! r#"			0xa0000000, 0x20000000, 0xa0000000, 0x20000010, 0x00000000, 0x20000010, 0x20000000,"#,
  text! r#"			0x00000010, 0x20000000, 0x00000010, 0xa0000000, 0x00000000, 0x20000000, 0x20000000,"#,
  text! r#"			0x00000000, 0x00000000, 0x00000000, 0x00000000, 0x00000000, 0x00000000, 0x00000000,"#,
  text! r#"			0x00000000, 0x00000000, 0x00000000, 0x00000001, 0x00000020, 0x00000001, 0x40000002,"#,
  text! r#"			0x40000040, 0x40000002, 0x80000004, 0x80000080, 0x80000006, 0x00000049, 0x00000103,"#,
  text! r#"			0x80000009, 0x80000012, 0x80000202, 0x00000018, 0x00000164, 0x00000408, 0x800000e6,"#,
  text! r#"			0x8000004c, 0x00000803, 0x80000161},"#,
  text! r#"	},"#,
  text! r#"	{"#,
  text! r#"		DvType: 1, DvK: 45, DvB: 0, TestT: 58, MaskI: 0, MaskB: 2,"#,
  text! r#"		Dm: [CheckSize]uint32{"#,
  text! r#"			0xf4000014, 0xb4000008, 0x08000000, 0x9800000c, 0xd8000010, 0x08000010, 0xb8000010,"#,
  text! r#"			0x98000000, 0x60000000, 0x00000008, 0xc0000000, 0x90000014, 0x10000010, 0xb8000014,"#,
  text! r#"			0x28000000, 0x20000010, 0x48000000, 0x08000018, 0x60000000, 0x90000010, 0xf0000010,"#,
  text! r#"			0x90000008, 0xc0000000, 0x90000010, 0xf0000010, 0xb0000008, 0x40000000, 0x90000000,"#,
  text! r#"			0xf0000010, 0x90000018, 0x60000000, 0x90000010, 0x90000010, 0x90000000, 0x80000000,"#,
  text! r#"			0x00000010, 0xa0000000, 0x20000000, 0xa0000000, 0x20000010, 0x00000000, 0x20000010,"#,
  text! r#"			0x20000000, 0x00000010, 0x20000000, 0x00000010, 0xa0000000, 0x00000000, 0x20000000,"#,
  text! r#"			0x20000000, 0x00000000, 0x00000000, 0x00000000, 0x00000000, 0x00000000, 0x00000000,"#,
  text! r#"			0x00000000, 0x00000000, 0x00000000, 0x00000000, 0x00000001, 0x00000020, 0x00000001,"#,
  text! r#"			0x40000002, 0x40000040, 0x40000002, 0x80000004, 0x80000080, 0x80000006, 0x00000049,"#,
  text! r#"			0x00000103, 0x80000009, 0x80000012, 0x80000202, 0x00000018, 0x00000164, 0x00000408,"#,
  text! r#"			0x800000e6, 0x8000004c, 0x00000803},"#,
  text! r#"	},"#,
  text! r#"	{"#,
  text! r#"		DvType: 1, DvK: 46, DvB: 0, TestT: 58, MaskI: 0, MaskB: 3,"#,
  text! r#"		Dm: [CheckSize]uint32{"#,
  text! r#"			0x2c000010, 0xf4000014, 0xb4000008, 0x08000000, 0x9800000c, 0xd8000010, 0x08000010,"#,
  text! r#"			0xb8000010, 0x98000000, 0x60000000, 0x00000008, 0xc0000000, 0x90000014, 0x10000010,"#,
  text! r#"			0xb8000014, 0x28000000, 0x20000010, 0x48000000, 0x08000018, 0x60000000, 0x90000010,"#,
  text! r#"			0xf0000010, 0x90000008, 0xc0000000, 0x90000010, 0xf0000010, 0xb0000008, 0x40000000,"#,
  text! r#"			0x90000000, 0xf0000010, 0x90000018, 0x60000000, 0x90000010, 0x90000010, 0x90000000,"#,
  text! r#"			0x80000000, 0x00000010, 0xa0000000, 0x20000000, 0xa0000000, 0x20000010, 0x00000000,"#,
  text! r#"			0x20000010, 0x20000000, 0x00000010, 0x20000000, 0x00000010, 0xa0000000, 0x00000000,"#,
  text! r#"			0x20000000, 0x20000000, 0x00000000, 0x00000000, 0x00000000, 0x00000000, 0x00000000,"#,
  text! r#"			0x00000000, 0x00000000, 0x00000000, 0x00000000, 0x00000000, 0x00000001, 0x00000020,"#,
  text! r#"			0x00000001, 0x40000002, 0x40000040, 0x40000002, 0x80000004, 0x80000080, 0x80000006,"#,
  text! r#"			0x00000049, 0x00000103, 0x80000009, 0x80000012, 0x80000202, 0x00000018, 0x00000164,"#,
  text! r#"			0x00000408, 0x800000e6, 0x8000004c},"#,
  text! r#"	},"#,
  text! r#"	{"#,
  text! r#"		DvType: 1, DvK: 46, DvB: 2, TestT: 58, MaskI: 0, MaskB: 4,"#,
  text! r#"		Dm: [CheckSize]uint32{"#,
  text! r#"			0xb0000040, 0xd0000053, 0xd0000022, 0x20000000, 0x60000032, 0x60000043,"#,
  text! r#"			0x20000040, 0xe0000042, 0x60000002, 0x80000001, 0x00000020, 0x00000003,"#,
  text! r#"			0x40000052, 0x40000040, 0xe0000052, 0xa0000000, 0x80000040, 0x20000001,"#,
  text! r#"			0x20000060, 0x80000001, 0x40000042, 0xc0000043, 0x40000022, 0x00000003,"#,
  text! r#"			0x40000042, 0xc0000043, 0xc0000022, 0x00000001, 0x40000002, 0xc0000043,"#,
  text! r#"			0x40000062, 0x80000001, 0x40000042, 0x40000042, 0x40000002, 0x00000002,"#,
  text! r#"			0x00000040, 0x80000002, 0x80000000, 0x80000002, 0x80000040, 0x00000000,"#,
  text! r#"			0x80000040, 0x80000000, 0x00000040, 0x80000000, 0x00000040, 0x80000002,"#,
  text! r#"			0x00000000, 0x80000000, 0x80000000, 0x00000000, 0x00000000, 0x00000000,"#,
  text! r#"			0x00000000, 0x00000000, 0x00000000, 0x00000000, 0x00000000, 0x00000000,"#,
  text! r#"			0x00000000, 0x00000004, 0x00000080, 0x00000004, 0x00000009, 0x00000101,"#,
  text! r#"			0x00000009, 0x00000012, 0x00000202, 0x0000001a, 0x00000124, 0x0000040c,"#,
  text! r#"			0x00000026, 0x0000004a, 0x0000080a, 0x00000060, 0x00000590, 0x00001020,"#,
  text! r#"			0x0000039a, 0x00000132},"#,
  text! r#"	},"#,
  text! r#"	{"#,
  text! r#"		DvType: 1, DvK: 47, DvB: 0, TestT: 58, MaskI: 0, MaskB: 5,"#,
  text! r#"		Dm: [CheckSize]uint32{"#,
  text! r#"			0xc8000010, 0x2c000010, 0xf4000014, 0xb4000008, 0x08000000, 0x9800000c,"#,
  text! r#"			0xd8000010, 0x08000010, 0xb8000010, 0x98000000, 0x60000000, 0x00000008,"#,
  text! r#"			0xc0000000, 0x90000014, 0x10000010, 0xb8000014, 0x28000000, 0x20000010,"#,
  text! r#"			0x48000000, 0x08000018, 0x60000000, 0x90000010, 0xf0000010, 0x90000008,"#,
  text! r#"			0xc0000000, 0x90000010, 0xf0000010, 0xb0000008, 0x40000000, 0x90000000,"#,
  text! r#"			0xf0000010, 0x90000018, 0x60000000, 0x90000010, 0x90000010, 0x90000000,"#,
  text! r#"			0x80000000, 0x00000010, 0xa0000000, 0x20000000, 0xa0000000, 0x20000010,"#,
  text! r#"			0x00000000, 0x20000010, 0x20000000, 0x00000010, 0x20000000, 0x00000010,"#,
  text! r#"			0xa0000000, 0x00000000, 0x20000000, 0x20000000, 0x00000000, 0x00000000,"#,
  text! r#"			0x00000000, 0x00000000, 0x00000000, 0x00000000, 0x00000000, 0x00000000,"#,
  text! r#"			0x00000000, 0x00000000, 0x00000001, 0x00000020, 0x00000001, 0x40000002,"#,
  text! r#"			0x40000040, 0x40000002, 0x80000004, 0x80000080, 0x80000006, 0x00000049,"#,
  text! r#"			0x00000103, 0x80000009, 0x80000012, 0x80000202, 0x00000018, 0x00000164,"#,
  text! r#"			0x00000408, 0x800000e6},"#,
  text! r#"	},"#,
  text! r#"	{"#,
  text! r#"		DvType: 1, DvK: 47, DvB: 2, TestT: 58, MaskI: 0, MaskB: 6,"#,
  text! r#"		Dm: [CheckSize]uint32{"#,
  text! r#"			0x20000043, 0xb0000040, 0xd0000053, 0xd0000022, 0x20000000, 0x60000032,"#,
  text! r#"			0x60000043, 0x20000040, 0xe0000042, 0x60000002, 0x80000001, 0x00000020,"#,
  text! r#"			0x00000003, 0x40000052, 0x40000040, 0xe0000052, 0xa0000000, 0x80000040,"#,
  text! r#"			0x20000001, 0x20000060, 0x80000001, 0x40000042, 0xc0000043, 0x40000022,"#,
  text! r#"			0x00000003, 0x40000042, 0xc0000043, 0xc0000022, 0x00000001, 0x40000002,"#,
  text! r#"			0xc0000043, 0x40000062, 0x80000001, 0x40000042, 0x40000042, 0x40000002,"#,
  text! r#"			0x00000002, 0x00000040, 0x80000002, 0x80000000, 0x80000002, 0x80000040,"#,
  text! r#"			0x00000000, 0x80000040, 0x80000000, 0x00000040, 0x80000000, 0x00000040,"#,
  text! r#"			0x80000002, 0x00000000, 0x80000000, 0x80000000, 0x00000000, 0x00000000,"#,
  text! r#"			0x00000000, 0x00000000, 0x00000000, 0x00000000, 0x00000000, 0x00000000,"#,
  text! r#"			0x00000000, 0x00000000, 0x00000004, 0x00000080, 0x00000004, 0x00000009,"#,
  text! r#"			0x00000101, 0x00000009, 0x00000012, 0x00000202, 0x0000001a, 0x00000124,"#,
  text! r#"			0x0000040c, 0x00000026, 0x0000004a, 0x0000080a, 0x00000060, 0x00000590,"#,
  text! r#"			0x00001020, 0x0000039a,"#,
  text! r#"		},"#,
  text! r#"	},"#,
  text! r#"	{"#,
  text! r#"		DvType: 1, DvK: 48, DvB: 0, TestT: 58, MaskI: 0, MaskB: 7,"#,
  text! r#"		Dm: [CheckSize]uint32{"#,
  text! r#"			0xb800000a, 0xc8000010, 0x2c000010, 0xf4000014, 0xb4000008, 0x08000000,"#,
  text! r#"			0x9800000c, 0xd8000010, 0x08000010, 0xb8000010, 0x98000000, 0x60000000,"#,
  text! r#"			0x00000008, 0xc0000000, 0x90000014, 0x10000010, 0xb8000014, 0x28000000,"#,
  text! r#"			0x20000010, 0x48000000, 0x08000018, 0x60000000, 0x90000010, 0xf0000010,"#,
  text! r#"			0x90000008, 0xc0000000, 0x90000010, 0xf0000010, 0xb0000008, 0x40000000,"#,
  text! r#"			0x90000000, 0xf0000010, 0x90000018, 0x60000000, 0x90000010, 0x90000010,"#,
  text! r#"			0x90000000, 0x80000000, 0x00000010, 0xa0000000, 0x20000000, 0xa0000000,"#,
  text! r#"			0x20000010, 0x00000000, 0x20000010, 0x20000000, 0x00000010, 0x20000000,"#,
  text! r#"			0x00000010, 0xa0000000, 0x00000000, 0x20000000, 0x20000000, 0x00000000,"#,
  text! r#"			0x00000000, 0x00000000, 0x00000000, 0x00000000, 0x00000000, 0x00000000,"#,
  text! r#"			0x00000000, 0x00000000, 0x00000000, 0x00000001, 0x00000020, 0x00000001,"#,
  text! r#"			0x40000002, 0x40000040, 0x40000002, 0x80000004, 0x80000080, 0x80000006,"#,
  text! r#"			0x00000049, 0x00000103, 0x80000009, 0x80000012, 0x80000202, 0x00000018,"#,
  text! r#"			0x00000164, 0x00000408,"#,
  text! r#"		},"#,
  text! r#"	},"#,
  text! r#"	{"#,
  text! r#"		DvType: 1, DvK: 48, DvB: 2, TestT: 58, MaskI: 0, MaskB: 8,"#,
  text! r#"		Dm: [CheckSize]uint32{"#,
  text! r#"			0xe000002a, 0x20000043, 0xb0000040, 0xd0000053, 0xd0000022, 0x20000000,"#,
  text! r#"			0x60000032, 0x60000043, 0x20000040, 0xe0000042, 0x60000002, 0x80000001,"#,
  text! r#"			0x00000020, 0x00000003, 0x40000052, 0x40000040, 0xe0000052, 0xa0000000,"#,
  text! r#"			0x80000040, 0x20000001, 0x20000060, 0x80000001, 0x40000042, 0xc0000043,"#,
  text! r#"			0x40000022, 0x00000003, 0x40000042, 0xc0000043, 0xc0000022, 0x00000001,"#,
  text! r#"			0x40000002, 0xc0000043, 0x40000062, 0x80000001, 0x40000042, 0x40000042,"#,
  text! r#"			0x40000002, 0x00000002, 0x00000040, 0x80000002, 0x80000000, 0x80000002,"#,
  text! r#"			0x80000040, 0x00000000, 0x80000040, 0x80000000, 0x00000040, 0x80000000,"#,
  text! r#"			0x00000040, 0x80000002, 0x00000000, 0x80000000, 0x80000000, 0x00000000,"#,
  text! r#"			0x00000000, 0x00000000, 0x00000000, 0x00000000, 0x00000000, 0x00000000,"#,
  text! r#"			0x00000000, 0x00000000, 0x00000000, 0x00000004, 0x00000080, 0x00000004,"#,
  text! r#"			0x00000009, 0x00000101, 0x00000009, 0x00000012, 0x00000202, 0x0000001a,"#,
  text! r#"			0x00000124, 0x0000040c, 0x00000026, 0x0000004a, 0x0000080a, 0x00000060,"#,
  text! r#"			0x00000590, 0x00001020},"#,
  text! r#"	},"#,
  text! r#"	{"#,
  text! r#"		DvType: 1, DvK: 49, DvB: 0, TestT: 58, MaskI: 0, MaskB: 9,"#,
  text! r#"		Dm: [CheckSize]uint32{"#,
  text! r#"			0x18000000, 0xb800000a, 0xc8000010, 0x2c000010, 0xf4000014, 0xb4000008,"#,
  text! r#"			0x08000000, 0x9800000c, 0xd8000010, 0x08000010, 0xb8000010, 0x98000000,"#,
  text! r#"			0x60000000, 0x00000008, 0xc0000000, 0x90000014, 0x10000010, 0xb8000014,"#,
  text! r#"			0x28000000, 0x20000010, 0x48000000, 0x08000018, 0x60000000, 0x90000010,"#,
  text! r#"			0xf0000010, 0x90000008, 0xc0000000, 0x90000010, 0xf0000010, 0xb0000008,"#,
  text! r#"			0x40000000, 0x90000000, 0xf0000010, 0x90000018, 0x60000000, 0x90000010,"#,
  text! r#"			0x90000010, 0x90000000, 0x80000000, 0x00000010, 0xa0000000, 0x20000000,"#,
  text! r#"			0xa0000000, 0x20000010, 0x00000000, 0x20000010, 0x20000000, 0x00000010,"#,
  text! r#"			0x20000000, 0x00000010, 0xa0000000, 0x00000000, 0x20000000, 0x20000000,"#,
  text! r#"			0x00000000, 0x00000000, 0x00000000, 0x00000000, 0x00000000, 0x00000000,"#,
  text! r#"			0x00000000, 0x00000000, 0x00000000, 0x00000000, 0x00000001, 0x00000020,"#,
  text! r#"			0x00000001, 0x40000002, 0x40000040, 0x40000002, 0x80000004, 0x80000080,"#,
  text! r#"			0x80000006, 0x00000049, 0x00000103, 0x80000009, 0x80000012, 0x80000202,"#,
  text! r#"			0x00000018, 0x00000164},"#,
  text! r#"	},"#,
  text! r#"	{"#,
  text! r#"		DvType: 1, DvK: 49, DvB: 2, TestT: 58, MaskI: 0, MaskB: 10,"#,
  text! r#"		Dm: [CheckSize]uint32{"#,
  text! r#"			0x60000000, 0xe000002a, 0x20000043, 0xb0000040, 0xd0000053, 0xd0000022,"#,
  text! r#"			0x20000000, 0x60000032, 0x60000043, 0x20000040, 0xe0000042, 0x60000002,"#,
  text! r#"			0x80000001, 0x00000020, 0x00000003, 0x40000052, 0x40000040, 0xe0000052,"#,
  text! r#"			0xa0000000, 0x80000040, 0x20000001, 0x20000060, 0x80000001, 0x40000042,"#,
  text! r#"			0xc0000043, 0x40000022, 0x00000003, 0x40000042, 0xc0000043, 0xc0000022,"#,
  text! r#"			0x00000001, 0x40000002, 0xc0000043, 0x40000062, 0x80000001, 0x40000042,"#,
  text! r#"			0x40000042, 0x40000002, 0x00000002, 0x00000040, 0x80000002, 0x80000000,"#,
  text! r#"			0x80000002, 0x80000040, 0x00000000, 0x80000040, 0x80000000, 0x00000040,"#,
  text! r#"			0x80000000, 0x00000040, 0x80000002, 0x00000000, 0x80000000, 0x80000000,"#,
  text! r#"			0x00000000, 0x00000000, 0x00000000, 0x00000000, 0x00000000, 0x00000000,"#,
  text! r#"			0x00000000, 0x00000000, 0x00000000, 0x00000000, 0x00000004, 0x00000080,"#,
  text! r#"			0x00000004, 0x00000009, 0x00000101, 0x00000009, 0x00000012, 0x00000202,"#,
  text! r#"			0x0000001a, 0x00000124, 0x0000040c, 0x00000026, 0x0000004a, 0x0000080a,"#,
  text! r#"			0x00000060, 0x00000590},"#,
  text! r#"	},"#,
  text! r#"	{"#,
  text! r#"		DvType: 1, DvK: 50, DvB: 0, TestT: 65, MaskI: 0, MaskB: 11,"#,
  text! r#"		Dm: [CheckSize]uint32{"#,
  text! r#"			0x0800000c, 0x18000000, 0xb800000a, 0xc8000010, 0x2c000010, 0xf4000014,"#,
  text! r#"			0xb4000008, 0x08000000, 0x9800000c, 0xd8000010, 0x08000010, 0xb8000010,"#,
  text! r#"			0x98000000, 0x60000000, 0x00000008, 0xc0000000, 0x90000014, 0x10000010,"#,
  text! r#"			0xb8000014, 0x28000000, 0x20000010, 0x48000000, 0x08000018, 0x60000000,"#,
  text! r#"			0x90000010, 0xf0000010, 0x90000008, 0xc0000000, 0x90000010, 0xf0000010,"#,
  text! r#"			0xb0000008, 0x40000000, 0x90000000, 0xf0000010, 0x90000018, 0x60000000,"#,
  text! r#"			0x90000010, 0x90000010, 0x90000000, 0x80000000, 0x00000010, 0xa0000000,"#,
  text! r#"			0x20000000, 0xa0000000, 0x20000010, 0x00000000, 0x20000010, 0x20000000,"#,
  text! r#"			0x00000010, 0x20000000, 0x00000010, 0xa0000000, 0x00000000, 0x20000000,"#,
  text! r#"			0x20000000, 0x00000000, 0x00000000, 0x00000000, 0x00000000, 0x00000000,"#,
  text! r#"			0x00000000, 0x00000000, 0x00000000, 0x00000000, 0x00000000, 0x00000001,"#,
  text! r#"			0x00000020, 0x00000001, 0x40000002, 0x40000040, 0x40000002, 0x80000004,"#,
  text! r#"			0x80000080, 0x80000006, 0x00000049, 0x00000103, 0x80000009, 0x80000012,"#,
  text! r#"			0x80000202, 0x00000018,"#,
  text! r#"		},"#,
  text! r#"	},"#,
  text! r#"	{"#,
  text! r#"		DvType: 1, DvK: 50, DvB: 2, TestT: 65, MaskI: 0, MaskB: 12,"#,
  text! r#"		Dm: [CheckSize]uint32{"#,
  text! r#"			0x20000030, 0x60000000, 0xe000002a, 0x20000043, 0xb0000040, 0xd0000053,"#,
  text! r#"			0xd0000022, 0x20000000, 0x60000032, 0x60000043, 0x20000040, 0xe0000042,"#,
  text! r#"			0x60000002, 0x80000001, 0x00000020, 0x00000003, 0x40000052, 0x40000040,"#,
  text! r#"			0xe0000052, 0xa0000000, 0x80000040, 0x20000001, 0x20000060, 0x80000001,"#,
  text! r#"			0x40000042, 0xc0000043, 0x40000022, 0x00000003, 0x40000042, 0xc0000043,"#,
  text! r#"			0xc0000022, 0x00000001, 0x40000002, 0xc0000043, 0x40000062, 0x80000001,"#,
  text! r#"			0x40000042, 0x40000042, 0x40000002, 0x00000002, 0x00000040, 0x80000002,"#,
  text! r#"			0x80000000, 0x80000002, 0x80000040, 0x00000000, 0x80000040, 0x80000000,"#,
  text! r#"			0x00000040, 0x80000000, 0x00000040, 0x80000002, 0x00000000, 0x80000000,"#,
  text! r#"			0x80000000, 0x00000000, 0x00000000, 0x00000000, 0x00000000, 0x00000000,"#,
  text! r#"			0x00000000, 0x00000000, 0x00000000, 0x00000000, 0x00000000, 0x00000004,"#,
  text! r#"			0x00000080, 0x00000004, 0x00000009, 0x00000101, 0x00000009, 0x00000012,"#,
  text! r#"			0x00000202, 0x0000001a, 0x00000124, 0x0000040c, 0x00000026, 0x0000004a,"#,
  text! r#"			0x0000080a, 0x00000060},"#,
  text! r#"	},"#,
  text! r#"	{"#,
  text! r#"		DvType: 1, DvK: 51, DvB: 0, TestT: 65, MaskI: 0, MaskB: 13,"#,
  text! r#"		Dm: [CheckSize]uint32{"#,
  text! r#"			0xe8000000, 0x0800000c, 0x18000000, 0xb800000a, 0xc8000010, 0x2c000010,"#,
  text! r#"			0xf4000014, 0xb4000008, 0x08000000, 0x9800000c, 0xd8000010, 0x08000010,"#,
  text! r#"			0xb8000010, 0x98000000, 0x60000000, 0x00000008, 0xc0000000, 0x90000014,"#,
  text! r#"			0x10000010, 0xb8000014, 0x28000000, 0x20000010, 0x48000000, 0x08000018,"#,
  text! r#"			0x60000000, 0x90000010, 0xf0000010, 0x90000008, 0xc0000000, 0x90000010,"#,
  text! r#"			0xf0000010, 0xb0000008, 0x40000000, 0x90000000, 0xf0000010, 0x90000018,"#,
  text! r#"			0x60000000, 0x90000010, 0x90000010, 0x90000000, 0x80000000, 0x00000010,"#,
  text! r#"			0xa0000000, 0x20000000, 0xa0000000, 0x20000010, 0x00000000, 0x20000010,"#,
  text! r#"			0x20000000, 0x00000010, 0x20000000, 0x00000010, 0xa0000000, 0x00000000,"#,
  text! r#"			0x20000000, 0x20000000, 0x00000000, 0x00000000, 0x00000000, 0x00000000,"#,
  text! r#"			0x00000000, 0x00000000, 0x00000000, 0x00000000, 0x00000000, 0x00000000,"#,
  text! r#"			0x00000001, 0x00000020, 0x00000001, 0x40000002, 0x40000040, 0x40000002,"#,
  text! r#"			0x80000004, 0x80000080, 0x80000006, 0x00000049, 0x00000103, 0x80000009,"#,
  text! r#"			0x80000012, 0x80000202},"#,
  text! r#"	},"#,
  text! r#"	{"#,
  text! r#"		DvType: 1, DvK: 51, DvB: 2, TestT: 65, MaskI: 0, MaskB: 14,"#,
  text! r#"		Dm: [CheckSize]uint32{"#,
  text! r#"			0xa0000003, 0x20000030, 0x60000000, 0xe000002a, 0x20000043, 0xb0000040,"#,
  text! r#"			0xd0000053, 0xd0000022, 0x20000000, 0x60000032, 0x60000043, 0x20000040,"#,
  text! r#"			0xe0000042, 0x60000002, 0x80000001, 0x00000020, 0x00000003, 0x40000052,"#,
  text! r#"			0x40000040, 0xe0000052, 0xa0000000, 0x80000040, 0x20000001, 0x20000060,"#,
  text! r#"			0x80000001, 0x40000042, 0xc0000043, 0x40000022, 0x00000003, 0x40000042,"#,
  text! r#"			0xc0000043, 0xc0000022, 0x00000001, 0x40000002, 0xc0000043, 0x40000062,"#,
  text! r#"			0x80000001, 0x40000042, 0x40000042, 0x40000002, 0x00000002, 0x00000040,"#,
  text! r#"			0x80000002, 0x80000000, 0x80000002, 0x80000040, 0x00000000, 0x80000040,"#,
  text! r#"			0x80000000, 0x00000040, 0x80000000, 0x00000040, 0x80000002, 0x00000000,"#,
  text! r#"			0x80000000, 0x80000000, 0x00000000, 0x00000000, 0x00000000, 0x00000000,"#,
  text! r#"			0x00000000, 0x00000000, 0x00000000, 0x00000000, 0x00000000, 0x00000000,"#,
  text! r#"			0x00000004, 0x00000080, 0x00000004, 0x00000009, 0x00000101, 0x00000009,"#,
  text! r#"			0x00000012, 0x00000202, 0x0000001a, 0x00000124, 0x0000040c, 0x00000026,"#,
  text! r#"			0x0000004a, 0x0000080a},"#,
  text! r#"	},"#,
  text! r#"	{"#,
  text! r#"		DvType: 1, DvK: 52, DvB: 0, TestT: 65, MaskI: 0, MaskB: 15,"#,
  text! r#"		Dm: [CheckSize]uint32{"#,
  text! r#"			0x04000010, 0xe8000000, 0x0800000c, 0x18000000, 0xb800000a, 0xc8000010,"#,
  text! r#"			0x2c000010, 0xf4000014, 0xb4000008, 0x08000000, 0x9800000c, 0xd8000010,"#,
  text! r#"			0x08000010, 0xb8000010, 0x98000000, 0x60000000, 0x00000008, 0xc0000000,"#,
  text! r#"			0x90000014, 0x10000010, 0xb8000014, 0x28000000, 0x20000010, 0x48000000,"#,
  text! r#"			0x08000018, 0x60000000, 0x90000010, 0xf0000010, 0x90000008, 0xc0000000,"#,
  text! r#"			0x90000010, 0xf0000010, 0xb0000008, 0x40000000, 0x90000000, 0xf0000010,"#,
  text! r#"			0x90000018, 0x60000000, 0x90000010, 0x90000010, 0x90000000, 0x80000000,"#,
  text! r#"			0x00000010, 0xa0000000, 0x20000000, 0xa0000000, 0x20000010, 0x00000000,"#,
  text! r#"			0x20000010, 0x20000000, 0x00000010, 0x20000000, 0x00000010, 0xa0000000,"#,
  text! r#"			0x00000000, 0x20000000, 0x20000000, 0x00000000, 0x00000000, 0x00000000,"#,
  text! r#"			0x00000000, 0x00000000, 0x00000000, 0x00000000, 0x00000000, 0x00000000,"#,
  text! r#"			0x00000000, 0x00000001, 0x00000020, 0x00000001, 0x40000002, 0x40000040,"#,
  text! r#"			0x40000002, 0x80000004, 0x80000080, 0x80000006, 0x00000049, 0x00000103,"#,
  text! r#"			0x80000009, 0x80000012},"#,
  text! r#"	},"#,
  text! r#"	{"#,
  text! r#"		DvType: 2, DvK: 45, DvB: 0, TestT: 58, MaskI: 0, MaskB: 16,"#,
  text! r#"		Dm: [CheckSize]uint32{"#,
  text! r#"			0xec000014, 0x0c000002, 0xc0000010, 0xb400001c, 0x2c000004, 0xbc000018,"#,
  text! r#"			0xb0000010, 0x0000000c, 0xb8000010, 0x08000018, 0x78000010, 0x08000014,"#,
  text! r#"			0x70000010, 0xb800001c, 0xe8000000, 0xb0000004, 0x58000010, 0xb000000c,"#,
  text! r#"			0x48000000, 0xb0000000, 0xb8000010, 0x98000010, 0xa0000000, 0x00000000,"#,
  text! r#"			0x00000000, 0x20000000, 0x80000000, 0x00000010, 0x00000000, 0x20000010,"#,
  text! r#"			0x20000000, 0x00000010, 0x60000000, 0x00000018, 0xe0000000, 0x90000000,"#,
  text! r#"			0x30000010, 0xb0000000, 0x20000000, 0x20000000, 0xa0000000, 0x00000010,"#,
  text! r#"			0x80000000, 0x20000000, 0x20000000, 0x20000000, 0x80000000, 0x00000010,"#,
  text! r#"			0x00000000, 0x20000010, 0xa0000000, 0x00000000, 0x20000000, 0x20000000,"#,
  text! r#"			0x00000000, 0x00000000, 0x00000000, 0x00000000, 0x00000000, 0x00000000,"#,
  text! r#"			0x00000001, 0x00000020, 0x00000001, 0x40000002, 0x40000041, 0x40000022,"#,
  text! r#"			0x80000005, 0xc0000082, 0xc0000046, 0x4000004b, 0x80000107, 0x00000089,"#,
  text! r#"			0x00000014, 0x8000024b, 0x0000011b, 0x8000016d, 0x8000041a, 0x000002e4,"#,
  text! r#"			0x80000054, 0x00000967},"#,
  text! r#"	},"#,
  text! r#"	{"#,
  text! r#"		DvType: 2, DvK: 46, DvB: 0, TestT: 58, MaskI: 0, MaskB: 17,"#,
  text! r#"		Dm: [CheckSize]uint32{"#,
  text! r#"			0x2400001c, 0xec000014, 0x0c000002, 0xc0000010, 0xb400001c, 0x2c000004,"#,
  text! r#"			0xbc000018, 0xb0000010, 0x0000000c, 0xb8000010, 0x08000018, 0x78000010,"#,
  text! r#"			0x08000014, 0x70000010, 0xb800001c, 0xe8000000, 0xb0000004, 0x58000010,"#,
  text! r#"			0xb000000c, 0x48000000, 0xb0000000, 0xb8000010, 0x98000010, 0xa0000000,"#,
  text! r#"			0x00000000, 0x00000000, 0x20000000, 0x80000000, 0x00000010, 0x00000000,"#,
  text! r#"			0x20000010, 0x20000000, 0x00000010, 0x60000000, 0x00000018, 0xe0000000,"#,
  text! r#"			0x90000000, 0x30000010, 0xb0000000, 0x20000000, 0x20000000, 0xa0000000,"#,
  text! r#"			0x00000010, 0x80000000, 0x20000000, 0x20000000, 0x20000000, 0x80000000,"#,
  text! r#"			0x00000010, 0x00000000, 0x20000010, 0xa0000000, 0x00000000, 0x20000000,"#,
  text! r#"			0x20000000, 0x00000000, 0x00000000, 0x00000000, 0x00000000, 0x00000000,"#,
  text! r#"			0x00000000, 0x00000001, 0x00000020, 0x00000001, 0x40000002, 0x40000041,"#,
  text! r#"			0x40000022, 0x80000005, 0xc0000082, 0xc0000046, 0x4000004b, 0x80000107,"#,
  text! r#"			0x00000089, 0x00000014, 0x8000024b, 0x0000011b, 0x8000016d, 0x8000041a,"#,
  text! r#"			0x000002e4, 0x80000054},"#,
  text! r#"	},"#,
  text! r#"	{"#,
  text! r#"		DvType: 2, DvK: 46, DvB: 2, TestT: 58, MaskI: 0, MaskB: 18,"#,
  text! r#"		Dm: [CheckSize]uint32{"#,
  text! r#"			0x90000070, 0xb0000053, 0x30000008, 0x00000043, 0xd0000072, 0xb0000010,"#,
  text! r#"			0xf0000062, 0xc0000042, 0x00000030, 0xe0000042, 0x20000060, 0xe0000041,"#,
  text! r#"			0x20000050, 0xc0000041, 0xe0000072, 0xa0000003, 0xc0000012, 0x60000041,"#,
  text! r#"			0xc0000032, 0x20000001, 0xc0000002, 0xe0000042, 0x60000042, 0x80000002,"#,
  text! r#"			0x00000000, 0x00000000, 0x80000000, 0x00000002, 0x00000040, 0x00000000,"#,
  text! r#"			0x80000040, 0x80000000, 0x00000040, 0x80000001, 0x00000060, 0x80000003,"#,
  text! r#"			0x40000002, 0xc0000040, 0xc0000002, 0x80000000, 0x80000000, 0x80000002,"#,
  text! r#"			0x00000040, 0x00000002, 0x80000000, 0x80000000, 0x80000000, 0x00000002,"#,
  text! r#"			0x00000040, 0x00000000, 0x80000040, 0x80000002, 0x00000000, 0x80000000,"#,
  text! r#"			0x80000000, 0x00000000, 0x00000000, 0x00000000, 0x00000000, 0x00000000,"#,
  text! r#"			0x00000000, 0x00000004, 0x00000080, 0x00000004, 0x00000009, 0x00000105,"#,
  text! r#"			0x00000089, 0x00000016, 0x0000020b, 0x0000011b, 0x0000012d, 0x0000041e,"#,
  text! r#"			0x00000224, 0x00000050, 0x0000092e, 0x0000046c, 0x000005b6, 0x0000106a,"#,
  text! r#"			0x00000b90, 0x00000152},"#,
  text! r#"	},"#,
  text! r#"	{"#,
  text! r#"		DvType: 2, DvK: 47, DvB: 0, TestT: 58, MaskI: 0, MaskB: 19,"#,
  text! r#"		Dm: [CheckSize]uint32{"#,
  text! r#"			0x20000010, 0x2400001c, 0xec000014, 0x0c000002, 0xc0000010, 0xb400001c,"#,
  text! r#"			0x2c000004, 0xbc000018, 0xb0000010, 0x0000000c, 0xb8000010, 0x08000018,"#,
  text! r#"			0x78000010, 0x08000014, 0x70000010, 0xb800001c, 0xe8000000, 0xb0000004,"#,
  text! r#"			0x58000010, 0xb000000c, 0x48000000, 0xb0000000, 0xb8000010, 0x98000010,"#,
  text! r#"			0xa0000000, 0x00000000, 0x00000000, 0x20000000, 0x80000000, 0x00000010,"#,
  text! r#"			0x00000000, 0x20000010, 0x20000000, 0x00000010, 0x60000000, 0x00000018,"#,
  text! r#"			0xe0000000, 0x90000000, 0x30000010, 0xb0000000, 0x20000000, 0x20000000,"#,
  text! r#"			0xa0000000, 0x00000010, 0x80000000, 0x20000000, 0x20000000, 0x20000000,"#,
  text! r#"			0x80000000, 0x00000010, 0x00000000, 0x20000010, 0xa0000000, 0x00000000,"#,
  text! r#"			0x20000000, 0x20000000, 0x00000000, 0x00000000, 0x00000000, 0x00000000,"#,
  text! r#"			0x00000000, 0x00000000, 0x00000001, 0x00000020, 0x00000001, 0x40000002,"#,
  text! r#"			0x40000041, 0x40000022, 0x80000005, 0xc0000082, 0xc0000046, 0x4000004b,"#,
  text! r#"			0x80000107, 0x00000089, 0x00000014, 0x8000024b, 0x0000011b, 0x8000016d,"#,
  text! r#"			0x8000041a, 0x000002e4},"#,
  text! r#"	},"#,
  text! r#"	{"#,
  text! r#"		DvType: 2, DvK: 48, DvB: 0, TestT: 58, MaskI: 0, MaskB: 20,"#,
  text! r#"		Dm: [CheckSize]uint32{"#,
  text! r#"			0xbc00001a, 0x20000010, 0x2400001c, 0xec000014, 0x0c000002, 0xc0000010,"#,
  text! r#"			0xb400001c, 0x2c000004, 0xbc000018, 0xb0000010, 0x0000000c, 0xb8000010,"#,
  text! r#"			0x08000018, 0x78000010, 0x08000014, 0x70000010, 0xb800001c, 0xe8000000,"#,
  text! r#"			0xb0000004, 0x58000010, 0xb000000c, 0x48000000, 0xb0000000, 0xb8000010,"#,
  text! r#"			0x98000010, 0xa0000000, 0x00000000, 0x00000000, 0x20000000, 0x80000000,"#,
  text! r#"			0x00000010, 0x00000000, 0x20000010, 0x20000000, 0x00000010, 0x60000000,"#,
  text! r#"			0x00000018, 0xe0000000, 0x90000000, 0x30000010, 0xb0000000, 0x20000000,"#,
  text! r#"			0x20000000, 0xa0000000, 0x00000010, 0x80000000, 0x20000000, 0x20000000,"#,
  text! r#"			0x20000000, 0x80000000, 0x00000010, 0x00000000, 0x20000010, 0xa0000000,"#,
  text! r#"			0x00000000, 0x20000000, 0x20000000, 0x00000000, 0x00000000, 0x00000000,"#,
  text! r#"			0x00000000, 0x00000000, 0x00000000, 0x00000001, 0x00000020, 0x00000001,"#,
  text! r#"			0x40000002, 0x40000041, 0x40000022, 0x80000005, 0xc0000082, 0xc0000046,"#,
  text! r#"			0x4000004b, 0x80000107, 0x00000089, 0x00000014, 0x8000024b, 0x0000011b,"#,
  text! r#"			0x8000016d, 0x8000041a},"#,
  text! r#"	},"#,
  text! r#"	{"#,
  text! r#"		DvType: 2, DvK: 49, DvB: 0, TestT: 58, MaskI: 0, MaskB: 21,"#,
  text! r#"		Dm: [CheckSize]uint32{"#,
  text! r#"			0x3c000004, 0xbc00001a, 0x20000010, 0x2400001c, 0xec000014, 0x0c000002,"#,
  text! r#"			0xc0000010, 0xb400001c, 0x2c000004, 0xbc000018, 0xb0000010, 0x0000000c,"#,
  text! r#"			0xb8000010, 0x08000018, 0x78000010, 0x08000014, 0x70000010, 0xb800001c,"#,
  text! r#"			0xe8000000, 0xb0000004, 0x58000010, 0xb000000c, 0x48000000, 0xb0000000,"#,
  text! r#"			0xb8000010, 0x98000010, 0xa0000000, 0x00000000, 0x00000000, 0x20000000,"#,
  text! r#"			0x80000000, 0x00000010, 0x00000000, 0x20000010, 0x20000000, 0x00000010,"#,
  text! r#"			0x60000000, 0x00000018, 0xe0000000, 0x90000000, 0x30000010, 0xb0000000,"#,
  text! r#"			0x20000000, 0x20000000, 0xa0000000, 0x00000010, 0x80000000, 0x20000000,"#,
  text! r#"			0x20000000, 0x20000000, 0x80000000, 0x00000010, 0x00000000, 0x20000010,"#,
  text! r#"			0xa0000000, 0x00000000, 0x20000000, 0x20000000, 0x00000000, 0x00000000,"#,
  text! r#"			0x00000000, 0x00000000, 0x00000000, 0x00000000, 0x00000001, 0x00000020,"#,
  text! r#"			0x00000001, 0x40000002, 0x40000041, 0x40000022, 0x80000005, 0xc0000082,"#,
  text! r#"			0xc0000046, 0x4000004b, 0x80000107, 0x00000089, 0x00000014, 0x8000024b,"#,
  text! r#"			0x0000011b, 0x8000016d},"#,
  text! r#"	},"#,
  text! r#"	{"#,
  text! r#"		DvType: 2, DvK: 49, DvB: 2, TestT: 58, MaskI: 0, MaskB: 22,"#,
  text! r#"		Dm: [CheckSize]uint32{"#,
  text! r#"			0xf0000010, 0xf000006a, 0x80000040, 0x90000070, 0xb0000053, 0x30000008,"#,
  text! r#"			0x00000043, 0xd0000072, 0xb0000010, 0xf0000062, 0xc0000042, 0x00000030,"#,
  text! r#"			0xe0000042, 0x20000060, 0xe0000041, 0x20000050, 0xc0000041, 0xe0000072,"#,
  text! r#"			0xa0000003, 0xc0000012, 0x60000041, 0xc0000032, 0x20000001, 0xc0000002,"#,
  text! r#"			0xe0000042, 0x60000042, 0x80000002, 0x00000000, 0x00000000, 0x80000000,"#,
  text! r#"			0x00000002, 0x00000040, 0x00000000, 0x80000040, 0x80000000, 0x00000040,"#,
  text! r#"			0x80000001, 0x00000060, 0x80000003, 0x40000002, 0xc0000040, 0xc0000002,"#,
  text! r#"			0x80000000, 0x80000000, 0x80000002, 0x00000040, 0x00000002, 0x80000000,"#,
  text! r#"			0x80000000, 0x80000000, 0x00000002, 0x00000040, 0x00000000, 0x80000040,"#,
  text! r#"			0x80000002, 0x00000000, 0x80000000, 0x80000000, 0x00000000, 0x00000000,"#,
  text! r#"			0x00000000, 0x00000000, 0x00000000, 0x00000000, 0x00000004, 0x00000080,"#,
  text! r#"			0x00000004, 0x00000009, 0x00000105, 0x00000089, 0x00000016, 0x0000020b,"#,
  text! r#"			0x0000011b, 0x0000012d, 0x0000041e, 0x00000224, 0x00000050, 0x0000092e,"#,
  text! r#"			0x0000046c, 0x000005b6},"#,
  text! r#"	},"#,
  text! r#"	{"#,
  text! r#"		DvType: 2, DvK: 50, DvB: 0, TestT: 65, MaskI: 0, MaskB: 23,"#,
  text! r#"		Dm: [CheckSize]uint32{"#,
  text! r#"			0xb400001c, 0x3c000004, 0xbc00001a, 0x20000010, 0x2400001c, 0xec000014,"#,
  text! r#"			0x0c000002, 0xc0000010, 0xb400001c, 0x2c000004, 0xbc000018, 0xb0000010,"#,
  text! r#"			0x0000000c, 0xb8000010, 0x08000018, 0x78000010, 0x08000014, 0x70000010,"#,
  text! r#"			0xb800001c, 0xe8000000, 0xb0000004, 0x58000010, 0xb000000c, 0x48000000,"#,
  text! r#"			0xb0000000, 0xb8000010, 0x98000010, 0xa0000000, 0x00000000, 0x00000000,"#,
  text! r#"			0x20000000, 0x80000000, 0x00000010, 0x00000000, 0x20000010, 0x20000000,"#,
  text! r#"			0x00000010, 0x60000000, 0x00000018, 0xe0000000, 0x90000000, 0x30000010,"#,
  text! r#"			0xb0000000, 0x20000000, 0x20000000, 0xa0000000, 0x00000010, 0x80000000,"#,
  text! r#"			0x20000000, 0x20000000, 0x20000000, 0x80000000, 0x00000010, 0x00000000,"#,
  text! r#"			0x20000010, 0xa0000000, 0x00000000, 0x20000000, 0x20000000, 0x00000000,"#,
  text! r#"			0x00000000, 0x00000000, 0x00000000, 0x00000000, 0x00000000, 0x00000001,"#,
  text! r#"			0x00000020, 0x00000001, 0x40000002, 0x40000041, 0x40000022, 0x80000005,"#,
  text! r#"			0xc0000082, 0xc0000046, 0x4000004b, 0x80000107, 0x00000089, 0x00000014,"#,
  text! r#"			0x8000024b, 0x0000011b},"#,
  text! r#"	},"#,
  text! r#"	{"#,
  text! r#"		DvType: 2, DvK: 50, DvB: 2, TestT: 65, MaskI: 0, MaskB: 24,"#,
  text! r#"		Dm: [CheckSize]uint32{"#,
  text! r#"			0xd0000072, 0xf0000010, 0xf000006a, 0x80000040, 0x90000070, 0xb0000053,"#,
  text! r#"			0x30000008, 0x00000043, 0xd0000072, 0xb0000010, 0xf0000062, 0xc0000042,"#,
  text! r#"			0x00000030, 0xe0000042, 0x20000060, 0xe0000041, 0x20000050, 0xc0000041,"#,
  text! r#"			0xe0000072, 0xa0000003, 0xc0000012, 0x60000041, 0xc0000032, 0x20000001,"#,
  text! r#"			0xc0000002, 0xe0000042, 0x60000042, 0x80000002, 0x00000000, 0x00000000,"#,
  text! r#"			0x80000000, 0x00000002, 0x00000040, 0x00000000, 0x80000040, 0x80000000,"#,
  text! r#"			0x00000040, 0x80000001, 0x00000060, 0x80000003, 0x40000002, 0xc0000040,"#,
  text! r#"			0xc0000002, 0x80000000, 0x80000000, 0x80000002, 0x00000040, 0x00000002,"#,
  text! r#"			0x80000000, 0x80000000, 0x80000000, 0x00000002, 0x00000040, 0x00000000,"#,
  text! r#"			0x80000040, 0x80000002, 0x00000000, 0x80000000, 0x80000000, 0x00000000,"#,
  text! r#"			0x00000000, 0x00000000, 0x00000000, 0x00000000, 0x00000000, 0x00000004,"#,
  text! r#"			0x00000080, 0x00000004, 0x00000009, 0x00000105, 0x00000089, 0x00000016,"#,
  text! r#"			0x0000020b, 0x0000011b, 0x0000012d, 0x0000041e, 0x00000224, 0x00000050,"#,
  text! r#"			0x0000092e, 0x0000046c},"#,
  text! r#"	},"#,
  text! r#"	{"#,
  text! r#"		DvType: 2, DvK: 51, DvB: 0, TestT: 65, MaskI: 0, MaskB: 25,"#,
  text! r#"		Dm: [CheckSize]uint32{"#,
  text! r#"			0xc0000010, 0xb400001c, 0x3c000004, 0xbc00001a, 0x20000010, 0x2400001c,"#,
  text! r#"			0xec000014, 0x0c000002, 0xc0000010, 0xb400001c, 0x2c000004, 0xbc000018,"#,
  text! r#"			0xb0000010, 0x0000000c, 0xb8000010, 0x08000018, 0x78000010, 0x08000014,"#,
  text! r#"			0x70000010, 0xb800001c, 0xe8000000, 0xb0000004, 0x58000010, 0xb000000c,"#,
  text! r#"			0x48000000, 0xb0000000, 0xb8000010, 0x98000010, 0xa0000000, 0x00000000,"#,
  text! r#"			0x00000000, 0x20000000, 0x80000000, 0x00000010, 0x00000000, 0x20000010,"#,
  text! r#"			0x20000000, 0x00000010, 0x60000000, 0x00000018, 0xe0000000, 0x90000000,"#,
  text! r#"			0x30000010, 0xb0000000, 0x20000000, 0x20000000, 0xa0000000, 0x00000010,"#,
  text! r#"			0x80000000, 0x20000000, 0x20000000, 0x20000000, 0x80000000, 0x00000010,"#,
  text! r#"			0x00000000, 0x20000010, 0xa0000000, 0x00000000, 0x20000000, 0x20000000,"#,
  text! r#"			0x00000000, 0x00000000, 0x00000000, 0x00000000, 0x00000000, 0x00000000,"#,
  text! r#"			0x00000001, 0x00000020, 0x00000001, 0x40000002, 0x40000041, 0x40000022,"#,
  text! r#"			0x80000005, 0xc0000082, 0xc0000046, 0x4000004b, 0x80000107, 0x00000089,"#,
  text! r#"			0x00000014, 0x8000024b},"#,
  text! r#"	},"#,
  text! r#"	{"#,
  text! r#"		DvType: 2, DvK: 51, DvB: 2, TestT: 65, MaskI: 0, MaskB: 26,"#,
  text! r#"		Dm: [CheckSize]uint32{"#,
  text! r#"			0x00000043, 0xd0000072, 0xf0000010, 0xf000006a, 0x80000040, 0x90000070,"#,
  text! r#"			0xb0000053, 0x30000008, 0x00000043, 0xd0000072, 0xb0000010, 0xf0000062,"#,
  text! r#"			0xc0000042, 0x00000030, 0xe0000042, 0x20000060, 0xe0000041, 0x20000050,"#,
  text! r#"			0xc0000041, 0xe0000072, 0xa0000003, 0xc0000012, 0x60000041, 0xc0000032,"#,
  text! r#"			0x20000001, 0xc0000002, 0xe0000042, 0x60000042, 0x80000002, 0x00000000,"#,
  text! r#"			0x00000000, 0x80000000, 0x00000002, 0x00000040, 0x00000000, 0x80000040,"#,
  text! r#"			0x80000000, 0x00000040, 0x80000001, 0x00000060, 0x80000003, 0x40000002,"#,
  text! r#"			0xc0000040, 0xc0000002, 0x80000000, 0x80000000, 0x80000002, 0x00000040,"#,
  text! r#"			0x00000002, 0x80000000, 0x80000000, 0x80000000, 0x00000002, 0x00000040,"#,
  text! r#"			0x00000000, 0x80000040, 0x80000002, 0x00000000, 0x80000000, 0x80000000,"#,
  text! r#"			0x00000000, 0x00000000, 0x00000000, 0x00000000, 0x00000000, 0x00000000,"#,
  text! r#"			0x00000004, 0x00000080, 0x00000004, 0x00000009, 0x00000105, 0x00000089,"#,
  text! r#"			0x00000016, 0x0000020b, 0x0000011b, 0x0000012d, 0x0000041e, 0x00000224,"#,
  text! r#"			0x00000050, 0x0000092e},"#,
  text! r#"	},"#,
  text! r#"	{"#,
  text! r#"		DvType: 2, DvK: 52, DvB: 0, TestT: 65, MaskI: 0, MaskB: 27,"#,
  text! r#"		Dm: [CheckSize]uint32{"#,
  text! r#"			0x0c000002, 0xc0000010, 0xb400001c, 0x3c000004, 0xbc00001a, 0x20000010,"#,
  text! r#"			0x2400001c, 0xec000014, 0x0c000002, 0xc0000010, 0xb400001c, 0x2c000004,"#,
  text! r#"			0xbc000018, 0xb0000010, 0x0000000c, 0xb8000010, 0x08000018, 0x78000010,"#,
  text! r#"			0x08000014, 0x70000010, 0xb800001c, 0xe8000000, 0xb0000004, 0x58000010,"#,
  text! r#"			0xb000000c, 0x48000000, 0xb0000000, 0xb8000010, 0x98000010, 0xa0000000,"#,
  text! r#"			0x00000000, 0x00000000, 0x20000000, 0x80000000, 0x00000010, 0x00000000,"#,
  text! r#"			0x20000010, 0x20000000, 0x00000010, 0x60000000, 0x00000018, 0xe0000000,"#,
  text! r#"			0x90000000, 0x30000010, 0xb0000000, 0x20000000, 0x20000000, 0xa0000000,"#,
  text! r#"			0x00000010, 0x80000000, 0x20000000, 0x20000000, 0x20000000, 0x80000000,"#,
  text! r#"			0x00000010, 0x00000000, 0x20000010, 0xa0000000, 0x00000000, 0x20000000,"#,
  text! r#"			0x20000000, 0x00000000, 0x00000000, 0x00000000, 0x00000000, 0x00000000,"#,
  text! r#"			0x00000000, 0x00000001, 0x00000020, 0x00000001, 0x40000002, 0x40000041,"#,
  text! r#"			0x40000022, 0x80000005, 0xc0000082, 0xc0000046, 0x4000004b, 0x80000107,"#,
  text! r#"			0x00000089, 0x00000014},"#,
  text! r#"	},"#,
  text! r#"	{"#,
  text! r#"		DvType: 2, DvK: 53, DvB: 0, TestT: 65, MaskI: 0, MaskB: 28,"#,
  text! r#"		Dm: [CheckSize]uint32{"#,
  text! r#"			0xcc000014, 0x0c000002, 0xc0000010, 0xb400001c, 0x3c000004, 0xbc00001a,"#,
  text! r#"			0x20000010, 0x2400001c, 0xec000014, 0x0c000002, 0xc0000010, 0xb400001c,"#,
  text! r#"			0x2c000004, 0xbc000018, 0xb0000010, 0x0000000c, 0xb8000010, 0x08000018,"#,
  text! r#"			0x78000010, 0x08000014, 0x70000010, 0xb800001c, 0xe8000000, 0xb0000004,"#,
  text! r#"			0x58000010, 0xb000000c, 0x48000000, 0xb0000000, 0xb8000010, 0x98000010,"#,
  text! r#"			0xa0000000, 0x00000000, 0x00000000, 0x20000000, 0x80000000, 0x00000010,"#,
  text! r#"			0x00000000, 0x20000010, 0x20000000, 0x00000010, 0x60000000, 0x00000018,"#,
  text! r#"			0xe0000000, 0x90000000, 0x30000010, 0xb0000000, 0x20000000, 0x20000000,"#,
  text! r#"			0xa0000000, 0x00000010, 0x80000000, 0x20000000, 0x20000000, 0x20000000,"#,
  text! r#"			0x80000000, 0x00000010, 0x00000000, 0x20000010, 0xa0000000, 0x00000000,"#,
  text! r#"			0x20000000, 0x20000000, 0x00000000, 0x00000000, 0x00000000, 0x00000000,"#,
  text! r#"			0x00000000, 0x00000000, 0x00000001, 0x00000020, 0x00000001, 0x40000002,"#,
  text! r#"			0x40000041, 0x40000022, 0x80000005, 0xc0000082, 0xc0000046, 0x4000004b,"#,
  text! r#"			0x80000107, 0x00000089},"#,
  text! r#"	},"#,
  text! r#"	{"#,
  text! r#"		DvType: 2, DvK: 54, DvB: 0, TestT: 65, MaskI: 0, MaskB: 29,"#,
  text! r#"		Dm: [CheckSize]uint32{"#,
  text! r#"			0x0400001c, 0xcc000014, 0x0c000002, 0xc0000010, 0xb400001c, 0x3c000004,"#,
  text! r#"			0xbc00001a, 0x20000010, 0x2400001c, 0xec000014, 0x0c000002, 0xc0000010,"#,
  text! r#"			0xb400001c, 0x2c000004, 0xbc000018, 0xb0000010, 0x0000000c, 0xb8000010,"#,
  text! r#"			0x08000018, 0x78000010, 0x08000014, 0x70000010, 0xb800001c, 0xe8000000,"#,
  text! r#"			0xb0000004, 0x58000010, 0xb000000c, 0x48000000, 0xb0000000, 0xb8000010,"#,
  text! r#"			0x98000010, 0xa0000000, 0x00000000, 0x00000000, 0x20000000, 0x80000000,"#,
  text! r#"			0x00000010, 0x00000000, 0x20000010, 0x20000000, 0x00000010, 0x60000000,"#,
  text! r#"			0x00000018, 0xe0000000, 0x90000000, 0x30000010, 0xb0000000, 0x20000000,"#,
  text! r#"			0x20000000, 0xa0000000, 0x00000010, 0x80000000, 0x20000000, 0x20000000,"#,
  text! r#"			0x20000000, 0x80000000, 0x00000010, 0x00000000, 0x20000010, 0xa0000000,"#,
  text! r#"			0x00000000, 0x20000000, 0x20000000, 0x00000000, 0x00000000, 0x00000000,"#,
  text! r#"			0x00000000, 0x00000000, 0x00000000, 0x00000001, 0x00000020, 0x00000001,"#,
  text! r#"			0x40000002, 0x40000041, 0x40000022, 0x80000005, 0xc0000082, 0xc0000046,"#,
  text! r#"			0x4000004b, 0x80000107},"#,
  text! r#"	},"#,
  text! r#"	{"#,
  text! r#"		DvType: 2, DvK: 55, DvB: 0, TestT: 65, MaskI: 0, MaskB: 30,"#,
  text! r#"		Dm: [CheckSize]uint32{"#,
  text! r#"			0x00000010, 0x0400001c, 0xcc000014, 0x0c000002, 0xc0000010, 0xb400001c,"#,
  text! r#"			0x3c000004, 0xbc00001a, 0x20000010, 0x2400001c, 0xec000014, 0x0c000002,"#,
  text! r#"			0xc0000010, 0xb400001c, 0x2c000004, 0xbc000018, 0xb0000010, 0x0000000c,"#,
  text! r#"			0xb8000010, 0x08000018, 0x78000010, 0x08000014, 0x70000010, 0xb800001c,"#,
  text! r#"			0xe8000000, 0xb0000004, 0x58000010, 0xb000000c, 0x48000000, 0xb0000000,"#,
  text! r#"			0xb8000010, 0x98000010, 0xa0000000, 0x00000000, 0x00000000, 0x20000000,"#,
  text! r#"			0x80000000, 0x00000010, 0x00000000, 0x20000010, 0x20000000, 0x00000010,"#,
  text! r#"			0x60000000, 0x00000018, 0xe0000000, 0x90000000, 0x30000010, 0xb0000000,"#,
  text! r#"			0x20000000, 0x20000000, 0xa0000000, 0x00000010, 0x80000000, 0x20000000,"#,
  text! r#"			0x20000000, 0x20000000, 0x80000000, 0x00000010, 0x00000000, 0x20000010,"#,
  text! r#"			0xa0000000, 0x00000000, 0x20000000, 0x20000000, 0x00000000, 0x00000000,"#,
  text! r#"			0x00000000, 0x00000000, 0x00000000, 0x00000000, 0x00000001, 0x00000020,"#,
  text! r#"			0x00000001, 0x40000002, 0x40000041, 0x40000022, 0x80000005, 0xc0000082,"#,
  text! r#"			0xc0000046, 0x4000004b},"#,
  text! r#"	},"#,
  text! r#"	{"#,
  text! r#"		DvType: 2, DvK: 56, DvB: 0, TestT: 65, MaskI: 0, MaskB: 31,"#,
  text! r#"		Dm: [CheckSize]uint32{"#,
  text! r#"			0x2600001a, 0x00000010, 0x0400001c, 0xcc000014, 0x0c000002, 0xc0000010,"#,
  text! r#"			0xb400001c, 0x3c000004, 0xbc00001a, 0x20000010, 0x2400001c, 0xec000014,"#,
  text! r#"			0x0c000002, 0xc0000010, 0xb400001c, 0x2c000004, 0xbc000018, 0xb0000010,"#,
  text! r#"			0x0000000c, 0xb8000010, 0x08000018, 0x78000010, 0x08000014, 0x70000010,"#,
  text! r#"			0xb800001c, 0xe8000000, 0xb0000004, 0x58000010, 0xb000000c, 0x48000000,"#,
  text! r#"			0xb0000000, 0xb8000010, 0x98000010, 0xa0000000, 0x00000000, 0x00000000,"#,
  text! r#"			0x20000000, 0x80000000, 0x00000010, 0x00000000, 0x20000010, 0x20000000,"#,
  text! r#"			0x00000010, 0x60000000, 0x00000018, 0xe0000000, 0x90000000, 0x30000010,"#,
  text! r#"			0xb0000000, 0x20000000, 0x20000000, 0xa0000000, 0x00000010, 0x80000000,"#,
  text! r#"			0x20000000, 0x20000000, 0x20000000, 0x80000000, 0x00000010, 0x00000000,"#,
  text! r#"			0x20000010, 0xa0000000, 0x00000000, 0x20000000, 0x20000000, 0x00000000,"#,
  text! r#"			0x00000000, 0x00000000, 0x00000000, 0x00000000, 0x00000000, 0x00000001,"#,
  text! r#"			0x00000020, 0x00000001, 0x40000002, 0x40000041, 0x40000022, 0x80000005,"#,
  text! r#"			0xc0000082, 0xc0000046},"#,
  text! r#"	},"#,
  text! r#"	{"#,
  text! r#"		DvType: 0, DvK: 0, DvB: 0, TestT: 0, MaskI: 0, MaskB: 0,"#,
  text! r#"		Dm: [CheckSize]uint32{"#,
  text! r#"			0, 0, 0, 0, 0, 0, 0, 0, 0, 0, 0, 0, 0, 0, 0, 0, 0, 0, 0, 0, 0, 0, 0, 0,"#,
  text! r#"			0, 0, 0, 0, 0, 0, 0, 0, 0, 0, 0, 0, 0, 0, 0, 0, 0, 0, 0, 0, 0, 0, 0, 0,"#,
  text! r#"			0, 0, 0, 0, 0, 0, 0, 0, 0, 0, 0, 0, 0, 0, 0, 0, 0, 0, 0, 0, 0, 0, 0, 0,"#,
  text! r#"			0, 0, 0, 0, 0, 0, 0, 0},"#,
  text! r#"	},"#,
  text! r#"}"#]

/-- ubc/ubc.go:1-376 -/
def ubcLines : List (List Nat) := [
  text! r#"// ubc package provides ways for SHA1 blocks to be checked for"#,
  text! r#"// Unavoidable Bit Conditions that arise from crypto analysis attacks."#,
  text! r#"package ubc"#,
  text! r#""#,
  text! r#"// Based on the C implementation from Marc Stevens and Dan Shumow."#,
  text! r#"// https://github.com/cr-marcstevens/sha1collisiondetection"#,
  text! r#""#,
  text! r#"type DvInfo struct {"#,
  text! r#"	// DvType, DvK and DvB define the DV: I(K,B) or II(K,B) (see the paper)."#,
  text! r#"	// https://marc-stevens.nl/research/papers/C13-S.pdf"#,
  text! r#"	DvType uint32"#,
  text! r#"	DvK    uint32"#,
  text! r#"	DvB    uint32"#,
  text! r#""#,
  text! r#"	// TestT is the step to do the recompression from for collision detection."#,
  text! r#"	TestT uint32"#,
  text! r#""#,
  text! r#"	// MaskI and MaskB define the bit to check for each DV in the dvmask returned by ubc_check."#,
  text! r#"	MaskI uint32"#,
  text! r#"	MaskB uint32"#,
  text! r#""#,
  text! r#"	// Dm is the expanded message block XOR-difference defined by the DV."#,
  text! r#"	Dm [80]uint32"#,
  text! r#"}"#,
  text! r#""#,
  text! r#"// CalculateDvMask takes as input an expanded message block and"#,
  text! r#"// verifies the unavoidable bitconditions for all listed DVs. It returns"#,
  text! r#"// a dvmask where each bit belonging to a DV is set if all unavoidable"#,
  text! r#"// bitconditions for that DV have been met."#,
  text! r#"//"#,
  text! r#"//go:nosplit"#,
  text! r#"func CalculateDvMask(W *[80]uint32) uint32 {"#,
  text! r#"	if W == nil {"#,
  text! r#"		return 0"#,
  text! r#"	}"#,
  text! r#"	mask := uint32(0xFFFFFFFF)"#,
  text! r#"	mask &= (((((W[44] ^ W[45]) >> 29) & 1) - 1) | ^(DV_I_48_0_bit | DV_I_51_0_bit | DV_I_52_0_bit | DV_II_45_0_bit | DV_II_46_0_bit | DV_II_50_0_bit | DV_II_51_0_bit))"#,
  text! r#"	mask &= (((((W[49] ^ W[50]) >> 29) & 1) - 1) | ^(DV_I_46_0_bit | DV_II_45_0_bit | DV_II_50_0_bit | DV_II_51_0_bit | DV_II_55_0_bit | DV_II_56_0_bit))"#,
  text! r#"	mask &= (((((W[48] ^ W[49]) >> 29) & 1) - 1) | ^(DV_I_45_0_bit | DV_I_52_0_bit | DV_II_49_0_bit | DV_II_50_0_bit | DV_II_54_0_bit | DV_II_55_0_bit))"#,
  text! r#"	mask &= ((((W[47] ^ (W[50] >> 25)) & (1 << 4)) - (1 << 4)) | ^(DV_I_47_0_bit | DV_I_49_0_bit | DV_I_51_0_bit | DV_II_45_0_bit | DV_II_51_0_bit | DV_II_56_0_bit))"#,
  text! r#"	mask &= (((((W[47] ^ W[48]) >> 29) & 1) - 1) | ^(DV_I_44_0_bit | DV_I_51_0_bit | DV_II_48_0_bit | DV_II_49_0_bit | DV_II_53_0_bit | DV_II_54_0_bit))"#,
  text! r#"	mask &= (((((W[46] >> 4) ^ (W[49] >> 29)) & 1) - 1) | ^(DV_I_46_0_bit | DV_I_48_0_bit | DV_I_50_0_bit | DV_I_52_0_bit | DV_II_50_0_bit | DV_II_55_0_bit))"#,
  text! r#"	mask &= (((((W[46] ^ W[47]) >> 29) & 1) - 1) | ^(DV_I_43_0_bit | DV_I_50_0_bit | DV_II_47_0_bit | DV_II_48_0_bit | DV_II_52_0_bit | DV_II_53_0_bit))"#,
  text! r#"	mask &= (((((W[45] >> 4) ^ (W[48] >> 29)) & 1) - 1) | ^(DV_I_45_0_bit | DV_I_47_0_bit | DV_I_49_0_bit | DV_I_51_0_bit | DV_II_49_0_bit | DV_II_54_0_bit))"#,
  text! r#"	mask &= (((((W[45] ^ W[46]) >> 29) & 1) - 1) | ^(DV_I_49_0_bit | DV_I_52_0_bit | DV_II_46_0_bit | DV_II_47_0_bit | DV_II_51_0_bit | DV_II_52_0_bit))"#,
  text! r#"	mask &= (((((W[44] >> 4) ^ (W[47] >> 29)) & 1) - 1) | ^(DV_I_44_0_bit | DV_I_46_0_bit | DV_I_48_0_bit | DV_I_50_0_bit | DV_II_48_0_bit | DV_II_53_0_bit))"#,
  text! r#"	mask &= (((((W[43] >> 4) ^ (W[46] >> 29)) & 1) - 1) | ^(DV_I_43_0_bit | DV_I_45_0_bit | DV_I_47_0_bit | DV_I_49_0_bit | DV_II_47_0_bit | DV_II_52_0_bit))"#,
  text! r#"	mask &= (((((W[43] ^ W[44]) >> 29) & 1) - 1) | ^(DV_I_47_0_bit | DV_I_50_0_bit | DV_I_51_0_bit | DV_II_45_0_bit | DV_II_49_0_bit | DV_II_50_0_bit))"#,
  text! r#"	mask &= (((((W[42] >> 4) ^ (W[45] >> 29)) & 1) - 1) | ^(DV_I_44_0_bit | DV_I_46_0_bit | DV_I_48_0_bit | DV_I_52_0_bit | DV_II_46_0_bit | DV_II_51_0_bit))"#,
  text! r#"	mask &= (((((W[41] >> 4) ^ (W[44] >> 29)) & 1) - 1) | ^(DV_I_43_0_bit | DV_I_45_0_bit | DV_I_47_0_bit | DV_I_51_0_bit | DV_II_45_0_bit | DV_II_50_0_bit))"#,
  text! r#"	mask &= (((((W[40] ^ W[41]) >> 29) & 1) - 1) | ^(DV_I_44_0_bit | DV_I_47_0_bit | DV_I_48_0_bit | DV_II_46_0_bit | DV_II_47_0_bit | DV_II_56_0_bit))"#,
  text! r#"	mask &= (((((W[54] ^ W[55]) >> 29) & 1) - 1) | ^(DV_I_51_0_bit | DV_II_47_0_bit | DV_II_50_0_bit | DV_II_55_0_bit | DV_II_56_0_bit))"#,
  text! r#"	mask &= (((((W[53] ^ W[54]) >> 29) & 1) - 1) | ^(DV_I_50_0_bit | DV_II_46_0_bit | DV_II_49_0_bit | DV_II_54_0_bit | DV_II_55_0_bit))"#,
  text! r#"	mask &= (((((W[52] ^ W[53]) >> 29) & 1) - 1) | ^(DV_I_49_0_bit | DV_II_45_0_bit | DV_II_48_0_bit | DV_II_53_0_bit | DV_II_54_0_bit))"#,
  text! r#"	mask &= ((((W[50] ^ (W[53] >> 25)) & (1 << 4)) - (1 << 4)) | ^(DV_I_50_0_bit | DV_I_52_0_bit | DV_II_46_0_bit | DV_II_48_0_bit | DV_II_54_0_bit))"#,
  text! r#"	mask &= (((((W[50] ^ W[51]) >> 29) & 1) - 1) | ^(DV_I_47_0_bit | DV_II_46_0_bit | DV_II_51_0_bit | DV_II_52_0_bit | DV_II_56_0_bit))"#,
  text! r#"	mask &= ((((W[49] ^ (W[52] >> 25)) & (1 << 4)) - (1 << 4)) | ^(DV_I_49_0_bit | DV_I_51_0_bit | DV_II_45_0_bit | DV_II_47_0_bit | DV_II_53_0_bit))"#,
  text! r#"	mask &= ((((W[48] ^ (W[51] >> 25)) & (1 << 4)) - (1 << 4)) | ^(DV_I_48_0_bit | DV_I_50_0_bit | DV_I_52_0_bit | DV_II_46_0_bit | DV_II_52_0_bit))"#,
  text! r#"	mask &= (((((W[42] ^ W[43]) >> 29) & 1) - 1) | ^(DV_I_46_0_bit | DV_I_49_0_bit | DV_I_50_0_bit | DV_II_48_0_bit | DV_II_49_0_bit))"#,
  text! r#"	mask &= (((((W[41] ^ W[42]) >> 29) & 1) - 1) | ^(DV_I_45_0_bit | DV_I_48_0_bit | DV_I_49_0_bit | DV_II_47_0_bit | DV_II_48_0_bit))"#,
  text! r#"	mask &= (((((W[40] >> 4) ^ (W[43] >> 29)) & 1) - 1) | ^(DV_I_44_0_bit | DV_I_46_0_bit | DV_I_50_0_bit | DV_II_49_0_bit | DV_II_56_0_bit))"#,
  text! r#"	mask &= (((((W[39] >> 4) ^ (W[42] >> 29)) & 1) - 1) | ^(DV_I_43_0_bit | DV_I_45_0_bit | DV_I_49_0_bit | DV_II_48_0_bit | DV_II_55_0_bit))"#,
  text! r#""#,
  text! r#"	if (mask & (DV_I_44_0_bit | DV_I_48_0_bit | DV_II_47_0_bit | DV_II_54_0_bit | DV_II_56_0_bit)) != 0 {"#,
  text! r#"		mask &= (((((W[38] >> 4) ^ (W[41] >> 29)) & 1) - 1) | ^(DV_I_44_0_bit | DV_I_48_0_bit | DV_II_47_0_bit | DV_II_54_0_bit | DV_II_56_0_bit))"#,
  text! r#"	}"#,
  text! r#"	mask &= (((((W[37] >> 4) ^ (W[40] >> 29)) & 1) - 1) | ^(DV_I_43_0_bit | DV_I_47_0_bit | DV_II_46_0_bit | DV_II_53_0_bit | DV_II_55_0_bit))"#,
  text! r#"	if (mask & (DV_I_52_0_bit | DV_II_48_0_bit | DV_II_51_0_bit | DV_II_56_0_bit)) != 0 {"#,
  text! r#"		mask &= (((((W[55] ^ W[56]) >> 29) & 1) - 1) | ^(DV_I_52_0_bit | DV_II_48_0_bit | DV_II_51_0_bit | DV_II_56_0_bit))"#,
  text! r#"	}"#,
  text! r#"	if (mask & (DV_I_52_0_bit | DV_II_48_0_bit | DV_II_50_0_bit | DV_II_56_0_bit)) != 0 {"#,
  text! r#"		mask &= ((((W[52] ^ (W[55] >> 25)) & (1 << 4)) - (1 << 4)) | ^(DV_I_52_0_bit | DV_II_48_0_bit | DV_II_50_0_bit | DV_II_56_0_bit))"#,
  text! r#"	}"#,
  text! r#"	if (mask & (DV_I_51_0_bit | DV_II_47_0_bit | DV_II_49_0_bit | DV_II_55_0_bit)) != 0 {"#,
  text! r#"		mask &= ((((W[51] ^ (W[54] >> 25)) & (1 << 4)) - (1 << 4)) | ^(DV_I_51_0_bit | DV_II_47_0_bit | DV_II_49_0_bit | DV_II_55_0_bit))"#,
  text! r#"	}"#,
  text! r#"	if (mask & (DV_I_48_0_bit | DV_II_47_0_bit | DV_II_52_0_bit | DV_II_53_0_bit)) != 0 {"#,
  text! r#"		mask &= (((((W[51] ^ W[52]) >> 29) & 1) - 1) | ^(DV_I_48_0_bit | DV_II_47_0_bit | DV_II_52_0_bit | DV_II_53_0_bit))"#,
  text! r#"	}"#,
  text! r#"	if (mask & (DV_I_46_0_bit | DV_I_49_0_bit | DV_II_45_0_bit | DV_II_48_0_bit)) != 0 {"#,
  text! r#"		mask &= (((((W[36] >> 4) ^ (W[40] >> 29)) & 1) - 1) | ^(DV_I_46_0_bit | DV_I_49_0_bit | DV_II_45_0_bit | DV_II_48_0_bit))"#,
  text! r#"	}"#,
  text! r#"	if (mask & (DV_I_52_0_bit | DV_II_48_0_bit | DV_II_49_0_bit)) != 0 {"#,
  text! r#"		mask &= ((0 - (((W[53] ^ W[56]) >> 29) & 1)) | ^(DV_I_52_0_bit | DV_II_48_0_bit | DV_II_49_0_bit))"#,
  text! r#"	}"#,
  text! r#"	if (mask & (DV_I_50_0_bit | DV_II_46_0_bit | DV_II_47_0_bit)) != 0 {"#,
  text! r#"		mask &= ((0 - (((W[51] ^ W[54]) >> 29) & 1)) | ^(DV_I_50_0_bit | DV_II_46_0_bit | DV_II_47_0_bit))"#,
  text! r#"	}"#,
  text! r#"	if (mask & (DV_I_49_0_bit | DV_I_51_0_bit | DV_II_45_0_bit)) != 0 {"#,
  text! r#"		mask &= ((0 - (((W[50] ^ W[52]) >> 29) & 1)) | ^(DV_I_49_0_bit | DV_I_51_0_bit | DV_II_45_0_bit))"#,
  text! r#"	}"#,
  text! r#"	if (mask & (DV_I_48_0_bit | DV_I_50_0_bit | DV_I_52_0_bit)) != 0 {"#,
  text! r#"		mask &= ((0 - (((W[49] ^ W[51]) >> 29) & 1)) | ^(DV_I_48_0_bit | DV_I_50_0_bit | DV_I_52_0_bit))"#,
  text! r#"	}"#,
  text! r#"	if (mask & (DV_I_47_0_bit | DV_I_49_0_bit | DV_I_51_0_bit)) != 0 {"#,
  text! r#"		mask &= ((0 - (((W[48] ^ W[50]) >> 29) & 1)) | ^(DV_I_47_0_bit | DV_I_49_0_bit | DV_I_51_0_bit))"#,
  text! r#"	}"#,
  text! r#"	if (mask & (DV_I_46_0_bit | DV_I_48_0_bit | DV_I_50_0_bit)) != 0 {"#,
  text! r#"		mask &= ((0 - (((W[47] ^ W[49]) >> 29) & 1)) | ^(DV_I_46_0_bit | DV_I_48_0_bit | DV_I_50_0_bit))"#,
  text! r#"	}"#,
  text! r#"	if (mask & (DV_I_45_0_bit | DV_I_47_0_bit | DV_I_49_0_bit)) != 0 {"#,
  text! r#"		mask &= ((0 - (((W[46] ^ W[48]) >> 29) & 1)) | ^(DV_I_45_0_bit | DV_I_47_0_bit | DV_I_49_0_bit))"#,
  text! r#"	}"#,
  text! r#"	mask &= ((((W[45] ^ W[47]) & (1 << 6)) - (1 << 6)) | ^(DV_I_47_2_bit | DV_I_49_2_bit | DV_I_51_2_bit))"#,
  text! r#"	if (mask & (DV_I_44_0_bit | DV_I_46_0_bit | DV_I_48_0_bit)) != 0 {"#,
  text! r#"		mask &= ((0 - (((W[45] ^ W[47]) >> 29) & 1)) | ^(DV_I_44_0_bit | DV_I_46_0_bit | DV_I_48_0_bit))"#,
  text! r#"	}"#,
  text! r#"	mask &= (((((W[44] ^ W[46]) >> 6) & 1) - 1) | ^(DV_I_46_2_bit | DV_I_48_2_bit | DV_I_50_2_bit))"#,
  text! r#"	if (mask & (DV_I_43_0_bit | DV_I_45_0_bit | DV_I_47_0_bit)) != 0 {"#,
  text! r#"		mask &= ((0 - (((W[44] ^ W[46]) >> 29) & 1)) | ^(DV_I_43_0_bit | DV_I_45_0_bit | DV_I_47_0_bit))"#,
  text! r#"	}"#,
  text! r#"	mask &= ((0 - ((W[41] ^ (W[42] >> 5)) & (1 << 1))) | ^(DV_I_48_2_bit | DV_II_46_2_bit | DV_II_51_2_bit))"#,
  text! r#"	mask &= ((0 - ((W[40] ^ (W[41] >> 5)) & (1 << 1))) | ^(DV_I_47_2_bit | DV_I_51_2_bit | DV_II_50_2_bit))"#,
  text! r#"	if (mask & (DV_I_44_0_bit | DV_I_46_0_bit | DV_II_56_0_bit)) != 0 {"#,
  text! r#"		mask &= ((0 - (((W[40] ^ W[42]) >> 4) & 1)) | ^(DV_I_44_0_bit | DV_I_46_0_bit | DV_II_56_0_bit))"#,
  text! r#"	}"#,
  text! r#"	mask &= ((0 - ((W[39] ^ (W[40] >> 5)) & (1 << 1))) | ^(DV_I_46_2_bit | DV_I_50_2_bit | DV_II_49_2_bit))"#,
  text! r#"	if (mask & (DV_I_43_0_bit | DV_I_45_0_bit | DV_II_55_0_bit)) != 0 {"#,
  text! r#"		mask &= ((0 - (((W[39] ^ W[41]) >> 4) & 1)) | ^(DV_I_43_0_bit | DV_I_45_0_bit | DV_II_55_0_bit))"#,
  text! r#"	}"#,
  text! r#"	if (mask & (DV_I_44_0_bit | DV_II_54_0_bit | DV_II_56_0_bit)) != 0 {"#,
  text! r#"		mask &= ((0 - (((W[38] ^ W[40]) >> 4) & 1)) | ^(DV_I_44_0_bit | DV_II_54_0_bit | DV_II_56_0_bit))"#,
  text! r#"	}"#,
  text! r#"	if (mask & (DV_I_43_0_bit | DV_II_53_0_bit | DV_II_55_0_bit)) != 0 {"#,
  text! r#"		mask &= ((0 - (((W[37] ^ W[39]) >> 4) & 1)) | ^(DV_I_43_0_bit | DV_II_53_0_bit | DV_II_55_0_bit))"#,
  text! r#"	}"#,
  text! r#"	mask &= ((0 - ((W[36] ^ (W[37] >> 5)) & (1 << 1))) | ^(DV_I_47_2_bit | DV_I_50_2_bit | DV_II_46_2_bit))"#,
  text! r#"	if (mask & (DV_I_45_0_bit | DV_I_48_0_bit | DV_II_47_0_bit)) != 0 {"#,
  text! r#"		mask &= (((((W[35] >> 4) ^ (W[39] >> 29)) & 1) - 1) | ^(DV_I_45_0_bit | DV_I_48_0_bit | DV_II_47_0_bit))"#,
  text! r#"	}"#,
  text! r#"	if (mask & (DV_I_48_0_bit | DV_II_48_0_bit)) != 0 {"#,
  text! r#"		mask &= ((0 - ((W[63] ^ (W[64] >> 5)) & (1 << 0))) | ^(DV_I_48_0_bit | DV_II_48_0_bit))"#,
  text! r#"	}"#,
  text! r#"	if (mask & (DV_I_45_0_bit | DV_II_45_0_bit)) != 0 {"#,
  text! r#"		mask &= ((0 - ((W[63] ^ (W[64] >> 5)) & (1 << 1))) | ^(DV_I_45_0_bit | DV_II_45_0_bit))"#,
  text! r#"	}"#,
  text! r#"	if (mask & (DV_I_47_0_bit | DV_II_47_0_bit)) != 0 {"#,
  text! r#"		mask &= ((0 - ((W[62] ^ (W[63] >> 5)) & (1 << 0))) | ^(DV_I_47_0_bit | DV_II_47_0_bit))"#,
  text! r#"	}"#,
  text! r#"	if (mask & (DV_I_46_0_bit | DV_II_46_0_bit)) != 0 {"#,
  text! r#"		mask &= ((0 - ((W[61] ^ (W[62] >> 5)) & (1 << 0))) | ^(DV_I_46_0_bit | DV_II_46_0_bit))"#,
  text! r#"	}"#,
  text! r#"	mask &= ((0 - ((W[61] ^ (W[62] >> 5)) & (1 << 2))) | ^(DV_I_46_2_bit | DV_II_46_2_bit))"#,
  text! r#"	if (mask & (DV_I_45_0_bit | DV_II_45_0_bit)) != 0 {"#,
  text! r#"		mask &= ((0 - ((W[60] ^ (W[61] >> 5)) & (1 << 0))) | ^(DV_I_45_0_bit | DV_II_45_0_bit))"#,
  text! r#"	}"#,
  text! r#"	if (mask & (DV_II_51_0_bit | DV_II_54_0_bit)) != 0 {"#,
  text! r#"		mask &= (((((W[58] ^ W[59]) >> 29) & 1) - 1) | ^(DV_II_51_0_bit | DV_II_54_0_bit))"#,
  text! r#"	}"#,
  text! r#"	if (mask & (DV_II_50_0_bit | DV_II_53_0_bit)) != 0 {"#,
  text! r#"		mask &= (((((W[57] ^ W[58]) >> 29) & 1) - 1) | ^(DV_II_50_0_bit | DV_II_53_0_bit))"#,
  text! r#"	}"#,
  text! r#"	if (mask & (DV_II_52_0_bit | DV_II_54_0_bit)) != 0 {"#,
  text! r#"		mask &= ((((W[56] ^ (W[59] >> 25)) & (1 << 4)) - (1 << 4)) | ^(DV_II_52_0_bit | DV_II_54_0_bit))"#,
  text! r#"	}"#,
  text! r#"	if (mask & (DV_II_51_0_bit | DV_II_52_0_bit)) != 0 {"#,
  text! r#"		mask &= ((0 - (((W[56] ^ W[59]) >> 29) & 1)) | ^(DV_II_51_0_bit | DV_II_52_0_bit))"#,
  text! r#"	}"#,
  text! r#"	if (mask & (DV_II_49_0_bit | DV_II_52_0_bit)) != 0 {"#,
  text! r#"		mask &= (((((W[56] ^ W[57]) >> 29) & 1) - 1) | ^(DV_II_49_0_bit | DV_II_52_0_bit))"#,
  text! r#"	}"#,
  text! r#"	if (mask & (DV_II_51_0_bit | DV_II_53_0_bit)) != 0 {"#,
  text! r#"		mask &= ((((W[55] ^ (W[58] >> 25)) & (1 << 4)) - (1 << 4)) | ^(DV_II_51_0_bit | DV_II_53_0_bit))"#,
  text! r#"	}"#,
  text! r#"	if (mask & (DV_II_50_0_bit | DV_II_52_0_bit)) != 0 {"#,
  text! r#"		mask &= ((((W[54] ^ (W[57] >> 25)) & (1 << 4)) - (1 << 4)) | ^(DV_II_50_0_bit | DV_II_52_0_bit))"#,
  text! r#"	}"#,
  text! r#"	if (mask & (DV_II_49_0_bit | DV_II_51_0_bit)) != 0 {"#,
  text! r#"		mask &= ((((W[53] ^ (W[56] >> 25)) & (1 << 4)) - (1 << 4)) | ^(DV_II_49_0_bit | DV_II_51_0_bit))"#,
  text! r#"	}"#,
  text! r#"	mask &= ((((W[51] ^ (W[50] >> 5)) & (1 << 1)) - (1 << 1)) | ^(DV_I_50_2_bit | DV_II_46_2_bit))"#,
  text! r#"	mask &= ((((W[48] ^ W[50]) & (1 << 6)) - (1 << 6)) | ^(DV_I_50_2_bit | DV_II_46_2_bit))"#,
  text! r#"	if (mask & (DV_I_51_0_bit | DV_I_52_0_bit)) != 0 {"#,
  text! r#"		mask &= ((0 - (((W[48] ^ W[55]) >> 29) & 1)) | ^(DV_I_51_0_bit | DV_I_52_0_bit))"#,
  text! r#"	}"#,
  text! r#"	mask &= ((((W[47] ^ W[49]) & (1 << 6)) - (1 << 6)) | ^(DV_I_49_2_bit | DV_I_51_2_bit))"#,
  text! r#"	mask &= ((((W[48] ^ (W[47] >> 5)) & (1 << 1)) - (1 << 1)) | ^(DV_I_47_2_bit | DV_II_51_2_bit))"#,
  text! r#"	mask &= ((((W[46] ^ W[48]) & (1 << 6)) - (1 << 6)) | ^(DV_I_48_2_bit | DV_I_50_2_bit))"#,
  text! r#"	mask &= ((((W[47] ^ (W[46] >> 5)) & (1 << 1)) - (1 << 1)) | ^(DV_I_46_2_bit | DV_II_50_2_bit))"#,
  text! r#"	mask &= ((0 - ((W[44] ^ (W[45] >> 5)) & (1 << 1))) | ^(DV_I_51_2_bit | DV_II_49_2_bit))"#,
  text! r#"	mask &= ((((W[43] ^ W[45]) & (1 << 6)) - (1 << 6)) | ^(DV_I_47_2_bit | DV_I_49_2_bit))"#,
  text! r#"	mask &= (((((W[42] ^ W[44]) >> 6) & 1) - 1) | ^(DV_I_46_2_bit | DV_I_48_2_bit))"#,
  text! r#"	mask &= ((((W[43] ^ (W[42] >> 5)) & (1 << 1)) - (1 << 1)) | ^(DV_II_46_2_bit | DV_II_51_2_bit))"#,
  text! r#"	mask &= ((((W[42] ^ (W[41] >> 5)) & (1 << 1)) - (1 << 1)) | ^(DV_I_51_2_bit | DV_II_50_2_bit))"#,
  text! r#"	mask &= ((((W[41] ^ (W[40] >> 5)) & (1 << 1)) - (1 << 1)) | ^(DV_I_50_2_bit | DV_II_49_2_bit))"#,
  text! r#"	if (mask & (DV_I_52_0_bit | DV_II_51_0_bit)) != 0 {"#,
  text! r#"		mask &= ((((W[39] ^ (W[43] >> 25)) & (1 << 4)) - (1 << 4)) | ^(DV_I_52_0_bit | DV_II_51_0_bit))"#,
  text! r#"	}"#,
  text! r#"	if (mask & (DV_I_51_0_bit | DV_II_50_0_bit)) != 0 {"#,
  text! r#"		mask &= ((((W[38] ^ (W[42] >> 25)) & (1 << 4)) - (1 << 4)) | ^(DV_I_51_0_bit | DV_II_50_0_bit))"#,
  text! r#"	}"#,
  text! r#"	if (mask & (DV_I_48_2_bit | DV_I_51_2_bit)) != 0 {"#,
  text! r#"		mask &= ((0 - ((W[37] ^ (W[38] >> 5)) & (1 << 1))) | ^(DV_I_48_2_bit | DV_I_51_2_bit))"#,
  text! r#"	}"#,
  text! r#"	if (mask & (DV_I_50_0_bit | DV_II_49_0_bit)) != 0 {"#,
  text! r#"		mask &= ((((W[37] ^ (W[41] >> 25)) & (1 << 4)) - (1 << 4)) | ^(DV_I_50_0_bit | DV_II_49_0_bit))"#,
  text! r#"	}"#,
  text! r#"	if (mask & (DV_II_52_0_bit | DV_II_54_0_bit)) != 0 {"#,
  text! r#"		mask &= ((0 - ((W[36] ^ W[38]) & (1 << 4))) | ^(DV_II_52_0_bit | DV_II_54_0_bit))"#,
  text! r#"	}"#,
  text! r#"	mask &= ((0 - ((W[35] ^ (W[36] >> 5)) & (1 << 1))) | ^(DV_I_46_2_bit | DV_I_49_2_bit))"#,
  text! r#"	if (mask & (DV_I_51_0_bit | DV_II_47_0_bit)) != 0 {"#,
  text! r#"		mask &= ((((W[35] ^ (W[39] >> 25)) & (1 << 3)) - (1 << 3)) | ^(DV_I_51_0_bit | DV_II_47_0_bit))"#,
  text! r#"	}"#,
  text! r#""#,
  text! r#"	if mask != 0 {"#,
  text! r#"		if (mask & DV_I_43_0_bit) != 0 {"#,
  text! r#"			if not((W[61]^(W[62]>>5))&(1<<1)) != 0 ||"#,
  text! r#"				not(not((W[59]^(W[63]>>25))&(1<<5))) != 0 ||"#,
  text! r#"				not((W[58]^(W[63]>>30))&(1<<0)) != 0 {"#,
  text! r#"				mask &= ^DV_I_43_0_bit"#,
  text! r#"			}"#,
  text! r#"		}"#,
  text! r#"		if (mask & DV_I_44_0_bit) != 0 {"#,
  text! r#"			if not((W[62]^(W[63]>>5))&(1<<1)) != 0 ||"#,
  text! r#"				not(not((W[60]^(W[64]>>25))&(1<<5))) != 0 ||"#,
  text! r#"				not((W[59]^(W[64]>>30))&(1<<0)) != 0 {"#,
  text! r#"				mask &= ^DV_I_44_0_bit"#,
  text! r#"			}"#,
  text! r#"		}"#,
  text! r#"		if (mask & DV_I_46_2_bit) != 0 {"#,
  text! r#"			mask &= ((^((W[40] ^ W[42]) >> 2)) | ^DV_I_46_2_bit)"#,
  text! r#"		}"#,
  text! r#"		if (mask & DV_I_47_2_bit) != 0 {"#,
  text! r#"			if not((W[62]^(W[63]>>5))&(1<<2)) != 0 ||"#,
  text! r#"				not(not((W[41]^W[43])&(1<<6))) != 0 {"#,
  text! r#"				mask &= ^DV_I_47_2_bit"#,
  text! r#"			}"#,
  text! r#"		}"#,
  text! r#"		if (mask & DV_I_48_2_bit) != 0 {"#,
  text! r#"			if not((W[63]^(W[64]>>5))&(1<<2)) != 0 ||"#,
  text! r#"				not(not((W[48]^(W[49]<<5))&(1<<6))) != 0 {"#,
  text! r#"				mask &= ^DV_I_48_2_bit"#,
  text! r#"			}"#,
  text! r#"		}"#,
  text! r#"		if (mask & DV_I_49_2_bit) != 0 {"#,
  text! r#"			if not(not((W[49]^(W[50]<<5))&(1<<6))) != 0 ||"#,
  text! r#"				not((W[42]^W[50])&(1<<1)) != 0 ||"#,
  text! r#"				not(not((W[39]^(W[40]<<5))&(1<<6))) != 0 ||"#,
  text! r#"				not((W[38]^W[40])&(1<<1)) != 0 {"#,
  text! r#"				mask &= ^DV_I_49_2_bit"#,
  text! r#"			}"#,
  text! r#"		}"#,
  text! r#"		if (mask & DV_I_50_0_bit) != 0 {"#,
  text! r#"			mask &= (((W[36] ^ W[37]) << 7) | ^DV_I_50_0_bit)"#,
  text! r#"		}"#,
  text! r#"		if (mask & DV_I_50_2_bit) != 0 {"#,
  text! r#"			mask &= (((W[43] ^ W[51]) << 11) | ^DV_I_50_2_bit)"#,
  text! r#"		}"#,
  text! r#"		if (mask & DV_I_51_0_bit) != 0 {"#,
  text! r#"			mask &= (((W[37] ^ W[38]) << 9) | ^DV_I_51_0_bit)"#,
  text! r#"		}"#,
  text! r#"		if (mask & DV_I_51_2_bit) != 0 {"#,
  text! r#"			if not(not((W[51]^(W[52]<<5))&(1<<6))) != 0 ||"#,
  text! r#"				not(not((W[49]^W[51])&(1<<6))) != 0 ||"#,
  text! r#"				not(not((W[37]^(W[37]>>5))&(1<<1))) != 0 ||"#,
  text! r#"				not(not((W[35]^(W[39]>>25))&(1<<5))) != 0 {"#,
  text! r#"				mask &= ^DV_I_51_2_bit"#,
  text! r#"			}"#,
  text! r#"		}"#,
  text! r#"		if (mask & DV_I_52_0_bit) != 0 {"#,
  text! r#"			mask &= (((W[38] ^ W[39]) << 11) | ^DV_I_52_0_bit)"#,
  text! r#"		}"#,
  text! r#"		if (mask & DV_II_46_2_bit) != 0 {"#,
  text! r#"			mask &= (((W[47] ^ W[51]) << 17) | ^DV_II_46_2_bit)"#,
  text! r#"		}"#,
  text! r#"		if (mask & DV_II_48_0_bit) != 0 {"#,
  text! r#"			if not(not((W[36]^(W[40]>>25))&(1<<3))) != 0 ||"#,
  text! r#"				not((W[35]^(W[40]<<2))&(1<<30)) != 0 {"#,
  text! r#"				mask &= ^DV_II_48_0_bit"#,
  text! r#"			}"#,
  text! r#"		}"#,
  text! r#"		if (mask & DV_II_49_0_bit) != 0 {"#,
  text! r#"			if not(not((W[37]^(W[41]>>25))&(1<<3))) != 0 ||"#,
  text! r#"				not((W[36]^(W[41]<<2))&(1<<30)) != 0 {"#,
  text! r#"				mask &= ^DV_II_49_0_bit"#,
  text! r#"			}"#,
  text! r#"		}"#,
  text! r#"		if (mask & DV_II_49_2_bit) != 0 {"#,
  text! r#"			if not(not((W[53]^(W[54]<<5))&(1<<6))) != 0 ||"#,
  text! r#"				not(not((W[51]^W[53])&(1<<6))) != 0 ||"#,
  text! r#"				not((W[50]^W[54])&(1<<1)) != 0 ||"#,
  text! r#"				not(not((W[45]^(W[46]<<5))&(1<<6))) != 0 ||"#,
  text! r#"				not(not((W[37]^(W[41]>>25))&(1<<5))) != 0 ||"#,
  text! r#"				not((W[36]^(W[41]>>30))&(1<<0)) != 0 {"#,
  text! r#"				mask &= ^DV_II_49_2_bit"#,
  text! r#"			}"#,
  text! r#"		}"#,
  text! r#"		if (mask & DV_II_50_0_bit) != 0 {"#,
  text! r#"			if not((W[55]^W[58])&(1<<29)) != 0 ||"#,
  text! r#"				not(not((W[38]^(W[42]>>25))&(1<<3))) != 0 ||"#,
  text! r#"				not((W[37]^(W[42]<<2))&(1<<30)) != 0 {"#,
  text! r#"				mask &= ^DV_II_50_0_bit"#,
  text! r#"			}"#,
  text! r#"		}"#,
  text! r#"		if (mask & DV_II_50_2_bit) != 0 {"#,
  text! r#"			if not(not((W[54]^(W[55]<<5))&(1<<6))) != 0 ||"#,
  text! r#"				not(not((W[52]^W[54])&(1<<6))) != 0 ||"#,
  text! r#"				not((W[51]^W[55])&(1<<1)) != 0 ||"#,
  text! r#"				not((W[45]^W[47])&(1<<1)) != 0 ||"#,
  text! r#"				not(not((W[38]^(W[42]>>25))&(1<<5))) != 0 ||"#,
  text! r#"				not((W[37]^(W[42]>>30))&(1<<0)) != 0 {"#,
  text! r#"				mask &= ^DV_II_50_2_bit"#,
  text! r#"			}"#,
  text! r#"		}"#,
  text! r#"		if (mask & DV_II_51_0_bit) != 0 {"#,
  text! r#"			if not(not((W[39]^(W[43]>>25))&(1<<3))) != 0 ||"#,
  text! r#"				not((W[38]^(W[43]<<2))&(1<<30)) != 0 {"#,
  text! r#"				mask &= ^DV_II_51_0_bit"#,
  text! r#"			}"#,
  text! r#"		}"#,
  text! r#"		if (mask & DV_II_51_2_bit) != 0 {"#,
  text! r#"			if not(not((W[55]^(W[56]<<5))&(1<<6))) != 0 ||"#,
  text! r#"				not(not((W[53]^W[55])&(1<<6))) != 0 ||"#,
  text! r#"				not((W[52]^W[56])&(1<<1)) != 0 ||"#,
  text! r#"				not((W[46]^W[48])&(1<<1)) != 0 ||"#,
  text! r#"				not(not((W[39]^(W[43]>>25))&(1<<5))) != 0 ||"#,
  text! r#"				not((W[38]^(W[43]>>30))&(1<<0)) != 0 {"#,
  text! r#"				mask &= ^DV_II_51_2_bit"#,
  text! r#"			}"#,
  text! r#"		}"#,
  text! r#"		if (mask & DV_II_52_0_bit) != 0 {"#,
  text! r#"			if not(not((W[59]^W[60])&(1<<29))) != 0 ||"#,
  text! r#"				not(not((W[40]^(W[44]>>25))&(1<<3))) != 0 ||"#,
  text! r#"				not(not((W[40]^(W[44]>>25))&(1<<4))) != 0 ||"#,
  text! r#"				not((W[39]^(W[44]<<2))&(1<<30)) != 0 {"#,
  text! r#"				mask &= ^DV_II_52_0_bit"#,
  text! r#"			}"#,
  text! r#"		}"#,
  text! r#"		if (mask & DV_II_53_0_bit) != 0 {"#,
  text! r#"			if not((W[58]^W[61])&(1<<29)) != 0 ||"#,
  text! r#"				not(not((W[57]^(W[61]>>25))&(1<<4))) != 0 ||"#,
  text! r#"				not(not((W[41]^(W[45]>>25))&(1<<3))) != 0 ||"#,
  text! r#"				not(not((W[41]^(W[45]>>25))&(1<<4))) != 0 {"#,
  text! r#"				mask &= ^DV_II_53_0_bit"#,
  text! r#"			}"#,
  text! r#"		}"#,
  text! r#"		if (mask & DV_II_54_0_bit) != 0 {"#,
  text! r#"			if not(not((W[58]^(W[62]>>25))&(1<<4))) != 0 ||"#,
  text! r#"				not(not((W[42]^(W[46]>>25))&(1<<3))) != 0 ||"#,
  text! r#"				not(not((W[42]^(W[46]>>25))&(1<<4))) != 0 {"#,
  text! r#"				mask &= ^DV_II_54_0_bit"#,
  text! r#"			}"#,
  text! r#"		}"#,
  text! r#"		if (mask & DV_II_55_0_bit) != 0 {"#,
  text! r#"			if not(not((W[59]^(W[63]>>25))&(1<<4))) != 0 ||"#,
  text! r#"				not(not((W[57]^(W[59]>>25))&(1<<4))) != 0 ||"#,
  text! r#"				not(not((W[43]^(W[47]>>25))&(1<<3))) != 0 ||"#,
  text! r#"				not(not((W[43]^(W[47]>>25))&(1<<4))) != 0 {"#,
  text! r#"				mask &= ^DV_II_55_0_bit"#,
  text! r#"			}"#,
  text! r#"		}"#,
  text! r#"		if (mask & DV_II_56_0_bit) != 0 {"#,
  text! r#"			if not(not((W[60]^(W[64]>>25))&(1<<4))) != 0 ||"#,
  text! r#"				not(not((W[44]^(W[48]>>25))&(1<<3))) != 0 ||"#,
  text! r#"				not(not((W[44]^(W[48]>>25))&(1<<4))) != 0 {"#,
  text! r#"				mask &= ^DV_II_56_0_bit"#,
  text! r#"			}"#,
  text! r#"		}"#,
  text! r#"	}"#,
  text! r#""#,
  text! r#"	return mask"#,
  text! r#"}"#,
  text! r#""#,
  text! r#"func not(x uint32) uint32 {"#,
  text! r#"	if x == 0 {"#,
  text! r#"		return 1"#,
  text! r#"	}"#,
  text! r#""#,
  text! r#"	return 0"#,
  text! r#"}"#,
  text! r#""#,
  text! r#"//go:nosplit"#,
  text! r#"func SHA1_dvs() []DvInfo {"#,
  text! r#"	return sha1_dvs"#,
  text! r#"}"#]

/-- sha1cd.go:1-212 -/
def sha1cdLines : List (List Nat) := [
  text! r#"// Copyright 2009 The Go Authors. All rights reserved."#,
  text! r#"// Use of this source code is governed by a BSD-style"#,
  text! r#"// license that can be found in the LICENSE file."#,
  text! r#""#,
  text! r#"// Package sha1cd implements collision detection based on the whitepaper"#,
  text! r#"// Counter-cryptanalysis from Marc Stevens. The original ubc implementation"#,
  text! r#"// was done by Marc Stevens and Dan Shumow, and can be found at:"#,
  text! r#"// https://github.com/cr-marcstevens/sha1collisiondetection"#,
  text! r#"package sha1cd"#,
  text! r#""#,
  text! r#"// This SHA1 implementation is based on Go's generic SHA1."#,
  text! r#"// Original: https://github.com/golang/go/blob/master/src/crypto/sha1/sha1.go"#,
  text! r#""#,
  text! r#"import ("#,
  text! r#"	"encoding/binary""#,
  text! r#"	"errors""#,
  text! r#"	"hash""#,
  text! r#""#,
  text! r#"	shared "github.com/pjbgf/sha1cd/internal""#,
  text! r#")"#,
  text! r#""#,
  text! r#"// The size of a SHA-1 checksum in bytes."#,
  text! r#"const Size = shared.Size"#,
  text! r#""#,
  text! r#"// The blocksize of SHA-1 in bytes."#,
  text! r#"const BlockSize = shared.Chunk"#,
  text! r#""#,
  text! r#"// digest represents the partial evaluation of a checksum."#,
  text! r#"type digest struct {"#,
  text! r#"	h   [shared.WordBuffers]uint32"#,
  text! r#"	x   [shared.Chunk]byte"#,
  text! r#"	nx  int"#,
  text! r#"	len uint64"#,
  text! r#""#,
  text! r#"	// col defines whether a collision has been found."#,
  text! r#"	col bool"#,
  text! r#"}"#,
  text! r#""#,
  text! r#"func (d *digest) MarshalBinary() ([]byte, error) {"#,
  text! r#"	b := make([]byte, 0, shared.MarshaledSize)"#,
  text! r#"	b = append(b, shared.Magic...)"#,
  text! r#"	b = appendUint32(b, d.h[0])"#,
  text! r#"	b = appendUint32(b, d.h[1])"#,
  text! r#"	b = appendUint32(b, d.h[2])"#,
  text! r#"	b = appendUint32(b, d.h[3])"#,
  text! r#"	b = appendUint32(b, d.h[4])"#,
  text! r#"	b = append(b, d.x[:d.nx]...)"#,
  text! r#"	b = b[:len(b)+len(d.x)-d.nx] // already zero"#,
  text! r#"	b = appendUint64(b, d.len)"#,
  text! r#"	return b, nil"#,
  text! r#"}"#,
  text! r#""#,
  text! r#"func appendUint32(b []byte, v uint32) []byte {"#,
  text! r#"	return append(b,"#,
  text! r#"		byte(v>>24),"#,
  text! r#"		byte(v>>16),"#,
  text! r#"		byte(v>>8),"#,
  text! r#"		byte(v),"#,
  text! r#"	)"#,
  text! r#"}"#,
  text! r#""#,
  text! r#"func appendUint64(b []byte, v uint64) []byte {"#,
  text! r#"	return append(b,"#,
  text! r#"		byte(v>>56),"#,
  text! r#"		byte(v>>48),"#,
  text! r#"		byte(v>>40),"#,
  text! r#"		byte(v>>32),"#,
  text! r#"		byte(v>>24),"#,
  text! r#"		byte(v>>16),"#,
  text! r#"		byte(v>>8),"#,
  text! r#"		byte(v),"#,
  text! r#"	)"#,
  text! r#"}"#,
  text! r#""#,
  text! r#"func (d *digest) UnmarshalBinary(b []byte) error {"#,
  text! r#"	if len(b) < len(shared.Magic) || string(b[:len(shared.Magic)]) != shared.Magic {"#,
  text! r#"		return errors.New("crypto/sha1: invalid hash state identifier")"#,
  text! r#"	}"#,
  text! r#"	if len(b) != shared.MarshaledSize {"#,
  text! r#"		return errors.New("crypto/sha1: invalid hash state size")"#,
  text! r#"	}"#,
  text! r#"	b = b[len(shared.Magic):]"#,
  text! r#"	b, d.h[0] = consumeUint32(b)"#,
  text! r#"	b, d.h[1] = consumeUint32(b)"#,
  text! r#"	b, d.h[2] = consumeUint32(b)"#,
  text! r#"	b, d.h[3] = consumeUint32(b)"#,
  text! r#"	b, d.h[4] = consumeUint32(b)"#,
  text! r#"	b = b[copy(d.x[:], b):]"#,
  text! r#"	b, d.len = consumeUint64(b)"#,
  text! r#"	d.nx = int(d.len % shared.Chunk)"#,
  text! r#"	return nil"#,
  text! r#"}"#,
  text! r#""#,
  text! r#"func consumeUint64(b []byte) ([]byte, uint64) {"#,
  text! r#"	_ = b[7]"#,
  text! r#"	x := uint64(b[7]) | uint64(b[6])<<8 | uint64(b[5])<<16 | uint64(b[4])<<24 |"#,
  text! r#"		uint64(b[3])<<32 | uint64(b[2])<<40 | uint64(b[1])<<48 | uint64(b[0])<<56"#,
  text! r#"	return b[8:], x"#,
  text! r#"}"#,
  text! r#""#,
  text! r#"func consumeUint32(b []byte) ([]byte, uint32) {"#,
  text! r#"	_ = b[3]"#,
  text! r#"	x := uint32(b[3]) | uint32(b[2])<<8 | uint32(b[1])<<16 | uint32(b[0])<<24"#,
  text! r#"	return b[4:], x"#,
  text! r#"}"#,
  text! r#""#,
  text! r#"func (d *digest) Reset() {"#,
  text! r#"	d.h[0] = shared.Init0"#,
  text! r#"	d.h[1] = shared.Init1"#,
  text! r#"	d.h[2] = shared.Init2"#,
  text! r#"	d.h[3] = shared.Init3"#,
  text! r#"	d.h[4] = shared.Init4"#,
  text! r#"	d.nx = 0"#,
  text! r#"	d.len = 0"#,
  text! r#""#,
  text! r#"	d.col = false"#,
  text! r#"}"#,
  text! r#""#,
  text! r#"// New returns a new hash.Hash computing the SHA1 checksum. The Hash also"#,
  text! r#"// implements encoding.BinaryMarshaler and encoding.BinaryUnmarshaler to"#,
  text! r#"// marshal and unmarshal the internal state of the hash."#,
  text! r#"func New() hash.Hash {"#,
  text! r#"	var d digest"#,
  text! r#"	d.Reset()"#,
  text! r#"	return &d"#,
  text! r#"}"#,
  text! r#""#,
  text! r#"func (d *digest) Size() int { return Size }"#,
  text! r#""#,
  text! r#"func (d *digest) BlockSize() int { return BlockSize }"#,
  text! r#""#,
  text! r#"func (d *digest) Write(p []byte) (nn int, err error) {"#,
  text! r#"	if len(p) == 0 {"#,
  text! r#"		return"#,
  text! r#"	}"#,
  text! r#""#,
  text! r#"	nn = len(p)"#,
  text! r#"	d.len += uint64(nn)"#,
  text! r#"	if d.nx > 0 {"#,
  text! r#"		n := copy(d.x[d.nx:], p)"#,
  text! r#"		d.nx += n"#,
  text! r#"		if d.nx == shared.Chunk {"#,
  text! r#"			block(d, d.x[:])"#,
  text! r#"			d.nx = 0"#,
  text! r#"		}"#,
  text! r#"		p = p[n:]"#,
  text! r#"	}"#,
  text! r#"	if len(p) >= shared.Chunk {"#,
  text! r#"		n := len(p) &^ (shared.Chunk - 1)"#,
  text! r#"		block(d, p[:n])"#,
  text! r#"		p = p[n:]"#,
  text! r#"	}"#,
  text! r#"	if len(p) > 0 {"#,
  text! r#"		d.nx = copy(d.x[:], p)"#,
  text! r#"	}"#,
  text! r#"	return"#,
  text! r#"}"#,
  text! r#""#,
  text! r#"func (d *digest) Sum(in []byte) []byte {"#,
  text! r#"	// Make a copy of d so that caller can keep writing and summing."#,
  text! r#"	d0 := *d"#,
  text! r#"	hash := d0.checkSum()"#,
  text! r#"	return append(in, hash[:]...)"#,
  text! r#"}"#,
  text! r#""#,
  text! r#"func (d *digest) checkSum() [Size]byte {"#,
  text! r#"	len := d.len"#,
  text! r#"	// Padding.  Add a 1 bit and 0 bits until 56 bytes mod 64."#,
  text! r#"	var tmp [64 + 8]byte"#,
  text! r#"	tmp[0] = 0x80"#,
  text! r#"	var t uint64"#,
  text! r#"	if len%64 < 56 {"#,
  text! r#"		t = 56 - len%64"#,
  text! r#"	} else {"#,
  text! r#"		t = 64 + 56 - len%64"#,
  text! r#"	}"#,
  text! r#""#,
  text! r#"	// Length in bits."#,
  text! r#"	len <<= 3"#,
  text! r#"	padlen := tmp[:t+8]"#,
  text! r#"	binary.BigEndian.PutUint64(tmp[t:], len)"#,
  text! r#"	d.Write(padlen)"#,
  text! r#""#,
  text! r#"	if d.nx != 0 {"#,
  text! r#"		panic("d.nx != 0")"#,
  text! r#"	}"#,
  text! r#""#,
  text! r#"	var digest [Size]byte"#,
  text! r#""#,
  text! r#"	binary.BigEndian.PutUint32(digest[0:], d.h[0])"#,
  text! r#"	binary.BigEndian.PutUint32(digest[4:], d.h[1])"#,
  text! r#"	binary.BigEndian.PutUint32(digest[8:], d.h[2])"#,
  text! r#"	binary.BigEndian.PutUint32(digest[12:], d.h[3])"#,
  text! r#"	binary.BigEndian.PutUint32(digest[16:], d.h[4])"#,
  text! r#""#,
  text! r#"	return digest"#,
  text! r#"}"#,
  text! r#""#,
  text! r#"// Sum returns the SHA-1 checksum of the data."#,
  text! r#"func Sum(data []byte) ([Size]byte, bool) {"#,
  text! r#"	var d digest"#,
  text! r#"	d.Reset()"#,
  text! r#"	d.Write(data)"#,
  text! r#"	return d.checkSum(), d.col"#,
  text! r#"}"#,
  text! r#""#,
  text! r#"func (d *digest) CollisionResistantSum(in []byte) ([]byte, bool) {"#,
  text! r#"	// Make a copy of d so that caller can keep writing and summing."#,
  text! r#"	d0 := *d"#,
  text! r#"	hash := d0.checkSum()"#,
  text! r#"	return append(in, hash[:]...), d0.col"#,
  text! r#"}"#]

/-- sha1cdblock_generic.go:1-312 -/
def genericLines : List (List Nat) := [
  text! r#"// Copyright 2009 The Go Authors. All rights reserved."#,
  text! r#"// Use of this source code is governed by a BSD-style"#,
  text! r#"// license that can be found in the LICENSE file."#,
  text! r#""#,
  text! r#"// Originally from: https://github.com/go/blob/master/src/crypto/sha1/sha1block.go"#,
  text! r#"// It has been modified to support collision detection."#,
  text! r#""#,
  text! r#"package sha1cd"#,
  text! r#""#,
  text! r#"import ("#,
  text! r#"	"fmt""#,
  text! r#"	"math/bits""#,
  text! r#""#,
  text! r#"	shared "github.com/pjbgf/sha1cd/internal""#,
  text! r#"	"github.com/pjbgf/sha1cd/ubc""#,
  text! r#")"#,
  text! r#""#,
  text! r#"var forceGeneric bool"#,
  text! r#""#,
  text! r#"// blockGeneric is a portable, pure Go version of the SHA-1 block step."#,
  text! r#"// It's used by sha1block_generic.go and tests."#,
  text! r#"func blockGeneric(dig *digest, p []byte) {"#,
  text! r#"	var w [16]uint32"#,
  text! r#""#,
  text! r#"	// cs stores the pre-step compression state for only the steps required for the"#,
  text! r#"	// collision detection, which are 0, 58 and 65."#,
  text! r#"	// Refer to ubc/const.go for more details."#,
  text! r#"	cs := [shared.PreStepState][shared.WordBuffers]uint32{}"#,
  text! r#""#,
  text! r#"	h0, h1, h2, h3, h4 := dig.h[0], dig.h[1], dig.h[2], dig.h[3], dig.h[4]"#,
  text! r#"	for len(p) >= shared.Chunk {"#,
  text! r#"		m1 := [shared.Rounds]uint32{}"#,
  text! r#"		hi := 1"#,
  text! r#""#,
  text! r#"		// Collision attacks are thwarted by hashing a detected near-collision block 3 times."#,
  text! r#"		// Think of it as extending SHA-1 from 80-steps to 240-steps for such blocks:"#,
  text! r#"		// 		The best collision attacks against SHA-1 have complexity about 2^60,"#,
  text! r#"		// 		thus for 240-steps an immediate lower-bound for the best cryptanalytic attacks would be 2^180."#,
  text! r#"		// 		An attacker would be better off using a generic birthday search of complexity 2^80."#,
  text! r#"	rehash:"#,
  text! r#"		a, b, c, d, e := h0, h1, h2, h3, h4"#,
  text! r#""#,
  text! r#"		// Each of the four 20-iteration rounds"#,
  text! r#"		// differs only in the computation of f and"#,
  text! r#"		// the choice of K (K0, K1, etc)."#,
  text! r#"		i := 0"#,
  text! r#""#,
  text! r#"		// Store pre-step compression state for the collision detection."#,
  text! r#"		cs[0] = [shared.WordBuffers]uint32{a, b, c, d, e}"#,
  text! r#""#,
  text! r#"		for ; i < 16; i++ {"#,
  text! r#"			// load step"#,
  text! r#"			j := i * 4"#,
  text! r#"			w[i] = uint32(p[j])<<24 | uint32(p[j+1])<<16 | uint32(p[j+2])<<8 | uint32(p[j+3])"#,
  text! r#""#,
  text! r#"			f := b&c | (^b)&d"#,
  text! r#"			t := bits.RotateLeft32(a, 5) + f + e + w[i&0xf] + shared.K0"#,
  text! r#"			a, b, c, d, e = t, a, bits.RotateLeft32(b, 30), c, d"#,
  text! r#""#,
  text! r#"			// Store compression state for the collision detection."#,
  text! r#"			m1[i] = w[i&0xf]"#,
  text! r#"		}"#,
  text! r#"		for ; i < 20; i++ {"#,
  text! r#"			tmp := w[(i-3)&0xf] ^ w[(i-8)&0xf] ^ w[(i-14)&0xf] ^ w[(i)&0xf]"#,
  text! r#"			w[i&0xf] = tmp<<1 | tmp>>(32-1)"#,
  text! r#""#,
  text! r#"			f := b&c | (^b)&d"#,
  text! r#"			t := bits.RotateLeft32(a, 5) + f + e + w[i&0xf] + shared.K0"#,
  text! r#"			a, b, c, d, e = t, a, bits.RotateLeft32(b, 30), c, d"#,
  text! r#""#,
  text! r#"			// Store compression state for the collision detection."#,
  text! r#"			m1[i] = w[i&0xf]"#,
  text! r#"		}"#,
  text! r#"		for ; i < 40; i++ {"#,
  text! r#"			tmp := w[(i-3)&0xf] ^ w[(i-8)&0xf] ^ w[(i-14)&0xf] ^ w[(i)&0xf]"#,
  text! r#"			w[i&0xf] = tmp<<1 | tmp>>(32-1)"#,
  text! r#""#,
  text! r#"			f := b ^ c ^ d"#,
  text! r#"			t := bits.RotateLeft32(a, 5) + f + e + w[i&0xf] + shared.K1"#,
  text! r#"			a, b, c, d, e = t, a, bits.RotateLeft32(b, 30), c, d"#,
  text! r#""#,
  text! r#"			// Store compression state for the collision detection."#,
  text! r#"			m1[i] = w[i&0xf]"#,
  text! r#"		}"#,
  text! r#"		for ; i < 60; i++ {"#,
  text! r#"			if i == 58 {"#,
  text! r#"				// Store pre-step compression state for the collision detection."#,
  text! r#"				cs[1] = [shared.WordBuffers]uint32{a, b, c, d, e}"#,
  text! r#"			}"#,
  text! r#""#,
  text! r#"			tmp := w[(i-3)&0xf] ^ w[(i-8)&0xf] ^ w[(i-14)&0xf] ^ w[(i)&0xf]"#,
  text! r#"			w[i&0xf] = tmp<<1 | tmp>>(32-1)"#,
  text! r#""#,
  text! r#"			f := ((b | c) & d) | (b & c)"#,
  text! r#"			t := bits.RotateLeft32(a, 5) + f + e + w[i&0xf] + shared.K2"#,
  text! r#"			a, b, c, d, e = t, a, bits.RotateLeft32(b, 30), c, d"#,
  text! r#""#,
  text! r#"			// Store compression state for the collision detection."#,
  text! r#"			m1[i] = w[i&0xf]"#,
  text! r#"		}"#,
  text! r#"		for ; i < 80; i++ {"#,
  text! r#"			if i == 65 {"#,
  text! r#"				// Store pre-step compression state for the collision detection."#,
  text! r#"				cs[2] = [shared.WordBuffers]uint32{a, b, c, d, e}"#,
  text! r#"			}"#,
  text! r#""#,
  text! r#"			tmp := w[(i-3)&0xf] ^ w[(i-8)&0xf] ^ w[(i-14)&0xf] ^ w[(i)&0xf]"#,
  text! r#"			w[i&0xf] = tmp<<1 | tmp>>(32-1)"#,
  text! r#""#,
  text! r#"			f := b ^ c ^ d"#,
  text! r#"			t := bits.RotateLeft32(a, 5) + f + e + w[i&0xf] + shared.K3"#,
  text! r#"			a, b, c, d, e = t, a, bits.RotateLeft32(b, 30), c, d"#,
  text! r#""#,
  text! r#"			// Store compression state for the collision detection."#,
  text! r#"			m1[i] = w[i&0xf]"#,
  text! r#"		}"#,
  text! r#""#,
  text! r#"		h0 += a"#,
  text! r#"		h1 += b"#,
  text! r#"		h2 += c"#,
  text! r#"		h3 += d"#,
  text! r#"		h4 += e"#,
  text! r#""#,
  text! r#"		if hi == 2 {"#,
  text! r#"			hi++"#,
  text! r#"			goto rehash"#,
  text! r#"		}"#,
  text! r#""#,
  text! r#"		if hi == 1 {"#,
  text! r#"			h := [shared.WordBuffers]uint32{h0, h1, h2, h3, h4}"#,
  text! r#"			col := checkCollision(&m1, &cs, &h)"#,
  text! r#"			if col {"#,
  text! r#"				dig.col = true"#,
  text! r#"				hi++"#,
  text! r#"				goto rehash"#,
  text! r#"			}"#,
  text! r#"		}"#,
  text! r#""#,
  text! r#"		p = p[shared.Chunk:]"#,
  text! r#"	}"#,
  text! r#""#,
  text! r#"	dig.h[0], dig.h[1], dig.h[2], dig.h[3], dig.h[4] = h0, h1, h2, h3, h4"#,
  text! r#"}"#,
  text! r#""#,
  text! r#"//go:noinline"#,
  text! r#"func checkCollision("#,
  text! r#"	m1 *[shared.Rounds]uint32,"#,
  text! r#"	cs *[shared.PreStepState][shared.WordBuffers]uint32,"#,
  text! r#"	h *[shared.WordBuffers]uint32,"#,
  text! r#") bool {"#,
  text! r#"	if mask := ubc.CalculateDvMask(m1); mask != 0 {"#,
  text! r#"		dvs := ubc.SHA1_dvs()"#,
  text! r#""#,
  text! r#"		for i := 0; dvs[i].DvType != 0; i++ {"#,
  text! r#"			if (mask & ((uint32)(1) << uint32(dvs[i].MaskB))) != 0 {"#,
  text! r#"				var csState *[shared.WordBuffers]uint32"#,
  text! r#"				switch dvs[i].TestT {"#,
  text! r#"				case 58:"#,
  text! r#"					csState = &cs[1]"#,
  text! r#"				case 65:"#,
  text! r#"					csState = &cs[2]"#,
  text! r#"				case 0:"#,
  text! r#"					csState = &cs[0]"#,
  text! r#"				default:"#,
  text! r#"					panic(fmt.Sprintf("dvs data is trying to use a testT that isn't available: %d", dvs[i].TestT))"#,
  text! r#"				}"#,
  text! r#""#,
  text! r#"				col := hasCollided("#,
  text! r#"					dvs[i].TestT, // testT is the step number"#,
  text! r#"					// m2 is a secondary message created XORing with"#,
  text! r#"					// ubc's DM prior to the SHA recompression step."#,
  text! r#"					m1, &dvs[i].Dm,"#,
  text! r#"					csState,"#,
  text! r#"					h)"#,
  text! r#""#,
  text! r#"				if col {"#,
  text! r#"					return true"#,
  text! r#"				}"#,
  text! r#"			}"#,
  text! r#"		}"#,
  text! r#"	}"#,
  text! r#"	return false"#,
  text! r#"}"#,
  text! r#""#,
  text! r#"//go:nosplit"#,
  text! r#"func hasCollided(step uint32, m1, dm *[shared.Rounds]uint32,"#,
  text! r#"	state *[shared.WordBuffers]uint32, h *[shared.WordBuffers]uint32) bool {"#,
  text! r#"	// Intermediary Hash Value."#,
  text! r#"	ihv := [shared.WordBuffers]uint32{}"#,
  text! r#""#,
  text! r#"	a, b, c, d, e := state[0], state[1], state[2], state[3], state[4]"#,
  text! r#""#,
  text! r#"	// Walk backwards from current step to undo previous compression."#,
  text! r#"	// The existing collision detection does not have dvs higher than 65,"#,
  text! r#"	// start value of i accordingly."#,
  text! r#"	for i := uint32(64); i >= 60; i-- {"#,
  text! r#"		a, b, c, d, e = b, c, d, e, a"#,
  text! r#"		if step > i {"#,
  text! r#"			b = bits.RotateLeft32(b, -30)"#,
  text! r#"			f := b ^ c ^ d"#,
  text! r#"			e -= bits.RotateLeft32(a, 5) + f + shared.K3 + (m1[i] ^ dm[i]) // m2 = m1 ^ dm."#,
  text! r#"		}"#,
  text! r#"	}"#,
  text! r#"	for i := uint32(59); i >= 40; i-- {"#,
  text! r#"		a, b, c, d, e = b, c, d, e, a"#,
  text! r#"		if step > i {"#,
  text! r#"			b = bits.RotateLeft32(b, -30)"#,
  text! r#"			f := ((b | c) & d) | (b & c)"#,
  text! r#"			e -= bits.RotateLeft32(a, 5) + f + shared.K2 + (m1[i] ^ dm[i])"#,
  text! r#"		}"#,
  text! r#"	}"#,
  text! r#"	for i := uint32(39); i >= 20; i-- {"#,
  text! r#"		a, b, c, d, e = b, c, d, e, a"#,
  text! r#"		if step > i {"#,
  text! r#"			b = bits.RotateLeft32(b, -30)"#,
  text! r#"			f := b ^ c ^ d"#,
  text! r#"			e -= bits.RotateLeft32(a, 5) + f + shared.K1 + (m1[i] ^ dm[i])"#,
  text! r#"		}"#,
  text! r#"	}"#,
  text! r#"	for i := uint32(20); i > 0; i-- {"#,
  text! r#"		j := i - 1"#,
  text! r#"		a, b, c, d, e = b, c, d, e, a"#,
  text! r#"		if step > j {"#,
  text! r#"			b = bits.RotateLeft32(b, -30) // undo the rotate left"#,
  text! r#"			f := b&c | (^b)&d"#,
  text! r#"			// subtract from e"#,
  text! r#"			e -= bits.RotateLeft32(a, 5) + f + shared.K0 + (m1[j] ^ dm[j])"#,
  text! r#"		}"#,
  text! r#"	}"#,
  text! r#""#,
  text! r#"	ihv[0] = a"#,
  text! r#"	ihv[1] = b"#,
  text! r#"	ihv[2] = c"#,
  text! r#"	ihv[3] = d"#,
  text! r#"	ihv[4] = e"#,
  text! r#"	a = state[0]"#,
  text! r#"	b = state[1]"#,
  text! r#"	c = state[2]"#,
  text! r#"	d = state[3]"#,
  text! r#"	e = state[4]"#,
  text! r#""#,
  text! r#"	// Recompress blocks based on the current step."#,
  text! r#"	// The existing collision detection does not have dvs below 58, so they have been removed"#,
  text! r#"	// from the source code. If new dvs are added which target rounds below 40, that logic"#,
  text! r#"	// will need to be readded here."#,
  text! r#"	for i := uint32(40); i < 60; i++ {"#,
  text! r#"		if step <= i {"#,
  text! r#"			f := ((b | c) & d) | (b & c)"#,
  text! r#"			t := bits.RotateLeft32(a, 5) + f + e + shared.K2 + (m1[i] ^ dm[i])"#,
  text! r#"			a, b, c, d, e = t, a, bits.RotateLeft32(b, 30), c, d"#,
  text! r#"		}"#,
  text! r#"	}"#,
  text! r#"	for i := uint32(60); i < 80; i++ {"#,
  text! r#"		if step <= i {"#,
  text! r#"			f := b ^ c ^ d"#,
  text! r#"			t := bits.RotateLeft32(a, 5) + f + e + shared.K3 + (m1[i] ^ dm[i])"#,
  text! r#"			a, b, c, d, e = t, a, bits.RotateLeft32(b, 30), c, d"#,
  text! r#"		}"#,
  text! r#"	}"#,
  text! r#""#,
  text! r#"	ihv[0] += a"#,
  text! r#"	ihv[1] += b"#,
  text! r#"	ihv[2] += c"#,
  text! r#"	ihv[3] += d"#,
  text! r#"	ihv[4] += e"#,
  text! r#""#,
  text! r#"	if ((ihv[0] ^ h[0]) | (ihv[1] ^ h[1]) |"#,
  text! r#"		(ihv[2] ^ h[2]) | (ihv[3] ^ h[3]) | (ihv[4] ^ h[4])) == 0 {"#,
  text! r#"		return true"#,
  text! r#"	}"#,
  text! r#""#,
  text! r#"	return false"#,
  text! r#"}"#,
  text! r#""#,
  text! r#"// rectifyCompressionState fixes the compression state when using the"#,
  text! r#"// SIMD implementations."#,
  text! r#"//"#,
  text! r#"// Due to the way that hardware acceleration works, the rounds"#,
  text! r#"// are executed 4 at a time. Therefore, the state for cs58 and cs65"#,
  text! r#"// are not available directly through the assembly logic. The states"#,
  text! r#"// returned are for cs56 and cs64. This function updates indexes 1 and 2"#,
  text! r#"// of cs to contain the respective CS values for rounds 58 and 65."#,
  text! r#"//"#,
  text! r#"//go:nosplit"#,
  text! r#"func rectifyCompressionState("#,
  text! r#"	m1 *[shared.Rounds]uint32,"#,
  text! r#"	cs *[shared.PreStepState][shared.WordBuffers]uint32,"#,
  text! r#") {"#,
  text! r#"	if cs == nil {"#,
  text! r#"		return"#,
  text! r#"	}"#,
  text! r#""#,
  text! r#"	func3 := func(state [shared.WordBuffers]uint32, i int) [shared.WordBuffers]uint32 {"#,
  text! r#"		a, b, c, d, e := state[0], state[1], state[2], state[3], state[4]"#,
  text! r#""#,
  text! r#"		f := ((b | c) & d) | (b & c)"#,
  text! r#"		t := bits.RotateLeft32(a, 5) + f + e + m1[i] + shared.K2"#,
  text! r#"		a, b, c, d, e = t, a, bits.RotateLeft32(b, 30), c, d"#,
  text! r#"		return [shared.WordBuffers]uint32{a, b, c, d, e}"#,
  text! r#"	}"#,
  text! r#"	func4 := func(state [shared.WordBuffers]uint32, i int) [shared.WordBuffers]uint32 {"#,
  text! r#"		a, b, c, d, e := state[0], state[1], state[2], state[3], state[4]"#,
  text! r#"		f := b ^ c ^ d"#,
  text! r#"		t := bits.RotateLeft32(a, 5) + f + e + m1[i] + shared.K3"#,
  text! r#"		a, b, c, d, e = t, a, bits.RotateLeft32(b, 30), c, d"#,
  text! r#"		return [shared.WordBuffers]uint32{a, b, c, d, e}"#,
  text! r#"	}"#,
  text! r#""#,
  text! r#"	cs57 := func3(cs[1], 56)"#,
  text! r#"	cs[1] = func3(cs57, 57)"#,
  text! r#"	cs[2] = func4(cs[2], 64)"#,
  text! r#"}"#]

/-- sha1cdblock_amd64.go:1-52 -/
def blockAmd64Lines : List (List Nat) := [
  text! r#"//go:build !noasm && gc && amd64 && !arm64"#,
  text! r#"// +build !noasm,gc,amd64,!arm64"#,
  text! r#""#,
  text! r#"package sha1cd"#,
  text! r#""#,
  text! r#"import ("#,
  text! r#"	"runtime""#,
  text! r#""#,
  text! r#"	"github.com/klauspost/cpuid/v2""#,
  text! r#"	shared "github.com/pjbgf/sha1cd/internal""#,
  text! r#")"#,
  text! r#""#,
  text! r#"var hasSHANI = (runtime.GOARCH == "amd64" &&"#,
  text! r#"	cpuid.CPU.Supports(cpuid.AVX) &&"#,
  text! r#"	cpuid.CPU.Supports(cpuid.SHA) &&"#,
  text! r#"	cpuid.CPU.Supports(cpuid.SSE3) &&"#,
  text! r#"	cpuid.CPU.Supports(cpuid.SSE4))"#,
  text! r#""#,
  text! r#"// blockAMD64 hashes the message p into the current state in h."#,
  text! r#"// Both m1 and cs are used to store intermediate results which are used by the collision detection logic."#,
  text! r#"//"#,
  text! r#"//go:noescape"#,
  text! r#"func blockAMD64(h []uint32, p []byte, m1 []uint32, cs [][5]uint32)"#,
  text! r#""#,
  text! r#"func block(dig *digest, p []byte) {"#,
  text! r#"	if forceGeneric || !hasSHANI {"#,
  text! r#"		blockGeneric(dig, p)"#,
  text! r#"		return"#,
  text! r#"	}"#,
  text! r#""#,
  text! r#"	m1 := [shared.Rounds]uint32{}"#,
  text! r#"	cs := [shared.PreStepState][shared.WordBuffers]uint32{}"#,
  text! r#""#,
  text! r#"	for len(p) >= shared.Chunk {"#,
  text! r#"		// The assembly code only supports processing a block at a time,"#,
  text! r#"		// so adjust the chunk accordingly."#,
  text! r#"		chunk := p[:shared.Chunk]"#,
  text! r#""#,
  text! r#"		blockAMD64(dig.h[:], chunk, m1[:], cs[:])"#,
  text! r#"		rectifyCompressionState(&m1, &cs)"#,
  text! r#""#,
  text! r#"		col := checkCollision(&m1, &cs, &dig.h)"#,
  text! r#"		if col {"#,
  text! r#"			dig.col = true"#,
  text! r#""#,
  text! r#"			blockAMD64(dig.h[:], chunk, m1[:], cs[:])"#,
  text! r#"			blockAMD64(dig.h[:], chunk, m1[:], cs[:])"#,
  text! r#"		}"#,
  text! r#""#,
  text! r#"		p = p[shared.Chunk:]"#,
  text! r#"	}"#,
  text! r#"}"#]

/-- sha1cdblock_arm64.go:1-48 -/
def blockArm64Lines : List (List Nat) := [
  text! r#"//go:build !noasm && gc && arm64 && !amd64"#,
  text! r#"// +build !noasm,gc,arm64,!amd64"#,
  text! r#""#,
  text! r#"package sha1cd"#,
  text! r#""#,
  text! r#"import ("#,
  text! r#"	"runtime""#,
  text! r#""#,
  text! r#"	"github.com/klauspost/cpuid/v2""#,
  text! r#"	shared "github.com/pjbgf/sha1cd/internal""#,
  text! r#")"#,
  text! r#""#,
  text! r#"var hasSHA1 = (runtime.GOARCH == "arm64" && cpuid.CPU.Supports(cpuid.SHA1))"#,
  text! r#""#,
  text! r#"// blockARM64 hashes the message p into the current state in h."#,
  text! r#"// Both m1 and cs are used to store intermediate results which are used by the collision detection logic."#,
  text! r#"//"#,
  text! r#"//go:noescape"#,
  text! r#"func blockARM64(h []uint32, p []byte, m1 []uint32, cs [][5]uint32)"#,
  text! r#""#,
  text! r#"func block(dig *digest, p []byte) {"#,
  text! r#"	if forceGeneric || !hasSHA1 {"#,
  text! r#"		blockGeneric(dig, p)"#,
  text! r#"		return"#,
  text! r#"	}"#,
  text! r#""#,
  text! r#"	m1 := [shared.Rounds]uint32{}"#,
  text! r#"	cs := [shared.PreStepState][shared.WordBuffers]uint32{}"#,
  text! r#""#,
  text! r#"	for len(p) >= shared.Chunk {"#,
  text! r#"		// The assembly code only supports processing a block at a time,"#,
  text! r#"		// so adjust the chunk accordingly."#,
  text! r#"		chunk := p[:shared.Chunk]"#,
  text! r#""#,
  text! r#"		blockARM64(dig.h[:], chunk, m1[:], cs[:])"#,
  text! r#""#,
  text! r#"		rectifyCompressionState(&m1, &cs)"#,
  text! r#"		col := checkCollision(&m1, &cs, &dig.h)"#,
  text! r#"		if col {"#,
  text! r#"			dig.col = true"#,
  text! r#""#,
  text! r#"			blockARM64(dig.h[:], chunk, m1[:], cs[:])"#,
  text! r#"			blockARM64(dig.h[:], chunk, m1[:], cs[:])"#,
  text! r#"		}"#,
  text! r#""#,
  text! r#"		p = p[shared.Chunk:]"#,
  text! r#"	}"#,
  text! r#"}"#]

/-- sha1cdblock_noasm.go:1-7 -/
def blockNoasmLines : List (List Nat) := [
  text! r#"//go:build (!amd64 && !arm64) || noasm"#,
  text! r#""#,
  text! r#"package sha1cd"#,
  text! r#""#,
  text! r#"func block(dig *digest, p []byte) {"#,
  text! r#"	blockGeneric(dig, p)"#,
  text! r#"}"#]

end Verif.Source
