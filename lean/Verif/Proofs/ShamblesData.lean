import Verif.Spec.Sha1

/-!
The public chosen-prefix collision, for concrete instances of the theorems: the two files
/repo/test/testdata/files/sha-mbles-{1,2}.bin, complete, and the digests that /repo/test/native_test.go:144-155
expects for them.
-/

namespace Verif

/-- test/testdata/files/sha-mbles-1.bin. -/
def shambles1 : List Byte := [
  0x99, 0x04, 0x0d, 0x04, 0x7f, 0xe8, 0x17, 0x80, 0x01, 0x20, 0x00, 0xff, 0x4b, 0x65, 0x79, 0x20,
  0x69, 0x73, 0x20, 0x70, 0x61, 0x72, 0x74, 0x20, 0x6f, 0x66, 0x20, 0x61, 0x20, 0x63, 0x6f, 0x6c,
  0x6c, 0x69, 0x73, 0x69, 0x6f, 0x6e, 0x21, 0x20, 0x49, 0x74, 0x27, 0x73, 0x20, 0x61, 0x20, 0x74,
  0x72, 0x61, 0x70, 0x21, 0x79, 0xc6, 0x1a, 0xf0, 0xaf, 0xcc, 0x05, 0x45, 0x15, 0xd9, 0x27, 0x4e,
  0x73, 0x07, 0x62, 0x4b, 0x1d, 0xc7, 0xfb, 0x23, 0x98, 0x8b, 0xb8, 0xde, 0x8b, 0x57, 0x5d, 0xba,
  0x7b, 0x9e, 0xab, 0x31, 0xc1, 0x67, 0x4b, 0x6d, 0x97, 0x43, 0x78, 0xa8, 0x27, 0x73, 0x2f, 0xf5,
  0x85, 0x1c, 0x76, 0xa2, 0xe6, 0x07, 0x72, 0xb5, 0xa4, 0x7c, 0xe1, 0xea, 0xc4, 0x0b, 0xb9, 0x93,
  0xc1, 0x2d, 0x8c, 0x70, 0xe2, 0x4a, 0x4f, 0x8d, 0x5f, 0xcd, 0xed, 0xc1, 0xb3, 0x2c, 0x9c, 0xf1,
  0x9e, 0x31, 0xaf, 0x24, 0x29, 0x75, 0x9d, 0x42, 0xe4, 0xdf, 0xdb, 0x31, 0x71, 0x9f, 0x58, 0x76,
  0x23, 0xee, 0x55, 0x29, 0x39, 0xb6, 0xdc, 0xdc, 0x45, 0x9f, 0xca, 0x53, 0x55, 0x3b, 0x70, 0xf8,
  0x7e, 0xde, 0x30, 0xa2, 0x47, 0xea, 0x3a, 0xf6, 0xc7, 0x59, 0xa2, 0xf2, 0x0b, 0x32, 0x0d, 0x76,
  0x0d, 0xb6, 0x4f, 0xf4, 0x79, 0x08, 0x4f, 0xd3, 0xcc, 0xb3, 0xcd, 0xd4, 0x83, 0x62, 0xd9, 0x6a,
  0x9c, 0x43, 0x06, 0x17, 0xca, 0xff, 0x6c, 0x36, 0xc6, 0x37, 0xe5, 0x3f, 0xde, 0x28, 0x41, 0x7f,
  0x62, 0x6f, 0xec, 0x54, 0xed, 0x79, 0x43, 0xa4, 0x6e, 0x5f, 0x57, 0x30, 0xf2, 0xbb, 0x38, 0xfb,
  0x1d, 0xf6, 0xe0, 0x09, 0x00, 0x10, 0xd0, 0x0e, 0x24, 0xad, 0x78, 0xbf, 0x92, 0x64, 0x19, 0x93,
  0x60, 0x8e, 0x8d, 0x15, 0x8a, 0x78, 0x9f, 0x34, 0xc4, 0x6f, 0xe1, 0xe6, 0x02, 0x7f, 0x35, 0xa4,
  0xcb, 0xfb, 0x82, 0x70, 0x76, 0xc5, 0x0e, 0xca, 0x0e, 0x8b, 0x7c, 0xca, 0x69, 0xbb, 0x2c, 0x2b,
  0x79, 0x02, 0x59, 0xf9, 0xbf, 0x95, 0x70, 0xdd, 0x8d, 0x44, 0x37, 0xa3, 0x11, 0x5f, 0xaf, 0xf7,
  0xc3, 0xca, 0xc0, 0x9a, 0xd2, 0x52, 0x66, 0x05, 0x5c, 0x27, 0x10, 0x47, 0x55, 0x17, 0x8e, 0xae,
  0xff, 0x82, 0x5a, 0x2c, 0xaa, 0x2a, 0xcf, 0xb5, 0xde, 0x64, 0xce, 0x76, 0x41, 0xdc, 0x59, 0xa5,
  0x41, 0xa9, 0xfc, 0x9c, 0x75, 0x67, 0x56, 0xe2, 0xe2, 0x3d, 0xc7, 0x13, 0xc8, 0xc2, 0x4c, 0x97,
  0x90, 0xaa, 0x6b, 0x0e, 0x38, 0xa7, 0xf5, 0x5f, 0x14, 0x45, 0x2a, 0x1c, 0xa2, 0x85, 0x0d, 0xdd,
  0x95, 0x62, 0xfd, 0x9a, 0x18, 0xad, 0x42, 0x49, 0x6a, 0xa9, 0x70, 0x08, 0xf7, 0x46, 0x72, 0xf6,
  0x8e, 0xf4, 0x61, 0xeb, 0x88, 0xb0, 0x99, 0x33, 0xd6, 0x26, 0xb4, 0xf9, 0x18, 0x74, 0x9c, 0xc0,
  0x27, 0xfd, 0xdd, 0x6c, 0x42, 0x5f, 0xc4, 0x21, 0x68, 0x35, 0xd0, 0x13, 0x4d, 0x15, 0x28, 0x5b,
  0xab, 0x2c, 0xb7, 0x84, 0xa4, 0xf7, 0xcb, 0xb4, 0xfb, 0x51, 0x4d, 0x4b, 0xf0, 0xf6, 0x23, 0x7c,
  0xf0, 0x0a, 0x9e, 0x9f, 0x13, 0x2b, 0x9a, 0x06, 0x6e, 0x6f, 0xd1, 0x7f, 0x6c, 0x42, 0x98, 0x74,
  0x78, 0x58, 0x6f, 0xf6, 0x51, 0xaf, 0x96, 0x74, 0x7f, 0xb4, 0x26, 0xb9, 0x87, 0x2b, 0x9a, 0x88,
  0xe4, 0x06, 0x3f, 0x59, 0xbb, 0x33, 0x4c, 0xc0, 0x06, 0x50, 0xf8, 0x3a, 0x80, 0xc4, 0x27, 0x51,
  0xb7, 0x19, 0x74, 0xd3, 0x00, 0xfc, 0x28, 0x19, 0xa2, 0xe8, 0xf1, 0xe3, 0x2c, 0x1b, 0x51, 0xcb,
  0x18, 0xe6, 0xbf, 0xc4, 0xdb, 0x9b, 0xae, 0xf6, 0x75, 0xd4, 0xaa, 0xf5, 0xb1, 0x57, 0x4a, 0x04,
  0x7f, 0x8f, 0x6d, 0xd2, 0xec, 0x15, 0x3a, 0x93, 0x41, 0x22, 0x93, 0x97, 0x4d, 0x92, 0x8f, 0x88,
  0xce, 0xd9, 0x36, 0x3c, 0xfe, 0xf9, 0x7c, 0xe2, 0xe7, 0x42, 0xbf, 0x34, 0xc9, 0x6b, 0x8e, 0xf3,
  0x87, 0x56, 0x76, 0xfe, 0xa5, 0xcc, 0xa8, 0xe5, 0xf7, 0xde, 0xa0, 0xba, 0xb2, 0x41, 0x3d, 0x4d,
  0xe0, 0x0e, 0xe7, 0x1e, 0xe0, 0x1f, 0x16, 0x2b, 0xdb, 0x6d, 0x1e, 0xaf, 0xd9, 0x25, 0xe6, 0xae,
  0xba, 0xae, 0x6a, 0x35, 0x4e, 0xf1, 0x7c, 0xf2, 0x05, 0xa4, 0x04, 0xfb, 0xdb, 0x12, 0xfc, 0x45,
  0x4d, 0x41, 0xfd, 0xd9, 0x5c, 0xf2, 0x45, 0x96, 0x64, 0xa2, 0xad, 0x03, 0x2d, 0x1d, 0xa6, 0x0a,
  0x73, 0x26, 0x40, 0x75, 0xd7, 0xf1, 0xe0, 0xd6, 0xc1, 0x40, 0x3a, 0xe7, 0xa0, 0xd8, 0x61, 0xdf,
  0x3f, 0xe5, 0x70, 0x71, 0x88, 0xdd, 0x5e, 0x07, 0xd1, 0x58, 0x9b, 0x9f, 0x8b, 0x66, 0x30, 0x55,
  0x3f, 0x8f, 0xc3, 0x52, 0xb3, 0xe0, 0xc2, 0x7d, 0xa8, 0x0b, 0xdd, 0xba, 0x4c, 0x64, 0x02, 0x0d]

/-- test/testdata/files/sha-mbles-2.bin. -/
def shambles2 : List Byte := [
  0x99, 0x03, 0x0d, 0x04, 0x7f, 0xe8, 0x17, 0x80, 0x01, 0x18, 0x00, 0xff, 0x50, 0x72, 0x61, 0x63,
  0x74, 0x69, 0x63, 0x61, 0x6c, 0x20, 0x53, 0x48, 0x41, 0x2d, 0x31, 0x20, 0x63, 0x68, 0x6f, 0x73,
  0x65, 0x6e, 0x2d, 0x70, 0x72, 0x65, 0x66, 0x69, 0x78, 0x20, 0x63, 0x6f, 0x6c, 0x6c, 0x69, 0x73,
  0x69, 0x6f, 0x6e, 0x21, 0x1d, 0x27, 0x6c, 0x6b, 0xa6, 0x61, 0xe1, 0x04, 0x0e, 0x1f, 0x7d, 0x76,
  0x7f, 0x07, 0x62, 0x49, 0xdd, 0xc7, 0xfb, 0x33, 0x2c, 0x8b, 0xb8, 0xc2, 0xb7, 0x57, 0x5d, 0xbe,
  0xc7, 0x9e, 0xab, 0x2b, 0xe1, 0x67, 0x4b, 0x7d, 0xb3, 0x43, 0x78, 0xb4, 0xcb, 0x73, 0x2f, 0xe1,
  0x89, 0x1c, 0x76, 0xa0, 0x26, 0x07, 0x72, 0xa5, 0x10, 0x7c, 0xe1, 0xf6, 0xe8, 0x0b, 0xb9, 0x97,
  0x7d, 0x2d, 0x8c, 0x68, 0x52, 0x4a, 0x4f, 0x9d, 0x5f, 0xcd, 0xed, 0xcd, 0x0b, 0x2c, 0x9c, 0xe1,
  0x92, 0x31, 0xaf, 0x26, 0xe9, 0x75, 0x9d, 0x52, 0x50, 0xdf, 0xdb, 0x2d, 0x4d, 0x9f, 0x58, 0x72,
  0x9f, 0xee, 0x55, 0x33, 0x19, 0xb6, 0xdc, 0xcc, 0x61, 0x9f, 0xca, 0x4f, 0xb9, 0x3b, 0x70, 0xec,
  0x72, 0xde, 0x30, 0xa0, 0x87, 0xea, 0x3a, 0xe6, 0x73, 0x59, 0xa2, 0xee, 0x27, 0x32, 0x0d, 0x72,
  0xb1, 0xb6, 0x4f, 0xec, 0xc9, 0x08, 0x4f, 0xc3, 0xcc, 0xb3, 0xcd, 0xd8, 0x3b, 0x62, 0xd9, 0x7a,
  0x90, 0x43, 0x06, 0x15, 0x0a, 0xff, 0x6c, 0x26, 0x72, 0x37, 0xe5, 0x23, 0xe2, 0x28, 0x41, 0x7b,
  0xde, 0x6f, 0xec, 0x4e, 0xcd, 0x79, 0x43, 0xb4, 0x4a, 0x5f, 0x57, 0x2c, 0x1e, 0xbb, 0x38, 0xef,
  0x11, 0xf6, 0xe0, 0x0b, 0xc0, 0x10, 0xd0, 0x1e, 0x90, 0xad, 0x78, 0xa3, 0xbe, 0x64, 0x19, 0x97,
  0xdc, 0x8e, 0x8d, 0x0d, 0x3a, 0x78, 0x9f, 0x24, 0xc4, 0x6f, 0xe1, 0xea, 0xba, 0x7f, 0x35, 0xb4,
  0xc7, 0xfb, 0x82, 0x72, 0xb6, 0xc5, 0x0e, 0xda, 0xba, 0x8b, 0x7c, 0xd6, 0x55, 0xbb, 0x2c, 0x2f,
  0xc5, 0x02, 0x59, 0xe3, 0x9f, 0x95, 0x70, 0xcd, 0xa9, 0x44, 0x37, 0xbf, 0xfd, 0x5f, 0xaf, 0xe3,
  0xcf, 0xca, 0xc0, 0x98, 0x12, 0x52, 0x66, 0x15, 0xe8, 0x27, 0x10, 0x5b, 0x79, 0x17, 0x8e, 0xaa,
  0x43, 0x82, 0x5a, 0x34, 0x1a, 0x2a, 0xcf, 0xa5, 0xde, 0x64, 0xce, 0x7a, 0xf9, 0xdc, 0x59, 0xb5,
  0x4d, 0xa9, 0xfc, 0x9e, 0xb5, 0x67, 0x56, 0xf2, 0x56, 0x3d, 0xc7, 0x0f, 0xf4, 0xc2, 0x4c, 0x93,
  0x2c, 0xaa, 0x6b, 0x14, 0x18, 0xa7, 0xf5, 0x4f, 0x30, 0x45, 0x2a, 0x00, 0x4e, 0x85, 0x0d, 0xc9,
  0x99, 0x62, 0xfd, 0x98, 0xd8, 0xad, 0x42, 0x59, 0xde, 0xa9, 0x70, 0x14, 0xdb, 0x46, 0x72, 0xf2,
  0x32, 0xf4, 0x61, 0xf3, 0x38, 0xb0, 0x99, 0x23, 0xd6, 0x26, 0xb4, 0xf5, 0xa0, 0x74, 0x9c, 0xd0,
  0x2b, 0xfd, 0xdd, 0x6e, 0x82, 0x5f, 0xc4, 0x31, 0xdc, 0x35, 0xd0, 0x0f, 0x71, 0x15, 0x28, 0x5f,
  0x17, 0x2c, 0xb7, 0x9e, 0x84, 0xf7, 0xcb, 0xa4, 0xdf, 0x51, 0x4d, 0x57, 0x1c, 0xf6, 0x23, 0x68,
  0xfc, 0x0a, 0x9e, 0x9d, 0xd3, 0x2b, 0x9a, 0x16, 0xda, 0x6f, 0xd1, 0x63, 0x40, 0x42, 0x98, 0x70,
  0xc4, 0x58, 0x6f, 0xee, 0xe1, 0xaf, 0x96, 0x64, 0x7f, 0xb4, 0x26, 0xb5, 0x3f, 0x2b, 0x9a, 0x98,
  0xe8, 0x06, 0x3f, 0x5b, 0x7b, 0x33, 0x4c, 0xd0, 0xb2, 0x50, 0xf8, 0x26, 0xbc, 0xc4, 0x27, 0x55,
  0x0b, 0x19, 0x74, 0xc9, 0x20, 0xfc, 0x28, 0x09, 0x86, 0xe8, 0xf1, 0xff, 0xc0, 0x1b, 0x51, 0xdf,
  0x14, 0xe6, 0xbf, 0xc6, 0x1b, 0x9b, 0xae, 0xe6, 0xc1, 0xd4, 0xaa, 0xe9, 0x9d, 0x57, 0x4a, 0x00,
  0xc3, 0x8f, 0x6d, 0xca, 0x5c, 0x15, 0x3a, 0x83, 0x41, 0x22, 0x93, 0x9b, 0xf5, 0x92, 0x8f, 0x98,
  0xc2, 0xd9, 0x36, 0x3e, 0x3e, 0xf9, 0x7c, 0xf2, 0x53, 0x42, 0xbf, 0x28, 0xf5, 0x6b, 0x8e, 0xf7,
  0x3b, 0x56, 0x76, 0xe4, 0x85, 0xcc, 0xa8, 0xf5, 0xd3, 0xde, 0xa0, 0xa6, 0x5e, 0x41, 0x3d, 0x59,
  0xec, 0x0e, 0xe7, 0x1c, 0x20, 0x1f, 0x16, 0x3b, 0x6f, 0x6d, 0x1e, 0xb3, 0xf5, 0x25, 0xe6, 0xaa,
  0x06, 0xae, 0x6a, 0x2d, 0xfe, 0xf1, 0x7c, 0xe2, 0x05, 0xa4, 0x04, 0xf7, 0x63, 0x12, 0xfc, 0x55,
  0x41, 0x41, 0xfd, 0xdb, 0x9c, 0xf2, 0x45, 0x86, 0xd0, 0xa2, 0xad, 0x1f, 0x11, 0x1d, 0xa6, 0x0e,
  0xcf, 0x26, 0x40, 0x6f, 0xf7, 0xf1, 0xe0, 0xc6, 0xe5, 0x40, 0x3a, 0xfb, 0x4c, 0xd8, 0x61, 0xcb,
  0x33, 0xe5, 0x70, 0x73, 0x48, 0xdd, 0x5e, 0x17, 0x65, 0x58, 0x9b, 0x83, 0xa7, 0x66, 0x30, 0x51,
  0x83, 0x8f, 0xc3, 0x4a, 0x03, 0xe0, 0xc2, 0x6d, 0xa8, 0x0b, 0xdd, 0xb6, 0xf4, 0x64, 0x02, 0x1d]

/-- test/native_test.go:148. -/
def shamblesDigest1 : List Byte := [
  0x4f, 0x3d, 0x9b, 0xe4, 0xa4, 0x72, 0xc4, 0xda, 0xe8, 0x3c, 0x63, 0x14, 0xaa, 0x6c, 0x36, 0xa0,
  0x64, 0xc1, 0xfd, 0x14]

/-- test/native_test.go:154. -/
def shamblesDigest2 : List Byte := [
  0x9e, 0xd5, 0xd7, 0x7a, 0x4f, 0x48, 0xbe, 0x1d, 0xbf, 0x3e, 0x9e, 0x15, 0x65, 0x07, 0x33, 0xeb,
  0x85, 0x08, 0x97, 0xf2]

/-- test/testdata/files/valid-file.txt. -/
def validFile : List Byte := [
  0x74, 0x68, 0x69, 0x73, 0x20, 0x69, 0x73, 0x20, 0x6e, 0x6f, 0x74, 0x20, 0x61, 0x20, 0x63, 0x6f,
  0x6c, 0x6c, 0x69, 0x73, 0x69, 0x6f, 0x6e, 0x20, 0x61, 0x74, 0x74, 0x61, 0x63, 0x6b, 0x0d, 0x0a]

/-- test/native_test.go:159. -/
def validFileDigest : List Byte := [
  0x2b, 0x91, 0x5d, 0xa5, 0x0f, 0x16, 0x35, 0x14, 0xd3, 0x90, 0xc9, 0xd8, 0x7a, 0x4f, 0x3e, 0x23,
  0xeb, 0x66, 0x3f, 0x8a]

end Verif
