import Verif.Proofs.Witness

/-!
The expectations of the repository's unit tests, transcribed by script from sha1cd_test.go.
-/

namespace Verif

open Verif.Model Verif.Spec

/-- sha1cd_test.go:18-22: the digest, the message, and the checkpoint after the first half of the message. -/
structure GoldenCase where
  out : List Byte
  inp : List Byte
  half : List Byte

/-- sha1cd_test.go:26. -/
def golden0 : GoldenCase where
  out := [0x76, 0x24, 0x5d, 0xbf, 0x96, 0xf6, 0x61, 0xbd, 0x22, 0x10, 0x46, 0x19, 0x7a, 0xb8, 0xb9, 0xf0,
     0x63, 0xf1, 0x1b, 0xad]
  inp := [0x61, 0x61, 0x61, 0x61, 0x61, 0x61, 0x61, 0x61, 0x61, 0x61, 0x61, 0x61, 0x61, 0x61, 0x61, 0x61,
     0x61, 0x61, 0x61, 0x61, 0x61, 0x61, 0x61, 0x61, 0x61, 0x61, 0x61, 0x61, 0x61, 0x61, 0x61, 0x61,
     0x61, 0x61, 0x61, 0x61, 0x61, 0x61, 0x61, 0x61, 0x61, 0x61, 0x61, 0x61, 0x61, 0x61, 0x61, 0x61,
     0x61, 0x61, 0x61, 0x61, 0x61, 0x61, 0x61, 0x61, 0x61, 0x61, 0x61, 0x61, 0x61, 0x61, 0x61, 0x61,
     0x61, 0x61, 0x61, 0x61, 0x61, 0x61, 0x61, 0x61, 0x61, 0x61, 0x61, 0x61, 0x61, 0x61, 0x61, 0x61,
     0x61, 0x61, 0x61, 0x61, 0x61, 0x61, 0x61, 0x61, 0x61, 0x61, 0x61, 0x61, 0x61, 0x61, 0x61, 0x61,
     0x61, 0x61, 0x61, 0x61, 0x61, 0x61, 0x61, 0x61, 0x61, 0x61, 0x61, 0x61, 0x61, 0x61, 0x61, 0x61,
     0x61, 0x61, 0x61, 0x61, 0x61, 0x61, 0x61, 0x61, 0x61, 0x61, 0x61, 0x61, 0x61, 0x61, 0x61, 0x61,
     0x61, 0x61, 0x61, 0x61, 0x61, 0x61, 0x61, 0x61, 0x61, 0x61, 0x61, 0x61, 0x61, 0x61, 0x61, 0x61,
     0x61, 0x61, 0x61, 0x61, 0x61, 0x61, 0x61, 0x61, 0x61, 0x61, 0x61, 0x61, 0x61, 0x61, 0x61, 0x61,
     0x61, 0x61, 0x61, 0x61, 0x61, 0x61, 0x61, 0x61, 0x61, 0x61, 0x61, 0x61, 0x61, 0x61, 0x61, 0x61,
     0x61, 0x61, 0x61, 0x61, 0x61, 0x61, 0x61, 0x61, 0x61, 0x61, 0x61, 0x61, 0x61, 0x61, 0x61, 0x61,
     0x61, 0x61, 0x61, 0x61, 0x61, 0x61, 0x61, 0x61, 0x61, 0x61, 0x61, 0x61, 0x61, 0x61, 0x61, 0x61,
     0x61, 0x61, 0x61, 0x61, 0x61, 0x61, 0x61, 0x61, 0x61, 0x61, 0x61, 0x61, 0x61, 0x61, 0x61, 0x61,
     0x61, 0x61, 0x61, 0x61, 0x61, 0x61, 0x61, 0x61, 0x61, 0x61, 0x61, 0x61, 0x61, 0x61, 0x61, 0x61,
     0x61, 0x61, 0x61, 0x61, 0x61, 0x61, 0x61, 0x61, 0x61, 0x61, 0x61, 0x61, 0x61, 0x61, 0x61, 0x61,
     0x61, 0x61, 0x61, 0x61, 0x61, 0x61, 0x61, 0x61, 0x61, 0x61, 0x61, 0x61, 0x61, 0x61, 0x61, 0x61,
     0x61, 0x61, 0x61, 0x61, 0x61, 0x61, 0x61, 0x61, 0x61, 0x61, 0x61, 0x61, 0x61, 0x61, 0x61, 0x61,
     0x61, 0x61, 0x61, 0x61, 0x61, 0x61, 0x61, 0x61, 0x61, 0x61, 0x61, 0x61, 0x0a]
  half := [0x73, 0x68, 0x61, 0x63, 0x64, 0x01, 0x0b, 0xa0, 0x29, 0x49, 0xde, 0x71, 0x28, 0x38, 0x68, 0x9e,
     0x76, 0xe5, 0x88, 0x5b, 0xf8, 0x81, 0x17, 0xba, 0x34, 0x44, 0x61, 0x61, 0x61, 0x61, 0x61, 0x61,
     0x61, 0x61, 0x61, 0x61, 0x61, 0x61, 0x61, 0x61, 0x61, 0x61, 0x61, 0x61, 0x61, 0x61, 0x61, 0x61,
     0x00, 0x00, 0x00, 0x00, 0x00, 0x00, 0x00, 0x00, 0x00, 0x00, 0x00, 0x00, 0x00, 0x00, 0x00, 0x00,
     0x00, 0x00, 0x00, 0x00, 0x00, 0x00, 0x00, 0x00, 0x00, 0x00, 0x00, 0x00, 0x00, 0x00, 0x00, 0x00,
     0x00, 0x00, 0x00, 0x00, 0x00, 0x00, 0x00, 0x00, 0x00, 0x00, 0x00, 0x00, 0x00, 0x00, 0x00, 0x00,
     0x00, 0x96]

/-- sha1cd_test.go:27. -/
def golden1 : GoldenCase where
  out := [0xda, 0x39, 0xa3, 0xee, 0x5e, 0x6b, 0x4b, 0x0d, 0x32, 0x55, 0xbf, 0xef, 0x95, 0x60, 0x18, 0x90,
     0xaf, 0xd8, 0x07, 0x09]
  inp := []
  half := [0x73, 0x68, 0x61, 0x63, 0x64, 0x01, 0x67, 0x45, 0x23, 0x01, 0xef, 0xcd, 0xab, 0x89, 0x98, 0xba,
     0xdc, 0xfe, 0x10, 0x32, 0x54, 0x76, 0xc3, 0xd2, 0xe1, 0xf0, 0x00, 0x00, 0x00, 0x00, 0x00, 0x00,
     0x00, 0x00, 0x00, 0x00, 0x00, 0x00, 0x00, 0x00, 0x00, 0x00, 0x00, 0x00, 0x00, 0x00, 0x00, 0x00,
     0x00, 0x00, 0x00, 0x00, 0x00, 0x00, 0x00, 0x00, 0x00, 0x00, 0x00, 0x00, 0x00, 0x00, 0x00, 0x00,
     0x00, 0x00, 0x00, 0x00, 0x00, 0x00, 0x00, 0x00, 0x00, 0x00, 0x00, 0x00, 0x00, 0x00, 0x00, 0x00,
     0x00, 0x00, 0x00, 0x00, 0x00, 0x00, 0x00, 0x00, 0x00, 0x00, 0x00, 0x00, 0x00, 0x00, 0x00, 0x00,
     0x00, 0x00]

/-- sha1cd_test.go:28. -/
def golden2 : GoldenCase where
  out := [0x86, 0xf7, 0xe4, 0x37, 0xfa, 0xa5, 0xa7, 0xfc, 0xe1, 0x5d, 0x1d, 0xdc, 0xb9, 0xea, 0xea, 0xea,
     0x37, 0x76, 0x67, 0xb8]
  inp := [0x61]
  half := [0x73, 0x68, 0x61, 0x63, 0x64, 0x01, 0x67, 0x45, 0x23, 0x01, 0xef, 0xcd, 0xab, 0x89, 0x98, 0xba,
     0xdc, 0xfe, 0x10, 0x32, 0x54, 0x76, 0xc3, 0xd2, 0xe1, 0xf0, 0x00, 0x00, 0x00, 0x00, 0x00, 0x00,
     0x00, 0x00, 0x00, 0x00, 0x00, 0x00, 0x00, 0x00, 0x00, 0x00, 0x00, 0x00, 0x00, 0x00, 0x00, 0x00,
     0x00, 0x00, 0x00, 0x00, 0x00, 0x00, 0x00, 0x00, 0x00, 0x00, 0x00, 0x00, 0x00, 0x00, 0x00, 0x00,
     0x00, 0x00, 0x00, 0x00, 0x00, 0x00, 0x00, 0x00, 0x00, 0x00, 0x00, 0x00, 0x00, 0x00, 0x00, 0x00,
     0x00, 0x00, 0x00, 0x00, 0x00, 0x00, 0x00, 0x00, 0x00, 0x00, 0x00, 0x00, 0x00, 0x00, 0x00, 0x00,
     0x00, 0x00]

/-- sha1cd_test.go:29. -/
def golden3 : GoldenCase where
  out := [0xda, 0x23, 0x61, 0x4e, 0x02, 0x46, 0x9a, 0x0d, 0x7c, 0x7b, 0xd1, 0xbd, 0xab, 0x5c, 0x9c, 0x47,
     0x4b, 0x19, 0x04, 0xdc]
  inp := [0x61, 0x62]
  half := [0x73, 0x68, 0x61, 0x63, 0x64, 0x01, 0x67, 0x45, 0x23, 0x01, 0xef, 0xcd, 0xab, 0x89, 0x98, 0xba,
     0xdc, 0xfe, 0x10, 0x32, 0x54, 0x76, 0xc3, 0xd2, 0xe1, 0xf0, 0x61, 0x00, 0x00, 0x00, 0x00, 0x00,
     0x00, 0x00, 0x00, 0x00, 0x00, 0x00, 0x00, 0x00, 0x00, 0x00, 0x00, 0x00, 0x00, 0x00, 0x00, 0x00,
     0x00, 0x00, 0x00, 0x00, 0x00, 0x00, 0x00, 0x00, 0x00, 0x00, 0x00, 0x00, 0x00, 0x00, 0x00, 0x00,
     0x00, 0x00, 0x00, 0x00, 0x00, 0x00, 0x00, 0x00, 0x00, 0x00, 0x00, 0x00, 0x00, 0x00, 0x00, 0x00,
     0x00, 0x00, 0x00, 0x00, 0x00, 0x00, 0x00, 0x00, 0x00, 0x00, 0x00, 0x00, 0x00, 0x00, 0x00, 0x00,
     0x00, 0x01]

/-- sha1cd_test.go:30. -/
def golden4 : GoldenCase where
  out := [0xa9, 0x99, 0x3e, 0x36, 0x47, 0x06, 0x81, 0x6a, 0xba, 0x3e, 0x25, 0x71, 0x78, 0x50, 0xc2, 0x6c,
     0x9c, 0xd0, 0xd8, 0x9d]
  inp := [0x61, 0x62, 0x63]
  half := [0x73, 0x68, 0x61, 0x63, 0x64, 0x01, 0x67, 0x45, 0x23, 0x01, 0xef, 0xcd, 0xab, 0x89, 0x98, 0xba,
     0xdc, 0xfe, 0x10, 0x32, 0x54, 0x76, 0xc3, 0xd2, 0xe1, 0xf0, 0x61, 0x00, 0x00, 0x00, 0x00, 0x00,
     0x00, 0x00, 0x00, 0x00, 0x00, 0x00, 0x00, 0x00, 0x00, 0x00, 0x00, 0x00, 0x00, 0x00, 0x00, 0x00,
     0x00, 0x00, 0x00, 0x00, 0x00, 0x00, 0x00, 0x00, 0x00, 0x00, 0x00, 0x00, 0x00, 0x00, 0x00, 0x00,
     0x00, 0x00, 0x00, 0x00, 0x00, 0x00, 0x00, 0x00, 0x00, 0x00, 0x00, 0x00, 0x00, 0x00, 0x00, 0x00,
     0x00, 0x00, 0x00, 0x00, 0x00, 0x00, 0x00, 0x00, 0x00, 0x00, 0x00, 0x00, 0x00, 0x00, 0x00, 0x00,
     0x00, 0x01]

/-- sha1cd_test.go:31. -/
def golden5 : GoldenCase where
  out := [0x81, 0xfe, 0x8b, 0xfe, 0x87, 0x57, 0x6c, 0x3e, 0xcb, 0x22, 0x42, 0x6f, 0x8e, 0x57, 0x84, 0x73,
     0x82, 0x91, 0x7a, 0xcf]
  inp := [0x61, 0x62, 0x63, 0x64]
  half := [0x73, 0x68, 0x61, 0x63, 0x64, 0x01, 0x67, 0x45, 0x23, 0x01, 0xef, 0xcd, 0xab, 0x89, 0x98, 0xba,
     0xdc, 0xfe, 0x10, 0x32, 0x54, 0x76, 0xc3, 0xd2, 0xe1, 0xf0, 0x61, 0x62, 0x00, 0x00, 0x00, 0x00,
     0x00, 0x00, 0x00, 0x00, 0x00, 0x00, 0x00, 0x00, 0x00, 0x00, 0x00, 0x00, 0x00, 0x00, 0x00, 0x00,
     0x00, 0x00, 0x00, 0x00, 0x00, 0x00, 0x00, 0x00, 0x00, 0x00, 0x00, 0x00, 0x00, 0x00, 0x00, 0x00,
     0x00, 0x00, 0x00, 0x00, 0x00, 0x00, 0x00, 0x00, 0x00, 0x00, 0x00, 0x00, 0x00, 0x00, 0x00, 0x00,
     0x00, 0x00, 0x00, 0x00, 0x00, 0x00, 0x00, 0x00, 0x00, 0x00, 0x00, 0x00, 0x00, 0x00, 0x00, 0x00,
     0x00, 0x02]

/-- sha1cd_test.go:32. -/
def golden6 : GoldenCase where
  out := [0x03, 0xde, 0x6c, 0x57, 0x0b, 0xfe, 0x24, 0xbf, 0xc3, 0x28, 0xcc, 0xd7, 0xca, 0x46, 0xb7, 0x6e,
     0xad, 0xaf, 0x43, 0x34]
  inp := [0x61, 0x62, 0x63, 0x64, 0x65]
  half := [0x73, 0x68, 0x61, 0x63, 0x64, 0x01, 0x67, 0x45, 0x23, 0x01, 0xef, 0xcd, 0xab, 0x89, 0x98, 0xba,
     0xdc, 0xfe, 0x10, 0x32, 0x54, 0x76, 0xc3, 0xd2, 0xe1, 0xf0, 0x61, 0x62, 0x00, 0x00, 0x00, 0x00,
     0x00, 0x00, 0x00, 0x00, 0x00, 0x00, 0x00, 0x00, 0x00, 0x00, 0x00, 0x00, 0x00, 0x00, 0x00, 0x00,
     0x00, 0x00, 0x00, 0x00, 0x00, 0x00, 0x00, 0x00, 0x00, 0x00, 0x00, 0x00, 0x00, 0x00, 0x00, 0x00,
     0x00, 0x00, 0x00, 0x00, 0x00, 0x00, 0x00, 0x00, 0x00, 0x00, 0x00, 0x00, 0x00, 0x00, 0x00, 0x00,
     0x00, 0x00, 0x00, 0x00, 0x00, 0x00, 0x00, 0x00, 0x00, 0x00, 0x00, 0x00, 0x00, 0x00, 0x00, 0x00,
     0x00, 0x02]

/-- sha1cd_test.go:33. -/
def golden7 : GoldenCase where
  out := [0x1f, 0x8a, 0xc1, 0x0f, 0x23, 0xc5, 0xb5, 0xbc, 0x11, 0x67, 0xbd, 0xa8, 0x4b, 0x83, 0x3e, 0x5c,
     0x05, 0x7a, 0x77, 0xd2]
  inp := [0x61, 0x62, 0x63, 0x64, 0x65, 0x66]
  half := [0x73, 0x68, 0x61, 0x63, 0x64, 0x01, 0x67, 0x45, 0x23, 0x01, 0xef, 0xcd, 0xab, 0x89, 0x98, 0xba,
     0xdc, 0xfe, 0x10, 0x32, 0x54, 0x76, 0xc3, 0xd2, 0xe1, 0xf0, 0x61, 0x62, 0x63, 0x00, 0x00, 0x00,
     0x00, 0x00, 0x00, 0x00, 0x00, 0x00, 0x00, 0x00, 0x00, 0x00, 0x00, 0x00, 0x00, 0x00, 0x00, 0x00,
     0x00, 0x00, 0x00, 0x00, 0x00, 0x00, 0x00, 0x00, 0x00, 0x00, 0x00, 0x00, 0x00, 0x00, 0x00, 0x00,
     0x00, 0x00, 0x00, 0x00, 0x00, 0x00, 0x00, 0x00, 0x00, 0x00, 0x00, 0x00, 0x00, 0x00, 0x00, 0x00,
     0x00, 0x00, 0x00, 0x00, 0x00, 0x00, 0x00, 0x00, 0x00, 0x00, 0x00, 0x00, 0x00, 0x00, 0x00, 0x00,
     0x00, 0x03]

/-- sha1cd_test.go:34. -/
def golden8 : GoldenCase where
  out := [0x2f, 0xb5, 0xe1, 0x34, 0x19, 0xfc, 0x89, 0x24, 0x68, 0x65, 0xe7, 0xa3, 0x24, 0xf4, 0x76, 0xec,
     0x62, 0x4e, 0x87, 0x40]
  inp := [0x61, 0x62, 0x63, 0x64, 0x65, 0x66, 0x67]
  half := [0x73, 0x68, 0x61, 0x63, 0x64, 0x01, 0x67, 0x45, 0x23, 0x01, 0xef, 0xcd, 0xab, 0x89, 0x98, 0xba,
     0xdc, 0xfe, 0x10, 0x32, 0x54, 0x76, 0xc3, 0xd2, 0xe1, 0xf0, 0x61, 0x62, 0x63, 0x00, 0x00, 0x00,
     0x00, 0x00, 0x00, 0x00, 0x00, 0x00, 0x00, 0x00, 0x00, 0x00, 0x00, 0x00, 0x00, 0x00, 0x00, 0x00,
     0x00, 0x00, 0x00, 0x00, 0x00, 0x00, 0x00, 0x00, 0x00, 0x00, 0x00, 0x00, 0x00, 0x00, 0x00, 0x00,
     0x00, 0x00, 0x00, 0x00, 0x00, 0x00, 0x00, 0x00, 0x00, 0x00, 0x00, 0x00, 0x00, 0x00, 0x00, 0x00,
     0x00, 0x00, 0x00, 0x00, 0x00, 0x00, 0x00, 0x00, 0x00, 0x00, 0x00, 0x00, 0x00, 0x00, 0x00, 0x00,
     0x00, 0x03]

/-- sha1cd_test.go:35. -/
def golden9 : GoldenCase where
  out := [0x42, 0x5a, 0xf1, 0x2a, 0x07, 0x43, 0x50, 0x2b, 0x32, 0x2e, 0x93, 0xa0, 0x15, 0xbc, 0xf8, 0x68,
     0xe3, 0x24, 0xd5, 0x6a]
  inp := [0x61, 0x62, 0x63, 0x64, 0x65, 0x66, 0x67, 0x68]
  half := [0x73, 0x68, 0x61, 0x63, 0x64, 0x01, 0x67, 0x45, 0x23, 0x01, 0xef, 0xcd, 0xab, 0x89, 0x98, 0xba,
     0xdc, 0xfe, 0x10, 0x32, 0x54, 0x76, 0xc3, 0xd2, 0xe1, 0xf0, 0x61, 0x62, 0x63, 0x64, 0x00, 0x00,
     0x00, 0x00, 0x00, 0x00, 0x00, 0x00, 0x00, 0x00, 0x00, 0x00, 0x00, 0x00, 0x00, 0x00, 0x00, 0x00,
     0x00, 0x00, 0x00, 0x00, 0x00, 0x00, 0x00, 0x00, 0x00, 0x00, 0x00, 0x00, 0x00, 0x00, 0x00, 0x00,
     0x00, 0x00, 0x00, 0x00, 0x00, 0x00, 0x00, 0x00, 0x00, 0x00, 0x00, 0x00, 0x00, 0x00, 0x00, 0x00,
     0x00, 0x00, 0x00, 0x00, 0x00, 0x00, 0x00, 0x00, 0x00, 0x00, 0x00, 0x00, 0x00, 0x00, 0x00, 0x00,
     0x00, 0x04]

/-- sha1cd_test.go:36. -/
def golden10 : GoldenCase where
  out := [0xc6, 0x3b, 0x19, 0xf1, 0xe4, 0xc8, 0xb5, 0xf7, 0x6b, 0x25, 0xc4, 0x9b, 0x8b, 0x87, 0xf5, 0x7d,
     0x8e, 0x48, 0x72, 0xa1]
  inp := [0x61, 0x62, 0x63, 0x64, 0x65, 0x66, 0x67, 0x68, 0x69]
  half := [0x73, 0x68, 0x61, 0x63, 0x64, 0x01, 0x67, 0x45, 0x23, 0x01, 0xef, 0xcd, 0xab, 0x89, 0x98, 0xba,
     0xdc, 0xfe, 0x10, 0x32, 0x54, 0x76, 0xc3, 0xd2, 0xe1, 0xf0, 0x61, 0x62, 0x63, 0x64, 0x00, 0x00,
     0x00, 0x00, 0x00, 0x00, 0x00, 0x00, 0x00, 0x00, 0x00, 0x00, 0x00, 0x00, 0x00, 0x00, 0x00, 0x00,
     0x00, 0x00, 0x00, 0x00, 0x00, 0x00, 0x00, 0x00, 0x00, 0x00, 0x00, 0x00, 0x00, 0x00, 0x00, 0x00,
     0x00, 0x00, 0x00, 0x00, 0x00, 0x00, 0x00, 0x00, 0x00, 0x00, 0x00, 0x00, 0x00, 0x00, 0x00, 0x00,
     0x00, 0x00, 0x00, 0x00, 0x00, 0x00, 0x00, 0x00, 0x00, 0x00, 0x00, 0x00, 0x00, 0x00, 0x00, 0x00,
     0x00, 0x04]

/-- sha1cd_test.go:37. -/
def golden11 : GoldenCase where
  out := [0xd6, 0x8c, 0x19, 0xa0, 0xa3, 0x45, 0xb7, 0xea, 0xb7, 0x8d, 0x5e, 0x11, 0xe9, 0x91, 0xc0, 0x26,
     0xec, 0x60, 0xdb, 0x63]
  inp := [0x61, 0x62, 0x63, 0x64, 0x65, 0x66, 0x67, 0x68, 0x69, 0x6a]
  half := [0x73, 0x68, 0x61, 0x63, 0x64, 0x01, 0x67, 0x45, 0x23, 0x01, 0xef, 0xcd, 0xab, 0x89, 0x98, 0xba,
     0xdc, 0xfe, 0x10, 0x32, 0x54, 0x76, 0xc3, 0xd2, 0xe1, 0xf0, 0x61, 0x62, 0x63, 0x64, 0x65, 0x00,
     0x00, 0x00, 0x00, 0x00, 0x00, 0x00, 0x00, 0x00, 0x00, 0x00, 0x00, 0x00, 0x00, 0x00, 0x00, 0x00,
     0x00, 0x00, 0x00, 0x00, 0x00, 0x00, 0x00, 0x00, 0x00, 0x00, 0x00, 0x00, 0x00, 0x00, 0x00, 0x00,
     0x00, 0x00, 0x00, 0x00, 0x00, 0x00, 0x00, 0x00, 0x00, 0x00, 0x00, 0x00, 0x00, 0x00, 0x00, 0x00,
     0x00, 0x00, 0x00, 0x00, 0x00, 0x00, 0x00, 0x00, 0x00, 0x00, 0x00, 0x00, 0x00, 0x00, 0x00, 0x00,
     0x00, 0x05]

/-- sha1cd_test.go:38. -/
def golden12 : GoldenCase where
  out := [0xeb, 0xf8, 0x1d, 0xdc, 0xbe, 0x5b, 0xf1, 0x3a, 0xaa, 0xbd, 0xc4, 0xd6, 0x53, 0x54, 0xfd, 0xf2,
     0x04, 0x4f, 0x38, 0xa7]
  inp := [0x44, 0x69, 0x73, 0x63, 0x61, 0x72, 0x64, 0x20, 0x6d, 0x65, 0x64, 0x69, 0x63, 0x69, 0x6e, 0x65,
     0x20, 0x6d, 0x6f, 0x72, 0x65, 0x20, 0x74, 0x68, 0x61, 0x6e, 0x20, 0x74, 0x77, 0x6f, 0x20, 0x79,
     0x65, 0x61, 0x72, 0x73, 0x20, 0x6f, 0x6c, 0x64, 0x2e]
  half := [0x73, 0x68, 0x61, 0x63, 0x64, 0x01, 0x67, 0x45, 0x23, 0x01, 0xef, 0xcd, 0xab, 0x89, 0x98, 0xba,
     0xdc, 0xfe, 0x10, 0x32, 0x54, 0x76, 0xc3, 0xd2, 0xe1, 0xf0, 0x44, 0x69, 0x73, 0x63, 0x61, 0x72,
     0x64, 0x20, 0x6d, 0x65, 0x64, 0x69, 0x63, 0x69, 0x6e, 0x65, 0x20, 0x6d, 0x6f, 0x72, 0x00, 0x00,
     0x00, 0x00, 0x00, 0x00, 0x00, 0x00, 0x00, 0x00, 0x00, 0x00, 0x00, 0x00, 0x00, 0x00, 0x00, 0x00,
     0x00, 0x00, 0x00, 0x00, 0x00, 0x00, 0x00, 0x00, 0x00, 0x00, 0x00, 0x00, 0x00, 0x00, 0x00, 0x00,
     0x00, 0x00, 0x00, 0x00, 0x00, 0x00, 0x00, 0x00, 0x00, 0x00, 0x00, 0x00, 0x00, 0x00, 0x00, 0x00,
     0x00, 0x14]

/-- sha1cd_test.go:39. -/
def golden13 : GoldenCase where
  out := [0xe5, 0xde, 0xa0, 0x93, 0x92, 0xdd, 0x88, 0x6c, 0xa6, 0x35, 0x31, 0xaa, 0xa0, 0x05, 0x71, 0xdc,
     0x07, 0x55, 0x4b, 0xb6]
  inp := [0x48, 0x65, 0x20, 0x77, 0x68, 0x6f, 0x20, 0x68, 0x61, 0x73, 0x20, 0x61, 0x20, 0x73, 0x68, 0x61,
     0x64, 0x79, 0x20, 0x70, 0x61, 0x73, 0x74, 0x20, 0x6b, 0x6e, 0x6f, 0x77, 0x73, 0x20, 0x74, 0x68,
     0x61, 0x74, 0x20, 0x6e, 0x69, 0x63, 0x65, 0x20, 0x67, 0x75, 0x79, 0x73, 0x20, 0x66, 0x69, 0x6e,
     0x69, 0x73, 0x68, 0x20, 0x6c, 0x61, 0x73, 0x74, 0x2e]
  half := [0x73, 0x68, 0x61, 0x63, 0x64, 0x01, 0x67, 0x45, 0x23, 0x01, 0xef, 0xcd, 0xab, 0x89, 0x98, 0xba,
     0xdc, 0xfe, 0x10, 0x32, 0x54, 0x76, 0xc3, 0xd2, 0xe1, 0xf0, 0x48, 0x65, 0x20, 0x77, 0x68, 0x6f,
     0x20, 0x68, 0x61, 0x73, 0x20, 0x61, 0x20, 0x73, 0x68, 0x61, 0x64, 0x79, 0x20, 0x70, 0x61, 0x73,
     0x74, 0x20, 0x6b, 0x6e, 0x6f, 0x77, 0x00, 0x00, 0x00, 0x00, 0x00, 0x00, 0x00, 0x00, 0x00, 0x00,
     0x00, 0x00, 0x00, 0x00, 0x00, 0x00, 0x00, 0x00, 0x00, 0x00, 0x00, 0x00, 0x00, 0x00, 0x00, 0x00,
     0x00, 0x00, 0x00, 0x00, 0x00, 0x00, 0x00, 0x00, 0x00, 0x00, 0x00, 0x00, 0x00, 0x00, 0x00, 0x00,
     0x00, 0x1c]

/-- sha1cd_test.go:40. -/
def golden14 : GoldenCase where
  out := [0x45, 0x98, 0x8f, 0x72, 0x34, 0x46, 0x7b, 0x94, 0xe3, 0xe9, 0x49, 0x44, 0x34, 0xc9, 0x6e, 0xe3,
     0x60, 0x9d, 0x8f, 0x8f]
  inp := [0x49, 0x20, 0x77, 0x6f, 0x75, 0x6c, 0x64, 0x6e, 0x27, 0x74, 0x20, 0x6d, 0x61, 0x72, 0x72, 0x79,
     0x20, 0x68, 0x69, 0x6d, 0x20, 0x77, 0x69, 0x74, 0x68, 0x20, 0x61, 0x20, 0x74, 0x65, 0x6e, 0x20,
     0x66, 0x6f, 0x6f, 0x74, 0x20, 0x70, 0x6f, 0x6c, 0x65, 0x2e]
  half := [0x73, 0x68, 0x61, 0x63, 0x64, 0x01, 0x67, 0x45, 0x23, 0x01, 0xef, 0xcd, 0xab, 0x89, 0x98, 0xba,
     0xdc, 0xfe, 0x10, 0x32, 0x54, 0x76, 0xc3, 0xd2, 0xe1, 0xf0, 0x49, 0x20, 0x77, 0x6f, 0x75, 0x6c,
     0x64, 0x6e, 0x27, 0x74, 0x20, 0x6d, 0x61, 0x72, 0x72, 0x79, 0x20, 0x68, 0x69, 0x6d, 0x20, 0x00,
     0x00, 0x00, 0x00, 0x00, 0x00, 0x00, 0x00, 0x00, 0x00, 0x00, 0x00, 0x00, 0x00, 0x00, 0x00, 0x00,
     0x00, 0x00, 0x00, 0x00, 0x00, 0x00, 0x00, 0x00, 0x00, 0x00, 0x00, 0x00, 0x00, 0x00, 0x00, 0x00,
     0x00, 0x00, 0x00, 0x00, 0x00, 0x00, 0x00, 0x00, 0x00, 0x00, 0x00, 0x00, 0x00, 0x00, 0x00, 0x00,
     0x00, 0x15]

/-- sha1cd_test.go:41. -/
def golden15 : GoldenCase where
  out := [0x55, 0xde, 0xe0, 0x37, 0xeb, 0x74, 0x60, 0xd5, 0xa6, 0x92, 0xd1, 0xce, 0x11, 0x33, 0x0b, 0x26,
     0x0e, 0x40, 0xc9, 0x88]
  inp := [0x46, 0x72, 0x65, 0x65, 0x21, 0x20, 0x46, 0x72, 0x65, 0x65, 0x21, 0x2f, 0x41, 0x20, 0x74, 0x72,
     0x69, 0x70, 0x2f, 0x74, 0x6f, 0x20, 0x4d, 0x61, 0x72, 0x73, 0x2f, 0x66, 0x6f, 0x72, 0x20, 0x39,
     0x30, 0x30, 0x2f, 0x65, 0x6d, 0x70, 0x74, 0x79, 0x20, 0x6a, 0x61, 0x72, 0x73, 0x2f, 0x42, 0x75,
     0x72, 0x6d, 0x61, 0x20, 0x53, 0x68, 0x61, 0x76, 0x65]
  half := [0x73, 0x68, 0x61, 0x63, 0x64, 0x01, 0x67, 0x45, 0x23, 0x01, 0xef, 0xcd, 0xab, 0x89, 0x98, 0xba,
     0xdc, 0xfe, 0x10, 0x32, 0x54, 0x76, 0xc3, 0xd2, 0xe1, 0xf0, 0x46, 0x72, 0x65, 0x65, 0x21, 0x20,
     0x46, 0x72, 0x65, 0x65, 0x21, 0x2f, 0x41, 0x20, 0x74, 0x72, 0x69, 0x70, 0x2f, 0x74, 0x6f, 0x20,
     0x4d, 0x61, 0x72, 0x73, 0x2f, 0x66, 0x00, 0x00, 0x00, 0x00, 0x00, 0x00, 0x00, 0x00, 0x00, 0x00,
     0x00, 0x00, 0x00, 0x00, 0x00, 0x00, 0x00, 0x00, 0x00, 0x00, 0x00, 0x00, 0x00, 0x00, 0x00, 0x00,
     0x00, 0x00, 0x00, 0x00, 0x00, 0x00, 0x00, 0x00, 0x00, 0x00, 0x00, 0x00, 0x00, 0x00, 0x00, 0x00,
     0x00, 0x1c]

/-- sha1cd_test.go:42. -/
def golden16 : GoldenCase where
  out := [0xb7, 0xbc, 0x5f, 0xb9, 0x10, 0x80, 0xc7, 0xde, 0x6b, 0x58, 0x2e, 0xa2, 0x81, 0xf8, 0xa3, 0x96,
     0xd7, 0xc0, 0xae, 0xe8]
  inp := [0x54, 0x68, 0x65, 0x20, 0x64, 0x61, 0x79, 0x73, 0x20, 0x6f, 0x66, 0x20, 0x74, 0x68, 0x65, 0x20,
     0x64, 0x69, 0x67, 0x69, 0x74, 0x61, 0x6c, 0x20, 0x77, 0x61, 0x74, 0x63, 0x68, 0x20, 0x61, 0x72,
     0x65, 0x20, 0x6e, 0x75, 0x6d, 0x62, 0x65, 0x72, 0x65, 0x64, 0x2e, 0x20, 0x20, 0x2d, 0x54, 0x6f,
     0x6d, 0x20, 0x53, 0x74, 0x6f, 0x70, 0x70, 0x61, 0x72, 0x64]
  half := [0x73, 0x68, 0x61, 0x63, 0x64, 0x01, 0x67, 0x45, 0x23, 0x01, 0xef, 0xcd, 0xab, 0x89, 0x98, 0xba,
     0xdc, 0xfe, 0x10, 0x32, 0x54, 0x76, 0xc3, 0xd2, 0xe1, 0xf0, 0x54, 0x68, 0x65, 0x20, 0x64, 0x61,
     0x79, 0x73, 0x20, 0x6f, 0x66, 0x20, 0x74, 0x68, 0x65, 0x20, 0x64, 0x69, 0x67, 0x69, 0x74, 0x61,
     0x6c, 0x20, 0x77, 0x61, 0x74, 0x63, 0x68, 0x00, 0x00, 0x00, 0x00, 0x00, 0x00, 0x00, 0x00, 0x00,
     0x00, 0x00, 0x00, 0x00, 0x00, 0x00, 0x00, 0x00, 0x00, 0x00, 0x00, 0x00, 0x00, 0x00, 0x00, 0x00,
     0x00, 0x00, 0x00, 0x00, 0x00, 0x00, 0x00, 0x00, 0x00, 0x00, 0x00, 0x00, 0x00, 0x00, 0x00, 0x00,
     0x00, 0x1d]

/-- sha1cd_test.go:43. -/
def golden17 : GoldenCase where
  out := [0xc3, 0xae, 0xd9, 0x35, 0x8f, 0x7c, 0x77, 0xf5, 0x23, 0xaf, 0xe8, 0x61, 0x35, 0xf0, 0x6b, 0x95,
     0xb3, 0x99, 0x97, 0x97]
  inp := [0x4e, 0x65, 0x70, 0x61, 0x6c, 0x20, 0x70, 0x72, 0x65, 0x6d, 0x69, 0x65, 0x72, 0x20, 0x77, 0x6f,
     0x6e, 0x27, 0x74, 0x20, 0x72, 0x65, 0x73, 0x69, 0x67, 0x6e, 0x2e]
  half := [0x73, 0x68, 0x61, 0x63, 0x64, 0x01, 0x67, 0x45, 0x23, 0x01, 0xef, 0xcd, 0xab, 0x89, 0x98, 0xba,
     0xdc, 0xfe, 0x10, 0x32, 0x54, 0x76, 0xc3, 0xd2, 0xe1, 0xf0, 0x4e, 0x65, 0x70, 0x61, 0x6c, 0x20,
     0x70, 0x72, 0x65, 0x6d, 0x69, 0x65, 0x72, 0x00, 0x00, 0x00, 0x00, 0x00, 0x00, 0x00, 0x00, 0x00,
     0x00, 0x00, 0x00, 0x00, 0x00, 0x00, 0x00, 0x00, 0x00, 0x00, 0x00, 0x00, 0x00, 0x00, 0x00, 0x00,
     0x00, 0x00, 0x00, 0x00, 0x00, 0x00, 0x00, 0x00, 0x00, 0x00, 0x00, 0x00, 0x00, 0x00, 0x00, 0x00,
     0x00, 0x00, 0x00, 0x00, 0x00, 0x00, 0x00, 0x00, 0x00, 0x00, 0x00, 0x00, 0x00, 0x00, 0x00, 0x00,
     0x00, 0x0d]

/-- sha1cd_test.go:44. -/
def golden18 : GoldenCase where
  out := [0x6e, 0x29, 0xd3, 0x02, 0xbf, 0x6e, 0x3a, 0x5e, 0x43, 0x05, 0xff, 0x31, 0x8d, 0x98, 0x31, 0x97,
     0xd6, 0x90, 0x6b, 0xb9]
  inp := [0x46, 0x6f, 0x72, 0x20, 0x65, 0x76, 0x65, 0x72, 0x79, 0x20, 0x61, 0x63, 0x74, 0x69, 0x6f, 0x6e,
     0x20, 0x74, 0x68, 0x65, 0x72, 0x65, 0x20, 0x69, 0x73, 0x20, 0x61, 0x6e, 0x20, 0x65, 0x71, 0x75,
     0x61, 0x6c, 0x20, 0x61, 0x6e, 0x64, 0x20, 0x6f, 0x70, 0x70, 0x6f, 0x73, 0x69, 0x74, 0x65, 0x20,
     0x67, 0x6f, 0x76, 0x65, 0x72, 0x6e, 0x6d, 0x65, 0x6e, 0x74, 0x20, 0x70, 0x72, 0x6f, 0x67, 0x72,
     0x61, 0x6d, 0x2e]
  half := [0x73, 0x68, 0x61, 0x63, 0x64, 0x01, 0x67, 0x45, 0x23, 0x01, 0xef, 0xcd, 0xab, 0x89, 0x98, 0xba,
     0xdc, 0xfe, 0x10, 0x32, 0x54, 0x76, 0xc3, 0xd2, 0xe1, 0xf0, 0x46, 0x6f, 0x72, 0x20, 0x65, 0x76,
     0x65, 0x72, 0x79, 0x20, 0x61, 0x63, 0x74, 0x69, 0x6f, 0x6e, 0x20, 0x74, 0x68, 0x65, 0x72, 0x65,
     0x20, 0x69, 0x73, 0x20, 0x61, 0x6e, 0x20, 0x65, 0x71, 0x75, 0x61, 0x00, 0x00, 0x00, 0x00, 0x00,
     0x00, 0x00, 0x00, 0x00, 0x00, 0x00, 0x00, 0x00, 0x00, 0x00, 0x00, 0x00, 0x00, 0x00, 0x00, 0x00,
     0x00, 0x00, 0x00, 0x00, 0x00, 0x00, 0x00, 0x00, 0x00, 0x00, 0x00, 0x00, 0x00, 0x00, 0x00, 0x00,
     0x00, 0x21]

/-- sha1cd_test.go:45. -/
def golden19 : GoldenCase where
  out := [0x59, 0x7f, 0x6a, 0x54, 0x00, 0x10, 0xf9, 0x4c, 0x15, 0xd7, 0x18, 0x06, 0xa9, 0x9a, 0x2c, 0x87,
     0x10, 0xe7, 0x47, 0xbd]
  inp := [0x48, 0x69, 0x73, 0x20, 0x6d, 0x6f, 0x6e, 0x65, 0x79, 0x20, 0x69, 0x73, 0x20, 0x74, 0x77, 0x69,
     0x63, 0x65, 0x20, 0x74, 0x61, 0x69, 0x6e, 0x74, 0x65, 0x64, 0x3a, 0x20, 0x27, 0x74, 0x61, 0x69,
     0x6e, 0x74, 0x20, 0x79, 0x6f, 0x75, 0x72, 0x73, 0x20, 0x61, 0x6e, 0x64, 0x20, 0x27, 0x74, 0x61,
     0x69, 0x6e, 0x74, 0x20, 0x6d, 0x69, 0x6e, 0x65, 0x2e]
  half := [0x73, 0x68, 0x61, 0x63, 0x64, 0x01, 0x67, 0x45, 0x23, 0x01, 0xef, 0xcd, 0xab, 0x89, 0x98, 0xba,
     0xdc, 0xfe, 0x10, 0x32, 0x54, 0x76, 0xc3, 0xd2, 0xe1, 0xf0, 0x48, 0x69, 0x73, 0x20, 0x6d, 0x6f,
     0x6e, 0x65, 0x79, 0x20, 0x69, 0x73, 0x20, 0x74, 0x77, 0x69, 0x63, 0x65, 0x20, 0x74, 0x61, 0x69,
     0x6e, 0x74, 0x65, 0x64, 0x3a, 0x20, 0x00, 0x00, 0x00, 0x00, 0x00, 0x00, 0x00, 0x00, 0x00, 0x00,
     0x00, 0x00, 0x00, 0x00, 0x00, 0x00, 0x00, 0x00, 0x00, 0x00, 0x00, 0x00, 0x00, 0x00, 0x00, 0x00,
     0x00, 0x00, 0x00, 0x00, 0x00, 0x00, 0x00, 0x00, 0x00, 0x00, 0x00, 0x00, 0x00, 0x00, 0x00, 0x00,
     0x00, 0x1c]

/-- sha1cd_test.go:46. -/
def golden20 : GoldenCase where
  out := [0x68, 0x59, 0x73, 0x3b, 0x25, 0x90, 0xa8, 0xa0, 0x91, 0xce, 0xcf, 0x50, 0x08, 0x6f, 0xeb, 0xc5,
     0xce, 0xef, 0x1e, 0x80]
  inp := [0x54, 0x68, 0x65, 0x72, 0x65, 0x20, 0x69, 0x73, 0x20, 0x6e, 0x6f, 0x20, 0x72, 0x65, 0x61, 0x73,
     0x6f, 0x6e, 0x20, 0x66, 0x6f, 0x72, 0x20, 0x61, 0x6e, 0x79, 0x20, 0x69, 0x6e, 0x64, 0x69, 0x76,
     0x69, 0x64, 0x75, 0x61, 0x6c, 0x20, 0x74, 0x6f, 0x20, 0x68, 0x61, 0x76, 0x65, 0x20, 0x61, 0x20,
     0x63, 0x6f, 0x6d, 0x70, 0x75, 0x74, 0x65, 0x72, 0x20, 0x69, 0x6e, 0x20, 0x74, 0x68, 0x65, 0x69,
     0x72, 0x20, 0x68, 0x6f, 0x6d, 0x65, 0x2e, 0x20, 0x2d, 0x4b, 0x65, 0x6e, 0x20, 0x4f, 0x6c, 0x73,
     0x65, 0x6e, 0x2c, 0x20, 0x31, 0x39, 0x37, 0x37]
  half := [0x73, 0x68, 0x61, 0x63, 0x64, 0x01, 0x67, 0x45, 0x23, 0x01, 0xef, 0xcd, 0xab, 0x89, 0x98, 0xba,
     0xdc, 0xfe, 0x10, 0x32, 0x54, 0x76, 0xc3, 0xd2, 0xe1, 0xf0, 0x54, 0x68, 0x65, 0x72, 0x65, 0x20,
     0x69, 0x73, 0x20, 0x6e, 0x6f, 0x20, 0x72, 0x65, 0x61, 0x73, 0x6f, 0x6e, 0x20, 0x66, 0x6f, 0x72,
     0x20, 0x61, 0x6e, 0x79, 0x20, 0x69, 0x6e, 0x64, 0x69, 0x76, 0x69, 0x64, 0x75, 0x61, 0x6c, 0x20,
     0x74, 0x6f, 0x20, 0x68, 0x61, 0x76, 0x00, 0x00, 0x00, 0x00, 0x00, 0x00, 0x00, 0x00, 0x00, 0x00,
     0x00, 0x00, 0x00, 0x00, 0x00, 0x00, 0x00, 0x00, 0x00, 0x00, 0x00, 0x00, 0x00, 0x00, 0x00, 0x00,
     0x00, 0x2c]

/-- sha1cd_test.go:47. -/
def golden21 : GoldenCase where
  out := [0x51, 0x4b, 0x26, 0x30, 0xec, 0x08, 0x9b, 0x8a, 0xee, 0x18, 0x79, 0x5f, 0xc0, 0xcf, 0x1f, 0x48,
     0x60, 0xcd, 0xac, 0xad]
  inp := [0x49, 0x74, 0x27, 0x73, 0x20, 0x61, 0x20, 0x74, 0x69, 0x6e, 0x79, 0x20, 0x63, 0x68, 0x61, 0x6e,
     0x67, 0x65, 0x20, 0x74, 0x6f, 0x20, 0x74, 0x68, 0x65, 0x20, 0x63, 0x6f, 0x64, 0x65, 0x20, 0x61,
     0x6e, 0x64, 0x20, 0x6e, 0x6f, 0x74, 0x20, 0x63, 0x6f, 0x6d, 0x70, 0x6c, 0x65, 0x74, 0x65, 0x6c,
     0x79, 0x20, 0x64, 0x69, 0x73, 0x67, 0x75, 0x73, 0x74, 0x69, 0x6e, 0x67, 0x2e, 0x20, 0x2d, 0x20,
     0x42, 0x6f, 0x62, 0x20, 0x4d, 0x61, 0x6e, 0x63, 0x68, 0x65, 0x6b]
  half := [0x73, 0x68, 0x61, 0x63, 0x64, 0x01, 0x67, 0x45, 0x23, 0x01, 0xef, 0xcd, 0xab, 0x89, 0x98, 0xba,
     0xdc, 0xfe, 0x10, 0x32, 0x54, 0x76, 0xc3, 0xd2, 0xe1, 0xf0, 0x49, 0x74, 0x27, 0x73, 0x20, 0x61,
     0x20, 0x74, 0x69, 0x6e, 0x79, 0x20, 0x63, 0x68, 0x61, 0x6e, 0x67, 0x65, 0x20, 0x74, 0x6f, 0x20,
     0x74, 0x68, 0x65, 0x20, 0x63, 0x6f, 0x64, 0x65, 0x20, 0x61, 0x6e, 0x64, 0x20, 0x6e, 0x6f, 0x00,
     0x00, 0x00, 0x00, 0x00, 0x00, 0x00, 0x00, 0x00, 0x00, 0x00, 0x00, 0x00, 0x00, 0x00, 0x00, 0x00,
     0x00, 0x00, 0x00, 0x00, 0x00, 0x00, 0x00, 0x00, 0x00, 0x00, 0x00, 0x00, 0x00, 0x00, 0x00, 0x00,
     0x00, 0x25]

/-- sha1cd_test.go:48. -/
def golden22 : GoldenCase where
  out := [0xc5, 0xca, 0x0d, 0x4a, 0x7b, 0x66, 0x76, 0xfc, 0x7a, 0xa7, 0x2c, 0xaa, 0x41, 0xcc, 0x3d, 0x5d,
     0xf5, 0x67, 0xed, 0x69]
  inp := [0x73, 0x69, 0x7a, 0x65, 0x3a, 0x20, 0x20, 0x61, 0x2e, 0x6f, 0x75, 0x74, 0x3a, 0x20, 0x20, 0x62,
     0x61, 0x64, 0x20, 0x6d, 0x61, 0x67, 0x69, 0x63]
  half := [0x73, 0x68, 0x61, 0x63, 0x64, 0x01, 0x67, 0x45, 0x23, 0x01, 0xef, 0xcd, 0xab, 0x89, 0x98, 0xba,
     0xdc, 0xfe, 0x10, 0x32, 0x54, 0x76, 0xc3, 0xd2, 0xe1, 0xf0, 0x73, 0x69, 0x7a, 0x65, 0x3a, 0x20,
     0x20, 0x61, 0x2e, 0x6f, 0x75, 0x74, 0x00, 0x00, 0x00, 0x00, 0x00, 0x00, 0x00, 0x00, 0x00, 0x00,
     0x00, 0x00, 0x00, 0x00, 0x00, 0x00, 0x00, 0x00, 0x00, 0x00, 0x00, 0x00, 0x00, 0x00, 0x00, 0x00,
     0x00, 0x00, 0x00, 0x00, 0x00, 0x00, 0x00, 0x00, 0x00, 0x00, 0x00, 0x00, 0x00, 0x00, 0x00, 0x00,
     0x00, 0x00, 0x00, 0x00, 0x00, 0x00, 0x00, 0x00, 0x00, 0x00, 0x00, 0x00, 0x00, 0x00, 0x00, 0x00,
     0x00, 0x0c]

/-- sha1cd_test.go:49. -/
def golden23 : GoldenCase where
  out := [0x74, 0xc5, 0x1f, 0xa9, 0xa0, 0x4e, 0xad, 0xc8, 0xc1, 0xbb, 0xea, 0xa7, 0xfc, 0x44, 0x2f, 0x83,
     0x4b, 0x90, 0xa0, 0x0a]
  inp := [0x54, 0x68, 0x65, 0x20, 0x6d, 0x61, 0x6a, 0x6f, 0x72, 0x20, 0x70, 0x72, 0x6f, 0x62, 0x6c, 0x65,
     0x6d, 0x20, 0x69, 0x73, 0x20, 0x77, 0x69, 0x74, 0x68, 0x20, 0x73, 0x65, 0x6e, 0x64, 0x6d, 0x61,
     0x69, 0x6c, 0x2e, 0x20, 0x20, 0x2d, 0x4d, 0x61, 0x72, 0x6b, 0x20, 0x48, 0x6f, 0x72, 0x74, 0x6f,
     0x6e]
  half := [0x73, 0x68, 0x61, 0x63, 0x64, 0x01, 0x67, 0x45, 0x23, 0x01, 0xef, 0xcd, 0xab, 0x89, 0x98, 0xba,
     0xdc, 0xfe, 0x10, 0x32, 0x54, 0x76, 0xc3, 0xd2, 0xe1, 0xf0, 0x54, 0x68, 0x65, 0x20, 0x6d, 0x61,
     0x6a, 0x6f, 0x72, 0x20, 0x70, 0x72, 0x6f, 0x62, 0x6c, 0x65, 0x6d, 0x20, 0x69, 0x73, 0x20, 0x77,
     0x69, 0x74, 0x00, 0x00, 0x00, 0x00, 0x00, 0x00, 0x00, 0x00, 0x00, 0x00, 0x00, 0x00, 0x00, 0x00,
     0x00, 0x00, 0x00, 0x00, 0x00, 0x00, 0x00, 0x00, 0x00, 0x00, 0x00, 0x00, 0x00, 0x00, 0x00, 0x00,
     0x00, 0x00, 0x00, 0x00, 0x00, 0x00, 0x00, 0x00, 0x00, 0x00, 0x00, 0x00, 0x00, 0x00, 0x00, 0x00,
     0x00, 0x18]

/-- sha1cd_test.go:50. -/
def golden24 : GoldenCase where
  out := [0x0b, 0x4c, 0x4c, 0xe5, 0xf5, 0x2c, 0x3a, 0xd2, 0x82, 0x18, 0x52, 0xa8, 0xdc, 0x00, 0x21, 0x7f,
     0xa1, 0x8b, 0x8b, 0x66]
  inp := [0x47, 0x69, 0x76, 0x65, 0x20, 0x6d, 0x65, 0x20, 0x61, 0x20, 0x72, 0x6f, 0x63, 0x6b, 0x2c, 0x20,
     0x70, 0x61, 0x70, 0x65, 0x72, 0x20, 0x61, 0x6e, 0x64, 0x20, 0x73, 0x63, 0x69, 0x73, 0x73, 0x6f,
     0x72, 0x73, 0x20, 0x61, 0x6e, 0x64, 0x20, 0x49, 0x20, 0x77, 0x69, 0x6c, 0x6c, 0x20, 0x6d, 0x6f,
     0x76, 0x65, 0x20, 0x74, 0x68, 0x65, 0x20, 0x77, 0x6f, 0x72, 0x6c, 0x64, 0x2e, 0x20, 0x20, 0x43,
     0x43, 0x46, 0x65, 0x73, 0x74, 0x6f, 0x6f, 0x6e]
  half := [0x73, 0x68, 0x61, 0x63, 0x64, 0x01, 0x67, 0x45, 0x23, 0x01, 0xef, 0xcd, 0xab, 0x89, 0x98, 0xba,
     0xdc, 0xfe, 0x10, 0x32, 0x54, 0x76, 0xc3, 0xd2, 0xe1, 0xf0, 0x47, 0x69, 0x76, 0x65, 0x20, 0x6d,
     0x65, 0x20, 0x61, 0x20, 0x72, 0x6f, 0x63, 0x6b, 0x2c, 0x20, 0x70, 0x61, 0x70, 0x65, 0x72, 0x20,
     0x61, 0x6e, 0x64, 0x20, 0x73, 0x63, 0x69, 0x73, 0x73, 0x6f, 0x72, 0x73, 0x20, 0x61, 0x00, 0x00,
     0x00, 0x00, 0x00, 0x00, 0x00, 0x00, 0x00, 0x00, 0x00, 0x00, 0x00, 0x00, 0x00, 0x00, 0x00, 0x00,
     0x00, 0x00, 0x00, 0x00, 0x00, 0x00, 0x00, 0x00, 0x00, 0x00, 0x00, 0x00, 0x00, 0x00, 0x00, 0x00,
     0x00, 0x24]

/-- sha1cd_test.go:51. -/
def golden25 : GoldenCase where
  out := [0x3a, 0xe7, 0x93, 0x7d, 0xd7, 0x90, 0x31, 0x5b, 0xeb, 0x0f, 0x48, 0x33, 0x0e, 0x86, 0x42, 0x23,
     0x7c, 0x61, 0x55, 0x0a]
  inp := [0x49, 0x66, 0x20, 0x74, 0x68, 0x65, 0x20, 0x65, 0x6e, 0x65, 0x6d, 0x79, 0x20, 0x69, 0x73, 0x20,
     0x77, 0x69, 0x74, 0x68, 0x69, 0x6e, 0x20, 0x72, 0x61, 0x6e, 0x67, 0x65, 0x2c, 0x20, 0x74, 0x68,
     0x65, 0x6e, 0x20, 0x73, 0x6f, 0x20, 0x61, 0x72, 0x65, 0x20, 0x79, 0x6f, 0x75, 0x2e]
  half := [0x73, 0x68, 0x61, 0x63, 0x64, 0x01, 0x67, 0x45, 0x23, 0x01, 0xef, 0xcd, 0xab, 0x89, 0x98, 0xba,
     0xdc, 0xfe, 0x10, 0x32, 0x54, 0x76, 0xc3, 0xd2, 0xe1, 0xf0, 0x49, 0x66, 0x20, 0x74, 0x68, 0x65,
     0x20, 0x65, 0x6e, 0x65, 0x6d, 0x79, 0x20, 0x69, 0x73, 0x20, 0x77, 0x69, 0x74, 0x68, 0x69, 0x6e,
     0x20, 0x00, 0x00, 0x00, 0x00, 0x00, 0x00, 0x00, 0x00, 0x00, 0x00, 0x00, 0x00, 0x00, 0x00, 0x00,
     0x00, 0x00, 0x00, 0x00, 0x00, 0x00, 0x00, 0x00, 0x00, 0x00, 0x00, 0x00, 0x00, 0x00, 0x00, 0x00,
     0x00, 0x00, 0x00, 0x00, 0x00, 0x00, 0x00, 0x00, 0x00, 0x00, 0x00, 0x00, 0x00, 0x00, 0x00, 0x00,
     0x00, 0x17]

/-- sha1cd_test.go:52. -/
def golden26 : GoldenCase where
  out := [0x41, 0x0a, 0x2b, 0x29, 0x6d, 0xf9, 0x2b, 0x9a, 0x47, 0x41, 0x2b, 0x13, 0x28, 0x1d, 0xf8, 0xf8,
     0x30, 0xa9, 0xf4, 0x4b]
  inp := [0x49, 0x74, 0x27, 0x73, 0x20, 0x77, 0x65, 0x6c, 0x6c, 0x20, 0x77, 0x65, 0x20, 0x63, 0x61, 0x6e,
     0x6e, 0x6f, 0x74, 0x20, 0x68, 0x65, 0x61, 0x72, 0x20, 0x74, 0x68, 0x65, 0x20, 0x73, 0x63, 0x72,
     0x65, 0x61, 0x6d, 0x73, 0x2f, 0x54, 0x68, 0x61, 0x74, 0x20, 0x77, 0x65, 0x20, 0x63, 0x72, 0x65,
     0x61, 0x74, 0x65, 0x20, 0x69, 0x6e, 0x20, 0x6f, 0x74, 0x68, 0x65, 0x72, 0x73, 0x27, 0x20, 0x64,
     0x72, 0x65, 0x61, 0x6d, 0x73, 0x2e]
  half := [0x73, 0x68, 0x61, 0x63, 0x64, 0x01, 0x67, 0x45, 0x23, 0x01, 0xef, 0xcd, 0xab, 0x89, 0x98, 0xba,
     0xdc, 0xfe, 0x10, 0x32, 0x54, 0x76, 0xc3, 0xd2, 0xe1, 0xf0, 0x49, 0x74, 0x27, 0x73, 0x20, 0x77,
     0x65, 0x6c, 0x6c, 0x20, 0x77, 0x65, 0x20, 0x63, 0x61, 0x6e, 0x6e, 0x6f, 0x74, 0x20, 0x68, 0x65,
     0x61, 0x72, 0x20, 0x74, 0x68, 0x65, 0x20, 0x73, 0x63, 0x72, 0x65, 0x61, 0x6d, 0x00, 0x00, 0x00,
     0x00, 0x00, 0x00, 0x00, 0x00, 0x00, 0x00, 0x00, 0x00, 0x00, 0x00, 0x00, 0x00, 0x00, 0x00, 0x00,
     0x00, 0x00, 0x00, 0x00, 0x00, 0x00, 0x00, 0x00, 0x00, 0x00, 0x00, 0x00, 0x00, 0x00, 0x00, 0x00,
     0x00, 0x23]

/-- sha1cd_test.go:53. -/
def golden27 : GoldenCase where
  out := [0x84, 0x1e, 0x7c, 0x85, 0xca, 0x1a, 0xdc, 0xdd, 0xbd, 0xd0, 0x18, 0x7f, 0x12, 0x89, 0xac, 0xb5,
     0xc6, 0x42, 0xf7, 0xf5]
  inp := [0x59, 0x6f, 0x75, 0x20, 0x72, 0x65, 0x6d, 0x69, 0x6e, 0x64, 0x20, 0x6d, 0x65, 0x20, 0x6f, 0x66,
     0x20, 0x61, 0x20, 0x54, 0x56, 0x20, 0x73, 0x68, 0x6f, 0x77, 0x2c, 0x20, 0x62, 0x75, 0x74, 0x20,
     0x74, 0x68, 0x61, 0x74, 0x27, 0x73, 0x20, 0x61, 0x6c, 0x6c, 0x20, 0x72, 0x69, 0x67, 0x68, 0x74,
     0x3a, 0x20, 0x49, 0x20, 0x77, 0x61, 0x74, 0x63, 0x68, 0x20, 0x69, 0x74, 0x20, 0x61, 0x6e, 0x79,
     0x77, 0x61, 0x79, 0x2e]
  half := [0x73, 0x68, 0x61, 0x63, 0x64, 0x01, 0x67, 0x45, 0x23, 0x01, 0xef, 0xcd, 0xab, 0x89, 0x98, 0xba,
     0xdc, 0xfe, 0x10, 0x32, 0x54, 0x76, 0xc3, 0xd2, 0xe1, 0xf0, 0x59, 0x6f, 0x75, 0x20, 0x72, 0x65,
     0x6d, 0x69, 0x6e, 0x64, 0x20, 0x6d, 0x65, 0x20, 0x6f, 0x66, 0x20, 0x61, 0x20, 0x54, 0x56, 0x20,
     0x73, 0x68, 0x6f, 0x77, 0x2c, 0x20, 0x62, 0x75, 0x74, 0x20, 0x74, 0x68, 0x00, 0x00, 0x00, 0x00,
     0x00, 0x00, 0x00, 0x00, 0x00, 0x00, 0x00, 0x00, 0x00, 0x00, 0x00, 0x00, 0x00, 0x00, 0x00, 0x00,
     0x00, 0x00, 0x00, 0x00, 0x00, 0x00, 0x00, 0x00, 0x00, 0x00, 0x00, 0x00, 0x00, 0x00, 0x00, 0x00,
     0x00, 0x22]

/-- sha1cd_test.go:54. -/
def golden28 : GoldenCase where
  out := [0x16, 0x31, 0x73, 0xb8, 0x25, 0xd0, 0x3b, 0x95, 0x26, 0x01, 0x37, 0x6b, 0x25, 0x21, 0x2d, 0xf6,
     0x67, 0x63, 0xe1, 0xdb]
  inp := [0x43, 0x20, 0x69, 0x73, 0x20, 0x61, 0x73, 0x20, 0x70, 0x6f, 0x72, 0x74, 0x61, 0x62, 0x6c, 0x65,
     0x20, 0x61, 0x73, 0x20, 0x53, 0x74, 0x6f, 0x6e, 0x65, 0x68, 0x65, 0x64, 0x67, 0x65, 0x21, 0x21]
  half := [0x73, 0x68, 0x61, 0x63, 0x64, 0x01, 0x67, 0x45, 0x23, 0x01, 0xef, 0xcd, 0xab, 0x89, 0x98, 0xba,
     0xdc, 0xfe, 0x10, 0x32, 0x54, 0x76, 0xc3, 0xd2, 0xe1, 0xf0, 0x43, 0x20, 0x69, 0x73, 0x20, 0x61,
     0x73, 0x20, 0x70, 0x6f, 0x72, 0x74, 0x61, 0x62, 0x6c, 0x65, 0x00, 0x00, 0x00, 0x00, 0x00, 0x00,
     0x00, 0x00, 0x00, 0x00, 0x00, 0x00, 0x00, 0x00, 0x00, 0x00, 0x00, 0x00, 0x00, 0x00, 0x00, 0x00,
     0x00, 0x00, 0x00, 0x00, 0x00, 0x00, 0x00, 0x00, 0x00, 0x00, 0x00, 0x00, 0x00, 0x00, 0x00, 0x00,
     0x00, 0x00, 0x00, 0x00, 0x00, 0x00, 0x00, 0x00, 0x00, 0x00, 0x00, 0x00, 0x00, 0x00, 0x00, 0x00,
     0x00, 0x10]

/-- sha1cd_test.go:55. -/
def golden29 : GoldenCase where
  out := [0x32, 0xb0, 0x37, 0x7f, 0x26, 0x87, 0xeb, 0x88, 0xe2, 0x21, 0x06, 0xf1, 0x33, 0xc5, 0x86, 0xab,
     0x31, 0x4d, 0x52, 0x79]
  inp := [0x45, 0x76, 0x65, 0x6e, 0x20, 0x69, 0x66, 0x20, 0x49, 0x20, 0x63, 0x6f, 0x75, 0x6c, 0x64, 0x20,
     0x62, 0x65, 0x20, 0x53, 0x68, 0x61, 0x6b, 0x65, 0x73, 0x70, 0x65, 0x61, 0x72, 0x65, 0x2c, 0x20,
     0x49, 0x20, 0x74, 0x68, 0x69, 0x6e, 0x6b, 0x20, 0x49, 0x20, 0x73, 0x68, 0x6f, 0x75, 0x6c, 0x64,
     0x20, 0x73, 0x74, 0x69, 0x6c, 0x6c, 0x20, 0x63, 0x68, 0x6f, 0x6f, 0x73, 0x65, 0x20, 0x74, 0x6f,
     0x20, 0x62, 0x65, 0x20, 0x46, 0x61, 0x72, 0x61, 0x64, 0x61, 0x79, 0x2e, 0x20, 0x2d, 0x20, 0x41,
     0x2e, 0x20, 0x48, 0x75, 0x78, 0x6c, 0x65, 0x79]
  half := [0x73, 0x68, 0x61, 0x63, 0x64, 0x01, 0x67, 0x45, 0x23, 0x01, 0xef, 0xcd, 0xab, 0x89, 0x98, 0xba,
     0xdc, 0xfe, 0x10, 0x32, 0x54, 0x76, 0xc3, 0xd2, 0xe1, 0xf0, 0x45, 0x76, 0x65, 0x6e, 0x20, 0x69,
     0x66, 0x20, 0x49, 0x20, 0x63, 0x6f, 0x75, 0x6c, 0x64, 0x20, 0x62, 0x65, 0x20, 0x53, 0x68, 0x61,
     0x6b, 0x65, 0x73, 0x70, 0x65, 0x61, 0x72, 0x65, 0x2c, 0x20, 0x49, 0x20, 0x74, 0x68, 0x69, 0x6e,
     0x6b, 0x20, 0x49, 0x20, 0x73, 0x68, 0x00, 0x00, 0x00, 0x00, 0x00, 0x00, 0x00, 0x00, 0x00, 0x00,
     0x00, 0x00, 0x00, 0x00, 0x00, 0x00, 0x00, 0x00, 0x00, 0x00, 0x00, 0x00, 0x00, 0x00, 0x00, 0x00,
     0x00, 0x2c]

/-- sha1cd_test.go:56. -/
def golden30 : GoldenCase where
  out := [0x08, 0x85, 0xaa, 0xf9, 0x9b, 0x56, 0x95, 0x42, 0xfd, 0x16, 0x5f, 0xa4, 0x4e, 0x32, 0x27, 0x18,
     0xf4, 0xa9, 0x84, 0xe0]
  inp := [0x54, 0x68, 0x65, 0x20, 0x66, 0x75, 0x67, 0x61, 0x63, 0x69, 0x74, 0x79, 0x20, 0x6f, 0x66, 0x20,
     0x61, 0x20, 0x63, 0x6f, 0x6e, 0x73, 0x74, 0x69, 0x74, 0x75, 0x65, 0x6e, 0x74, 0x20, 0x69, 0x6e,
     0x20, 0x61, 0x20, 0x6d, 0x69, 0x78, 0x74, 0x75, 0x72, 0x65, 0x20, 0x6f, 0x66, 0x20, 0x67, 0x61,
     0x73, 0x65, 0x73, 0x20, 0x61, 0x74, 0x20, 0x61, 0x20, 0x67, 0x69, 0x76, 0x65, 0x6e, 0x20, 0x74,
     0x65, 0x6d, 0x70, 0x65, 0x72, 0x61, 0x74, 0x75, 0x72, 0x65, 0x20, 0x69, 0x73, 0x20, 0x70, 0x72,
     0x6f, 0x70, 0x6f, 0x72, 0x74, 0x69, 0x6f, 0x6e, 0x61, 0x6c, 0x20, 0x74, 0x6f, 0x20, 0x69, 0x74,
     0x73, 0x20, 0x6d, 0x6f, 0x6c, 0x65, 0x20, 0x66, 0x72, 0x61, 0x63, 0x74, 0x69, 0x6f, 0x6e, 0x2e,
     0x20, 0x20, 0x4c, 0x65, 0x77, 0x69, 0x73, 0x2d, 0x52, 0x61, 0x6e, 0x64, 0x61, 0x6c, 0x6c, 0x20,
     0x52, 0x75, 0x6c, 0x65]
  half := [0x73, 0x68, 0x61, 0x63, 0x64, 0x01, 0x78, 0x7d, 0xf4, 0x0d, 0xeb, 0xf2, 0x10, 0x87, 0xe8, 0x5b,
     0xb2, 0x4a, 0x41, 0x24, 0x44, 0xb7, 0xd8, 0xba, 0x78, 0x38, 0x65, 0x6d, 0x00, 0x00, 0x00, 0x00,
     0x00, 0x00, 0x00, 0x00, 0x00, 0x00, 0x00, 0x00, 0x00, 0x00, 0x00, 0x00, 0x00, 0x00, 0x00, 0x00,
     0x00, 0x00, 0x00, 0x00, 0x00, 0x00, 0x00, 0x00, 0x00, 0x00, 0x00, 0x00, 0x00, 0x00, 0x00, 0x00,
     0x00, 0x00, 0x00, 0x00, 0x00, 0x00, 0x00, 0x00, 0x00, 0x00, 0x00, 0x00, 0x00, 0x00, 0x00, 0x00,
     0x00, 0x00, 0x00, 0x00, 0x00, 0x00, 0x00, 0x00, 0x00, 0x00, 0x00, 0x00, 0x00, 0x00, 0x00, 0x00,
     0x00, 0x42]

/-- sha1cd_test.go:57. -/
def golden31 : GoldenCase where
  out := [0x66, 0x27, 0xd6, 0x90, 0x4d, 0x71, 0x42, 0x0b, 0x0b, 0xf3, 0x88, 0x6a, 0xb6, 0x29, 0x62, 0x35,
     0x38, 0x68, 0x9f, 0x45]
  inp := [0x48, 0x6f, 0x77, 0x20, 0x63, 0x61, 0x6e, 0x20, 0x79, 0x6f, 0x75, 0x20, 0x77, 0x72, 0x69, 0x74,
     0x65, 0x20, 0x61, 0x20, 0x62, 0x69, 0x67, 0x20, 0x73, 0x79, 0x73, 0x74, 0x65, 0x6d, 0x20, 0x77,
     0x69, 0x74, 0x68, 0x6f, 0x75, 0x74, 0x20, 0x43, 0x2b, 0x2b, 0x3f, 0x20, 0x20, 0x2d, 0x50, 0x61,
     0x75, 0x6c, 0x20, 0x47, 0x6c, 0x69, 0x63, 0x6b]
  half := [0x73, 0x68, 0x61, 0x63, 0x64, 0x01, 0x67, 0x45, 0x23, 0x01, 0xef, 0xcd, 0xab, 0x89, 0x98, 0xba,
     0xdc, 0xfe, 0x10, 0x32, 0x54, 0x76, 0xc3, 0xd2, 0xe1, 0xf0, 0x48, 0x6f, 0x77, 0x20, 0x63, 0x61,
     0x6e, 0x20, 0x79, 0x6f, 0x75, 0x20, 0x77, 0x72, 0x69, 0x74, 0x65, 0x20, 0x61, 0x20, 0x62, 0x69,
     0x67, 0x20, 0x73, 0x79, 0x73, 0x74, 0x00, 0x00, 0x00, 0x00, 0x00, 0x00, 0x00, 0x00, 0x00, 0x00,
     0x00, 0x00, 0x00, 0x00, 0x00, 0x00, 0x00, 0x00, 0x00, 0x00, 0x00, 0x00, 0x00, 0x00, 0x00, 0x00,
     0x00, 0x00, 0x00, 0x00, 0x00, 0x00, 0x00, 0x00, 0x00, 0x00, 0x00, 0x00, 0x00, 0x00, 0x00, 0x00,
     0x00, 0x1c]

/-- sha1cd_test.go:25-58. -/
def golden : List GoldenCase :=
  [golden0, golden1, golden2, golden3, golden4, golden5, golden6, golden7,
   golden8, golden9, golden10, golden11, golden12, golden13, golden14, golden15,
   golden16, golden17, golden18, golden19, golden20, golden21, golden22, golden23,
   golden24, golden25, golden26, golden27, golden28, golden29, golden30, golden31]

/-- sha1cd_test.go:164-165: a checkpoint and the digest after restoring it. -/
def large0 : List Byte × List Byte :=
  ([0x73, 0x68, 0x61, 0x63, 0x64, 0x01, 0x13, 0xbc, 0xfe, 0x83, 0x8c, 0xbd, 0xdf, 0x50, 0x1f, 0xd8,
     0xda, 0xbf, 0x3c, 0x9e, 0x6a, 0x69, 0x38, 0x74, 0xe1, 0xa5, 0x40, 0x41, 0x42, 0x43, 0x44, 0x45,
     0x46, 0x47, 0x48, 0x49, 0x4a, 0x4b, 0x4c, 0x4d, 0x4e, 0x4f, 0x50, 0x51, 0x52, 0x53, 0x54, 0x55,
     0x56, 0x57, 0x58, 0x59, 0x5a, 0x5b, 0x5c, 0x5d, 0x5e, 0x5f, 0x60, 0x61, 0x62, 0x63, 0x64, 0x65,
     0x66, 0x67, 0x68, 0x69, 0x6a, 0x6b, 0x6c, 0x6d, 0x6e, 0x6f, 0x70, 0x71, 0x72, 0x73, 0x74, 0x75,
     0x76, 0x00, 0x00, 0x00, 0x00, 0x00, 0x00, 0x00, 0x00, 0x00, 0x00, 0x00, 0x00, 0x01, 0xa7, 0x56,
     0x43, 0x77],
   [0xbc, 0x62, 0x45, 0xc9, 0x95, 0x9c, 0xc3, 0x3e, 0x1c, 0x25, 0x92, 0xe5, 0xc9, 0xea, 0x9b, 0x5d,
     0x04, 0x31, 0x24, 0x6c])

/-- sha1cd_test.go:169-170: a checkpoint and the digest after restoring it. -/
def large1 : List Byte × List Byte :=
  ([0x73, 0x68, 0x61, 0x63, 0x64, 0x01, 0x6d, 0x3b, 0x16, 0xa6, 0x52, 0xbe, 0x40, 0xa9, 0x6e, 0xc4,
     0x88, 0xf9, 0x53, 0x03, 0x00, 0x42, 0xc2, 0xdc, 0x76, 0xcf, 0x40, 0x41, 0x42, 0x43, 0x44, 0x45,
     0x46, 0x47, 0x48, 0x49, 0x4a, 0x4b, 0x4c, 0x4d, 0x4e, 0x4f, 0x50, 0x51, 0x52, 0x53, 0x54, 0x55,
     0x56, 0x57, 0x58, 0x59, 0x5a, 0x5b, 0x5c, 0x5d, 0x5e, 0x5f, 0x60, 0x61, 0x62, 0x63, 0x64, 0x65,
     0x66, 0x67, 0x68, 0x69, 0x6a, 0x6b, 0x6c, 0x6d, 0x6e, 0x6f, 0x70, 0x71, 0x72, 0x73, 0x74, 0x75,
     0x76, 0x00, 0x00, 0x00, 0x00, 0x00, 0x00, 0x00, 0x00, 0x00, 0x00, 0x00, 0x00, 0x01, 0x87, 0x56,
     0x43, 0x77],
   [0x8f, 0x2d, 0x1c, 0x0e, 0x42, 0x71, 0x76, 0x8f, 0x35, 0xfe, 0xb9, 0x18, 0xbf, 0xe2, 0x1e, 0xa1,
     0x38, 0x7a, 0x20, 0x72])

end Verif
