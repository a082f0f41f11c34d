import Verif.Spec.Ubc

/-!
Data for the counting of `Proofs/UbcCount`, found by Gaussian elimination over the conditions of `Spec/Ubc`; what is needed of
them is checked there.
-/

namespace Verif.Ubc

/-- For every condition of every vector a block, as a number whose lowest 32 bits are word 0: adding it changes whether the
condition holds, and changes nothing about the conditions after it. -/
def flips : List (List Nat) := [
  -- I(43,0)
  [0x20e20001,
   0x4a00001,
   0xa40000,
   0x200000,
   0x100000,
   0x40000,
   0x800000000000000,
   0x10020001,
   0x1,
   0x420000,
   0x20000],
  -- I(44,0)
  [0x1802000,
   0x802002,
   0x10000010182003,
   0x102002,
   0x80000,
   0x10000001,
   0x20200002,
   0x1,
   0x8200000,
   0x200000,
   0x2,
   0x2000],
  -- I(45,0)
  [0x20000,
   0x200100000,
   0x4480004,
   0x5c0000,
   0x100380004,
   0x380004,
   0x80000,
   0x140000,
   0x800000000000004,
   0x5,
   0x1,
   0x40000],
  -- I(46,0)
  [0xaa10001,
   0x2b10000,
   0x10002,
   0x10980001,
   0x800000,
   0x80000,
   0x100000,
   0x20000,
   0x200000,
   0x1,
   0x2],
  -- I(46,2)
  [0xa000002,
   0x2000005,
   0x2,
   0x5,
   0x8,
   0x40000001,
   0x1],
  -- I(47,0)
  [0x1,
   0x114ec0000,
   0x5400000,
   0x21080000,
   0xa40000,
   0x10100000,
   0x640000,
   0x1180000,
   0x280000,
   0x80000,
   0x40000,
   0x100000],
  -- I(47,2)
  [0x800004,
   0x1000000,
   0x8000000,
   0x4,
   0x110400000,
   0x400000,
   0x10000000],
  -- I(48,0)
  [0x400000,
   0x2b00000,
   0x5000002,
   0x11000002,
   0x1100000,
   0x100002,
   0x4000000210000,
   0x10000000000002,
   0x10000,
   0x800000,
   0x20000,
   0x200000,
   0x1,
   0x2],
  -- I(48,2)
  [0x2200004,
   0x400001,
   0x200003,
   0xa,
   0x7,
   0x1,
   0x2],
  -- I(49,0)
  [0x100001,
   0x203050001,
   0x1000005a40000,
   0x6050001,
   0x3a10001,
   0xa40000,
   0x1080000,
   0x100240001,
   0x240000,
   0x1,
   0x10000,
   0xc0000,
   0x40000],
  -- I(49,2)
  [0x6000005,
   0x5,
   0x10000000,
   0x1,
   0x2000000,
   0x8000000,
   0x20000000,
   0x1000000],
  -- I(50,0)
  [0x26a40002,
   0x40000,
   0x6a00002,
   0x2a00000,
   0xa20002,
   0x118000003,
   0x2,
   0x8480000,
   0x480000,
   0x80000,
   0x220000,
   0x20000,
   0x10000001,
   0x1],
  -- I(50,2)
  [0x1,
   0x300000108800006,
   0x100000000,
   0x100000008800006,
   0x8800002,
   0x2,
   0x4,
   0x800000],
  -- I(51,0)
  [0x111480000,
   0x210228001,
   0x6430000,
   0x13238001,
   0x20b0000,
   0x420000,
   0x1aa8000,
   0xa08000,
   0x20000,
   0x10000,
   0x88000,
   0x8000,
   0x200000,
   0x80000000,
   0x1],
  -- I(51,2)
  [0x804000000,
   0x1000000,
   0x10a100005,
   0x4100001,
   0x8000000,
   0x5,
   0x100000,
   0x1,
   0x2000000,
   0x2],
  -- I(52,0)
  [0x4200002,
   0x2260002,
   0x100680001,
   0x440000,
   0x40000000,
   0x10860000,
   0x2,
   0xa68000,
   0x208000,
   0x40000,
   0x20000,
   0x8000,
   0x80000,
   0x1],
  -- II(45,0)
  [0x1014c0005,
   0x20000,
   0x140005,
   0x80000,
   0x400000,
   0x1200004,
   0x240004,
   0x5,
   0x10000,
   0x1,
   0x40000],
  -- II(46,0)
  [0x420000,
   0x40000,
   0x40000000,
   0x100100001,
   0xa20001,
   0x10100001,
   0x200000,
   0x1,
   0x100000,
   0x20000,
   0x2],
  -- II(46,2)
  [0x800001,
   0x100000000,
   0x6,
   0xa000000,
   0x2,
   0x1,
   0x2000000],
  -- II(47,0)
  [0x43168000,
   0x6b00000,
   0x40000,
   0x2a00000,
   0x8000,
   0x1100000,
   0x210000,
   0x10000000000000,
   0x830000,
   0x10000,
   0x20000,
   0x1,
   0x100000,
   0x80000000],
  -- II(48,0)
  [0x4000002150000,
   0x440000,
   0x2150000,
   0x10000,
   0x10100003,
   0x10c0002,
   0x100200001,
   0x200000,
   0x108003,
   0x8000,
   0x1,
   0x40000,
   0x2,
   0x4080000,
   0x80000],
  -- II(49,0)
  [0x5460000,
   0x428e0001,
   0x2040000,
   0x460000,
   0x880001,
   0xc0001,
   0x20001,
   0x1,
   0x110240000,
   0x200000,
   0x40000,
   0x10000000,
   0x8000000,
   0x1000000],
  -- II(49,2)
  [0x100000000000005,
   0x8000000,
   0x5,
   0x2200000,
   0x1,
   0x200000,
   0x400000,
   0x20000000,
   0x4000000],
  -- II(50,0)
  [0x1916a8001,
   0x81e08000,
   0x1228001,
   0x2004000,
   0xa0000,
   0x800001,
   0x20000,
   0x10000000,
   0xc000,
   0x204001,
   0x1,
   0x4000,
   0x400000,
   0x100000],
  -- II(50,2)
  [0x1000002,
   0x40000004,
   0xc080004,
   0x4000004,
   0x4,
   0x80000,
   0x2000000,
   0x2,
   0x400000],
  -- II(51,0)
  [0x800000a24001,
   0x100e88000,
   0x1,
   0x2804000,
   0x10000000,
   0x224000,
   0x8000,
   0xc04000,
   0x20000,
   0x4000,
   0x400000,
   0x80000,
   0x4040000,
   0x40000],
  -- II(51,2)
  [0xc00005,
   0x4,
   0x1,
   0x2400000,
   0x1000000,
   0x4000000,
   0x400000,
   0x10100000,
   0x100000],
  -- II(52,0)
  [0x9e88001,
   0x850c0003,
   0xc0000,
   0x1618003,
   0x2,
   0x10000,
   0x840001,
   0x20000,
   0x40000,
   0x608001,
   0x40000000,
   0x8000,
   0x4000001,
   0x1,
   0x200000],
  -- II(53,0)
  [0x80000,
   0x40000,
   0x2,
   0x1810000,
   0x810000,
   0x100000,
   0x10000,
   0x10602000,
   0x204000,
   0x400000,
   0x4000,
   0x2000,
   0x20000000000000,
   0x100000000],
  -- II(54,0)
  [0x5c24000,
   0x1e34000,
   0x480000,
   0x80000,
   0x10000,
   0x10840000,
   0xa00001,
   0x8024001,
   0x4000,
   0x200000,
   0x40040000,
   0x1,
   0x20000,
   0x40000],
  -- II(55,0)
  [0x107c20000,
   0x480000,
   0x6100000,
   0x8000,
   0x80001,
   0x800000,
   0x3220001,
   0x1,
   0x800000000100000,
   0x11120000,
   0x1100000,
   0x20000,
   0x100000,
   0x200000],
  -- II(56,0)
  [0x1460002,
   0xe48002,
   0x561000,
   0x21000,
   0x201002,
   0x1c0002,
   0x10000001,
   0x80002,
   0x8000,
   0x41001,
   0x8000000,
   0x1000,
   0x1,
   0x2]]

/-- Vectors whose conditions contradict each other: vector, the others, and the conditions (vector, number) that do. -/
structure Conflict where
  top : Nat
  others : List Nat
  refs : List (Nat × Nat)

/-- Among the vectors with `b = 0`. -/
def conflicts0 : List Conflict := [
  ⟨11, [7, 15], [(7, 11), (11, 1), (15, 3)]⟩,
  ⟨0, [7], [(0, 3), (0, 4), (0, 7), (7, 4), (7, 6)]⟩,
  ⟨0, [11], [(0, 2), (0, 3), (0, 6), (11, 3), (11, 7)]⟩,
  ⟨0, [15], [(0, 5), (15, 0), (15, 3)]⟩,
  ⟨1, [7, 11], [(1, 2), (1, 4), (1, 7), (7, 0), (11, 3)]⟩,
  ⟨1, [7, 15], [(1, 0), (7, 10), (15, 1)]⟩,
  ⟨1, [11, 15], [(1, 2), (1, 4), (1, 7), (11, 3), (15, 0)]⟩,
  ⟨2, [0, 1], [(0, 3), (0, 4), (0, 7), (1, 3), (2, 4)]⟩,
  ⟨2, [1, 7], [(1, 0), (1, 6), (2, 6), (2, 7), (7, 0)]⟩,
  ⟨2, [11], [(2, 3), (2, 5), (2, 8), (11, 3), (11, 7)]⟩,
  ⟨2, [15], [(2, 7), (15, 0), (15, 3)]⟩,
  ⟨3, [1, 2], [(1, 4), (1, 5), (1, 8), (2, 4), (3, 4)]⟩,
  ⟨3, [1, 7], [(1, 4), (1, 5), (1, 8), (3, 4), (7, 6)]⟩,
  ⟨3, [1, 11], [(1, 3), (3, 6), (11, 12), (11, 13)]⟩,
  ⟨3, [1, 15], [(1, 0), (3, 7), (15, 1)]⟩,
  ⟨3, [7, 11], [(3, 3), (3, 5), (3, 9), (7, 0), (11, 3)]⟩,
  ⟨3, [7, 15], [(3, 4), (7, 6), (7, 7), (15, 12), (15, 13)]⟩,
  ⟨3, [11, 15], [(3, 3), (3, 5), (3, 9), (11, 3), (15, 0)]⟩,
  ⟨5, [0, 1], [(0, 0), (0, 5), (1, 2), (1, 4), (1, 6), (1, 7), (5, 3)]⟩,
  ⟨5, [0, 2], [(0, 3), (0, 4), (0, 7), (2, 4), (5, 5)]⟩,
  ⟨5, [0, 3], [(0, 2), (0, 3), (0, 6), (3, 4), (5, 3)]⟩,
  ⟨5, [1, 7], [(1, 2), (1, 4), (1, 7), (5, 3), (7, 0)]⟩,
  ⟨5, [1, 11], [(1, 0), (5, 9), (11, 1)]⟩,
  ⟨5, [2, 3], [(2, 3), (2, 5), (2, 8), (3, 4), (5, 3)]⟩,
  ⟨5, [3, 7], [(3, 3), (3, 5), (3, 9), (5, 3), (7, 0)]⟩,
  ⟨5, [3, 11], [(3, 0), (3, 7), (5, 8), (5, 9), (11, 1)]⟩,
  ⟨5, [15], [(5, 10), (15, 0), (15, 3)]⟩,
  ⟨9, [0, 3], [(0, 0), (3, 8), (9, 2)]⟩,
  ⟨9, [0, 5], [(0, 2), (0, 3), (0, 6), (5, 3), (9, 6)]⟩,
  ⟨9, [1], [(1, 4), (1, 5), (1, 8), (9, 6), (9, 7)]⟩,
  ⟨9, [2, 3], [(2, 0), (2, 6), (3, 7), (3, 8), (9, 2)]⟩,
  ⟨9, [2, 5], [(2, 3), (2, 5), (2, 8), (5, 3), (9, 6)]⟩,
  ⟨9, [2, 7], [(2, 7), (7, 0), (9, 2)]⟩,
  ⟨9, [3, 11], [(3, 8), (9, 2), (11, 1)]⟩,
  ⟨9, [3, 15], [(3, 0), (9, 11), (15, 1)]⟩,
  ⟨9, [5, 7], [(5, 10), (7, 0), (9, 2)]⟩,
  ⟨9, [5, 11], [(5, 7), (9, 9), (11, 13)]⟩,
  ⟨9, [7, 11], [(7, 11), (9, 2), (11, 1)]⟩,
  ⟨9, [7, 15], [(7, 8), (7, 9), (9, 10), (9, 11), (15, 1)]⟩,
  ⟨13, [0, 2], [(0, 0), (2, 6), (13, 2)]⟩,
  ⟨13, [0, 5], [(0, 0), (5, 9), (13, 2)]⟩,
  ⟨13, [0, 9], [(0, 5), (9, 2), (13, 0)]⟩,
  ⟨13, [1], [(1, 2), (1, 4), (1, 7), (13, 0), (13, 4)]⟩,
  ⟨13, [2, 5], [(2, 4), (5, 5), (5, 7), (13, 12), (13, 14)]⟩,
  ⟨13, [2, 7], [(2, 0), (7, 10), (13, 2)]⟩,
  ⟨13, [2, 9], [(2, 7), (9, 2), (13, 0)]⟩,
  ⟨13, [3], [(3, 3), (3, 5), (3, 9), (13, 0), (13, 4)]⟩,
  ⟨13, [5, 7], [(5, 6), (5, 8), (7, 9), (7, 10), (13, 2)]⟩,
  ⟨13, [5, 9], [(5, 10), (9, 2), (13, 0)]⟩,
  ⟨13, [5, 11], [(5, 9), (11, 1), (13, 2)]⟩,
  ⟨13, [7, 11], [(7, 7), (11, 12), (13, 14)]⟩,
  ⟨13, [7, 15], [(7, 10), (13, 2), (15, 1)]⟩,
  ⟨13, [9, 11], [(9, 12), (11, 1), (13, 2)]⟩,
  ⟨13, [9, 15], [(9, 8), (13, 12), (15, 13)]⟩,
  ⟨13, [11, 15], [(11, 11), (13, 2), (15, 1)]⟩,
  ⟨19, [0], [(0, 3), (0, 4), (0, 7), (19, 3), (19, 6)]⟩,
  ⟨19, [1], [(1, 6), (19, 0), (19, 1)]⟩,
  ⟨19, [2, 13], [(2, 6), (13, 2), (19, 0)]⟩,
  ⟨19, [3], [(3, 8), (19, 0), (19, 1)]⟩,
  ⟨19, [5, 9], [(5, 6), (9, 10), (19, 9)]⟩,
  ⟨19, [5, 13], [(5, 9), (13, 2), (19, 0)]⟩,
  ⟨19, [7], [(7, 11), (19, 0), (19, 1)]⟩,
  ⟨19, [9, 11], [(9, 9), (11, 12), (11, 13), (19, 3)]⟩,
  ⟨19, [9, 13], [(9, 12), (13, 2), (19, 0)]⟩,
  ⟨19, [11, 13], [(11, 12), (13, 12), (13, 14), (19, 6)]⟩,
  ⟨19, [15], [(15, 1), (15, 10), (15, 11), (19, 4), (19, 10)]⟩,
  ⟨30, [1, 2], [(1, 3), (2, 4), (2, 5), (30, 6), (30, 9)]⟩,
  ⟨30, [1, 3], [(1, 0), (3, 7), (30, 1)]⟩,
  ⟨30, [1, 11], [(1, 0), (11, 11), (30, 1)]⟩,
  ⟨30, [3, 11], [(3, 6), (11, 13), (30, 6)]⟩,
  ⟨30, [5], [(5, 8), (30, 0), (30, 1)]⟩,
  ⟨30, [7], [(7, 4), (7, 6), (30, 5), (30, 6), (30, 9)]⟩,
  ⟨30, [9], [(9, 11), (30, 0), (30, 1)]⟩,
  ⟨30, [13], [(13, 10), (30, 0), (30, 1)]⟩,
  ⟨30, [15], [(15, 7), (15, 9), (30, 3), (30, 4)]⟩,
  ⟨30, [19], [(19, 3), (19, 6), (30, 5), (30, 6), (30, 9)]⟩,
  ⟨20, [0, 13], [(0, 2), (0, 3), (0, 6), (13, 4), (20, 5)]⟩,
  ⟨20, [1], [(1, 4), (1, 5), (1, 8), (20, 5), (20, 6)]⟩,
  ⟨20, [2], [(2, 6), (20, 0), (20, 1)]⟩,
  ⟨20, [3, 15], [(3, 7), (15, 1), (20, 0)]⟩,
  ⟨20, [5], [(5, 9), (20, 0), (20, 1)]⟩,
  ⟨20, [7, 11], [(7, 8), (11, 4), (11, 9), (20, 3)]⟩,
  ⟨20, [7, 15], [(7, 10), (15, 1), (20, 0)]⟩,
  ⟨20, [9], [(9, 12), (20, 0), (20, 1)]⟩,
  ⟨20, [11, 13], [(11, 4), (11, 9), (11, 10), (11, 11), (13, 2), (13, 9), (13, 10), (20, 3)]⟩,
  ⟨20, [11, 15], [(11, 11), (15, 1), (20, 0)]⟩,
  ⟨20, [11, 19], [(11, 4), (11, 9), (19, 9), (20, 3)]⟩,
  ⟨20, [13, 15], [(13, 12), (15, 12), (15, 13), (20, 5)]⟩,
  ⟨20, [30], [(20, 8), (20, 11), (30, 3), (30, 4)]⟩,
  ⟨21, [0], [(0, 2), (0, 3), (0, 6), (21, 3), (21, 5)]⟩,
  ⟨21, [1, 15], [(1, 2), (1, 4), (1, 7), (15, 0), (21, 3)]⟩,
  ⟨21, [2], [(2, 3), (2, 5), (2, 8), (21, 3), (21, 5)]⟩,
  ⟨21, [3], [(3, 7), (21, 0), (21, 1)]⟩,
  ⟨21, [5, 19], [(5, 9), (19, 0), (21, 1)]⟩,
  ⟨21, [7], [(7, 10), (21, 0), (21, 1)]⟩,
  ⟨21, [9, 13], [(9, 4), (9, 10), (9, 11), (13, 6), (13, 11), (21, 4)]⟩,
  ⟨21, [9, 19], [(9, 12), (19, 0), (21, 1)]⟩,
  ⟨21, [11], [(11, 11), (21, 0), (21, 1)]⟩,
  ⟨21, [13, 15], [(13, 6), (15, 7), (15, 9), (21, 4)]⟩,
  ⟨21, [13, 19], [(13, 12), (13, 14), (19, 6), (21, 11)]⟩,
  ⟨21, [13, 20], [(13, 6), (13, 9), (13, 10), (13, 11), (20, 3), (21, 4)]⟩,
  ⟨21, [19, 20], [(19, 9), (19, 10), (20, 3), (21, 4)]⟩,
  ⟨25, [0], [(0, 5), (25, 0), (25, 3)]⟩,
  ⟨25, [1, 21], [(1, 2), (1, 4), (1, 7), (21, 3), (25, 0)]⟩,
  ⟨25, [2], [(2, 7), (25, 0), (25, 3)]⟩,
  ⟨25, [3, 20], [(3, 8), (20, 1), (25, 3)]⟩,
  ⟨25, [5], [(5, 10), (25, 0), (25, 3)]⟩,
  ⟨25, [7], [(7, 9), (25, 1), (25, 5)]⟩,
  ⟨25, [9, 19], [(9, 10), (19, 9), (25, 5)]⟩,
  ⟨25, [9, 21], [(9, 11), (21, 0), (25, 1)]⟩,
  ⟨25, [11], [(11, 10), (25, 1), (25, 5)]⟩,
  ⟨25, [13, 19], [(13, 9), (19, 9), (25, 5)]⟩,
  ⟨25, [13, 21], [(13, 10), (21, 0), (25, 1)]⟩,
  ⟨25, [15], [(15, 10), (25, 1), (25, 5)]⟩,
  ⟨25, [19, 21], [(19, 4), (21, 4), (21, 8), (25, 6)]⟩,
  ⟨25, [21, 30], [(21, 4), (21, 8), (25, 6), (30, 3)]⟩,
  ⟨27, [1], [(1, 6), (27, 0), (27, 1)]⟩,
  ⟨27, [3], [(3, 8), (27, 0), (27, 1)]⟩,
  ⟨27, [5, 21], [(5, 9), (21, 1), (27, 0)]⟩,
  ⟨27, [7], [(7, 11), (27, 0), (27, 1)]⟩,
  ⟨27, [9], [(9, 10), (27, 3), (27, 5)]⟩,
  ⟨27, [11, 20], [(11, 4), (11, 9), (20, 3), (27, 5)]⟩,
  ⟨27, [11, 30], [(11, 10), (27, 3), (30, 0)]⟩,
  ⟨27, [13], [(13, 9), (27, 3), (27, 5)]⟩,
  ⟨27, [15, 20], [(15, 1), (15, 7), (15, 9), (15, 10), (15, 11), (20, 3), (27, 5)]⟩,
  ⟨27, [19, 20], [(19, 3), (19, 7), (20, 10), (27, 10)]⟩,
  ⟨28, [0, 27], [(0, 2), (0, 5), (27, 1), (28, 13)]⟩,
  ⟨28, [1, 25], [(1, 6), (25, 3), (28, 1)]⟩,
  ⟨28, [2], [(2, 6), (28, 0), (28, 1)]⟩,
  ⟨28, [3, 25], [(3, 8), (25, 3), (28, 1)]⟩,
  ⟨28, [3, 30], [(3, 7), (28, 0), (30, 1)]⟩,
  ⟨28, [5], [(5, 9), (28, 0), (28, 1)]⟩,
  ⟨28, [7, 13], [(7, 4), (7, 7), (13, 14), (28, 5)]⟩,
  ⟨28, [7, 20], [(7, 4), (7, 6), (20, 7), (28, 5), (28, 7)]⟩,
  ⟨28, [9], [(9, 12), (28, 0), (28, 1)]⟩,
  ⟨28, [11], [(11, 4), (11, 9), (28, 3), (28, 6)]⟩,
  ⟨28, [13, 19], [(13, 12), (13, 14), (19, 3), (19, 6), (28, 5)]⟩,
  ⟨28, [13, 21], [(13, 6), (13, 9), (13, 10), (13, 11), (21, 4), (28, 3)]⟩,
  ⟨28, [13, 25], [(13, 9), (25, 5), (28, 6)]⟩,
  ⟨28, [15], [(15, 1), (15, 7), (15, 9), (15, 10), (15, 11), (28, 3), (28, 6)]⟩,
  ⟨28, [19, 20], [(19, 3), (19, 6), (20, 7), (28, 5), (28, 7)]⟩,
  ⟨28, [19, 21], [(19, 9), (19, 10), (21, 4), (28, 3)]⟩,
  ⟨28, [20, 21], [(20, 6), (20, 7), (21, 11), (28, 7)]⟩,
  ⟨28, [21, 25], [(21, 9), (25, 7), (25, 8), (28, 8)]⟩,
  ⟨28, [25, 27], [(25, 7), (25, 8), (27, 8), (28, 8)]⟩,
  ⟨28, [25, 30], [(25, 7), (28, 10), (28, 11), (30, 11)]⟩,
  ⟨31, [0, 2], [(0, 3), (0, 4), (0, 7), (2, 4), (31, 2)]⟩,
  ⟨31, [0, 5], [(0, 2), (0, 4), (0, 6), (0, 7), (5, 3), (5, 5), (31, 5), (31, 6), (31, 10)]⟩,
  ⟨31, [0, 13], [(0, 3), (0, 4), (0, 7), (13, 12), (31, 2), (31, 6)]⟩,
  ⟨31, [0, 27], [(0, 2), (0, 4), (0, 6), (0, 7), (27, 13), (31, 2), (31, 6), (31, 10)]⟩,
  ⟨31, [2, 3], [(2, 4), (3, 4), (3, 5), (31, 6), (31, 10)]⟩,
  ⟨31, [2, 5], [(2, 0), (5, 8), (31, 0)]⟩,
  ⟨31, [2, 13], [(2, 0), (13, 10), (31, 0)]⟩,
  ⟨31, [2, 30], [(2, 4), (2, 5), (30, 6), (30, 9), (31, 2)]⟩,
  ⟨31, [3, 30], [(3, 2), (3, 7), (30, 1), (31, 13)]⟩,
  ⟨31, [5, 13], [(5, 5), (5, 7), (13, 14), (31, 6)]⟩,
  ⟨31, [7], [(7, 9), (31, 0), (31, 4)]⟩,
  ⟨31, [9], [(9, 6), (9, 7), (31, 5), (31, 6), (31, 10)]⟩,
  ⟨31, [11], [(11, 10), (31, 0), (31, 4)]⟩,
  ⟨31, [13, 19], [(13, 9), (19, 9), (31, 4)]⟩,
  ⟨31, [13, 25], [(13, 0), (13, 4), (25, 4), (31, 5), (31, 9)]⟩,
  ⟨31, [13, 28], [(13, 9), (28, 6), (31, 4)]⟩,
  ⟨31, [15], [(15, 10), (31, 0), (31, 4)]⟩,
  ⟨31, [20], [(20, 5), (20, 6), (31, 5), (31, 6), (31, 10)]⟩,
  ⟨31, [21], [(21, 4), (21, 8), (31, 3), (31, 7)]⟩,
  ⟨31, [25, 27], [(25, 0), (25, 4), (27, 13), (31, 9)]⟩,
  ⟨16, [0, 9], [(0, 5), (9, 2), (16, 0)]⟩,
  ⟨16, [0, 20], [(0, 2), (0, 3), (0, 6), (16, 3), (20, 5)]⟩,
  ⟨16, [0, 31], [(0, 2), (0, 4), (0, 6), (0, 7), (16, 3), (31, 2), (31, 5), (31, 6), (31, 10)]⟩,
  ⟨16, [1], [(1, 2), (1, 4), (1, 7), (16, 0), (16, 3)]⟩,
  ⟨16, [2, 5], [(2, 0), (5, 8), (16, 1)]⟩,
  ⟨16, [2, 9], [(2, 7), (9, 2), (16, 0)]⟩,
  ⟨16, [2, 19], [(2, 7), (16, 0), (19, 1)]⟩,
  ⟨16, [3], [(3, 3), (3, 5), (3, 9), (16, 0), (16, 3)]⟩,
  ⟨16, [5, 9], [(5, 10), (9, 2), (16, 0)]⟩,
  ⟨16, [5, 19], [(5, 10), (16, 0), (19, 1)]⟩,
  ⟨16, [5, 21], [(5, 8), (16, 1), (21, 0)]⟩,
  ⟨16, [11], [(11, 4), (11, 9), (11, 10), (16, 1), (16, 5), (16, 8)]⟩,
  ⟨16, [15], [(15, 1), (15, 7), (15, 9), (15, 11), (16, 1), (16, 5), (16, 8)]⟩,
  ⟨16, [19, 25], [(16, 8), (19, 9), (25, 5)]⟩,
  ⟨16, [19, 31], [(16, 8), (19, 9), (31, 4)]⟩,
  ⟨16, [21, 30], [(16, 3), (16, 4), (21, 5), (30, 5), (30, 8)]⟩,
  ⟨16, [25, 28], [(16, 8), (25, 5), (28, 6)]⟩,
  ⟨16, [25, 30], [(16, 3), (16, 4), (25, 11), (30, 8)]⟩,
  ⟨16, [27], [(16, 8), (27, 3), (27, 5)]⟩,
  ⟨16, [28, 31], [(16, 8), (28, 6), (31, 4)]⟩,
  ⟨17, [0], [(0, 5), (17, 0), (17, 1)]⟩,
  ⟨17, [2], [(2, 7), (17, 0), (17, 1)]⟩,
  ⟨17, [5], [(5, 10), (17, 0), (17, 1)]⟩,
  ⟨17, [13], [(13, 6), (13, 10), (13, 11), (17, 6), (17, 9)]⟩,
  ⟨17, [20, 27], [(17, 4), (17, 9), (20, 3), (27, 5)]⟩,
  ⟨17, [28], [(17, 4), (17, 9), (28, 3), (28, 6)]⟩,
  ⟨23, [1], [(1, 2), (1, 4), (1, 7), (23, 0), (23, 4)]⟩,
  ⟨23, [17, 20], [(17, 4), (20, 8), (20, 11), (23, 6)]⟩]

/-- Among the vectors with `b = 2`. -/
def conflicts2 : List Conflict := [
  ⟨12, [4, 8], [(4, 6), (8, 1), (12, 6)]⟩,
  ⟨14, [6, 10], [(6, 0), (6, 4), (6, 6), (10, 1), (10, 4), (10, 5), (14, 4)]⟩,
  ⟨18, [4, 8], [(4, 3), (8, 2), (18, 3), (18, 4), (18, 6)]⟩,
  ⟨18, [4, 12], [(4, 6), (12, 6), (18, 0)]⟩,
  ⟨18, [8, 12], [(8, 0), (8, 2), (8, 3), (12, 3), (12, 4), (12, 7), (18, 5)]⟩,
  ⟨22, [4, 8], [(4, 6), (8, 1), (22, 2)]⟩,
  ⟨22, [4, 18], [(4, 6), (18, 0), (22, 2)]⟩,
  ⟨22, [10, 14], [(10, 4), (14, 7), (22, 3), (22, 4), (22, 5)]⟩,
  ⟨24, [6, 10], [(6, 0), (6, 4), (6, 6), (10, 1), (10, 4), (10, 5), (24, 2)]⟩,
  ⟨24, [8, 18], [(8, 2), (18, 3), (18, 4), (18, 6), (24, 1)]⟩,
  ⟨24, [12, 18], [(12, 3), (12, 4), (12, 5), (18, 6), (24, 1)]⟩,
  ⟨26, [4, 12], [(4, 6), (12, 6), (26, 0)]⟩,
  ⟨26, [6, 22], [(6, 0), (6, 3), (22, 6), (26, 6)]⟩]

/-- The vectors with `b = 0`, in the order in which they are best tried. -/
def order0 : List Nat := [15, 7, 11, 0, 1, 2, 3, 5, 9, 13, 19, 30, 20, 21, 25, 27, 28, 31, 16, 17, 23, 29]

/-- Those with `b = 2`. -/
def order2 : List Nat := [4, 6, 8, 10, 12, 14, 18, 22, 24, 26]

end Verif.Ubc
