import Verif.Basic

/-
FIPS 180-4 SHA-1, transcribed from the standard (section numbers below), independently of /repo.
-/

namespace Verif.Spec

open Verif

/-- §2.2.2 ROTL^n(x). -/
def rotl (n : Nat) (x : Word) : Word := (x <<< n) ||| (x >>> (32 - n))

/-- §4.1.1 the logical functions f_0 … f_79. -/
def Ch (x y z : Word) : Word := (x &&& y) ^^^ (~~~x &&& z)
def Parity (x y z : Word) : Word := x ^^^ y ^^^ z
def Maj (x y z : Word) : Word := (x &&& y) ^^^ (x &&& z) ^^^ (y &&& z)

def f (t : Nat) (x y z : Word) : Word :=
  if t < 20 then Ch x y z
  else if t < 40 then Parity x y z
  else if t < 60 then Maj x y z
  else Parity x y z

/-- §4.2.1 the constants K_0 … K_79. -/
def K (t : Nat) : Word :=
  if t < 20 then 0x5a827999
  else if t < 40 then 0x6ed9eba1
  else if t < 60 then 0x8f1bbcdc
  else 0xca62c1d6

/-- §5.3.1 the initial hash value H^(0). -/
def H0 : Regs := ⟨0x67452301, 0xefcdab89, 0x98badcfe, 0x10325476, 0xc3d2e1f0⟩

/-- A 512-bit message block: sixteen 32-bit words M_0 … M_15. -/
abbrev Block := Fin 16 → Word

/-- §6.1.2 step 1: the message schedule W_t. -/
def sched (M : Block) (t : Nat) : Word :=
  if h : t < 16 then M ⟨t, h⟩
  else rotl 1 (sched M (t - 3) ^^^ sched M (t - 8) ^^^ sched M (t - 14) ^^^ sched M (t - 16))
termination_by t
decreasing_by all_goals omega

/-- §6.1.2 step 3, one iteration: T = ROTL^5(a) + f_t(b,c,d) + e + K_t + W_t; e = d; d = c;
c = ROTL^30(b); b = a; a = T. -/
def step (t : Nat) (w : Word) (s : Regs) : Regs :=
  ⟨rotl 5 s.a + f t s.b s.c s.d + s.e + K t + w, s.a, rotl 30 s.b, s.c, s.d⟩

/-- The working variables before iteration `t`, starting from `s` before iteration 0. -/
def steps (W : Nat → Word) : Nat → Regs → Regs
  | 0, s => s
  | t + 1, s => step t (W t) (steps W t s)

/-- §6.1.2: H^(i) from H^(i-1) and M^(i). -/
def compress (H : Regs) (M : Block) : Regs := H.add (steps (sched M) 80 H)

/-- Big-endian 32-bit word from four bytes (§3.1). -/
def be32 (b0 b1 b2 b3 : Byte) : Word := b0 ++ b1 ++ b2 ++ b3

/-- The sixteen words of a 64-byte block (§5.2.1). -/
def toBlock (bs : List Byte) : Block := fun i =>
  be32 (bs.getD (4 * i) 0) (bs.getD (4 * i + 1) 0) (bs.getD (4 * i + 2) 0) (bs.getD (4 * i + 3) 0)

/-- Cut a byte string into consecutive 64-byte blocks; an incomplete tail is dropped. -/
def chunks (bs : List Byte) : List (List Byte) :=
  if 64 ≤ bs.length then bs.take 64 :: chunks (bs.drop 64) else []
termination_by bs.length
decreasing_by simp; omega

/-- The message blocks M^(1), …, M^(N) of a padded byte string. -/
def blocks (bs : List Byte) : List Block := (chunks bs).map toBlock

/-- Big-endian bytes of a 32-bit word. -/
def word32Bytes (w : Word) : List Byte :=
  [w.extractLsb' 24 8, w.extractLsb' 16 8, w.extractLsb' 8 8, w.extractLsb' 0 8]

/-- Big-endian bytes of a 64-bit word. -/
def word64Bytes (w : Word64) : List Byte :=
  [w.extractLsb' 56 8, w.extractLsb' 48 8, w.extractLsb' 40 8, w.extractLsb' 32 8,
   w.extractLsb' 24 8, w.extractLsb' 16 8, w.extractLsb' 8 8, w.extractLsb' 0 8]

/-- §5.1.1, byte version: the number of zero bytes after 0x80, the smallest non-negative `k` with
`len + 1 + k ≡ 56 (mod 64)`. -/
def zeroPad (len : Nat) : Nat := (119 - len % 64) % 64

/-- §5.1.1 padding of a byte message: 0x80, zeros, 64-bit big-endian bit length.  FIPS defines this
for bit lengths below 2^64; the 64-bit field makes longer lengths wrap. -/
def pad (m : List Byte) : List Byte :=
  m ++ 0x80 :: List.replicate (zeroPad m.length) 0 ++ word64Bytes (BitVec.ofNat 64 (8 * m.length))

/-- The 160-bit message digest as 20 bytes: H_0 ‖ … ‖ H_4. -/
def digestBytes (s : Regs) : List Byte :=
  word32Bytes s.a ++ word32Bytes s.b ++ word32Bytes s.c ++ word32Bytes s.d ++ word32Bytes s.e

/-- §6.1 SHA-1 of a byte message. -/
def sha1 (m : List Byte) : List Byte := digestBytes ((blocks (pad m)).foldl compress H0)

end Verif.Spec
