/-
Shared vocabulary: words, bytes, the five-word register file, bounded loops and Go panics.
Nothing in this file is specific to SHA-1.
-/

namespace Verif

/-- Go `byte` / C `unsigned char`. -/
abbrev Byte := BitVec 8
/-- Go `uint32` / C `uint32_t`: arithmetic wraps modulo 2^32. -/
abbrev Word := BitVec 32
/-- Go `uint64` / C `uint64_t`. -/
abbrev Word64 := BitVec 64

/-- Five 32-bit words: a `[5]uint32` (internal/const.go:25 `WordBuffers = 5`), or the tuple
`a, b, c, d, e` of working variables. -/
@[ext] structure Regs where
  a : Word
  b : Word
  c : Word
  d : Word
  e : Word
deriving DecidableEq, Repr

/-- Word-wise addition modulo 2^32. -/
def Regs.add (s t : Regs) : Regs :=
  ⟨s.a + t.a, s.b + t.b, s.c + t.c, s.d + t.d, s.e + t.e⟩

/-- The ways in which the modelled Go code can panic. -/
inductive Panic where
  /-- `panic("d.nx != 0")`, sha1cd.go:185 -/
  | nxNotZero
  /-- `panic(fmt.Sprintf("dvs data is trying to use a testT ..."))`, sha1cdblock_generic.go:165 -/
  | badTestT
  /-- index out of range (run-time panic) -/
  | indexOutOfRange
  /-- slice bounds out of range (run-time panic) -/
  | sliceOutOfRange
  /-- assembly or C code accesses memory outside its arrays or at a misaligned address, or shifts by 32 or more
  (no Go panic, but undefined behaviour of the program) -/
  | fault
  /-- the C code calls `abort()`, cgo/sha1.c:1946 -/
  | abort
deriving DecidableEq, Repr

/-- Result of Go code that may panic. -/
abbrev GoM := Except Panic

/-- `for i := lo; i < lo+n; i++ { s = body i s }`, the body receiving the loop bounds as proofs. -/
def loopUp {S : Type u} (lo : Nat) : (n : Nat) → ((i : Nat) → lo ≤ i → i < lo + n → S → S) → S → S
  | 0, _, s => s
  | n + 1, body, s =>
    body (lo + n) (Nat.le_add_right _ _) (Nat.lt_succ_self _)
      (loopUp lo n (fun i h1 h2 => body i h1 (Nat.lt_succ_of_lt h2)) s)

/-- `for i := lo+n-1; i >= lo; i-- { s = body i s }`. -/
def loopDown {S : Type u} (lo : Nat) : (n : Nat) → ((i : Nat) → lo ≤ i → i < lo + n → S → S) → S → S
  | 0, _, s => s
  | n + 1, body, s =>
    loopDown lo n (fun i h1 h2 => body i h1 (Nat.lt_succ_of_lt h2))
      (body (lo + n) (Nat.le_add_right _ _) (Nat.lt_succ_self _) s)

/-- Assignment `a[i] = v` to a fixed-size array. -/
def upd {α : Type u} {n : Nat} (f : Fin n → α) (i : Fin n) (v : α) : Fin n → α :=
  fun j => if j = i then v else f j

end Verif
