import Verif.Source.AsmRead
import Verif.Model.Flat

/-!
Running the text of the assembly files: control flow by labels, comparisons and jumps.
-/

namespace Verif.Source

open Verif Verif.Model

/-- What running needs to know of a processor (sha1cdblock_amd64.s:27-266, sha1cdblock_arm64.s:31-243): what an instruction does, the value of an
operand of a comparison, and whether a jump is taken after a comparison of two values. -/
structure Machine (I S : Type) where
  exec : S → I → GoM S
  val : S → Opnd → Option Word64
  taken : List Nat → Word64 → Word64 → Option Bool

/-- The statements after a label (sha1cdblock_amd64.s:50,265, sha1cdblock_arm64.s:46,238). -/
def after {I : Type} (l : List Nat) : List (Item I) → Option (List (Item I))
  | [] => none
  | .label m :: is => if m == l then some is else after l is
  | _ :: is => after l is

/-- Run at most `n` statements from `pc` on; `fl` are the values compared by the statement before, if it was a comparison.  A jump must follow a
comparison directly (sha1cdblock_amd64.s:33-34,257-258, sha1cdblock_arm64.s:47-48).  Running out of statements is a
fault, and so is anything not understood (sha1cdblock_amd64.s:27-266, sha1cdblock_arm64.s:31-243). -/
def Machine.go {I S : Type} (M : Machine I S) (prog : List (Item I)) :
    Nat → List (Item I) → Option (Word64 × Word64) → S → GoM S
  | 0, _, _, _ => throw .fault
  | _ + 1, [], _, _ => throw .fault
  | n + 1, .instr i :: pc, _, s => do
    let s ← M.exec s i
    M.go prog n pc none s
  | n + 1, .label _ :: pc, _, s => M.go prog n pc none s
  | n + 1, .cmp a b :: pc, _, s =>
    match M.val s a, M.val s b with
    | some x, some y => M.go prog n pc (some (x, y)) s
    | _, _ => throw .fault
  | n + 1, .jump c l :: pc, fl, s =>
    match fl with
    | none => throw .fault
    | some (x, y) =>
      match M.taken c x y, after l prog with
      | some true, some pc' => M.go prog n pc' none s
      | some false, some _ => M.go prog n pc none s
      | _, _ => throw .fault
  | _ + 1, .ret :: _, _, s => pure s

/-- Run a file, at most `n` statements (sha1cdblock_amd64.s:27-266, sha1cdblock_arm64.s:31-243). -/
def Machine.run {I S : Type} (M : Machine I S) (f : File I) (n : Nat) (s : S) : GoM S := M.go f.items n f.items none s

/-- A processor of amd64 (sha1cdblock_amd64.s:33-34,257-258). -/
def amd64 : Machine Amd64.Instr Flat.Amd64.FSt where
  exec := Flat.Amd64.exec
  val s
    | .imm n => some (BitVec.ofNat 64 n)
    | .reg r => (Source.Amd64.gReg r).map s.g
    | _ => none
  taken c x y :=
    if c == chars! "JEQ" then some (decide (x = y)) else if c == chars! "JNE" then some (decide (x ≠ y)) else none

/-- A processor of arm64; `CMP a, b` compares `b` with `a`, and `BLS` is "less or same", unsigned
(sha1cdblock_arm64.s:47-48). -/
def arm64 : Machine Arm64.Instr Flat.Arm64.FSt where
  exec := Flat.Arm64.exec
  val s
    | .imm n => some (BitVec.ofNat 64 n)
    | .reg r => (Source.Arm64.gReg r).map s.g
    | _ => none
  taken c x y := if c == chars! "BLS" then some (decide (y.toNat ≤ x.toNat)) else none

/-- `d.width` bytes from `a + d.off` on hold `d.val`, least significant byte first (sha1cdblock_amd64.s:268-273,
sha1cdblock_arm64.s:245-248). -/
def Data.At (d : Data) (a : Word64) (b : Word64 → Byte) : Prop :=
  ∀ i, i < d.width → b (a + BitVec.ofNat 64 (d.off + i)) = BitVec.ofNat 8 (d.val / 256 ^ i)

/-- The result of reading a file, or a function without statements (sha1cdblock_amd64.s:1-274, sha1cdblock_arm64.s:1-249). -/
def orEmpty {I : Type} (f : Option (File I)) : File I := f.getD ⟨[], 0, 0, [], []⟩

/-- A call of the function read from `ls`, as `Flat.Amd64.call` (sha1cdblock_amd64.go:39,46,47). -/
def callAmd64 (ls : List (List Nat)) (n : Nat) (E : Flat.Env) (x : Amd64.X → Vec) (g : Amd64.G → Word64) (r12 : Word) (h : Regs) (p : List Byte)
    (m1 : Fin 80 → Word) (cs : Fin 3 → Regs) : GoM AsmOut := do
  let s ← amd64.run (orEmpty (Source.Amd64.read ls)) n
    ⟨x, fun q => if q = .sp then E.lay .frame else g q, r12, E.mem h p m1 cs, E.lay .args, Flat.Amd64.symAt E.lay⟩
  pure (E.out s.mem)

/-- A call of the function read from `ls`, as `Flat.Arm64.call` (sha1cdblock_arm64.go:35,42,43). -/
def callArm64 (ls : List (List Nat)) (n : Nat) (E : Flat.Env) (v : Arm64.V → Vec) (g : Arm64.G → Word64) (h : Regs) (p : List Byte)
    (m1 : Fin 80 → Word) (cs : Fin 3 → Regs) : GoM AsmOut := do
  let s ← arm64.run (orEmpty (Source.Arm64.read ls)) n ⟨v, g, E.mem h p m1 cs, E.lay .args, E.lay .k0⟩
  pure (E.out s.mem)

end Verif.Source
