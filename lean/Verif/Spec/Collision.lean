import Verif.Spec.Sha1

/-
What it means for a block to be one half of a near-collision pair, written from the paper
M. Stevens, "Counter-cryptanalysis" (CRYPTO 2013) and from the list of vectors in cgo/README.md,
independently of the code in /repo.
-/

namespace Verif.Spec

open Verif

/-- Inverse rotation. -/
def rotr (n : Nat) (x : Word) : Word := rotl (32 - n) x

/-- The two families of disturbance vectors. -/
inductive DVType where
  | I
  | II
deriving DecidableEq, Repr

/-- A disturbance vector I(K,b) or II(K,b), with the step `T` from which the second message's
computation is reconstructed. -/
structure DV where
  type : DVType
  K : Nat
  b : Nat
  T : Nat
deriving DecidableEq, Repr

/-- The 32 vectors, cgo/README.md.  `T` is a step at which all earlier local collisions are complete and
none has begun (see `IsDW.quiet`, `Props.C21`). -/
def dvList : List DV := [
  ⟨.I, 43, 0, 58⟩, ⟨.I, 44, 0, 58⟩, ⟨.I, 45, 0, 58⟩, ⟨.I, 46, 0, 58⟩, ⟨.I, 46, 2, 58⟩,
  ⟨.I, 47, 0, 58⟩, ⟨.I, 47, 2, 58⟩, ⟨.I, 48, 0, 58⟩, ⟨.I, 48, 2, 58⟩, ⟨.I, 49, 0, 58⟩,
  ⟨.I, 49, 2, 58⟩, ⟨.I, 50, 0, 65⟩, ⟨.I, 50, 2, 65⟩, ⟨.I, 51, 0, 65⟩, ⟨.I, 51, 2, 65⟩,
  ⟨.I, 52, 0, 65⟩,
  ⟨.II, 45, 0, 58⟩, ⟨.II, 46, 0, 58⟩, ⟨.II, 46, 2, 58⟩, ⟨.II, 47, 0, 58⟩, ⟨.II, 48, 0, 58⟩,
  ⟨.II, 49, 0, 58⟩, ⟨.II, 49, 2, 58⟩, ⟨.II, 50, 0, 65⟩, ⟨.II, 50, 2, 65⟩, ⟨.II, 51, 0, 65⟩,
  ⟨.II, 51, 2, 65⟩, ⟨.II, 52, 0, 65⟩, ⟨.II, 53, 0, 65⟩, ⟨.II, 54, 0, 65⟩, ⟨.II, 55, 0, 65⟩,
  ⟨.II, 56, 0, 65⟩]

/-- The sixteen consecutive words of the vector at positions K, …, K+15. -/
def window (ty : DVType) (b j : Nat) : Word :=
  match ty with
  | .I => if j = 15 then rotl b 1 else 0
  | .II => if j = 1 ∨ j = 3 then rotl b 0x80000000 else if j = 15 then rotl b 1 else 0

/-- `D` is the disturbance vector of `dv` on positions -5 … 79, `D n` being the word at position
`n - 5`: the prescribed window, continued in both directions by SHA-1's message expansion. -/
structure IsDW (dv : DV) (D : Nat → Word) : Prop where
  win : ∀ j, j < 16 → dv.K + j < 80 → D (dv.K + j + 5) = window dv.type dv.b j
  exp : ∀ n, 16 ≤ n → n < 85 → D n = rotl 1 (D (n - 3) ^^^ D (n - 8) ^^^ D (n - 14) ^^^ D (n - 16))

/-- The message-word difference at step `t` when a local collision starts at every set bit of the
vector: a disturbance and its five corrections. -/
def localDiff (D : Nat → Word) (t : Nat) : Word :=
  D (t + 5) ^^^ rotl 5 (D (t + 4)) ^^^ D (t + 3) ^^^ rotl 30 (D (t + 2)) ^^^ rotl 30 (D (t + 1)) ^^^
    rotl 30 (D t)

/-- `δ` is the XOR difference in the eighty expanded message words prescribed by `dv`. -/
def IsDiff (dv : DV) (δ : Nat → Word) : Prop :=
  ∃ D, IsDW dv D ∧ ∀ t, t < 80 → δ t = localDiff D t

/-- XOR of a block with a difference. -/
def xorBlock (M : Block) (δ : Nat → Word) : Block := fun i => M i ^^^ δ i

/-- The computation of SHA-1's compression function from chaining value `H` on block `M` is one half of
a collision prescribed by `dv`: some other computation, on the block obtained by adding the difference of
`dv`, has the same working variables at step `T` and the same result. -/
def Sibling (dv : DV) (H : Regs) (M : Block) : Prop :=
  ∃ δ H', IsDiff dv δ ∧
    steps (sched (xorBlock M δ)) dv.T H' = steps (sched M) dv.T H ∧
    compress H' (xorBlock M δ) = compress H M

/-- One round-by-round run of steps `t`, …, `t+n-1`. -/
def runSteps (W : Nat → Word) (t : Nat) : Nat → Regs → Regs
  | 0, s => s
  | n + 1, s => step (t + n) (W (t + n)) (runSteps W t n s)

/-- The safe hash: a flagged block is compressed three times. -/
def safeCompress (det : Regs → Block → Bool) (H : Regs) (M : Block) : Regs :=
  if det H M then compress (compress (compress H M) M) M else compress H M

/-- The chaining value after a list of blocks, and whether any of them was flagged. -/
def safeChain (det : Regs → Block → Bool) : Regs → List Block → Regs × Bool
  | H, [] => (H, false)
  | H, M :: Ms =>
    let (H', c) := safeChain det (safeCompress det H M) Ms
    (H', det H M || c)

/-- The safe hash of a message with the collision flag. -/
def safeHash (det : Regs → Block → Bool) (m : List Byte) : List Byte × Bool :=
  let (H, c) := safeChain det H0 (blocks (pad m))
  (digestBytes H, c)

end Verif.Spec
