import Verif.Spec.Object
import Verif.Model.CApi

/-
The option settings documented in cgo/sha1.h:65-93, and what a hash with given settings is to compute.
Written from that documentation, independently of cgo/sha1.c; only the type `Call` is taken from the model.
-/

namespace Verif.Spec

open Verif Verif.Model

/-- The four switches of the C library. -/
structure Options where
  /-- a flagged block is compressed three times -/
  safe : Bool
  /-- blocks are tested at all -/
  detect : Bool
  /-- only vectors whose unavoidable bit conditions hold are tested -/
  ubc : Bool
  /-- collisions of SHA-1 reduced to fewer steps count too -/
  reduced : Bool
deriving DecidableEq, Repr

/-- "Enabled by default" for the first three, "disabled by default" for the last. -/
def Options.default : Options := ⟨true, true, true, false⟩

/-- The computation is one half of a collision of the first `T` steps: the block with the difference of `dv`
added, processed from the same chaining value, has the same working variables after `T` steps. -/
def ReducedSibling (dv : DV) (H : Regs) (M : Block) : Prop :=
  ∃ δ, IsDiff dv δ ∧ steps (sched (xorBlock M δ)) dv.T H = steps (sched M) dv.T H

/-- A block is flagged under the given settings. -/
def Options.Flags (o : Options) (H : Regs) (M : Block) : Prop :=
  o.detect = true ∧ ∃ k dv, dvList[k]? = some dv ∧ (o.ubc = true → ubcHolds k (sched M) = true) ∧
    (Sibling dv H M ∨ (o.reduced = true ∧ ReducedSibling dv H M))

/-- The next chaining value. -/
noncomputable def Options.next (o : Options) (H : Regs) (M : Block) : Regs :=
  if o.safe && verdict o.Flags H M then compress (compress (compress H M) M) M else compress H M

/-- The chaining value after a list of blocks, and whether any of them was flagged. -/
noncomputable def Options.chain (o : Options) : Regs → List Block → Regs × Bool
  | H, [] => (H, false)
  | H, M :: Ms => ((o.chain (o.next H M) Ms).1, verdict o.Flags H M || (o.chain (o.next H M) Ms).2)

/-- The digest of a message, and its flag. -/
noncomputable def Options.hash (o : Options) (m : List Byte) : List Byte × Bool :=
  (digestBytes (o.chain H0 (blocks (pad m))).1, (o.chain H0 (blocks (pad m))).2)

/-- What a client can know: the settings, the message so far, and the chaining value and flag resulting from its
complete blocks, each processed under the settings in force when its last byte arrived. -/
structure OptState where
  o : Options
  H : Regs
  col : Bool
  m : List Byte

/-- After `SHA1DCInit`. -/
def OptState.init : OptState := ⟨.default, H0, false, []⟩

/-- The blocks completed when `p` is appended to `m`. -/
def newBlocks (m p : List Byte) : List Block := (blocks (m ++ p)).drop (blocks m).length

/-- The effect of a call. -/
noncomputable def OptState.after (s : OptState) : C.Call → OptState
  | .init => .init
  | .setSafeHash v => { s with o := { s.o with safe := v != 0 } }
  | .setUseUBC v => { s with o := { s.o with ubc := v != 0 } }
  | .setUseDetectColl v => { s with o := { s.o with detect := v != 0 } }
  | .setDetectReducedRoundCollision v => { s with o := { s.o with reduced := v != 0 } }
  | .update p => { s with H := (s.o.chain s.H (newBlocks s.m p)).1
                          col := s.col || (s.o.chain s.H (newBlocks s.m p)).2
                          m := s.m ++ p }

/-- What `SHA1DCFinal` is to return: the blocks completed by the padding are processed under the settings in force
then. -/
noncomputable def OptState.final (s : OptState) : List Byte × Bool :=
  let r := s.o.chain s.H ((blocks (pad s.m)).drop (blocks s.m).length)
  (digestBytes r.1, s.col || r.2)

end Verif.Spec
