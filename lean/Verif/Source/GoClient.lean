import Verif.Source.GoProgram
import Verif.Model.Memory

/-!
A program that uses the package: it makes hash objects, has byte slices, some of them parts of the same array, overwrites
their bytes, and calls the functions of the package with them, each call being a call of the function that the text
describes.
-/

namespace Verif.Source.Go

open Verif Verif.Source Verif.Model

/-- The methods that take a slice (sha1cd.go:75,132,159,207). -/
inductive Meth1 where
  | write
  | sum
  | collisionResistantSum
  | unmarshalBinary
deriving DecidableEq, Repr

/-- The methods without arguments (sha1cd.go:39,107,128,130). -/
inductive Meth0 where
  | reset
  | size
  | blockSize
  | marshalBinary
deriving DecidableEq, Repr

/-- The call, as a value: the argument is the bytes of the slice (sha1cd.go:75,132,159,207). -/
def Meth1.op (bs : List Byte) : Meth1 → Op
  | .write => .write bs
  | .sum => .sum bs
  | .collisionResistantSum => .collisionResistantSum bs
  | .unmarshalBinary => .unmarshalBinary bs

/-- The call, as a value (sha1cd.go:39,107,128,130). -/
def Meth0.op : Meth0 → Op
  | .reset => .reset
  | .size => .size
  | .blockSize => .blockSize
  | .marshalBinary => .marshalBinary

/-- What the program has: hash objects and byte slices (sha1cd.go:122). -/
structure Client where
  objs : List Val
  held : List Val

/-- What the program does (sha1cd.go:39-212). -/
inductive Step where
  /-- `sha1cd.New()` -/
  | new
  /-- the slice `nil` -/
  | null
  /-- a slice of a new array with the given contents -/
  | make (bs : List Byte)
  /-- `s[i:j]` -/
  | reslice (s i j : Nat)
  /-- `s[i] = b` -/
  | poke (s i : Nat) (b : Byte)
  /-- a method call on object `o` -/
  | call0 (o : Nat) (f : Meth0)
  /-- a method call on object `o` with slice `s` -/
  | call1 (o : Nat) (f : Meth1) (s : Nat)
  /-- `sha1cd.Sum(s)` -/
  | sumPkg (s : Nat)
deriving DecidableEq, Repr

/-- The bytes of a slice (sha1cd.go:132). -/
def bytesOf (v : Val) : M (List Byte) := do
  let (g, n) ← sliceElems v
  pure ((List.range n).map fun i => match g i with
    | .u8 x => x
    | _ => 0)

/-- A value of type `error`; the only ones the package has are `nil` and the two of sha1cd.go:77,80. -/
def errOf : Val → M (Option Err)
  | .null => pure none
  | .err s =>
    if s = chars! "crypto/sha1: invalid hash state identifier" then pure (some .badIdentifier)
    else if s = chars! "crypto/sha1: invalid hash state size" then pure (some .badSize)
    else stop .stuck
  | _ => stop .stuck

/-- A method call with a slice: the slices returned, and the results as values (sha1cd.go:75,132,159,207). -/
def callMeth1 (P : Program) (N d : Nat) (v p : Val) : Meth1 → M (List Val × Out)
  | .write => do
    match ← P.call N d 0 (name! "Write") [v, p] with
    | [.int (.ofNat n), e] => do
      let e ← errOf e
      pure ([], .write n e)
    | _ => stop .stuck
  | .sum => do
    match ← P.call N d 0 (name! "Sum") [v, p] with
    | [r] => do
      let bs ← bytesOf r
      pure ([r], .sum bs)
    | _ => stop .stuck
  | .collisionResistantSum => do
    match ← P.call N d 0 (name! "CollisionResistantSum") [v, p] with
    | [r, .bool c] => do
      let bs ← bytesOf r
      pure ([r], .collisionResistantSum bs c)
    | _ => stop .stuck
  | .unmarshalBinary => do
    match ← P.call N d 0 (name! "UnmarshalBinary") [v, p] with
    | [e] => do
      let e ← errOf e
      pure ([], .unmarshalBinary e)
    | _ => stop .stuck

/-- A method call without arguments: the slices returned, and the results as values (sha1cd.go:39,107,128,130). -/
def callMeth0 (P : Program) (N d : Nat) (v : Val) : Meth0 → M (List Val × Out)
  | .reset => do
    match ← P.call N d 0 (name! "Reset") [v] with
    | [] => pure ([], .reset)
    | _ => stop .stuck
  | .size => do
    match ← P.call N d 0 (name! "Size") [v] with
    | [.int (.ofNat n)] => pure ([], .size n)
    | _ => stop .stuck
  | .blockSize => do
    match ← P.call N d 0 (name! "BlockSize") [v] with
    | [.int (.ofNat n)] => pure ([], .blockSize n)
    | _ => stop .stuck
  | .marshalBinary => do
    match ← P.call N d 0 (name! "MarshalBinary") [v] with
    | [r, e] => do
      let bs ← bytesOf r
      let e ← errOf e
      pure ([r], .marshalBinary bs e)
    | _ => stop .stuck

/-- An array of bytes, returned by value (sha1cd.go:200). -/
def arrBytes : Val → Option (List Byte)
  | .arr n f => some ((List.range n).map fun i => match f i with
    | .u8 x => x
    | _ => 0)
  | _ => none

/-- One step: the calls are made with the budget `N` for each loop and `d` for the depth of calls.  What no program can express (objects and
slices that it does not have, indices out of range) does nothing, and neither does a call with `64 * N` bytes or more, for which the
budget may not be enough, or with a slice longer than an `int` (sha1cd.go:39-212). -/
def Client.step (P : Program) (N d : Nat) (c : Client) : Step → M (Client × List Ev)
  | .new => do
    match ← P.call N d (name! "sha1cd") (name! "New") [] with
    | [v] => pure ({ c with objs := c.objs ++ [v] }, [])
    | _ => stop .stuck
  | .null => pure ({ c with held := c.held ++ [.null] }, [])
  | .make bs => do
    let l ← alloc (.arr bs.length fun i => .u8 (bs.getD i 0))
    pure ({ c with held := c.held ++ [.slice l 0 bs.length bs.length] }, [])
  | .reslice s i j =>
    match c.held[s]? with
    | some (.slice l off _ cap) =>
      if i ≤ j ∧ j ≤ cap then pure ({ c with held := c.held ++ [.slice l (off + i) (j - i) (cap - i)] }, []) else pure (c, [])
    | _ => pure (c, [])
  | .poke s i b =>
    match c.held[s]? with
    | some (.slice l off len _) =>
      if i < len then do
        store (l.sub (off + i)) (.u8 b)
        pure (c, [])
      else pure (c, [])
    | _ => pure (c, [])
  | .call0 o f =>
    match c.objs[o]? with
    | some v => do
      let (r, out) ← callMeth0 P N d v f
      pure ({ c with held := c.held ++ r }, [.call o f.op out])
    | none => pure (c, [])
  | .call1 o f s =>
    match c.objs[o]?, c.held[s]? with
    | some v, some p => do
      let bs ← bytesOf p
      if bs.length < 64 * N ∧ bs.length < 2 ^ 63 then do
        let (r, out) ← callMeth1 P N d v p f
        pure ({ c with held := c.held ++ r }, [.call o (f.op bs) out])
      else pure (c, [])
    | _, _ => pure (c, [])
  | .sumPkg s =>
    match c.held[s]? with
    | some p => do
      let bs ← bytesOf p
      if bs.length < 64 * N ∧ bs.length < 2 ^ 63 then do
        match ← P.call N d (name! "sha1cd") (name! "Sum") [p] with
        | [a, .bool col] => do
          let h ← need (arrBytes a)
          pure (c, [.sumPkg bs h col])
        | _ => stop .stuck
      else pure (c, [])
    | none => pure (c, [])

/-- A program (sha1cd.go:39-212). -/
def Client.run (P : Program) (N d : Nat) (c : Client) : List Step → M (Client × List Ev)
  | [] => pure (c, [])
  | s :: ss => do
    let (c, e) ← c.step P N d s
    let (c, es) ← c.run P N d ss
    pure (c, e ++ es)

end Verif.Source.Go
