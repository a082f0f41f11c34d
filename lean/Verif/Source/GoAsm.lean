import Verif.Source.GoProgram
import Verif.Source.AsmRun

/-!
The call of a function whose body is in assembly, from Go code: what the slices that are passed hold is what is at the addresses the function
is given, and what it leaves there is what they hold afterwards.
-/

namespace Verif.Source.Go

open Verif Verif.Model

/-- A word in an array of words (sha1cdblock_amd64.go:23, sha1cdblock_arm64.go:19).  That the elements are words is what the types of the
parameters say; a Go program where they are not is not compiled. -/
def wordOf : Val → Word
  | .u32 x => x
  | _ => 0

/-- Five words in an array, from an index on (sha1cdblock_amd64.go:23, sha1cdblock_arm64.go:19). -/
def regsIn (f : Nat → Val) (off : Nat) : Regs :=
  ⟨wordOf (f off), wordOf (f (off + 1)), wordOf (f (off + 2)), wordOf (f (off + 3)), wordOf (f (off + 4))⟩

/-- One element of `cs` (sha1cdblock_amd64.go:23, sha1cdblock_arm64.go:19). -/
def csRow : Val → Regs
  | .arr _ f => regsIn f 0
  | _ => ⟨0, 0, 0, 0, 0⟩

/-- Five words as the elements of an array (sha1cdblock_amd64.go:23, sha1cdblock_arm64.go:19). -/
def regVals (r : Regs) : Nat → Val
  | 0 => .u32 r.a
  | 1 => .u32 r.b
  | 2 => .u32 r.c
  | 3 => .u32 r.d
  | 4 => .u32 r.e
  | _ => .u32 0

/-- The bytes of `p` (sha1cdblock_amd64.go:23, sha1cdblock_arm64.go:19). -/
def bytesAt (l : Loc) : Nat → Nat → M (List Byte)
  | _, 0 => pure []
  | off, n + 1 => do
    match ← load (l.sub off) with
    | .u8 b => do
      let bs ← bytesAt l (off + 1) n
      pure (b :: bs)
    | _ => stop .stuck

/-- The state of the program (sha1cdblock_amd64.go:39, sha1cdblock_arm64.go:35). -/
def memory : M Mem := fun m => .ok (m, m)

/-- A call of a function in assembly with the parameters `(h []uint32, p []byte, m1 []uint32, cs [][5]uint32)` (sha1cdblock_amd64.go:23,39,46,47,
sha1cdblock_arm64.go:19,35,42,43).  `run` is what the function does when it finds the given words and bytes where the pointers point to; it may depend
on the state of the program, as what is in the registers does.  The function is taken to write nothing else; `C48_*` and `C65_*` are about that. -/
def asmCall (run : List Val → Mem → Regs → List Byte → (Fin 80 → Word) → (Fin 3 → Regs) → GoM AsmOut) (vs : List Val) : M (List Val) := do
  match vs with
  | [.slice lh oh _ _, .slice lp op np _, .slice lm om _ _, .slice lc oc _ _] =>
    let h ← arrayAt lh
    let p ← bytesAt lp op np
    let w ← arrayAt lm
    let c ← arrayAt lc
    let m ← memory
    match run vs m (regsIn h oh) p (fun k => wordOf (w (om + k.val))) (fun j => csRow (c (oc + j.val))) with
    | .error _ => stop .stuck
    | .ok o => do
      storeMany lh oh 5 (regVals o.h)
      storeMany lm om 80 fun k => if hk : k < 80 then .u32 (o.m1 ⟨k, hk⟩) else .u32 0
      storeMany lc oc 3 fun j => if hj : j < 3 then .arr 5 (regVals (o.cs ⟨j, hj⟩)) else .null
      pure []
  | _ => stop .stuck

/-- The functions without a body where the build is for amd64 (sha1cdblock_amd64.go:23): the text of sha1cdblock_amd64.s is run.  `e` is what is in
the registers, and where the slices and the frame are, at each call. -/
def asmAmd64 (e : List Val → Mem → Flat.Amd64.Entry) (n : Nat) (vs : List Val) : M (List Val) :=
  if n = name! "blockAMD64" then
    asmCall (fun vs m => callAmd64 amd64Lines 220 (e vs m).env (e vs m).x (e vs m).g (e vs m).r12) vs
  else stop .stuck

/-- The functions without a body where the build is for arm64 (sha1cdblock_arm64.go:19): the text of sha1cdblock_arm64.s is run. -/
def asmArm64 (e : List Val → Mem → Flat.Arm64.Entry) (n : Nat) (vs : List Val) : M (List Val) :=
  if n = name! "blockARM64" then
    asmCall (fun vs m => callArm64 arm64Lines 180 (e vs m).env (e vs m).v (e vs m).g) vs
  else stop .stuck

/-- The memory when the program starts on a machine where the package variable `flag`, which is `hasSHANI` (sha1cdblock_amd64.go:13-17) or `hasSHA1`
(sha1cdblock_arm64.go:13), is `b`.  How the machine is asked is not modelled. -/
def Prog.startOn (g : Prog) (X : World) (flag : Nat) (b : Bool) : Except Stop Mem :=
  match g.start X with
  | .error e => .error e
  | .ok m => match globIndex (name! "sha1cd") flag g.env.globals with
    | some k => .ok { m with cur := m.cur.set k (.bool b) }
    | none => .error .stuck

end Verif.Source.Go
