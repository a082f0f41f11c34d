import Verif.Model.Digest
import Verif.Spec.Sha1

/-!
A client: HMAC.  `hmac` is RFC 2104 for a hash with blocks of 64 bytes.  The rest is package crypto/hmac of Go's standard
library (hmac.go: `New`, `Write`, `Sum`, `Reset`), which is what users put around `sha1cd.New`; it is not part of /repo
and is written down here from its published source, to say what such a client needs of a hash.
-/

namespace Verif.Spec

open Verif Verif.Model

/-- RFC 2104: H(K xor opad, H(K xor ipad, text)), the key padded with zeros to 64 bytes and, if it is longer, hashed
first. -/
def hmac (H : List Byte → List Byte) (key m : List Byte) : List Byte :=
  let k := if key.length > 64 then H key else key
  let k := k ++ List.replicate (64 - k.length) 0
  H (k.map (· ^^^ 0x5c) ++ H (k.map (· ^^^ 0x36) ++ m))

/-- What crypto/hmac uses of a `hash.Hash`, and of the interface `marshalable` if the hash has it. -/
structure HashIface (σ : Type) where
  new : σ
  write : σ → List Byte → GoM (σ × Nat × Option Err)
  sum : σ → List Byte → GoM (σ × List Byte)
  reset : σ → σ
  blockSize : Nat
  marshal : Option ((σ → GoM (σ × List Byte × Option Err)) × (σ → List Byte → GoM (σ × Option Err)))

/-- The struct `hmac` of crypto/hmac. -/
structure Hm (σ : Type) where
  opad : List Byte
  ipad : List Byte
  outer : σ
  inner : σ
  marshaled : Bool

/-- `copy` of a slice to a new one of `n` zeros. -/
def copyTo (n : Nat) (key : List Byte) : List Byte := key.take n ++ List.replicate (n - key.length) 0

/-- crypto/hmac `New`; the two hashes come from the same function. -/
def Hm.new {σ : Type} (I : HashIface σ) (key : List Byte) : GoM (Hm σ) := do
  let outer := I.new
  let inner := I.new
  let n := I.blockSize
  let (outer, key) ← if key.length > n then do
      let (outer, _) ← I.write outer key
      I.sum outer []
    else pure (outer, key)
  let ipad := (copyTo n key).map (· ^^^ 0x36)
  let opad := (copyTo n key).map (· ^^^ 0x5c)
  let (inner, _) ← I.write inner ipad
  pure ⟨opad, ipad, outer, inner, false⟩

/-- crypto/hmac `Write`. -/
def Hm.write {σ : Type} (I : HashIface σ) (h : Hm σ) (p : List Byte) : GoM (Hm σ × Nat × Option Err) := do
  let (inner, n, e) ← I.write h.inner p
  pure ({ h with inner := inner }, n, e)

/-- crypto/hmac `Sum`; a failing restore panics (which panic does not matter). -/
def Hm.sum {σ : Type} (I : HashIface σ) (h : Hm σ) (inp : List Byte) : GoM (Hm σ × List Byte) := do
  let origLen := inp.length
  let (inner, inp) ← I.sum h.inner inp
  let outer ← if h.marshaled then
      match I.marshal with
      | some (_, unmarshal) => do
        match ← unmarshal h.outer h.opad with
        | (outer, none) => pure outer
        | (_, some _) => throw .fault
      | none => throw .fault
    else do
      let (outer, _) ← I.write (I.reset h.outer) h.opad
      pure outer
  let (outer, _) ← I.write outer (inp.drop origLen)
  let (outer, r) ← I.sum outer (inp.take origLen)
  pure ({ h with inner := inner, outer := outer }, r)

/-- crypto/hmac `Reset`: the first time it takes checkpoints of both hashes behind their pads, later it restores them. -/
def Hm.reset {σ : Type} (I : HashIface σ) (h : Hm σ) : GoM (Hm σ) :=
  match I.marshal, h.marshaled with
  | some (_, unmarshal), true => do
    match ← unmarshal h.inner h.ipad with
    | (inner, none) => pure { h with inner := inner }
    | (_, some _) => throw .fault
  | none, true => throw .fault
  | m, false => do
    let (inner, _) ← I.write (I.reset h.inner) h.ipad
    match m with
    | none => pure { h with inner := inner }
    | some (marshal, _) => do
      match ← marshal inner with
      | (inner, _, some _) => pure { h with inner := inner }
      | (inner, imarshal, none) => do
        let (outer, _) ← I.write (I.reset h.outer) h.opad
        match ← marshal outer with
        | (outer, _, some _) => pure { h with inner := inner, outer := outer }
        | (outer, omarshal, none) => pure ⟨omarshal, imarshal, outer, inner, true⟩

/-- Calls of the methods of the MAC. -/
inductive HmOp where
  | write (p : List Byte)
  | sum (inp : List Byte)
  | reset

/-- Results of the calls. -/
inductive HmOut where
  | write (n : Nat) (err : Option Err)
  | sum (b : List Byte)
  | reset

/-- A history of calls. -/
def Hm.run {σ : Type} (I : HashIface σ) (h : Hm σ) : List HmOp → GoM (Hm σ × List HmOut)
  | [] => pure (h, [])
  | .write p :: ops => do
    let (h, n, e) ← h.write I p
    let (h, os) ← h.run I ops
    pure (h, .write n e :: os)
  | .sum inp :: ops => do
    let (h, b) ← h.sum I inp
    let (h, os) ← h.run I ops
    pure (h, .sum b :: os)
  | .reset :: ops => do
    let h ← h.reset I
    let (h, os) ← h.run I ops
    pure (h, .reset :: os)

/-- The results a history should give if the bytes `m` were written since the MAC was made or reset. -/
def hmacResults (H : List Byte → List Byte) (key : List Byte) : List Byte → List HmOp → List HmOut
  | _, [] => []
  | m, .write p :: ops => .write p.length none :: hmacResults H key (m ++ p) ops
  | m, .sum inp :: ops => .sum (inp ++ hmac H key m) :: hmacResults H key m ops
  | _, .reset :: ops => .reset :: hmacResults H key [] ops

end Verif.Spec
