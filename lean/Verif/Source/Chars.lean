import Lean.Elab.Term

/-!
Text of the repository, as lists of character codes that the kernel can compute with.
-/

namespace Verif.Source

open Lean Elab Term in
/-- `chars! "MOVQ"` is the list of the codes of the characters, `[77, 79, 86, 81]`. -/
elab "chars! " s:str : term => return toExpr (s.getString.toList.map Char.toNat)

/-- The digits of `n` in base 256 below a leading 1, the lowest first, at most `k`; then `rest`. -/
def unpack (rest : List Nat) : Nat → Nat → List Nat
  | 0, _ => rest
  | k + 1, n => bif Nat.ble n 1 then rest else Nat.mod n 256 :: unpack rest k (Nat.div n 256)

/-- The characters of a line held seven to a number. -/
def unpackAll : List Nat → List Nat
  | [] => []
  | n :: ns => unpack (unpackAll ns) 7 n

/-- A line seven characters to a number. -/
def packAll : Nat → List Nat → List Nat
  | 0, _ => []
  | k + 1, cs => if cs.isEmpty then [] else (cs.take 7).foldr (fun c n => c + 256 * n) 1 :: packAll k (cs.drop 7)

open Lean Elab Term in
/-- `text! "ab"` is `unpackAll [97 + 256 * (98 + 256)]`, the list `[97, 98]` of the codes of the characters. -/
elab "text! " s:str : term => do
  let cs := s.getString.toList.map Char.toNat
  if cs.any (· ≥ 256) then throwError "a character above 255"
  let nil := mkApp (mkConst ``List.nil [.zero]) (mkConst ``Nat)
  return mkApp (mkConst ``unpackAll) ((packAll cs.length cs).foldr
    (fun n e => mkApp3 (mkConst ``List.cons [.zero]) (mkConst ``Nat) (mkRawNatLit n) e) nil)

/-- A name as one number: its characters as digits in base 256, the first one the highest. -/
def nameOf (cs : List Nat) : Nat := cs.foldl (fun n c => 256 * n + c) 0

open Lean Elab Term in
/-- `name! "h"` is `nameOf` of the codes of the characters, `104`. -/
elab "name! " s:str : term => return mkRawNatLit (nameOf (s.getString.toList.map Char.toNat))

end Verif.Source
