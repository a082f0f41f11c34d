import Verif.Source.GoText

/-!
From the lines of the Go files to their tokens: comments, names, numbers, strings, operators, and the
semicolons that Go inserts at the end of a line.

Simplifications: only what the eight files of `Source/GoText` use is understood (no block comments, no rune
or raw string literals, no floating-point numbers); names, keywords and operators are numbers (`nameOf`).
-/

namespace Verif.Source.Go

open Verif.Source

/-- A token of a Go file (sha1cd.go:1-212): a name or keyword, a number, a string, an operator or punctuation. -/
inductive GTok where
  | id (n : Nat)
  | num (n : Nat)
  | str (s : List Nat)
  | op (n : Nat)
deriving DecidableEq, Repr

/-- What has been read of a token (sha1cd.go:1-212), its characters backwards. -/
inductive Reading where
  /-- nothing -/
  | idle
  /-- a name or a number -/
  | word (cur : List Nat)
  /-- an operator -/
  | oper (cur : List Nat)
  /-- a string -/
  | str (cur : List Nat)
  /-- a string, after a backslash -/
  | esc (cur : List Nat)
  /-- a string, after `\x` -/
  | hex (cur : List Nat)
  /-- a string, after `\x` and one digit of value `d` -/
  | hex1 (d : Nat) (cur : List Nat)

/-- A decimal digit (internal/const.go:25). -/
def isDigit (c : Nat) : Bool := Nat.ble 48 c && Nat.ble c 57

/-- A letter, a digit or `_` (sha1cd.go:1-212). -/
def isWord (c : Nat) : Bool :=
  isDigit c || (Nat.ble 97 c && Nat.ble c 122) || (Nat.ble 65 c && Nat.ble c 90) || Nat.beq c 95

/-- The value of a hexadecimal digit (internal/const.go:5). -/
def hexVal (c : Nat) : Nat :=
  if isDigit c then c - 48 else if Nat.ble 97 c then c - 87 else c - 55

/-- A word that begins with a digit is a number, decimal or after `0x` hexadecimal (internal/const.go:5,25). -/
def wordTok (s : List Nat) : GTok :=
  match s with
  | [] => .id 0
  | c :: cs =>
    if isDigit c then
      match cs with
      | x :: ds =>
        if Nat.beq c 48 && Nat.beq x 120 then .num (ds.foldl (fun n d => 16 * n + hexVal d) 0)
        else .num (s.foldl (fun n d => 10 * n + (d - 48)) 0)
      | [] => .num (c - 48)
    else .id (nameOf s)

/-- The operators of more than one character, and their beginnings (sha1cd.go:1-212, sha1cdblock_generic.go:1-312). -/
def longOps : List Nat :=
  [name! ":=", name! "==", name! "!=", name! "<=", name! ">=", name! "<<", name! ">>", name! "&&", name! "||",
   name! "&^", name! "+=", name! "-=", name! "*=", name! "&=", name! "|=", name! "^=", name! "<<=", name! ">>=",
   name! "++", name! "--", name! "..", name! "...", name! "//"]

/-- Membership that the kernel computes with number literals. -/
def memNat (n : Nat) : List Nat → Bool
  | [] => false
  | m :: ms => Nat.beq n m || memNat n ms

/-- Whether Go puts a semicolon after a token at the end of a line: after a name, a literal, one of the keywords
`return`, `break`, …, and after `++`, `--`, `)`, `]`, `}` (sha1cd.go:1-212).  No line of the files ends in
another keyword. -/
def endsLine : GTok → Bool
  | .op n => memNat n [name! "++", name! "--", name! ")", name! "]", name! "}"]
  | _ => true

/-- The semicolon at the end of a line (sha1cd.go:1-212); the tokens are backwards. -/
def semi : List GTok → List GTok
  | [] => []
  | t :: ts => bif endsLine t then .op (name! ";") :: t :: ts else t :: ts

/-- The kind of a character (sha1cd.go:1-212): 0 a blank, 1 part of a word, 2 a quotation mark, 3 another. -/
def kindSlow (c : Nat) : Nat :=
  bif isWord c then 1 else bif Nat.beq c 34 then 2 else bif Nat.beq c 32 || Nat.beq c 9 then 0 else 3

/-- The kinds of the 256 characters (sha1cd.go:1-212), two bits each, as a number. -/
def kinds : Nat :=
  0xffffffffffffffffffffffffffffffffffffffffffffffffffffffffffffffffffd55555555555577fd5555555555557fff55555ffffffecfffffffffff3ffff

/-- The kind of a character (sha1cd.go:1-212), looked up in `kinds`. -/
def kind (c : Nat) : Nat := Nat.land 3 (Nat.shiftRight kinds (Nat.mul 2 c))

/-- `kinds` is right. -/
theorem kind_eq : ∀ c < 256, kind c = kindSlow c := by decide +kernel

/-- What is being read after a first character of kind `k` (sha1cd.go:1-212). -/
def start (c : Nat) : Nat → Reading
  | 0 => .idle
  | 1 => .word [c]
  | 2 => .str []
  | _ => .oper [c]

/-- The tokens, backwards, after the rest of a line, `out` being those before it (sha1cd.go:1-212).  A line that
ends inside a string has no token for it. -/
def lexLine (out : List GTok) : Reading → List Nat → List GTok
  | .idle, [] => semi out
  | .idle, c :: cs => lexLine out (start c (kind c)) cs
  | .word cur, [] => semi (wordTok cur.reverse :: out)
  | .word cur, c :: cs =>
    match kind c with
    | 1 => lexLine out (.word (c :: cur)) cs
    | k => lexLine (wordTok cur.reverse :: out) (start c k) cs
  | .oper cur, [] => semi (.op (nameOf cur.reverse) :: out)
  | .oper cur, c :: cs =>
    match kind c with
    | 3 =>
      bif memNat (nameOf (c :: cur).reverse) longOps then
        bif Nat.beq (nameOf (c :: cur).reverse) (name! "//") then semi out else lexLine out (.oper (c :: cur)) cs
      else lexLine (.op (nameOf cur.reverse) :: out) (.oper [c]) cs
    | k => lexLine (.op (nameOf cur.reverse) :: out) (start c k) cs
  | .str _, [] => out
  | .str cur, c :: cs =>
    bif Nat.beq c 34 then lexLine (.str cur.reverse :: out) .idle cs
    else bif Nat.beq c 92 then lexLine out (.esc cur) cs
    else lexLine out (.str (c :: cur)) cs
  | .esc _, [] => out
  | .esc cur, c :: cs => bif Nat.beq c 120 then lexLine out (.hex cur) cs else out
  | .hex _, [] => out
  | .hex cur, c :: cs => lexLine out (.hex1 (hexVal c) cur) cs
  | .hex1 _ _, [] => out
  | .hex1 d cur, c :: cs => lexLine out (.str ((16 * d + hexVal c) :: cur)) cs

/-- The tokens, backwards, of the lines (sha1cd.go:1-212), `out` being those before them. -/
def lexLines (out : List GTok) : List (List Nat) → List GTok
  | [] => out
  | l :: ls => match lexLine out .idle l with
    | [] => lexLines [] ls
    | t :: ts => lexLines (t :: ts) ls

/-- The tokens of a file (sha1cd.go:1-212). -/
def tokens (ls : List (List Nat)) : List GTok := (lexLines [] ls).reverse

/-- Whether two tokens are the same (sha1cd.go:1-212). -/
def sameTok : GTok → GTok → Bool
  | .id m, .id n => Nat.beq m n
  | .num m, .num n => Nat.beq m n
  | .str s, .str t => decide (s = t)
  | .op m, .op n => Nat.beq m n
  | _, _ => false

/-- Whether two lists of tokens are the same (sha1cd.go:1-212), one token after the other. -/
def sameToks : List GTok → List GTok → Bool
  | [], [] => true
  | x :: xs, y :: ys => bif sameTok x y then sameToks xs ys else false
  | _, _ => false

theorem eq_of_sameTok {x y : GTok} (h : sameTok x y = true) : x = y := by
  cases x <;> cases y <;> simp_all [sameTok, Nat.beq_eq]

theorem eq_of_sameToks : ∀ {xs ys : List GTok}, sameToks xs ys = true → xs = ys
  | [], [], _ => rfl
  | [], _ :: _, h => nomatch h
  | _ :: _, [], h => nomatch h
  | x :: xs, y :: ys, h => by
    rw [sameToks] at h
    cases hs : sameTok x y with
    | false => rw [hs] at h; nomatch h
    | true =>
      rw [hs] at h
      rw [eq_of_sameTok hs, eq_of_sameToks (xs := xs) (ys := ys) h]

end Verif.Source.Go
