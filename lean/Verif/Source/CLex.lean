import Verif.Source.CText
import Verif.Source.GoParse

/-!
From the lines of the C files to tokens: lines continued by a backslash, comments, names, numbers, strings, operators;
and the preprocessor: conditional compilation, included files, macros.

Simplifications: only what the four files of `Source/CText` use is understood; an included file with its name in angle
brackets (a header of the C library) is left out; a macro is one with parameters exactly if `(` follows its name; the
call of a macro ends in the line in which it begins, and what it stands for contains no beginning of a call of another;
no macro stands for something that contains its own name.
-/

namespace Verif.Source.C

open Verif.Source
open Verif.Source.Go (GTok memNat kind wordTok isOp isId)

/-- What has been read of a token (cgo/sha1.c:1-2144), its characters backwards. -/
inductive Reading where
  /-- nothing -/
  | idle
  /-- a name or a number -/
  | word (cur : List Nat)
  /-- an operator -/
  | oper (cur : List Nat)
  /-- a string -/
  | str (cur : List Nat)
  /-- a comment -/
  | comment
  /-- a comment, after a star -/
  | star

/-- The end of a line (cgo/sha1.c:1-2144): the tokens so far, backwards; whether it is inside a comment; whether the next
line continues it. -/
structure LineEnd where
  toks : List GTok
  comment : Bool
  more : Bool

/-- The operators of more than one character (cgo/sha1.c:1-2144, cgo/ubc_check.c:1-297), and the beginnings of comments. -/
def longOps : List Nat :=
  [name! "->", name! "==", name! "!=", name! "<=", name! ">=", name! "<<", name! ">>", name! "&&", name! "||",
   name! "+=", name! "-=", name! "&=", name! "|=", name! "^=", name! "<<=", name! ">>=", name! "++", name! "--",
   name! "##", name! "//", name! "/*"]

/-- What is being read after a first character of kind `k` (cgo/sha1.c:1-2144). -/
def start (c : Nat) : Nat → Reading
  | 0 => .idle
  | 1 => .word [c]
  | 2 => .str []
  | _ => .oper [c]

/-- The rest of a line (cgo/sha1.c:1-2144), `out` being the tokens before it, backwards. -/
def lexLine (out : List GTok) : Reading → List Nat → LineEnd
  | .idle, [] => ⟨out, false, false⟩
  | .idle, c :: cs => lexLine out (start c (kind c)) cs
  | .word cur, [] => ⟨wordTok cur.reverse :: out, false, false⟩
  | .word cur, c :: cs =>
    match kind c with
    | 1 => lexLine out (.word (c :: cur)) cs
    | k => lexLine (wordTok cur.reverse :: out) (start c k) cs
  | .oper cur, [] =>
    bif Nat.beq (nameOf cur.reverse) (name! "\\") then ⟨out, false, true⟩
    else ⟨.op (nameOf cur.reverse) :: out, false, false⟩
  | .oper cur, c :: cs =>
    match kind c with
    | 3 =>
      bif memNat (nameOf (c :: cur).reverse) longOps then
        bif Nat.beq (nameOf (c :: cur).reverse) (name! "//") then ⟨out, false, false⟩
        else bif Nat.beq (nameOf (c :: cur).reverse) (name! "/*") then lexLine out .comment cs
        else lexLine out (.oper (c :: cur)) cs
      else lexLine (.op (nameOf cur.reverse) :: out) (.oper [c]) cs
    | k => lexLine (.op (nameOf cur.reverse) :: out) (start c k) cs
  | .str _, [] => ⟨out, false, false⟩
  | .str cur, c :: cs =>
    bif Nat.beq c 34 then lexLine (.str cur.reverse :: out) .idle cs else lexLine out (.str (c :: cur)) cs
  | .comment, [] => ⟨out, true, false⟩
  | .comment, c :: cs => bif Nat.beq c 42 then lexLine out .star cs else lexLine out .comment cs
  | .star, [] => ⟨out, true, false⟩
  | .star, c :: cs =>
    bif Nat.beq c 47 then lexLine out .idle cs
    else bif Nat.beq c 42 then lexLine out .star cs
    else lexLine out .comment cs

/-- A line of tokens put before those read earlier (cgo/sha1.c:1-2144); a line without tokens is left out. -/
def addLine (l : List GTok) (done : List (List GTok)) : List (List GTok) :=
  match l with
  | [] => done
  | t :: ts => (t :: ts).reverse :: done

/-- The lines of tokens, backwards (cgo/sha1.c:1-2144); `cur` is the beginning of a continued line. -/
def lexLines (done : List (List GTok)) (cur : List GTok) (inComment : Bool) : List (List Nat) → List (List GTok)
  | [] => addLine cur done
  | l :: ls => match lexLine cur (bif inComment then .comment else .idle) l with
    | ⟨ts, false, true⟩ => lexLines done ts false ls
    | ⟨ts, c, _⟩ => lexLines (addLine ts done) [] c ls

/-- The lines of tokens of a file (cgo/sha1.c:1-2144). -/
def lines (ls : List (List Nat)) : List (List GTok) := (lexLines [] [] false ls).reverse

/-- A macro (cgo/sha1.c:135-253). -/
structure Macro where
  name : Nat
  /-- the parameters of a macro that has any -/
  params : Option (List Nat)
  body : List GTok

/-- The macros that are defined (cgo/sha1.c:31-253), the newest first.  If bit `n % 1021` of `mask` is not set, no macro
has the name `n`. -/
structure Defs where
  mask : Nat
  macros : List Macro

/-- No macros. -/
def Defs.empty : Defs := ⟨0, []⟩

/-- `#define` (cgo/sha1.c:135). -/
def Defs.add (d : Defs) (m : Macro) : Defs :=
  ⟨Nat.lor d.mask (Nat.shiftLeft 1 (Nat.mod m.name 1021)), m :: d.macros⟩

/-- The macros with a name left out. -/
def without (x : Nat) : List Macro → List Macro
  | [] => []
  | m :: ms => bif Nat.beq m.name x then without x ms else m :: without x ms

/-- `#undef` (cgo/sha1.c:122). -/
def Defs.drop (d : Defs) (x : Nat) : Defs := ⟨d.mask, without x d.macros⟩

/-- The macro with a name (cgo/sha1.c:135-253). -/
def findMacro (x : Nat) : List Macro → Option Macro
  | [] => none
  | m :: ms => bif Nat.beq m.name x then some m else findMacro x ms

/-- The macro with a name (cgo/sha1.c:135-253). -/
def Defs.find (d : Defs) (x : Nat) : Option Macro :=
  bif Nat.beq (Nat.land 1 (Nat.shiftRight d.mask (Nat.mod x 1021))) 0 then none else findMacro x d.macros

/-- The macro that a token names (cgo/sha1.c:135-253). -/
def Defs.ofTok (d : Defs) : GTok → Option Macro
  | .id x => d.find x
  | _ => none

/-- The argument for a parameter (cgo/sha1.c:135-253). -/
def argOf (x : Nat) : List Nat → List (List GTok) → Option (List GTok)
  | p :: ps, a :: as => bif Nat.beq p x then some a else argOf x ps as
  | _, _ => none

/-- A list backwards before another. -/
def revOnto : List GTok → List GTok → List GTok
  | [], out => out
  | t :: ts, out => revOnto ts (t :: out)

/-- `l ## r` for a name and a number below 100 (cgo/sha1.c:872). -/
def paste : GTok → List GTok → Option GTok
  | .id n, [.num k] =>
    bif Nat.ble k 9 then some (.id (256 * n + (48 + k)))
    else bif Nat.ble k 99 then some (.id (256 * (256 * n + (48 + k / 10)) + (48 + k % 10)))
    else none
  | _, _ => none

/-- The body of a macro with the arguments put in (cgo/sha1.c:135-253), backwards before `out`; `raw` are the arguments as
they were written, `full` with macros in them replaced. -/
def subst (ps : List Nat) (raw full : List (List GTok)) : List GTok → List GTok → Option (List GTok)
  | [], out => some out
  | .op o :: ts, out =>
    bif Nat.beq o (name! "##") then
      match ts, out with
      | .id x :: rest, l :: out' => match argOf x ps raw with
        | some a => match paste l a with
          | some t => subst ps raw full rest (t :: out')
          | none => none
        | none => none
      | _, _ => none
    else subst ps raw full ts (.op o :: out)
  | .id x :: ts, out => match argOf x ps full with
    | some a => subst ps raw full ts (revOnto a out)
    | none => subst ps raw full ts (.id x :: out)
  | t :: ts, out => subst ps raw full ts (t :: out)

/-- Where the replacement of macros is (cgo/sha1.c:255-2144): outside a call, after the name of a macro with parameters, or
in its arguments, so many parentheses deep, with the current argument and the ones before it backwards. -/
inductive Scan where
  | plain
  | named (m : Macro)
  | args (m : Macro) (depth : Nat) (cur : List GTok) (done : List (List GTok))

/-- All of some results, or none. -/
def allOf (f : List GTok → Option (List GTok)) : List (List GTok) → Option (List (List GTok))
  | [] => some []
  | x :: xs => match f x with
    | some y => match allOf f xs with
      | some ys => some (y :: ys)
      | none => none
    | none => none

/-- Replace macros (cgo/sha1.c:255-2144); `more` does so in what a macro stands for.  The result is backwards before `out`. -/
def scan (more : List GTok → Option (List GTok)) (d : Defs) : Scan → List GTok → List GTok → Option (List GTok)
  | .plain, [], out => some out
  | .plain, t :: ts, out => match d.ofTok t with
    | none => scan more d .plain ts (t :: out)
    | some m => match m.params with
      | none => match more m.body with
        | some b => scan more d .plain ts (revOnto b out)
        | none => none
      | some _ => scan more d (.named m) ts out
  | .named _, [], _ => none
  | .named m, t :: ts, out => bif isOp (name! "(") t then scan more d (.args m 0 [] []) ts out else none
  | .args _ _ _ _, [], _ => none
  | .args m k cur done, t :: ts, out =>
    bif isOp (name! ")") t then
      match k with
      | 0 =>
        match allOf more (cur.reverse :: done).reverse, m.params with
        | some full, some ps =>
          bif Nat.beq full.length ps.length then
            match subst ps (cur.reverse :: done).reverse full m.body [] with
            | some b => match more b.reverse with
              | some b' => scan more d .plain ts (revOnto b' out)
              | none => none
            | none => none
          else none
        | _, _ => none
      | k' + 1 => scan more d (.args m k' (t :: cur) done) ts out
    else bif isOp (name! "(") t then scan more d (.args m (Nat.succ k) (t :: cur) done) ts out
    else bif isOp (name! ",") t && Nat.beq k 0 then scan more d (.args m 0 [] (cur.reverse :: done)) ts out
    else scan more d (.args m k (t :: cur) done) ts out

/-- Replace macros, nested at most `n` deep (cgo/sha1.c:255-2144). -/
def expand (d : Defs) : Nat → List GTok → Option (List GTok)
  | 0, _ => none
  | n + 1, ts => match scan (expand d n) d .plain ts [] with
    | some out => some out.reverse
    | none => none

/-- A truth value as a number. -/
def ofBool (b : Bool) : Nat := bif b then 1 else 0

/-- The value of a name in an `#if` (cgo/sha1.c:58); a name that is not a macro is 0.  Simplification: so is a
macro that does not stand for a number. -/
def Defs.value (d : Defs) (x : Nat) : Nat :=
  match d.find x with
  | some ⟨_, none, [.num k]⟩ => k
  | _ => 0

/-- The condition of an `#if` (cgo/sha1.c:31-133): `||` at level 0, `&&` at level 1, `==` at level 2, operands at level 3. -/
def condition (d : Defs) : Nat → Nat → List GTok → Option (Nat × List GTok)
  | 0, _, _ => none
  | n + 1, 0, ts => match condition d n 1 ts with
    | some (a, .op o :: rest) =>
      bif Nat.beq o (name! "||") then
        match condition d n 0 rest with
        | some (b, rest') => some (ofBool (!Nat.beq a 0 || !Nat.beq b 0), rest')
        | none => none
      else some (a, .op o :: rest)
    | r => r
  | n + 1, 1, ts => match condition d n 2 ts with
    | some (a, .op o :: rest) =>
      bif Nat.beq o (name! "&&") then
        match condition d n 1 rest with
        | some (b, rest') => some (ofBool (!Nat.beq a 0 && !Nat.beq b 0), rest')
        | none => none
      else some (a, .op o :: rest)
    | r => r
  | n + 1, 2, ts => match condition d n 3 ts with
    | some (a, .op o :: rest) =>
      bif Nat.beq o (name! "==") then
        match condition d n 3 rest with
        | some (b, rest') => some (ofBool (Nat.beq a b), rest')
        | none => none
      else some (a, .op o :: rest)
    | r => r
  | n + 1, _, ts => match ts with
    | .num k :: rest => some (k, rest)
    | .id x :: rest =>
      bif Nat.beq x (name! "defined") then
        match rest with
        | .op p :: .id y :: .op q :: rest' =>
          bif Nat.beq p (name! "(") && Nat.beq q (name! ")") then some (ofBool (d.find y).isSome, rest') else none
        | _ => none
      else some (d.value x, rest)
    | .op o :: rest =>
      bif Nat.beq o (name! "!") then
        match condition d n 3 rest with
        | some (a, rest') => some (ofBool (Nat.beq a 0), rest')
        | none => none
      else bif Nat.beq o (name! "(") then
        match condition d n 0 rest with
        | some (a, .op q :: rest') => bif Nat.beq q (name! ")") then some (a, rest') else none
        | _ => none
      else none
    | _ => none

/-- A part of a file under an `#if` (cgo/sha1.c:48-119): it is compiled; it is not, and a later `#elif` or `#else` may be;
neither. -/
inductive Part where
  | on
  | off
  | never

/-- Whether what is inside all the parts is compiled (cgo/sha1.c:48-119). -/
def live : List Part → Bool
  | [] => true
  | .on :: ps => live ps
  | _ :: _ => false

/-- The part that an `#if` begins (cgo/sha1.c:10-133). -/
def begins (up : List Part) (c : Bool) : Part := bif live up then (bif c then .on else .off) else .never

/-- The parameters of a macro up to the closing parenthesis, and its body (cgo/sha1.c:135). -/
def paramsOf : List GTok → Option (List Nat × List GTok)
  | .id x :: .op o :: ts =>
    bif Nat.beq o (name! ")") then some ([x], ts)
    else bif Nat.beq o (name! ",") then
      match paramsOf ts with
      | some (xs, rest) => some (x :: xs, rest)
      | none => none
    else none
  | _ => none

/-- The macro of a `#define` (cgo/sha1.c:25,36,135-253). -/
def macroOf : List GTok → Option Macro
  | .id x :: .op o :: ts =>
    bif Nat.beq o (name! "(") then
      match paramsOf ts with
      | some (ps, body) => some ⟨x, some ps, body⟩
      | none => none
    else some ⟨x, none, .op o :: ts⟩
  | .id x :: ts => some ⟨x, none, ts⟩
  | _ => none

/-- Whether a condition holds that takes up the rest of a line (cgo/sha1.c:31-133). -/
def holds (d : Defs) (ts : List GTok) : Option Bool :=
  match condition d 200 0 ts with
  | some (k, []) => some (!Nat.beq k 0)
  | _ => none

/-- The lines of the file with a name (cgo/sha1.c:28-29). -/
def fileOf (s : List Nat) : List (List Nat × List (List GTok)) → Option (List (List GTok))
  | [] => none
  | (n, ls) :: rest => if s = n then some ls else fileOf s rest

/-- What the preprocessor knows (cgo/sha1.c:1-2144): the macros, and the parts under `#if` that it is in. -/
structure Pre where
  defs : Defs
  parts : List Part

/-- What a line is for the preprocessor (cgo/sha1.c:1-2144): what it knows afterwards, the lines that are included, and the
tokens that the line leaves. -/
abbrev LineIs := Option (Pre × List (List GTok) × List GTok)

/-- A line that is not an instruction to the preprocessor (cgo/sha1.c:255-2144). -/
def plainLine (p : Pre) (l : List GTok) : LineIs :=
  bif live p.parts then
    match expand p.defs 12 l with
    | some ts => some (p, [], ts)
    | none => none
  else some (p, [], [])

/-- An instruction to the preprocessor: the word `w`, followed by `ts` (cgo/sha1.c:10-253).  `files` are the files that can
be included. -/
def instruction (files : List (List Nat × List (List GTok))) (p : Pre) (w : Nat) (ts : List GTok) : LineIs :=
  bif Nat.beq w (name! "ifdef") then
    match ts with
    | [.id x] => some (⟨p.defs, begins p.parts (p.defs.find x).isSome :: p.parts⟩, [], [])
    | _ => none
  else bif Nat.beq w (name! "ifndef") then
    match ts with
    | [.id x] => some (⟨p.defs, begins p.parts (!(p.defs.find x).isSome) :: p.parts⟩, [], [])
    | _ => none
  else bif Nat.beq w (name! "if") then
    match holds p.defs ts with
    | some b => some (⟨p.defs, begins p.parts b :: p.parts⟩, [], [])
    | none => none
  else bif Nat.beq w (name! "elif") then
    match p.parts with
    | .on :: up => some (⟨p.defs, .never :: up⟩, [], [])
    | .off :: up => match holds p.defs ts with
      | some b => some (⟨p.defs, begins up b :: up⟩, [], [])
      | none => none
    | .never :: up => some (⟨p.defs, .never :: up⟩, [], [])
    | [] => none
  else bif Nat.beq w (name! "else") then
    match p.parts with
    | .on :: up => some (⟨p.defs, .never :: up⟩, [], [])
    | .off :: up => some (⟨p.defs, .on :: up⟩, [], [])
    | .never :: up => some (⟨p.defs, .never :: up⟩, [], [])
    | [] => none
  else bif Nat.beq w (name! "endif") then
    match p.parts with
    | _ :: up => some (⟨p.defs, up⟩, [], [])
    | [] => none
  else bif live p.parts then
    bif Nat.beq w (name! "define") then
      match macroOf ts with
      | some m => some (⟨p.defs.add m, p.parts⟩, [], [])
      | none => none
    else bif Nat.beq w (name! "undef") then
      match ts with
      | [.id x] => some (⟨p.defs.drop x, p.parts⟩, [], [])
      | _ => none
    else bif Nat.beq w (name! "include") then
      match ts with
      | [.str s] => match fileOf s files with
        | some inc => some (p, inc, [])
        | none => none
      | .op a :: _ => bif Nat.beq a (name! "<") then some (p, [], []) else none
      | _ => none
    else none
  else some (p, [], [])

/-- A line (cgo/sha1.c:1-2144). -/
def line (files : List (List Nat × List (List GTok))) (p : Pre) (l : List GTok) : LineIs :=
  match l with
  | .op o :: rest =>
    bif Nat.beq o (name! "#") then
      match rest with
      | .id w :: ts => instruction files p w ts
      | _ => none
    else plainLine p l
  | _ => plainLine p l

/-- The tokens after the preprocessor, backwards before `out` (cgo/sha1.c:1-2144); at most `n` lines, those of included
files with them. -/
def preprocess (files : List (List Nat × List (List GTok))) : Nat → Pre → List (List GTok) → List GTok → Option (List GTok)
  | 0, _, _, _ => none
  | _ + 1, p, [], out => match p.parts with
    | [] => some out
    | _ :: _ => none
  | n + 1, p, l :: ls, out => match line files p l with
    | some (p', inc, ts) => preprocess files n p' (inc ++ ls) (revOnto ts out)
    | none => none

/-- The macros that the compiler defines (cgo/sha1.c:31-100): names with their values. -/
def predefined : List (Nat × Nat) → Defs
  | [] => .empty
  | (x, k) :: rest => (predefined rest).add ⟨x, none, [.num k]⟩

/-- The tokens of a file for a compiler with the given macros (cgo/sha1.c:1-2144). -/
def tokens (files : List (List Nat × List (List GTok))) (pre : List (Nat × Nat)) (ls : List (List GTok)) :
    Option (List GTok) :=
  match preprocess files 5000 ⟨predefined pre, []⟩ ls [] with
  | some out => some out.reverse
  | none => none

end Verif.Source.C
