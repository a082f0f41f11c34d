import Verif.Source.AsmText
import Verif.Model.Amd64
import Verif.Model.Arm64

/-!
Reading the assembly files: comments, macros, statements, operands and instructions, as far as
sha1cdblock_amd64.s and sha1cdblock_arm64.s use them.  What is not understood makes reading fail.

Simplifications: what a `#define` or macro call may look like is what these two files need; `//go:build`, `#include`, the flags of `TEXT` and
`GLOBL` are skipped here (build constraints: `Model/Target`).
-/

namespace Verif.Source

open Verif Verif.Model

/-- A token of sha1cdblock_amd64.s:1-274 or sha1cdblock_arm64.s:1-249: a word (a name, with dots), a number, or another character. -/
inductive Tok where
  | word (s : List Nat)
  | num (n : Nat)
  | sym (c : Nat)
deriving DecidableEq, Repr

/-- The character `c` (sha1cdblock_amd64.s:1-274). -/
def code (c : Char) : Nat := c.toNat

/-- A digit (sha1cdblock_amd64.s:1-274). -/
def isDigit (c : Nat) : Bool := (code '0').ble c && c.ble (code '9')

/-- A character of a word: a letter, a digit, `_`, `.` or `·` (sha1cdblock_amd64.s:1-274). -/
def isWordChar (c : Nat) : Bool :=
  isDigit c || ((code 'a').ble c && c.ble (code 'z')) || ((code 'A').ble c && c.ble (code 'Z')) ||
    c == code '_' || c == code '.' || c == code '·'

/-- The value of a hexadecimal digit (sha1cdblock_amd64.s:38,268-273). -/
def hexDigit (c : Nat) : Nat :=
  if isDigit c then c - code '0' else if (code 'a').ble c then c - code 'a' + 10 else c - code 'A' + 10

/-- A word or, if it begins with a digit, a number, decimal or after `0x` hexadecimal (sha1cdblock_amd64.s:1-274). -/
def tokOf (s : List Nat) : Tok :=
  match s with
  | [] => .word []
  | c :: cs =>
    if isDigit c then
      match cs with
      | x :: ds => if c == code '0' && x == code 'x' then .num (ds.foldl (fun n d => 16 * n + hexDigit d) 0)
        else .num (s.foldl (fun n d => 10 * n + (d - code '0')) 0)
      | [] => .num (c - code '0')
    else .word s

/-- The tokens of a line; `cur` is the word being read, backwards (sha1cdblock_amd64.s:1-274). -/
def lex (cur : List Nat) : List Nat → List Tok
  | [] => if cur.isEmpty then [] else [tokOf cur.reverse]
  | c :: cs =>
    if isWordChar c then lex (c :: cur) cs
    else
      let rest := if c == code ' ' || c == code '\t' then lex [] cs else .sym c :: lex [] cs
      if cur.isEmpty then rest else tokOf cur.reverse :: rest

/-- A line without its comment (sha1cdblock_amd64.s:1-274). -/
def uncomment : List Nat → List Nat
  | [] => []
  | [c] => [c]
  | c :: d :: cs => if c == code '/' && d == code '/' then [] else c :: uncomment (d :: cs)

/-- A macro: its name, its parameters, its statements (sha1cdblock_amd64.s:16-23, sha1cdblock_arm64.s:15-28). -/
structure Macro where
  name : List Nat
  params : List (List Nat)
  body : List (List Tok)
deriving DecidableEq, Repr

/-- The words between commas up to `)`, and what follows (sha1cdblock_amd64.s:16,21). -/
def paramsOf : List Tok → List (List Nat) × List Tok
  | .word w :: ts =>
    let r := paramsOf ts
    (w :: r.1, r.2)
  | .sym c :: ts => if c == code ')' then ([], ts) else paramsOf ts
  | .num _ :: ts => paramsOf ts
  | [] => ([], [])

/-- Cut at a character (sha1cdblock_amd64.s:16-23). -/
def splitAt (c : Nat) : List Tok → List (List Tok)
  | [] => [[]]
  | t :: ts =>
    match splitAt c ts with
    | [] => [[t]]
    | r :: rs => if t = .sym c then [] :: r :: rs else (t :: r) :: rs

/-- The statements of a line (sha1cdblock_amd64.s:16-23). -/
def statements (ts : List Tok) : List (List Tok) := (splitAt (code ';') ts).filter fun s => !s.isEmpty

/-- A line without the `\` at its end, and whether there was one (sha1cdblock_amd64.s:16-22, sha1cdblock_arm64.s:15-27). -/
def continued (ts : List Tok) : List Tok × Bool :=
  match ts.reverse with
  | t :: rs => if t = .sym (code '\\') then (rs.reverse, true) else (ts, false)
  | [] => ([], false)

/-- The arguments of a macro call (sha1cdblock_amd64.s:57-249). -/
def argsOf (ts : List Tok) : List (List Tok) := splitAt (code ',') (ts.filter fun t => t ≠ .sym (code '(') && t ≠ .sym (code ')'))

/-- Replace the parameters by the arguments (sha1cdblock_amd64.s:57-249). -/
def substitute (ps : List (List Nat × List Tok)) (ts : List Tok) : List Tok :=
  ts.flatMap fun t => match t with
    | .word w => (ps.lookup w).getD [t]
    | t => [t]

/-- A statement with its macro, if it calls one, expanded (sha1cdblock_amd64.s:57-249, sha1cdblock_arm64.s:85-232). -/
def expand (ms : List Macro) (s : List Tok) : List (List Tok) :=
  match s with
  | .word w :: ts =>
    match ms.find? fun m => m.name == w with
    | some m => m.body.map (substitute (m.params.zip (argsOf ts)))
    | none => [s]
  | _ => [s]

/-- Read lines: `ms` are the macros so far, `cur` one being defined (sha1cdblock_amd64.s:1-274, sha1cdblock_arm64.s:1-249). -/
def preprocess (ms : List Macro) (cur : Option Macro) : List (List Nat) → List (List Tok)
  | [] => []
  | l :: ls =>
    let c := continued (lex [] (uncomment l))
    match cur with
    | some m =>
      let m := { m with body := m.body ++ statements c.1 }
      if c.2 then preprocess ms (some m) ls else preprocess (m :: ms) none ls
    | none =>
      match c.1 with
      | .sym h :: .word d :: ts =>
        if h == code '#' && d == chars! "define" then
          match ts with
          | .word n :: .sym p :: ts =>
            if p == code '(' then
              let r := paramsOf ts
              preprocess ms (some ⟨n, r.1, statements r.2⟩) ls
            else preprocess ms (some ⟨n, [], statements (.sym p :: ts)⟩) ls
          | .word n :: ts => preprocess ms (some ⟨n, [], statements ts⟩) ls
          | _ => preprocess ms none ls
        else preprocess ms none ls
      | ts => (statements ts).flatMap (expand ms) ++ preprocess ms none ls

/-- A sum (`mul = false`) or product of numbers and parenthesised sums, with what follows (sha1cdblock_amd64.s:18-23). -/
def number (mul : Bool) : Nat → List Tok → Option (Nat × List Tok)
  | 0, _ => none
  | fuel + 1, ts => do
    let (a, ts) ←
      if mul then
        match ts with
        | .num n :: ts => some (n, ts)
        | .sym c :: ts =>
          if c == code '(' then
            match number false fuel ts with
            | some (n, .sym d :: ts) => if d == code ')' then some (n, ts) else none
            | _ => none
          else none
        | _ => none
      else number true fuel ts
    match ts with
    | .sym c :: ts' =>
      if c == (if mul then code '*' else code '+') then
        let (b, ts) ← number mul fuel ts'
        pure (if mul then a * b else a + b, ts)
      else pure (a, ts)
    | [] => pure (a, [])
    | _ => none

/-- An operand (sha1cdblock_amd64.s:28-264, sha1cdblock_arm64.s:16-241): `$imm`, a register, `off(reg)`, an argument `name+off(FP)`, a constant
`name<>+off(SB)`, an address `$name(SB)`, a lane `reg[i]`, a list `[reg]`. -/
inductive Opnd where
  | imm (n : Nat)
  | reg (r : List Nat)
  | mem (off : Nat) (r : List Nat)
  | arg (name : List Nat) (off : Nat)
  | const (name : List Nat) (off : Nat)
  | addr (name : List Nat)
  | lane (r : List Nat) (i : Nat)
  | list (r : List Nat)
deriving DecidableEq, Repr

/-- Is it this character? (sha1cdblock_amd64.s:28-264) -/
def Tok.is (t : Tok) (c : Char) : Bool := t == .sym (code c)

/-- Read an operand (sha1cdblock_amd64.s:28-264, sha1cdblock_arm64.s:16-241). -/
def operand (ts : List Tok) : Option Opnd :=
  match ts with
  | [.word r] => some (.reg r)
  | [d, .num n] => if d.is '$' then some (.imm n) else none
  | [d, .word n, o, .word b, c] =>
    if d.is '$' && o.is '(' && b == chars! "SB" && c.is ')' then some (.addr n) else none
  | [a, .word r, b] =>
    if a.is '[' && b.is ']' then some (.list r) else if a.is '(' && b.is ')' then some (.mem 0 r) else none
  | [.word r, a, .num i, b] => if a.is '[' && b.is ']' then some (.lane r i) else none
  | [.word n, p, .num k, a, .word b, c] =>
    if p.is '+' && a.is '(' && b == chars! "FP" && c.is ')' then some (.arg n k) else none
  | [.word n, l, g, p, .num k, a, .word b, c] =>
    if l.is '<' && g.is '>' && p.is '+' && a.is '(' && b == chars! "SB" && c.is ')' then some (.const n k) else none
  | _ =>
    match ts.reverse with
    | c :: .word r :: o :: e =>
      if c.is ')' && o.is '(' then
        match number false 20 e.reverse with
        | some (n, []) => some (.mem n r)
        | _ => none
      else none
    | _ => none

/-- Cut at commas outside of brackets (sha1cdblock_amd64.s:28-264, sha1cdblock_arm64.s:16-241; no comma there is in brackets). -/
def operands (ts : List Tok) : Option (List Opnd) :=
  if ts.isEmpty then some [] else (splitAt (code ',') ts).mapM operand

/-- What a statement is: an instruction, a label, a comparison, a conditional jump, the end
(sha1cdblock_amd64.s:27-266, sha1cdblock_arm64.s:31-243). -/
inductive Item (I : Type) where
  | instr (i : I)
  | label (l : List Nat)
  | cmp (a b : Opnd)
  | jump (cond : List Nat) (l : List Nat)
  | ret
deriving DecidableEq, Repr

/-- `DATA name+off(SB)/width, $value` (sha1cdblock_amd64.s:268-273, sha1cdblock_arm64.s:245-248): name without `<>`, offset, width, value. -/
structure Data where
  name : List Nat
  off : Nat
  width : Nat
  val : Nat
deriving DecidableEq, Repr

/-- A file: the name and frame size of its function, its statements, its constants
(sha1cdblock_amd64.s:27-274, sha1cdblock_arm64.s:31-249). -/
structure File (I : Type) where
  func : List Nat
  frame : Nat
  args : Nat
  items : List (Item I)
  data : List Data
deriving DecidableEq, Repr

/-- Add a statement to what has been read (sha1cdblock_amd64.s:27-274, sha1cdblock_arm64.s:31-249). -/
def readStmt {I : Type} (decode : List Nat → List Opnd → Option I) (jumps cmps : List (List Nat)) (f : File I) (s : List Tok) :
    Option (File I) :=
  match s with
  | [.word l, c] => if c.is ':' then some { f with items := f.items ++ [.label l] } else
    match c with
    | .word r => if jumps.contains l then some { f with items := f.items ++ [.jump l r] }
      else (decode l [.reg r]).map fun i => { f with items := f.items ++ [.instr i] }
    | _ => none
  | .word m :: ts =>
    if m == chars! "TEXT" then
      match ts with
      | [.word n, .sym _, .word _, .sym _, .sym _, .word _, .sym _, .sym _, .num fr, .sym _, .num ar] =>
        if f.items.isEmpty then some { f with func := n, frame := fr, args := ar } else none
      | _ => none
    else if m == chars! "DATA" then
      match ts.filter fun t => !(t.is '<' || t.is '>') with
      | [.word n, p, .num o, .sym _, .word _, .sym _, sl, .num w, .sym _, d, .num v] =>
        if p.is '+' && sl.is '/' && d.is '$' then some { f with data := f.data ++ [⟨n, o, w, v⟩] } else none
      | _ => none
    else if m == chars! "GLOBL" then some f
    else if m == chars! "RET" then (if ts.isEmpty then some { f with items := f.items ++ [.ret] } else none)
    else do
      let os ← operands ts
      if cmps.contains m then
        match os with
        | [a, b] => some { f with items := f.items ++ [.cmp a b] }
        | _ => none
      else
        let i ← decode m os
        some { f with items := f.items ++ [.instr i] }
  | _ => none

/-- Read a file (sha1cdblock_amd64.s:1-274, sha1cdblock_arm64.s:1-249). -/
def readFile {I : Type} (decode : List Nat → List Opnd → Option I) (jumps cmps : List (List Nat)) (ls : List (List Nat)) :
    Option (File I) :=
  (preprocess [] none ls).foldlM (readStmt decode jumps cmps) ⟨[], 0, 0, [], []⟩

namespace Amd64

open Verif.Model.Amd64

/-- The names of the XMM registers (sha1cdblock_amd64.s:16-264). -/
def xReg (n : List Nat) : Option X :=
  [(chars! "X0", X.x0), (chars! "X1", .x1), (chars! "X2", .x2), (chars! "X3", .x3), (chars! "X4", .x4), (chars! "X5", .x5),
    (chars! "X6", .x6), (chars! "X7", .x7), (chars! "X8", .x8)].lookup n

/-- The names of the 64-bit registers (sha1cdblock_amd64.s:28-261). -/
def gReg (n : List Nat) : Option G :=
  [(chars! "DI", G.di), (chars! "SI", .si), (chars! "DX", .dx), (chars! "R13", .r13), (chars! "R15", .r15),
    (chars! "AX", .ax), (chars! "CX", .cx), (chars! "SP", .sp)].lookup n

/-- The name of the 32-bit register (sha1cdblock_amd64.s:56-219). -/
def rReg (n : List Nat) : Option R := [(chars! "R12", R.r12)].lookup n

/-- The arguments (sha1cdblock_amd64.s:28-32). -/
def argOf (n : List Nat) (off : Nat) : Option Arg :=
  [((chars! "h_base", 0), Arg.hbase), ((chars! "p_base", 24), .pbase), ((chars! "p_len", 32), .plen),
    ((chars! "m1_base", 48), .m1base), ((chars! "cs_base", 72), .csbase)].lookup (n, off)

/-- The constants (sha1cdblock_amd64.s:46,48). -/
def symOf (n : List Nat) (off : Nat) : Option Sym :=
  [((chars! "upper_mask", 0), Sym.upperMask), ((chars! "shuffle_mask", 0), .shuffleMask)].lookup (n, off)

/-- The instruction with this name and these operands (sha1cdblock_amd64.s:17-263). -/
def decode (m : List Nat) (os : List Opnd) : Option Instr :=
  if m == chars! "MOVQ" then
    match os with
    | [.arg n o, .reg d] => do pure (.movqArg (← argOf n o) (← gReg d))
    | [.imm v, .reg d] => do pure (.movqImm (BitVec.ofNat 64 v) (← gReg d))
    | _ => none
  else if m == chars! "ADDQ" then
    match os with
    | [.reg s, .reg d] => do pure (.addq (← gReg s) (← gReg d))
    | [.imm v, .reg d] => do pure (.addqImm (BitVec.ofNat 64 v) (← gReg d))
    | _ => none
  else if m == chars! "LEAQ" then
    match os with
    | [.mem o s, .reg d] => do pure (.leaq o (← gReg s) (← gReg d))
    | _ => none
  else if m == chars! "NOTQ" then
    match os with
    | [.reg d] => do pure (.notq (← gReg d))
    | _ => none
  else if m == chars! "ANDQ" then
    match os with
    | [.reg s, .reg d] => do pure (.andq (← gReg s) (← gReg d))
    | _ => none
  else if m == chars! "VMOVDQU" then
    match os with
    | [.mem o s, .reg d] => do pure (.movdquLoad o (← gReg s) (← xReg d))
    | [.reg s, .mem o d] => do pure (.movdquStore (← xReg s) o (← gReg d))
    | _ => none
  else if m == chars! "VMOVDQA" then
    match os with
    | [.reg s, .reg d] => do pure (.movdqa (← xReg s) (← xReg d))
    | [.const c o, .reg d] => do pure (.movdqaConst (← symOf c o) (← xReg d))
    | [.reg s, .mem o d] => do pure (.movdqaStore (← xReg s) o (← gReg d))
    | _ => none
  else if m == chars! "MOVL" then
    match os with
    | [.reg s, .mem o d] => do pure (.movlStore (← rReg s) o (← gReg d))
    | _ => none
  else if m == chars! "PSHUFD" || m == chars! "VPSHUFD" then
    match os with
    | [.imm n, .reg s, .reg d] => do pure (.pshufd n (← xReg s) (← xReg d))
    | _ => none
  else if m == chars! "PSHUFB" then
    match os with
    | [.reg s, .reg d] => do pure (.pshufb (← xReg s) (← xReg d))
    | _ => none
  else if m == chars! "PADDD" then
    match os with
    | [.reg s, .reg d] => do pure (.paddd (← xReg s) (← xReg d))
    | [.mem o s, .reg d] => do pure (.padddMem o (← gReg s) (← xReg d))
    | _ => none
  else if m == chars! "PXOR" then
    match os with
    | [.reg s, .reg d] => do pure (.pxor (← xReg s) (← xReg d))
    | _ => none
  else if m == chars! "PAND" then
    match os with
    | [.const c o, .reg d] => do pure (.pandConst (← symOf c o) (← xReg d))
    | _ => none
  else if m == chars! "PINSRD" then
    match os with
    | [.imm n, .mem o s, .reg d] => do pure (.pinsrd n o (← gReg s) (← xReg d))
    | _ => none
  else if m == chars! "PEXTRD" || m == chars! "VPEXTRD" then
    match os with
    | [.imm n, .reg s, .reg d] => do pure (.pextrd n (← xReg s) (← rReg d))
    | [.imm n, .reg s, .mem o d] => do pure (.pextrdStore n (← xReg s) o (← gReg d))
    | _ => none
  else if m == chars! "ROLL" then
    match os with
    | [.imm n, .reg d] => do pure (.roll n (← rReg d))
    | _ => none
  else if m == chars! "SHA1RNDS4" then
    match os with
    | [.imm n, .reg s, .reg d] => do pure (.sha1rnds4 n (← xReg s) (← xReg d))
    | _ => none
  else if m == chars! "SHA1NEXTE" then
    match os with
    | [.reg s, .reg d] => do pure (.sha1nexte (← xReg s) (← xReg d))
    | [.mem o s, .reg d] => do pure (.sha1nexteMem o (← gReg s) (← xReg d))
    | _ => none
  else if m == chars! "SHA1MSG1" then
    match os with
    | [.reg s, .reg d] => do pure (.sha1msg1 (← xReg s) (← xReg d))
    | _ => none
  else if m == chars! "SHA1MSG2" then
    match os with
    | [.reg s, .reg d] => do pure (.sha1msg2 (← xReg s) (← xReg d))
    | _ => none
  else none

/-- Read a file for amd64 (sha1cdblock_amd64.s:1-274). -/
def read (ls : List (List Nat)) : Option (File Instr) :=
  readFile decode [chars! "JEQ", chars! "JNE"] [chars! "CMPQ"] ls

end Amd64

namespace Arm64

open Verif.Model.Arm64

/-- Two of the instructions of sha1cdblock_arm64.s:57-58 are one in the model. -/
inductive Raw where
  | one (i : Instr)
  | ksAddr (r : List Nat)
  | ksLoad (r : List Nat) (d : V)

/-- The names of the vector registers; the arrangement (`S4`, `B16`) or none is part of the name
(sha1cdblock_arm64.s:16-241). -/
def vReg (suffix : List Nat) (n : List Nat) : Option V :=
  [(chars! "V0", V.v0), (chars! "V1", .v1), (chars! "V2", .v2), (chars! "V3", .v3), (chars! "V4", .v4), (chars! "V5", .v5),
    (chars! "V6", .v6), (chars! "V7", .v7), (chars! "V16", .v16), (chars! "V17", .v17), (chars! "V18", .v18),
    (chars! "V19", .v19), (chars! "V20", .v20)].findSome? fun x => if x.1 ++ suffix == n then some x.2 else none

/-- All sixteen bytes of a vector register, in either arrangement (sha1cdblock_arm64.s:18,42-79). -/
def vAny (n : List Nat) : Option V := (vReg (chars! ".S4") n).or (vReg (chars! ".B16") n)

/-- The names of the general-purpose registers (sha1cdblock_arm64.s:32-241). -/
def gReg (n : List Nat) : Option G :=
  [(chars! "R0", G.r0), (chars! "R1", .r1), (chars! "R2", .r2), (chars! "R3", .r3), (chars! "R4", .r4), (chars! "R16", .r16),
    (chars! "R21", .r21)].lookup n

/-- The arguments (sha1cdblock_arm64.s:32-36). -/
def argOf (n : List Nat) (off : Nat) : Option Arg :=
  [((chars! "h_base", 0), Arg.hbase), ((chars! "p_base", 24), .pbase), ((chars! "p_len", 32), .plen),
    ((chars! "m1_base", 48), .m1base), ((chars! "cs_base", 72), .csbase)].lookup (n, off)

/-- The instruction with this name and these operands (sha1cdblock_arm64.s:16-241). -/
def decode (m : List Nat) (os : List Opnd) : Option Raw :=
  if m == chars! "MOVD" then
    match os with
    | [.arg n o, .reg d] => do pure (.one (.movdArg (← argOf n o) (← gReg d)))
    | [.addr n, .reg d] => if n == chars! "·sha1Ks" && (gReg d).isNone then some (.ksAddr d) else none
    | _ => none
  else if m == chars! "LSR" then
    match os with
    | [.imm n, .reg s, .reg d] => do pure (.one (.lsr n (← gReg s) (← gReg d)))
    | _ => none
  else if m == chars! "LSL" then
    match os with
    | [.imm n, .reg s, .reg d] => do pure (.one (.lsl n (← gReg s) (← gReg d)))
    | _ => none
  else if m == chars! "ADD" then
    match os with
    | [.reg a, .reg b, .reg d] => do pure (.one (.add (← gReg a) (← gReg b) (← gReg d)))
    | _ => none
  else if m == chars! "SUB" then
    match os with
    | [.imm n, .reg s, .reg d] => do pure (.one (.subImm n (← gReg s) (← gReg d)))
    | _ => none
  else if m == chars! "VLD1.P" then
    match os with
    | [.mem 16 s, .list d] => do pure (.one (.vld1P (← gReg s) (← vAny d)))
    | _ => none
  else if m == chars! "VLD1" then
    match os with
    | [.mem 0 s, .list d] => do pure (.ksLoad s (← vAny d))
    | _ => none
  else if m == chars! "FMOVS" then
    match os with
    | [.mem 0 s, .reg d] => do if d == chars! "F20" then pure (.one (.fmovsLoad (← gReg s) .v20)) else none
    | [.reg s, .mem 0 d] => do if s == chars! "F20" then pure (.one (.fmovsStore .v20 (← gReg d))) else none
    | _ => none
  else if m == chars! "VMOV" then
    match os with
    | [.reg s, .reg d] => do pure (.one (.vmov (← vReg (chars! ".B16") s) (← vReg (chars! ".B16") d)))
    | [.lane s 0, .reg d] => do pure (.one (.vmovS0 (← vReg (chars! ".S") s) (← vReg [] d)))
    | _ => none
  else if m == chars! "VDUP" then
    match os with
    | [.lane s i, .reg d] => do pure (.one (.vdup (← vReg (chars! ".S") s) i (← vReg (chars! ".S4") d)))
    | _ => none
  else if m == chars! "VREV32" then
    match os with
    | [.reg s, .reg d] => do pure (.one (.vrev32 (← vReg (chars! ".B16") s) (← vReg (chars! ".B16") d)))
    | _ => none
  else if m == chars! "VST1.P" then
    match os with
    | [.list s, .mem 0 d] => do pure (.one (.vst1P (← vAny s) (← gReg d)))
    | [.lane s 0, .mem 4 d] => do pure (.one (.vst1S0P (← vReg (chars! ".S") s) (← gReg d)))
    | _ => none
  else if m == chars! "VADD" then
    match os with
    | [.reg a, .reg b, .reg d] => do
      pure (.one (.vadd (← vReg (chars! ".S4") a) (← vReg (chars! ".S4") b) (← vReg (chars! ".S4") d)))
    | _ => none
  else if m == chars! "SHA1C" then
    match os with
    | [.reg a, .reg b, .reg d] => do pure (.one (.sha1c (← vReg (chars! ".S4") a) (← vReg [] b) (← vReg [] d)))
    | _ => none
  else if m == chars! "SHA1P" then
    match os with
    | [.reg a, .reg b, .reg d] => do pure (.one (.sha1p (← vReg (chars! ".S4") a) (← vReg [] b) (← vReg [] d)))
    | _ => none
  else if m == chars! "SHA1M" then
    match os with
    | [.reg a, .reg b, .reg d] => do pure (.one (.sha1m (← vReg (chars! ".S4") a) (← vReg [] b) (← vReg [] d)))
    | _ => none
  else if m == chars! "SHA1H" then
    match os with
    | [.reg s, .reg d] => do pure (.one (.sha1h (← vReg [] s) (← vReg [] d)))
    | _ => none
  else if m == chars! "SHA1SU0" then
    match os with
    | [.reg a, .reg b, .reg d] => do
      pure (.one (.sha1su0 (← vReg (chars! ".S4") a) (← vReg (chars! ".S4") b) (← vReg (chars! ".S4") d)))
    | _ => none
  else if m == chars! "SHA1SU1" then
    match os with
    | [.reg s, .reg d] => do pure (.one (.sha1su1 (← vReg (chars! ".S4") s) (← vReg (chars! ".S4") d)))
    | _ => none
  else none

/-- Make one instruction of the address of the constants and the load from it; neither may occur otherwise
(sha1cdblock_arm64.s:57-58). -/
def pair : List (Item Raw) → Option (List (Item Instr))
  | [] => some []
  | .instr (.ksAddr r) :: .instr (.ksLoad r' d) :: is => if r == r' then (pair is).map (.instr (.vld1Ks d) :: ·) else none
  | .instr (.one i) :: is => (pair is).map (.instr i :: ·)
  | .label l :: is => (pair is).map (.label l :: ·)
  | .cmp a b :: is => (pair is).map (.cmp a b :: ·)
  | .jump c l :: is => (pair is).map (.jump c l :: ·)
  | .ret :: is => (pair is).map (.ret :: ·)
  | _ => none

/-- Read a file for arm64 (sha1cdblock_arm64.s:1-249). -/
def read (ls : List (List Nat)) : Option (File Instr) := do
  let f ← readFile decode [chars! "BLS"] [chars! "CMP"] ls
  let is ← pair f.items
  pure ⟨f.func, f.frame, f.args, is, f.data⟩

end Arm64

end Verif.Source
