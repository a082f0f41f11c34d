import Verif.Model.Amd64
import Verif.Model.Arm64

/-!
Which files a target selects, and which instructions a CPU needs.

Only what the go command decides before compiling: file name suffixes, `//go:build` lines and `import "C"`.  Test
files (`_test.go`) are left out.
-/

namespace Verif.Model.Target

/-- A `//go:build` expression
(sha1cdblock_amd64.go:1-2, sha1cdblock_arm64.go:1-2, sha1cdblock_noasm.go:1, cgo/fallback_no_cgo.go:1-2). -/
inductive Constr where
  | always
  | tag (s : String)
  | not (c : Constr)
  | and (a b : Constr)
  | or (a b : Constr)

/-- What a build is for: `GOOS`, `GOARCH`, the compiler (`gc` or `gccgo`), whether cgo is enabled, and the tags
given with `-tags` (Makefile, README.md). -/
structure Target where
  goos : String
  goarch : String
  compiler : String
  cgo : Bool
  user : List String

/-- Whether a tag is satisfied.  The tags for releases, tool experiments and `unix`, which no file of the
repository uses, count as `user` tags (sha1cdblock_amd64.go:1-2). -/
def Target.tag (t : Target) (s : String) : Bool :=
  (t.cgo && s == "cgo") || s == t.goos || s == t.goarch || s == t.compiler || t.user.contains s

/-- Whether an expression is satisfied (sha1cdblock_amd64.go:1-2). -/
def Constr.eval (t : Target) : Constr → Bool
  | .always => true
  | .tag s => t.tag s
  | .not c => !c.eval t
  | .and a b => a.eval t && b.eval t
  | .or a b => a.eval t || b.eval t

/-- The architectures a file name may end in (the names of sha1cdblock_amd64.go, .s and sha1cdblock_arm64.go, .s). -/
def knownArch : List String :=
  ["386", "amd64", "amd64p32", "arm", "armbe", "arm64", "arm64be", "loong64", "mips", "mipsle", "mips64", "mips64le",
   "mips64p32", "mips64p32le", "ppc", "ppc64", "ppc64le", "riscv", "riscv64", "s390", "s390x", "sparc", "sparc64",
   "wasm"]

/-- The operating systems a file name may end in (the names of all files). -/
def knownOS : List String :=
  ["aix", "android", "darwin", "dragonfly", "freebsd", "hurd", "illumos", "ios", "js", "linux", "nacl", "netbsd",
   "openbsd", "plan9", "solaris", "wasip1", "windows", "zos"]

/-- A source file: its name split at the underscores and without extension, its constraint, whether it needs cgo
(a Go file with `import "C"`, or a C file), the package-level names it declares, those of them that are functions
without a body, the package-level names of its own package that it uses, the functions it implements in assembly
or C for the names declared without a body, whether it is a C file, and whether it is an assembly file.

Also: the names of other packages of the module that it uses, by package; the types of the exported functions it
declares; the methods it declares, each with receiver type, name and type (all receivers are pointers); the
dynamic type, by package and name, of what its function `New` returns; the C functions and variables with external
linkage that it defines, and those it uses.  Types are written as in Go, without parameter names and with constants
evaluated.  Packages outside the module and the C library are taken to offer what is used of them
(all .go, .s, .c and .h files). -/
structure File where
  name : List String
  constr : Constr
  needsCgo : Bool := false
  decls : List String := []
  bodyless : List String := []
  uses : List String := []
  texts : List String := []
  isC : Bool := false
  isAsm : Bool := false
  imports : List (String × List String) := []
  funcs : List (String × String) := []
  methods : List (String × String × String) := []
  news : Option (String × String) := none
  cdefs : List String := []
  cuses : List String := []

/-- Whether the file name admits the target: the part before the first underscore is ignored; a last part that
names an architecture or an operating system must be satisfied, and so must one before it that names an
operating system (the names of all files). -/
def File.nameOk (t : Target) (f : File) : Bool :=
  match f.name.tail.reverse with
  | [] => true
  | last :: rest =>
    if knownArch.contains last then
      t.tag last && (match rest with
        | [] => true
        | prev :: _ => if knownOS.contains prev then t.tag prev else true)
    else if knownOS.contains last then t.tag last
    else true

/-- Whether the file is part of the build (sha1cdblock_amd64.go:1-2). -/
def File.selected (t : Target) (f : File) : Bool :=
  f.nameOk t && f.constr.eval t && (t.cgo || !f.needsCgo)

/-- The files of a package that a target selects (all .go, .s, .c and .h files). -/
def select (t : Target) (p : List File) : List File := p.filter (File.selected t)

/-- detection.go -/
def detectionGo : File := { name := ["detection"], constr := .always, decls := ["CollisionResistantHash"] }

/-- sha1cd.go -/
def sha1cdGo : File :=
  { name := ["sha1cd"], constr := .always
    decls := ["appendUint32", "appendUint64", "consumeUint64", "consumeUint32", "New", "Sum", "Size", "BlockSize",
      "digest"]
    uses := ["BlockSize", "Size", "appendUint32", "appendUint64", "block", "consumeUint32", "consumeUint64",
      "digest"]
    imports := [("internal", ["Size", "Chunk", "WordBuffers", "MarshaledSize", "Magic", "Init0", "Init1", "Init2",
      "Init3", "Init4"])]
    funcs := [("New", "func() hash.Hash"), ("Sum", "func([]byte) ([20]byte, bool)")]
    methods := [("digest", "MarshalBinary", "func() ([]byte, error)"),
      ("digest", "UnmarshalBinary", "func([]byte) error"), ("digest", "Reset", "func()"),
      ("digest", "Size", "func() int"), ("digest", "BlockSize", "func() int"),
      ("digest", "Write", "func([]byte) (int, error)"), ("digest", "Sum", "func([]byte) []byte"),
      ("digest", "checkSum", "func() [20]byte"),
      ("digest", "CollisionResistantSum", "func([]byte) ([]byte, bool)")]
    news := some ("sha1cd", "digest") }

/-- sha1cdblock_amd64.go:1 -/
def amd64Go : File :=
  { name := ["sha1cdblock", "amd64"]
    constr := .and (.and (.and (.not (.tag "noasm")) (.tag "gc")) (.tag "amd64")) (.not (.tag "arm64"))
    decls := ["blockAMD64", "block", "hasSHANI"], bodyless := ["blockAMD64"]
    uses := ["blockAMD64", "blockGeneric", "checkCollision", "digest", "forceGeneric", "hasSHANI",
      "rectifyCompressionState"]
    imports := [("internal", ["Rounds", "PreStepState", "WordBuffers", "Chunk"])] }

/-- sha1cdblock_amd64.s:1, 27 -/
def amd64S : File :=
  { name := ["sha1cdblock", "amd64"]
    constr := .and (.and (.and (.not (.tag "noasm")) (.tag "gc")) (.tag "amd64")) (.not (.tag "arm64"))
    texts := ["blockAMD64"], isAsm := true }

/-- sha1cdblock_arm64.go:1 -/
def arm64Go : File :=
  { name := ["sha1cdblock", "arm64"]
    constr := .and (.and (.and (.not (.tag "noasm")) (.tag "gc")) (.tag "arm64")) (.not (.tag "amd64"))
    decls := ["blockARM64", "block", "hasSHA1"], bodyless := ["blockARM64"]
    uses := ["blockARM64", "blockGeneric", "checkCollision", "digest", "forceGeneric", "hasSHA1",
      "rectifyCompressionState"]
    imports := [("internal", ["Rounds", "PreStepState", "WordBuffers", "Chunk"])] }

/-- sha1cdblock_arm64.s:1, 31 -/
def arm64S : File :=
  { name := ["sha1cdblock", "arm64"]
    constr := .and (.and (.and (.not (.tag "noasm")) (.tag "gc")) (.tag "arm64")) (.not (.tag "amd64"))
    texts := ["blockARM64"], isAsm := true }

/-- sha1cdblock_generic.go -/
def genericGo : File :=
  { name := ["sha1cdblock", "generic"], constr := .always
    decls := ["blockGeneric", "checkCollision", "hasCollided", "rectifyCompressionState", "forceGeneric"]
    uses := ["checkCollision", "digest", "hasCollided"]
    imports := [("internal", ["PreStepState", "WordBuffers", "Chunk", "Rounds", "K0", "K1", "K2", "K3"]),
      ("ubc", ["CalculateDvMask", "SHA1_dvs"])] }

/-- sha1cdblock_noasm.go:1 -/
def noasmGo : File :=
  { name := ["sha1cdblock", "noasm"]
    constr := .or (.and (.not (.tag "amd64")) (.not (.tag "arm64"))) (.tag "noasm")
    decls := ["block"], uses := ["blockGeneric", "digest"] }

/-- Package sha1cd, all files of the root directory of the repository (sha1cd.go, detection.go, sha1cdblock_*). -/
def sha1cdFiles : List File :=
  [detectionGo, sha1cdGo, amd64Go, amd64S, arm64Go, arm64S, genericGo, noasmGo]

/-- cgo/fallback_no_cgo.go:1 -/
def fallbackGo : File :=
  { name := ["fallback", "no", "cgo"], constr := .not (.tag "cgo"), decls := ["CalculateDvMask", "New", "Sum"]
    imports := [("sha1cd", ["New", "CollisionResistantHash"]), ("ubc", ["CalculateDvMask"])]
    funcs := [("CalculateDvMask", "func(*[80]uint32) uint32"), ("New", "func() hash.Hash"),
      ("Sum", "func([]byte) ([]byte, bool)")]
    news := some ("sha1cd", "digest") }

/-- cgo/sha1.go -/
def cgoSha1Go : File :=
  { name := ["sha1"], constr := .always, needsCgo := true
    decls := ["New", "Sum", "digest", "Size", "BlockSize"], uses := ["BlockSize", "Size", "digest"]
    funcs := [("New", "func() hash.Hash"), ("Sum", "func([]byte) ([]byte, bool)")]
    methods := [("digest", "sum", "func() ([20]byte, bool)"), ("digest", "Sum", "func([]byte) []byte"),
      ("digest", "CollisionResistantSum", "func([]byte) ([]byte, bool)"), ("digest", "Reset", "func()"),
      ("digest", "Size", "func() int"), ("digest", "BlockSize", "func() int"),
      ("digest", "Write", "func([]byte) (int, error)")]
    news := some ("cgo", "digest")
    cuses := ["SHA1DCFinal", "SHA1DCInit", "SHA1DCUpdate"] }

/-- cgo/ubc_check.go -/
def cgoUbcGo : File :=
  { name := ["ubc", "check"], constr := .always, needsCgo := true, decls := ["CalculateDvMask"]
    funcs := [("CalculateDvMask", "func([80]uint32) uint32")]
    cdefs := ["check"], cuses := ["check", "ubc_check"] }

/-- cgo/sha1.c -/
def cgoSha1C : File :=
  { name := ["sha1"], constr := .always, needsCgo := true, isC := true
    cdefs := ["sha1_compression", "sha1_compression_states", "SHA1DCInit", "SHA1DCSetSafeHash", "SHA1DCSetUseUBC",
      "SHA1DCSetUseDetectColl", "SHA1DCSetDetectReducedRoundCollision", "SHA1DCSetCallback", "SHA1DCUpdate",
      "SHA1DCFinal"]
    cuses := ["sha1_compression_states", "ubc_check", "sha1_dvs", "SHA1DCUpdate"] }

/-- cgo/ubc_check.c -/
def cgoUbcC : File :=
  { name := ["ubc", "check"], constr := .always, needsCgo := true, isC := true, cdefs := ["sha1_dvs", "ubc_check"] }

/-- Package cgo, all files of the directory cgo (cgo/*). -/
def cgoFiles : List File := [fallbackGo, cgoSha1Go, cgoUbcGo, cgoSha1C, cgoUbcC]

/-- ubc/const.go:6-45 -/
def ubcConstGo : File :=
  { name := ["const"], constr := .always
    decls := ["CheckSize", "sha1_dvs",
      "DV_I_43_0_bit", "DV_I_44_0_bit", "DV_I_45_0_bit", "DV_I_46_0_bit", "DV_I_46_2_bit", "DV_I_47_0_bit",
      "DV_I_47_2_bit", "DV_I_48_0_bit", "DV_I_48_2_bit", "DV_I_49_0_bit", "DV_I_49_2_bit", "DV_I_50_0_bit",
      "DV_I_50_2_bit", "DV_I_51_0_bit", "DV_I_51_2_bit", "DV_I_52_0_bit", "DV_II_45_0_bit", "DV_II_46_0_bit",
      "DV_II_46_2_bit", "DV_II_47_0_bit", "DV_II_48_0_bit", "DV_II_49_0_bit", "DV_II_49_2_bit",
      "DV_II_50_0_bit", "DV_II_50_2_bit", "DV_II_51_0_bit", "DV_II_51_2_bit", "DV_II_52_0_bit",
      "DV_II_53_0_bit", "DV_II_54_0_bit", "DV_II_55_0_bit", "DV_II_56_0_bit"]
    uses := ["CheckSize", "DvInfo"] }

/-- ubc/ubc.go -/
def ubcGo : File :=
  { name := ["ubc"], constr := .always, decls := ["DvInfo", "CalculateDvMask", "not", "SHA1_dvs"]
    uses := ["DvInfo", "not", "sha1_dvs",
      "DV_I_43_0_bit", "DV_I_44_0_bit", "DV_I_45_0_bit", "DV_I_46_0_bit", "DV_I_46_2_bit", "DV_I_47_0_bit",
      "DV_I_47_2_bit", "DV_I_48_0_bit", "DV_I_48_2_bit", "DV_I_49_0_bit", "DV_I_49_2_bit", "DV_I_50_0_bit",
      "DV_I_50_2_bit", "DV_I_51_0_bit", "DV_I_51_2_bit", "DV_I_52_0_bit", "DV_II_45_0_bit", "DV_II_46_0_bit",
      "DV_II_46_2_bit", "DV_II_47_0_bit", "DV_II_48_0_bit", "DV_II_49_0_bit", "DV_II_49_2_bit",
      "DV_II_50_0_bit", "DV_II_50_2_bit", "DV_II_51_0_bit", "DV_II_51_2_bit", "DV_II_52_0_bit",
      "DV_II_53_0_bit", "DV_II_54_0_bit", "DV_II_55_0_bit", "DV_II_56_0_bit"]
    funcs := [("CalculateDvMask", "func(*[80]uint32) uint32"), ("SHA1_dvs", "func() []DvInfo")] }

/-- Package ubc (ubc/const.go, ubc/ubc.go). -/
def ubcFiles : List File := [ubcConstGo, ubcGo]

/-- internal/const.go -/
def internalConstGo : File :=
  { name := ["const"], constr := .always
    decls := ["K0", "K1", "K2", "K3", "Init0", "Init1", "Init2", "Init3", "Init4", "InitTmp0", "InitTmp1", "InitTmp2",
      "InitTmp3", "InitTmp4", "WordBuffers", "Size", "Rounds", "Chunk", "PreStepState", "Magic", "MarshaledSize"]
    uses := ["Magic", "Chunk"] }

/-- Package shared, directory internal (internal/const.go). -/
def internalFiles : List File := [internalConstGo]

/-- The packages of the module, by directory (the root as `sha1cd`).  The directory test holds test files only (go.mod). -/
def modulePkgs : List (String × List File) :=
  [("sha1cd", sha1cdFiles), ("ubc", ubcFiles), ("internal", internalFiles), ("cgo", cgoFiles)]

/-- All names declared by the selected files (all .go files). -/
def declared (t : Target) (p : List File) : List String := (select t p).flatMap File.decls

/-- The names that other packages may use: those that begin with a capital letter (all .go files). -/
def exported (t : Target) (p : List File) : List String :=
  (declared t p).filter fun s => s.toList.head?.any Char.isUpper

/-- The compiler and linker accept the names: none is declared twice, every name used is declared, every
function without body has an implementation, and there are C files only beside a Go file that uses cgo (the go command
rejects them otherwise) (all .go and .s files). -/
def Links (t : Target) (p : List File) : Prop :=
  (declared t p).Nodup ∧
  (∀ f ∈ select t p, ∀ s ∈ f.uses, s ∈ declared t p) ∧
  (∀ f ∈ select t p, ∀ s ∈ f.bodyless, ∃ g ∈ select t p, s ∈ g.texts) ∧
  (∀ f ∈ select t p, f.isC = true → t.cgo = true ∧ ∃ g ∈ select t p, g.isC = false ∧ g.needsCgo = true)

/-- All methods declared by the selected files (sha1cd.go:39-212, cgo/sha1.go:28-75). -/
def methods (t : Target) (p : List File) : List (String × String × String) := (select t p).flatMap File.methods

/-- All C functions and variables with external linkage that the selected files define (cgo/*.c). -/
def cdefined (t : Target) (p : List File) : List String := (select t p).flatMap File.cdefs

/-- The go command builds the module for the target.  Of each package there is a Go file, the names are accepted, no
method is declared twice for a type, methods belong to declared types, and C names are defined once and if used; of
each package of the module that a file imports, it exports the names that the file uses; and no package imports itself,
directly or through others (go.mod, all files). -/
def Builds (t : Target) (m : List (String × List File)) : Prop :=
  (∀ p ∈ m, (∃ f ∈ select t p.2, f.isC = false ∧ f.isAsm = false) ∧ Links t p.2 ∧
    ((methods t p.2).map fun x => (x.1, x.2.1)).Nodup ∧ (∀ x ∈ methods t p.2, x.1 ∈ declared t p.2) ∧
    (cdefined t p.2).Nodup ∧ (∀ f ∈ select t p.2, ∀ s ∈ f.cuses, s ∈ cdefined t p.2) ∧
    ∀ f ∈ select t p.2, ∀ i ∈ f.imports, ∃ q ∈ m, q.1 = i.1 ∧ ∀ s ∈ i.2, s ∈ exported t q.2) ∧
  ∃ rank : String → Nat, ∀ p ∈ m, ∀ f ∈ select t p.2, ∀ i ∈ f.imports, rank i.1 < rank p.1

/-! ### Interfaces -/

/-- The methods of a pointer to a type, by name and type (sha1cd.go:39-212, cgo/sha1.go:28-75). -/
def methodSet (t : Target) (m : List (String × List File)) (ty : String × String) : List (String × String) :=
  m.flatMap fun p => if p.1 = ty.1 then ((methods t p.2).filter fun x => x.1 == ty.2).map fun x => (x.2.1, x.2.2)
    else []

/-- The dynamic type of what function `New` of a package returns: a pointer to this type
(sha1cd.go:122-126, cgo/sha1.go:17-21). -/
def newType (t : Target) (p : List File) : Option (String × String) := (select t p).findSome? File.news

/-- `hash.Hash`, of the Go library: `io.Writer` and four methods (sha1cd.go:122, cgo/sha1.go:17). -/
def ifaceHash : List (String × String) :=
  [("Write", "func([]byte) (int, error)"), ("Sum", "func([]byte) []byte"), ("Reset", "func()"), ("Size", "func() int"),
   ("BlockSize", "func() int")]

/-- detection.go:5-11, `CollisionResistantHash` -/
def ifaceCRH : List (String × String) := ("CollisionResistantSum", "func([]byte) ([]byte, bool)") :: ifaceHash

/-- `encoding.BinaryMarshaler`, of the Go library (sha1cd.go:119-121). -/
def ifaceMarshaler : List (String × String) := [("MarshalBinary", "func() ([]byte, error)")]

/-- `encoding.BinaryUnmarshaler`, of the Go library (sha1cd.go:119-121). -/
def ifaceUnmarshaler : List (String × String) := [("UnmarshalBinary", "func([]byte) error")]

/-- `encoding.BinaryAppender`, of the Go library (sha1cd.go:39). -/
def ifaceAppender : List (String × String) := [("AppendBinary", "func([]byte) ([]byte, error)")]

/-- Whether a type assertion to an interface succeeds: the method set has all its methods (sha1cd.go:119-122, detection.go). -/
def implements (ms iface : List (String × String)) : Bool := iface.all ms.contains

/-- The exported functions of a package with their types (sha1cd.go:122,200, cgo/sha1.go:17,57). -/
def api (t : Target) (p : List File) : List (String × String) := (select t p).flatMap File.funcs

/-! ### CPU features -/

/-- CPU features, under the names of github.com/klauspost/cpuid/v2 (`SSE4` is SSE4.1). -/
inductive Feature where
  | SSE2 | SSE3 | SSSE3 | SSE4 | AVX | SHA | SHA1
deriving DecidableEq

/-- sha1cdblock_amd64.go:13-17, `hasSHANI`; the first conjunct is a constant of the build. -/
def hasSHANI (goarch : String) (supports : Feature → Bool) : Bool :=
  goarch == "amd64" && supports .AVX && supports .SHA && supports .SSE3 && supports .SSE4

/-- sha1cdblock_arm64.go:13, `hasSHA1` -/
def hasSHA1 (goarch : String) (supports : Feature → Bool) : Bool := goarch == "arm64" && supports .SHA1

end Verif.Model.Target

namespace Verif.Model.Amd64

open Verif.Model.Target

/-- What an instruction of sha1cdblock_amd64.s:16-269 needs.  The model does not distinguish `PSHUFD` from `VPSHUFD`
nor `PEXTRD` from `VPEXTRD`: the requirements of both are listed.  General-purpose instructions need nothing. -/
def Instr.needs : Instr → List Feature
  | .movdquLoad .. | .movdquStore .. | .movdqa .. | .movdqaConst .. | .movdqaStore .. => [.AVX]
  | .pshufd .. => [.SSE2, .AVX]
  | .pshufb .. => [.SSSE3]
  | .paddd .. | .padddMem .. | .pxor .. | .pandConst .. => [.SSE2]
  | .pinsrd .. => [.SSE4]
  | .pextrd .. | .pextrdStore .. => [.SSE4, .AVX]
  | .sha1rnds4 .. | .sha1nexte .. | .sha1nexteMem .. | .sha1msg1 .. | .sha1msg2 .. => [.SHA]
  | .movqArg .. | .movqImm .. | .addq .. | .addqImm .. | .leaq .. | .notq .. | .andq .. | .movlStore .. | .roll .. => []

/-- All instructions of `blockAMD64` but the two conditional jumps and the comparisons before them,
sha1cdblock_amd64.s:28-267. -/
def program : List Instr := argLoads ++ setup ++ body ++ writeBack

end Verif.Model.Amd64

namespace Verif.Model.Arm64

open Verif.Model.Target

/-- What an instruction of sha1cdblock_arm64.s:15-241 needs beyond what every arm64 CPU that Go supports has
(floating point and vectors). -/
def Instr.needs : Instr → List Feature
  | .sha1c .. | .sha1p .. | .sha1m .. | .sha1h .. | .sha1su0 .. | .sha1su1 .. => [.SHA1]
  | .movdArg .. | .lsr .. | .lsl .. | .add .. | .subImm .. | .vld1P .. | .vld1Ks .. | .fmovsLoad ..
  | .fmovsStore .. | .vmov .. | .vmovS0 .. | .vdup .. | .vrev32 .. | .vst1P .. | .vst1S0P .. | .vadd .. => []

/-- All instructions of `blockARM64` but the comparison and the jump, sha1cdblock_arm64.s:32-240. -/
def program : List Instr := argLoads ++ setup ++ body ++ writeBack

end Verif.Model.Arm64
