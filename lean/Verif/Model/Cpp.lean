import Verif.Model.CSha1

/-!
The conditional compilation at the head of cgo/sha1.c (lines 31-133): which of `SHA1DC_BIGENDIAN` and
`SHA1DC_ALLOW_UNALIGNED_ACCESS` the rest of the file is compiled with.

Simplifications: a macro is either not defined or stands for an integer (the ones that occur in an `==` of lines
58, 70 and 82 are predefined by compilers and C libraries as integers; the others are only tested with `defined`);
the macros that replace whole headers (lines 9-22) are not defined; `SHA1DC_INIT_SAFE_HASH_DEFAULT` (lines 24-26)
is not predefined (see `Model/CgoDefault`).
-/

namespace Verif.Model.C

/-- The macros defined at cgo/sha1.c:31: by the compiler, by the command line and by the included headers. -/
abbrev Macros := String → Option Int

/-- `defined(x)`, as in cgo/sha1.c:31. -/
def Macros.isDef (e : Macros) (x : String) : Bool := (e x).isSome

/-- The value of the identifier `x` in an `#if` such as cgo/sha1.c:58; an undefined identifier is 0. -/
def Macros.val (e : Macros) (x : String) : Int := (e x).getD 0

/-- The names of cgo/sha1.c:31-35. -/
def intelNames : List String :=
  ["__amd64__", "__amd64", "__x86_64__", "__x86_64", "i386", "__i386", "__i386__", "__i486__", "__i586__",
   "__i686__", "_M_IX86", "__X86__", "_X86_", "__THW_INTEL__", "__I86__", "__INTEL__", "__386", "_M_X64", "_M_AMD64"]

/-- `SHA1DC_ON_INTEL_LIKE_PROCESSOR` after cgo/sha1.c:37. -/
def onIntel (e : Macros) : Bool := e.isDef "SHA1DC_ON_INTEL_LIKE_PROCESSOR" || intelNames.any e.isDef

/-- The names of cgo/sha1.c:87-89. -/
def bigEndianCpus : List String :=
  ["__ARMEB__", "__THUMBEB__", "__AARCH64EB__", "__MIPSEB__", "__MIPSEB", "_MIPSEB", "__sparc"]

/-- `SHA1DC_BIGENDIAN` after cgo/sha1.c:48-119. -/
def detectBE (e : Macros) : Bool :=
  e.isDef "SHA1DC_BIGENDIAN" ||
    if e.isDef "__BYTE_ORDER__" && e.isDef "__ORDER_BIG_ENDIAN__" then
      e.val "__BYTE_ORDER__" == e.val "__ORDER_BIG_ENDIAN__"
    else if e.isDef "__BYTE_ORDER" && e.isDef "__BIG_ENDIAN" then
      e.val "__BYTE_ORDER" == e.val "__BIG_ENDIAN"
    else if e.isDef "_BYTE_ORDER" && e.isDef "_BIG_ENDIAN" && e.isDef "_LITTLE_ENDIAN" then
      e.val "_BYTE_ORDER" == e.val "_BIG_ENDIAN"
    else if bigEndianCpus.any e.isDef then true
    else if e.isDef "_AIX" || e.isDef "__hpux" then true
    else if onIntel e then false
    else false

/-- `SHA1DC_BIGENDIAN` after cgo/sha1.c:121-126. -/
def macroBE (e : Macros) : Bool :=
  let be := detectBE e
  let be := if e.isDef "SHA1DC_FORCE_LITTLEENDIAN" && be then false else be
  if e.isDef "SHA1DC_FORCE_BIGENDIAN" && !be then true else be

/-- `SHA1DC_ALLOW_UNALIGNED_ACCESS` after cgo/sha1.c:129-133. -/
def macroUnaligned (e : Macros) : Bool :=
  e.isDef "SHA1DC_ALLOW_UNALIGNED_ACCESS" ||
    (!e.isDef "SHA1DC_FORCE_ALIGNED_ACCESS" && (e.isDef "SHA1DC_FORCE_UNALIGNED_ACCESS" || onIntel e))

/-- The platform that the rest of cgo/sha1.c is compiled for (lines 31-133), on a machine of the given byte
order. -/
def platOf (machineBE : Bool) (e : Macros) : Plat := ⟨machineBE, macroBE e, macroUnaligned e⟩

end Verif.Model.C
