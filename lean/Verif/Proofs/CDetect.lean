import Verif.Proofs.CMacros
import Verif.Proofs.CParts
import Verif.Proofs.GoUbc
import Verif.Model.Cpp

/-!
The lines of sha1.c that find out the byte order and whether unaligned access is allowed (cgo/sha1.c:31-133), for any
macros at all.
-/

namespace Verif.Source.C.Detect

open Verif.Source Verif.Source.Go Verif.Source.C

/-- The lines (cgo/sha1.c:31-133). -/
def detectLines : List (List GTok) := evaluated! ((lines sha1CLines).drop 17).take 33

theorem detectLines_eq : ((lines sha1CLines).drop 17).take 33 = detectLines := by
  rw [lexed_sha1]
  by_kernel

variable (d : Defs)

def has (x : Nat) : Nat := ofBool (d.find x).isSome
def or2 (a b : Nat) : Nat := ofBool (!Nat.beq a 0 || !Nat.beq b 0)
def and2 (a b : Nat) : Nat := ofBool (!Nat.beq a 0 && !Nat.beq b 0)
def ors : List Nat → Nat
  | [] => 0
  | [x] => x
  | x :: xs => or2 x (ors xs)
def truth (a : Nat) : Bool := !Nat.beq a 0

theorem truth_ofBool (b : Bool) : truth (ofBool b) = b := by cases b <;> rfl
theorem truth_has (x : Nat) : truth (has d x) = (d.find x).isSome := truth_ofBool _
theorem truth_or (a b : Nat) : truth (or2 a b) = (truth a || truth b) := truth_ofBool _
theorem truth_and (a b : Nat) : truth (and2 a b) = (truth a && truth b) := truth_ofBool _
theorem truth_ors (ns : List Nat) : truth (ors (ns.map (has d))) = ns.any fun x => (d.find x).isSome := by
  induction ns with
  | nil => rfl
  | cons x ns ih =>
    cases ns with
    | nil => simp [ors, truth_has]
    | cons y ns =>
      rw [List.any_cons, ← ih, ← truth_has]
      exact truth_or _ _

/-- The names of cgo/sha1.c:31-35. -/
def intelCodes : List Nat :=
  [name! "__amd64__", name! "__amd64", name! "__x86_64__", name! "__x86_64", name! "i386", name! "__i386", name! "__i386__",
   name! "__i486__", name! "__i586__", name! "__i686__", name! "_M_IX86", name! "__X86__", name! "_X86_", name! "__THW_INTEL__",
   name! "__I86__", name! "__INTEL__", name! "__386", name! "_M_X64", name! "_M_AMD64"]
/-- The names of cgo/sha1.c:87-89. -/
def cpuCodes : List Nat :=
  [name! "__ARMEB__", name! "__THUMBEB__", name! "__AARCH64EB__", name! "__MIPSEB__", name! "__MIPSEB", name! "_MIPSEB",
   name! "__sparc"]
def beM : Macro := ⟨name! "SHA1DC_BIGENDIAN", none, []⟩
def intelM : Macro := ⟨name! "SHA1DC_ON_INTEL_LIKE_PROCESSOR", none, []⟩
def unalM : Macro := ⟨name! "SHA1DC_ALLOW_UNALIGNED_ACCESS", none, []⟩

def cIntel : Bool := truth (ors (intelCodes.map (has d)))
def c0 : Bool := truth (and2 (has d (name! "__BYTE_ORDER__")) (has d (name! "__ORDER_BIG_ENDIAN__")))
def e0 : Bool := truth (ofBool (Nat.beq (d.value (name! "__BYTE_ORDER__")) (d.value (name! "__ORDER_BIG_ENDIAN__"))))
def c1 : Bool := truth (and2 (has d (name! "__BYTE_ORDER")) (has d (name! "__BIG_ENDIAN")))
def e1 : Bool := truth (ofBool (Nat.beq (d.value (name! "__BYTE_ORDER")) (d.value (name! "__BIG_ENDIAN"))))
def c2 : Bool := truth (and2 (has d (name! "_BYTE_ORDER")) (and2 (has d (name! "_BIG_ENDIAN")) (has d (name! "_LITTLE_ENDIAN"))))
def e2 : Bool := truth (ofBool (Nat.beq (d.value (name! "_BYTE_ORDER")) (d.value (name! "_BIG_ENDIAN"))))
def c3 : Bool := truth (ors (cpuCodes.map (has d)))
def c4 : Bool := truth (or2 (has d (name! "_AIX")) (has d (name! "__hpux")))
def c5 : Bool := truth (has d (name! "SHA1DC_ON_INTEL_LIKE_PROCESSOR"))
def cLittle : Bool := truth (and2 (has d (name! "SHA1DC_FORCE_LITTLEENDIAN")) (has d (name! "SHA1DC_BIGENDIAN")))
def cBig : Bool :=
  truth (and2 (has d (name! "SHA1DC_FORCE_BIGENDIAN")) (ofBool (Nat.beq (has d (name! "SHA1DC_BIGENDIAN")) 0)))
def cAligned : Bool := (d.find (name! "SHA1DC_FORCE_ALIGNED_ACCESS")).isSome
def cUnal : Bool := truth (or2 (has d (name! "SHA1DC_FORCE_UNALIGNED_ACCESS")) (has d (name! "SHA1DC_ON_INTEL_LIKE_PROCESSOR")))

def found : Bool :=
  bif c0 d then e0 d else bif c1 d then e1 d else bif c2 d then e2 d else bif c3 d then true else bif c4 d then true else false

variable (files : List (List Nat × List (List GTok))) (n : Nat) (out : List GTok)

theorem preTo_nil (p : Pre) : preTo files n p [] out = some (n, p, out) := by cases n <;> rfl

theorem blockA : preTo files (n + 3) ⟨d, []⟩ (detectLines.take 3) out =
    some (n, ⟨bif cIntel d then d.add intelM else d, []⟩, out) := by
  show preTo files (n + 2) ⟨d, [bif cIntel d then .on else .off]⟩ ((detectLines.drop 1).take 2) out = _
  cases cIntel d <;> exact preTo_nil files n out _

theorem blockB : preTo files (n + 19) ⟨d, []⟩ ((detectLines.drop 3).take 19) out =
    some (n, ⟨bif found d then d.add beM else d, []⟩, out) := by
  unfold found
  show preTo files (n + 18) ⟨d, [bif c0 d then .on else .off]⟩ ((detectLines.drop 4).take 18) out = _
  cases c0 d with
  | true =>
    show preTo files (n + 17) ⟨d, [bif e0 d then .on else .off, .on]⟩ ((detectLines.drop 5).take 17) out = _
    cases e0 d <;> exact preTo_nil files n out _
  | false =>
  show preTo files (n + 14) ⟨d, [bif c1 d then .on else .off]⟩ ((detectLines.drop 8).take 14) out = _
  cases c1 d with
  | true =>
    show preTo files (n + 13) ⟨d, [bif e1 d then .on else .off, .on]⟩ ((detectLines.drop 9).take 13) out = _
    cases e1 d <;> exact preTo_nil files n out _
  | false =>
  show preTo files (n + 10) ⟨d, [bif c2 d then .on else .off]⟩ ((detectLines.drop 12).take 10) out = _
  cases c2 d with
  | true =>
    show preTo files (n + 9) ⟨d, [bif e2 d then .on else .off, .on]⟩ ((detectLines.drop 13).take 9) out = _
    cases e2 d <;> exact preTo_nil files n out _
  | false =>
  show preTo files (n + 6) ⟨d, [bif c3 d then .on else .off]⟩ ((detectLines.drop 16).take 6) out = _
  cases c3 d with
  | true => exact preTo_nil files n out _
  | false =>
  show preTo files (n + 4) ⟨d, [bif c4 d then .on else .off]⟩ ((detectLines.drop 18).take 4) out = _
  cases c4 d with
  | true => exact preTo_nil files n out _
  | false =>
  show preTo files (n + 2) ⟨d, [bif c5 d then .on else .off]⟩ ((detectLines.drop 20).take 2) out = _
  cases c5 d <;> exact preTo_nil files n out _

theorem blockC : preTo files (n + 3) ⟨d, []⟩ ((detectLines.drop 22).take 3) out =
    some (n, ⟨bif cLittle d then d.drop (name! "SHA1DC_BIGENDIAN") else d, []⟩, out) := by
  show preTo files (n + 2) ⟨d, [bif cLittle d then .on else .off]⟩ ((detectLines.drop 23).take 2) out = _
  cases cLittle d <;> exact preTo_nil files n out _

theorem blockD : preTo files (n + 3) ⟨d, []⟩ ((detectLines.drop 25).take 3) out =
    some (n, ⟨bif cBig d then d.add beM else d, []⟩, out) := by
  show preTo files (n + 2) ⟨d, [bif cBig d then .on else .off]⟩ ((detectLines.drop 26).take 2) out = _
  cases cBig d <;> exact preTo_nil files n out _

theorem blockE : preTo files (n + 5) ⟨d, []⟩ (detectLines.drop 28) out =
    some (n, ⟨bif cAligned d then d else bif cUnal d then d.add unalM else d, []⟩, out) := by
  show preTo files (n + 4) ⟨d, [bif !cAligned d then .on else .off]⟩ (detectLines.drop 29) out = _
  cases cAligned d with
  | true => exact preTo_nil files n out _
  | false =>
  show preTo files (n + 3) ⟨d, [bif cUnal d then .on else .off, .on]⟩ (detectLines.drop 30) out = _
  cases cUnal d <;> exact preTo_nil files n out _

/-- What is defined in between and in the end. -/
def d1 : Defs := bif cIntel d then d.add intelM else d
def d2 : Defs := bif found (d1 d) then (d1 d).add beM else d1 d
def d3 : Defs := bif cLittle (d2 d) then (d2 d).drop (name! "SHA1DC_BIGENDIAN") else d2 d
def d4 : Defs := bif cBig (d3 d) then (d3 d).add beM else d3 d
def d5 : Defs := bif cAligned (d4 d) then d4 d else bif cUnal (d4 d) then (d4 d).add unalM else d4 d

theorem detect_run (b : List (List GTok)) :
    preprocess files (n + 33) ⟨d, []⟩ (detectLines ++ b) out = preprocess files n ⟨d5 d, []⟩ b out := by
  have e : detectLines ++ b = detectLines.take 3 ++ ((detectLines.drop 3).take 19 ++ ((detectLines.drop 22).take 3 ++
      ((detectLines.drop 25).take 3 ++ (detectLines.drop 28 ++ b)))) := rfl
  rw [e, preprocess_append _ (blockA d files (n + 30) out), preprocess_append _ (blockB _ files (n + 11) out),
    preprocess_append _ (blockC _ files (n + 8) out), preprocess_append _ (blockD _ files (n + 5) out),
    preprocess_append _ (blockE _ files n out)]
  rfl

theorem find_add {d : Defs} (h : Covered d) (m : Macro) (x : Nat) :
    (d.add m).find x = bif Nat.beq m.name x then some m else d.find x := by
  rw [find_eq (covered_add h m), find_eq h]
  rfl

theorem covered_drop {d : Defs} (h : Covered d) (y : Nat) : Covered (d.drop y) := fun m hm => h m (mem_without hm)

theorem find_drop {d : Defs} (h : Covered d) (y x : Nat) : (d.drop y).find x = if x = y then none else d.find x := by
  rw [find_eq (covered_drop h y), find_eq h]
  exact find_without _

section
variable {d : Defs} (h : Covered d)
include h

theorem covered_bif (b : Bool) (m : Macro) : Covered (bif b then d.add m else d) := by
  cases b
  · exact h
  · exact covered_add h m

theorem find_bif (b : Bool) (m : Macro) {x : Nat} (hx : Nat.beq m.name x = false) : (bif b then d.add m else d).find x = d.find x := by
  cases b
  · rfl
  · exact (find_add h m x).trans (by rw [hx]; rfl)

theorem find_bif_self (b : Bool) (m : Macro) : ((bif b then d.add m else d).find m.name).isSome = (b || (d.find m.name).isSome) := by
  cases b
  · rfl
  · have : (d.add m).find m.name = some m := (find_add h m m.name).trans (by rw [Nat.beq_refl]; rfl)
    show ((d.add m).find m.name).isSome = true
    rw [this]; rfl

end

theorem found_congr {d d' : Defs} (h : ∀ x, Nat.beq (name! "SHA1DC_ON_INTEL_LIKE_PROCESSOR") x = false → d.find x = d'.find x) :
    found d = found d' := by
  have hh : ∀ x, Nat.beq (name! "SHA1DC_ON_INTEL_LIKE_PROCESSOR") x = false → has d x = has d' x := fun x hx => by
    unfold has; rw [h x hx]
  have hv : ∀ x, Nat.beq (name! "SHA1DC_ON_INTEL_LIKE_PROCESSOR") x = false → d.value x = d'.value x := fun x hx => by
    unfold Defs.value; rw [h x hx]
  have h3 : cpuCodes.map (has d) = cpuCodes.map (has d') := List.map_congr_left fun x hx => hh x (by revert x; decide)
  unfold found c0 c1 c2 c3 c4 e0 e1 e2
  rw [h3, hh (name! "__BYTE_ORDER__") rfl, hh (name! "__ORDER_BIG_ENDIAN__") rfl, hh (name! "__BYTE_ORDER") rfl,
    hh (name! "__BIG_ENDIAN") rfl, hh (name! "_BYTE_ORDER") rfl, hh (name! "_BIG_ENDIAN") rfl, hh (name! "_LITTLE_ENDIAN") rfl,
    hh (name! "_AIX") rfl, hh (name! "__hpux") rfl, hv (name! "__BYTE_ORDER__") rfl, hv (name! "__ORDER_BIG_ENDIAN__") rfl,
    hv (name! "__BYTE_ORDER") rfl, hv (name! "__BIG_ENDIAN") rfl, hv (name! "_BYTE_ORDER") rfl, hv (name! "_BIG_ENDIAN") rfl]

theorem find3 {d : Defs} (h : Covered d) {x : Nat} (hx : Nat.beq (name! "SHA1DC_BIGENDIAN") x = false) (b : Bool) :
    (bif b then d.drop (name! "SHA1DC_BIGENDIAN") else d).find x = d.find x := by
  cases b
  · rfl
  · refine (find_drop h _ x).trans (if_neg ?_)
    rintro rfl
    cases hx

section
variable {d : Defs} (h : Covered d)
include h

theorem cov1 : Covered (d1 d) := covered_bif h _ _
theorem cov2 : Covered (d2 d) := covered_bif (cov1 h) _ _
theorem cov3 : Covered (d3 d) := by
  unfold d3
  cases cLittle (d2 d)
  · exact cov2 h
  · exact covered_drop (cov2 h) _
theorem cov4 : Covered (d4 d) := covered_bif (cov3 h) _ _

/-- Other names stay as they are. -/
theorem find4 {x : Nat} (h1 : Nat.beq (name! "SHA1DC_BIGENDIAN") x = false)
    (h2 : Nat.beq (name! "SHA1DC_ON_INTEL_LIKE_PROCESSOR") x = false) : (d4 d).find x = d.find x :=
  (find_bif (cov3 h) _ beM h1).trans ((find3 (cov2 h) h1 _).trans ((find_bif (cov1 h) _ beM h1).trans (find_bif h _ intelM h2)))

theorem found1 : found (d1 d) = found d := found_congr fun _ hx => find_bif h _ intelM hx

theorem be2 : ((d2 d).find (name! "SHA1DC_BIGENDIAN")).isSome = (found d || (d.find (name! "SHA1DC_BIGENDIAN")).isSome) := by
  have := find_bif_self (cov1 h) (found (d1 d)) beM
  rw [found1 h] at this
  have e : (d1 d).find beM.name = d.find beM.name := find_bif h _ intelM rfl
  rw [e] at this
  unfold d2
  rw [found1 h]
  exact this

theorem be3 : ((d3 d).find (name! "SHA1DC_BIGENDIAN")).isSome =
    (!(d.find (name! "SHA1DC_FORCE_LITTLEENDIAN")).isSome && (found d || (d.find (name! "SHA1DC_BIGENDIAN")).isSome)) := by
  have e : (d2 d).find (name! "SHA1DC_FORCE_LITTLEENDIAN") = d.find (name! "SHA1DC_FORCE_LITTLEENDIAN") :=
    (find_bif (cov1 h) _ beM rfl).trans (find_bif h _ intelM rfl)
  have c : cLittle (d2 d) = ((d.find (name! "SHA1DC_FORCE_LITTLEENDIAN")).isSome &&
      (found d || (d.find (name! "SHA1DC_BIGENDIAN")).isSome)) := by
    unfold cLittle
    rw [truth_and, truth_has, truth_has, e, be2 h]
  unfold d3
  cases f : cLittle (d2 d) with
  | false =>
    rw [f] at c
    show ((d2 d).find _).isSome = _
    rw [be2 h]
    revert c
    cases (d.find (name! "SHA1DC_FORCE_LITTLEENDIAN")).isSome <;>
      cases (found d || (d.find (name! "SHA1DC_BIGENDIAN")).isSome) <;> simp
  | true =>
    rw [f] at c
    show (((d2 d).drop _).find _).isSome = _
    rw [find_drop (cov2 h), if_pos rfl]
    revert c
    cases (d.find (name! "SHA1DC_FORCE_LITTLEENDIAN")).isSome <;>
      cases (found d || (d.find (name! "SHA1DC_BIGENDIAN")).isSome) <;> simp

theorem be4 : ((d4 d).find (name! "SHA1DC_BIGENDIAN")).isSome = ((d.find (name! "SHA1DC_FORCE_BIGENDIAN")).isSome ||
    (!(d.find (name! "SHA1DC_FORCE_LITTLEENDIAN")).isSome && (found d || (d.find (name! "SHA1DC_BIGENDIAN")).isSome))) := by
  have e : (d3 d).find (name! "SHA1DC_FORCE_BIGENDIAN") = d.find (name! "SHA1DC_FORCE_BIGENDIAN") :=
    (find3 (cov2 h) rfl _).trans ((find_bif (cov1 h) _ beM rfl).trans (find_bif h _ intelM rfl))
  have c : cBig (d3 d) = ((d.find (name! "SHA1DC_FORCE_BIGENDIAN")).isSome && !((d3 d).find (name! "SHA1DC_BIGENDIAN")).isSome) := by
    unfold cBig
    rw [truth_and, truth_has, e, truth_ofBool]
    congr 1
    unfold has
    cases ((d3 d).find (name! "SHA1DC_BIGENDIAN")).isSome <;> rfl
  have := find_bif_self (cov3 h) (cBig (d3 d)) beM
  have e2 : beM.name = name! "SHA1DC_BIGENDIAN" := rfl
  rw [e2, c, be3 h] at this
  unfold d4
  rw [c, be3 h, this]
  cases (d.find (name! "SHA1DC_FORCE_BIGENDIAN")).isSome <;>
    cases (!(d.find (name! "SHA1DC_FORCE_LITTLEENDIAN")).isSome && (found d || (d.find (name! "SHA1DC_BIGENDIAN")).isSome)) <;> rfl

theorem be5 : ((d5 d).find (name! "SHA1DC_BIGENDIAN")).isSome = ((d4 d).find (name! "SHA1DC_BIGENDIAN")).isSome := by
  unfold d5
  cases cAligned (d4 d)
  · exact congrArg _ (find_bif (cov4 h) _ unalM rfl)
  · rfl

theorem intel4 : ((d4 d).find (name! "SHA1DC_ON_INTEL_LIKE_PROCESSOR")).isSome =
    ((d.find (name! "SHA1DC_ON_INTEL_LIKE_PROCESSOR")).isSome || intelCodes.any fun x => (d.find x).isSome) := by
  have e : (d4 d).find (name! "SHA1DC_ON_INTEL_LIKE_PROCESSOR") = (d1 d).find (name! "SHA1DC_ON_INTEL_LIKE_PROCESSOR") :=
    (find_bif (cov3 h) _ beM rfl).trans ((find3 (cov2 h) rfl _).trans (find_bif (cov1 h) _ beM rfl))
  rw [e]
  refine (find_bif_self h (cIntel d) intelM).trans ?_
  unfold cIntel
  rw [truth_ors, Bool.or_comm]
  rfl

theorem unal5 : ((d5 d).find (name! "SHA1DC_ALLOW_UNALIGNED_ACCESS")).isSome =
    ((d.find (name! "SHA1DC_ALLOW_UNALIGNED_ACCESS")).isSome || (!(d.find (name! "SHA1DC_FORCE_ALIGNED_ACCESS")).isSome &&
      ((d.find (name! "SHA1DC_FORCE_UNALIGNED_ACCESS")).isSome ||
        ((d.find (name! "SHA1DC_ON_INTEL_LIKE_PROCESSOR")).isSome || intelCodes.any fun x => (d.find x).isSome)))) := by
  have ha : cAligned (d4 d) = (d.find (name! "SHA1DC_FORCE_ALIGNED_ACCESS")).isSome :=
    congrArg Option.isSome (find4 (x := name! "SHA1DC_FORCE_ALIGNED_ACCESS") h rfl rfl)
  have hu : cUnal (d4 d) = ((d.find (name! "SHA1DC_FORCE_UNALIGNED_ACCESS")).isSome ||
        ((d.find (name! "SHA1DC_ON_INTEL_LIKE_PROCESSOR")).isSome || intelCodes.any fun x => (d.find x).isSome)) := by
    unfold cUnal
    rw [truth_or, truth_has, truth_has, find4 h rfl rfl, intel4 h]
  have hs := find_bif_self (cov4 h) (cUnal (d4 d)) unalM
  have e4 : (d4 d).find unalM.name = d.find unalM.name := find4 h rfl rfl
  rw [e4] at hs
  unfold d5
  rw [ha, ← hu]
  cases (d.find (name! "SHA1DC_FORCE_ALIGNED_ACCESS")).isSome with
  | true =>
    rw [Bool.not_true, Bool.false_and, Bool.or_false]
    exact congrArg _ e4
  | false =>
    rw [Bool.not_false, Bool.true_and, Bool.or_comm]
    exact hs

end

/-- A name as the reader of the text has it. -/
def code (s : String) : Nat := nameOf (s.toList.map Char.toNat)

/-- The macros as the model of these lines has them (cgo/sha1.c:31-133): a macro that does not stand for a number counts as 0. -/
def macrosOf (d : Defs) : Model.C.Macros := fun s => (d.find (code s)).map fun _ => (d.value (code s) : Int)

open Verif.Model.C in
theorem isDef_eq (s : String) : (macrosOf d).isDef s = (d.find (code s)).isSome := by
  simp [Macros.isDef, macrosOf]

open Verif.Model.C in
theorem val_eq (s : String) : (macrosOf d).val s = (d.value (code s) : Int) := by
  unfold Macros.val macrosOf Defs.value
  cases d.find (code s) <;> rfl

open Verif.Model.C in
theorem any_eq : ∀ (ss : List String) (ns : List Nat), ss.map code = ns →
    ss.any (macrosOf d).isDef = ns.any fun x => (d.find x).isSome := by
  rintro ss _ rfl
  rw [List.any_map]
  congr 1
  funext s
  exact isDef_eq d s

theorem beq_cast (a b : Nat) : ((a : Int) == (b : Int)) = Nat.beq a b := by
  rw [Bool.eq_iff_iff, beq_iff_eq, Int.ofNat_inj, Nat.beq_eq]

open Verif.Model.C in
theorem detectBE_eq : detectBE (macrosOf d) = (found d || (d.find (name! "SHA1DC_BIGENDIAN")).isSome) := by
  have i : ∀ (s : String) (k : Nat), code s = k → (macrosOf d).isDef s = (d.find k).isSome := fun s k e => e ▸ isDef_eq d s
  have v : ∀ (s : String) (k : Nat), code s = k → (macrosOf d).val s = (d.value k : Int) := fun s k e => e ▸ val_eq d s
  have a : bigEndianCpus.any (macrosOf d).isDef = cpuCodes.any fun x => (d.find x).isSome := any_eq d _ _ (by decide)
  unfold detectBE found c0 c1 c2 c3 c4 e0 e1 e2
  rw [a, i "SHA1DC_BIGENDIAN" (name! "SHA1DC_BIGENDIAN") rfl, i "__BYTE_ORDER__" (name! "__BYTE_ORDER__") rfl,
    i "__ORDER_BIG_ENDIAN__" (name! "__ORDER_BIG_ENDIAN__") rfl, i "__BYTE_ORDER" (name! "__BYTE_ORDER") rfl,
    i "__BIG_ENDIAN" (name! "__BIG_ENDIAN") rfl, i "_BYTE_ORDER" (name! "_BYTE_ORDER") rfl,
    i "_BIG_ENDIAN" (name! "_BIG_ENDIAN") rfl, i "_LITTLE_ENDIAN" (name! "_LITTLE_ENDIAN") rfl, i "_AIX" (name! "_AIX") rfl,
    i "__hpux" (name! "__hpux") rfl, v "__BYTE_ORDER__" (name! "__BYTE_ORDER__") rfl,
    v "__ORDER_BIG_ENDIAN__" (name! "__ORDER_BIG_ENDIAN__") rfl, v "__BYTE_ORDER" (name! "__BYTE_ORDER") rfl,
    v "__BIG_ENDIAN" (name! "__BIG_ENDIAN") rfl, v "_BYTE_ORDER" (name! "_BYTE_ORDER") rfl,
    v "_BIG_ENDIAN" (name! "_BIG_ENDIAN") rfl, beq_cast, beq_cast, beq_cast, truth_and, truth_and, truth_and, truth_and, truth_or, truth_ors]
  simp only [truth_has, truth_ofBool, ite_self, Bool.and_assoc]
  rw [Bool.or_comm]
  congr 1
  simp only [cond_eq_ite]

open Verif.Model.C in
theorem macroBE_eq {d : Defs} (h : Covered d) : ((d5 d).find (name! "SHA1DC_BIGENDIAN")).isSome = macroBE (macrosOf d) := by
  have i : ∀ (s : String) (k : Nat), code s = k → (macrosOf d).isDef s = (d.find k).isSome := fun s k e => e ▸ isDef_eq d s
  rw [be5 h, be4 h]
  unfold macroBE
  rw [detectBE_eq, i "SHA1DC_FORCE_LITTLEENDIAN" (name! "SHA1DC_FORCE_LITTLEENDIAN") rfl,
    i "SHA1DC_FORCE_BIGENDIAN" (name! "SHA1DC_FORCE_BIGENDIAN") rfl]
  cases (d.find (name! "SHA1DC_FORCE_BIGENDIAN")).isSome <;> cases (d.find (name! "SHA1DC_FORCE_LITTLEENDIAN")).isSome <;>
    cases (found d || (d.find (name! "SHA1DC_BIGENDIAN")).isSome) <;> rfl

open Verif.Model.C in
theorem macroUnaligned_eq {d : Defs} (h : Covered d) :
    ((d5 d).find (name! "SHA1DC_ALLOW_UNALIGNED_ACCESS")).isSome = macroUnaligned (macrosOf d) := by
  have i : ∀ (s : String) (k : Nat), code s = k → (macrosOf d).isDef s = (d.find k).isSome := fun s k e => e ▸ isDef_eq d s
  have a : intelNames.any (macrosOf d).isDef = intelCodes.any fun x => (d.find x).isSome := any_eq d _ _ (by decide)
  rw [unal5 h]
  unfold macroUnaligned onIntel
  rw [a, i "SHA1DC_ALLOW_UNALIGNED_ACCESS" (name! "SHA1DC_ALLOW_UNALIGNED_ACCESS") rfl,
    i "SHA1DC_FORCE_ALIGNED_ACCESS" (name! "SHA1DC_FORCE_ALIGNED_ACCESS") rfl,
    i "SHA1DC_FORCE_UNALIGNED_ACCESS" (name! "SHA1DC_FORCE_UNALIGNED_ACCESS") rfl,
    i "SHA1DC_ON_INTEL_LIKE_PROCESSOR" (name! "SHA1DC_ON_INTEL_LIKE_PROCESSOR") rfl]

end Verif.Source.C.Detect
