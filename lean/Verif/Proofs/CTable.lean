import Verif.Proofs.CParts
import Verif.Proofs.GoUbc
import Verif.Model.CDvTable

/-!
The variables of the C files, `sha1_dvs` and `sha1_padding`, as they are read from the text: `sha1_dvs` is
`Model.C.sha1_dvs`.
-/

namespace Verif.Source.C

open Verif Verif.Source Verif.Source.Go Verif.Model

/-- A world without anything. -/
def noWorld : World := ⟨fun _ _ => none, fun _ _ _ => stop .stuck, fun _ => 0⟩

/-- The memory before the variables get their values. -/
def noMem : Mem := { id := 0, cur := [], old := fun _ => [], next := 1 }

/-- The initial value of variable `n` of the files (cgo/ubc_check.c:70-72, cgo/sha1.c:2094-2099). -/
def initOf (n : Nat) : Val :=
  match env5.globals.find? fun x => x.2.1 == n with
  | some x => match ev noWorld x.2.2.1 noMem with
    | .ok (v, _) => v
    | .error _ => .null
  | none => .null

/-- `sha1_dvs` (cgo/ubc_check.c:70-72). -/
def dvsV : Val := initOf (name! "sha1_dvs")

/-- `sha1_padding` (cgo/sha1.c:2094-2099). -/
def padV : Val := initOf (name! "sha1_padding")

/-- The memory when the program starts (cgo/ubc_check.c:70-72, cgo/sha1.c:2094-2099). -/
theorem start_eq (g : Prog) (X : World) (h : g.env = env5) : g.start X = .ok ⟨0, [dvsV, padV], fun _ => [], 1⟩ := by
  cases g with
  | mk e fs =>
    simp only at h
    subst h
    by_kernel

/-- Field `f` of entry `i` of `sha1_dvs` is the word `x`. -/
def entryIs (i f : Nat) (x : Word) : Bool := match dvsV.get [i, f] with
  | .ok (.u32 y) => x == y
  | _ => false

/-- Word `j` of `dm` of entry `i` of `sha1_dvs` is `x`. -/
def maskIs (i j : Nat) (x : Word) : Bool := match dvsV.get [i, name! "dm", j] with
  | .ok (.u32 y) => x == y
  | _ => false

/-- Entry `i` is a struct, with an array of 80 elements as `dm`. -/
def shaped (i : Nat) : Bool := match dvsV.get [i] with
  | .ok (.struct g) => match g (name! "dm") with
    | .arr 80 _ => true
    | _ => false
  | _ => false

/-- The entries from `i` on are the given ones. -/
def rowsAre : Nat → List Model.C.DvInfoT → Bool
  | _, [] => true
  | i, d :: ds => entryIs i (name! "dvType") (BitVec.ofNat 32 d.dvType) && entryIs i (name! "dvK") (BitVec.ofNat 32 d.dvK) &&
      entryIs i (name! "dvB") (BitVec.ofNat 32 d.dvB) && entryIs i (name! "testt") (BitVec.ofNat 32 d.testt) &&
      entryIs i (name! "maski") (BitVec.ofNat 32 d.maski) && entryIs i (name! "maskb") (BitVec.ofNat 32 d.maskb) &&
      (List.finRange 80).all (fun j => maskIs i j.val (d.dm j)) && shaped i && rowsAre (i + 1) ds

theorem rows_are : rowsAre 0 Model.C.sha1_dvs = true := by decide +kernel

attribute [irreducible] dvsV padV

/-- Entry `i` of `sha1_dvs` is `d` (cgo/ubc_check.h:40-48). -/
structure Entry (i : Nat) (d : Model.C.DvInfoT) : Prop where
  dvType : dvsV.get [i, name! "dvType"] = .ok (.u32 (BitVec.ofNat 32 d.dvType))
  dvK : dvsV.get [i, name! "dvK"] = .ok (.u32 (BitVec.ofNat 32 d.dvK))
  dvB : dvsV.get [i, name! "dvB"] = .ok (.u32 (BitVec.ofNat 32 d.dvB))
  testt : dvsV.get [i, name! "testt"] = .ok (.u32 (BitVec.ofNat 32 d.testt))
  maski : dvsV.get [i, name! "maski"] = .ok (.u32 (BitVec.ofNat 32 d.maski))
  maskb : dvsV.get [i, name! "maskb"] = .ok (.u32 (BitVec.ofNat 32 d.maskb))
  dm : ∀ j : Fin 80, dvsV.get [i, name! "dm", j.val] = .ok (.u32 (d.dm j))
  shape : ∃ g h, dvsV.get [i] = .ok (.struct g) ∧ g (name! "dm") = .arr 80 h

theorem entryIs_of {i f : Nat} {x : Word} (h : entryIs i f x = true) : dvsV.get [i, f] = .ok (.u32 x) := by
  unfold entryIs at h
  split at h
  · rename_i y hy
    rw [hy, beq_iff_eq.1 h]
  · cases h

theorem maskIs_of {i j : Nat} {x : Word} (h : maskIs i j x = true) : dvsV.get [i, name! "dm", j] = .ok (.u32 x) := by
  unfold maskIs at h
  split at h
  · rename_i y hy
    rw [hy, beq_iff_eq.1 h]
  · cases h

theorem shaped_of {i : Nat} (hs : shaped i = true) :
    ∃ g h, dvsV.get [i] = .ok (.struct g) ∧ g (name! "dm") = .arr 80 h := by
  unfold shaped at hs
  split at hs
  · rename_i g hg
    split at hs
    · rename_i h hh
      exact ⟨g, h, hg, hh⟩
    · cases hs
  · cases hs

theorem entry_of : ∀ {ds : List Model.C.DvInfoT} {i : Nat}, rowsAre i ds = true → ∀ k d, ds[k]? = some d → Entry (i + k) d
  | [], _, _, k, d, hk => by simp at hk
  | d :: ds, i, h, k, d', hk => by
    simp only [rowsAre, Bool.and_eq_true, List.all_eq_true] at h
    cases k with
    | zero =>
      have hd : d = d' := by simpa using hk
      subst hd
      rw [Nat.add_zero]
      obtain ⟨⟨⟨⟨⟨⟨⟨⟨h1, h2⟩, h3⟩, h4⟩, h5⟩, h6⟩, h7⟩, h8⟩, _⟩ := h
      exact ⟨entryIs_of h1, entryIs_of h2, entryIs_of h3, entryIs_of h4, entryIs_of h5, entryIs_of h6,
        fun j => maskIs_of (h7 j (List.mem_finRange j)), shaped_of h8⟩
    | succ k =>
      have := entry_of h.2 k d' hk
      rwa [show i + 1 + k = i + (k + 1) by omega] at this

/-- The entries of `sha1_dvs` as they are read from the text are those of the model (cgo/ubc_check.c:70-72). -/
theorem dvs_entry {k : Nat} {d : Model.C.DvInfoT} (h : Model.C.sha1_dvs[k]? = some d) : Entry k d := by
  have := entry_of rows_are k d h
  rwa [Nat.zero_add] at this

/-- The elements of an array. -/
def elems : Val → Nat → Val
  | .arr _ f => f
  | _ => fun _ => .null

theorem dvsV_eq : dvsV = .arr 33 (elems dvsV) := by by_kernel

/-- `sha1_padding` is 0x80 and 63 zeros (cgo/sha1.c:2094-2099). -/
theorem padV_eq : padV = .arr 64 (elems padV) ∧ ∀ j, elems padV j = if j = 0 then .u8 0x80 else .u8 0 := by
  refine ⟨by by_kernel, fun j => ?_⟩
  by_cases h : j < 64
  · have : ∀ j : Fin 64, (match elems padV j with | .u8 x => x == if j.val = 0 then 0x80 else 0 | _ => false) = true := by
      decide +kernel
    have := this ⟨j, h⟩
    simp only at this
    split at this
    · rename_i x hx
      rw [hx, beq_iff_eq.1 this]
      split <;> rfl
    · cases this
  · obtain ⟨k, rfl⟩ : ∃ k, j = k + 64 := ⟨j - 64, by omega⟩
    rw [if_neg (by omega)]
    by_kernel

end Verif.Source.C
