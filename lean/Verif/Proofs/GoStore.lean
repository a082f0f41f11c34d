import Verif.Proofs.GoEval

/-!
Writing to places of frames other than the one of the running function.
-/

namespace Verif.Source.Go

open Verif Verif.Source

/-- What is at a place. -/
def look (fr : Nat → List Val) (l : Loc) : Except Stop Val := match (fr l.frame)[l.slot]? with
  | some v => v.get l.path
  | none => .error .stuck

/-- A value with the part at the end of a path replaced, if there is such a part. -/
def Val.put (v : Val) (p : List Nat) (w : Val) : Val := match v.set p w with
  | .ok u => u
  | .error _ => v

/-- The frames with what is at a place replaced. -/
def putAt (fr : Nat → List Val) (l : Loc) (w : Val) : Nat → List Val := fun g =>
  if g = l.frame then (fr g).modify l.slot fun v => v.put l.path w else fr g

/-- A value that is stored as it is. -/
def Fixed (v : Val) : Prop := ∀ u, like u v = v

theorem fixed_struct (f : Nat → Val) : Fixed (.struct f) := fun u => by cases u <;> rfl
theorem fixed_arr (n : Nat) (f : Nat → Val) : Fixed (.arr n f) := fun u => by cases u <;> rfl
theorem fixed_u32 (x : Word) : Fixed (.u32 x) := fun u => by cases u <;> rfl
theorem fixed_u8 (x : Byte) : Fixed (.u8 x) := fun u => by cases u <;> rfl
theorem fixed_u64 (x : Word64) : Fixed (.u64 x) := fun u => by cases u <;> rfl
theorem fixed_int (x : Int) : Fixed (.int x) := fun u => by cases u <;> rfl
theorem fixed_bool (x : Bool) : Fixed (.bool x) := fun u => by cases u <;> rfl
theorem fixed_slice (l : Loc) (o n c : Nat) : Fixed (.slice l o n c) := fun u => by cases u <;> rfl

theorem like_self (v : Val) : like v v = v := by cases v <;> rfl

/-- What is there can be replaced. -/
theorem set_of_get {v w u : Val} {p : List Nat} (h : v.get p = .ok w) : ∃ v', v.set p u = .ok v' := by
  induction p generalizing v with
  | nil => exact ⟨like v u, by simp only [Val.set]⟩
  | cons i p ih =>
    cases v with
    | arr n f =>
      simp only [Val.get] at h
      split at h
      · rename_i hi
        obtain ⟨v', h'⟩ := ih h
        simp only [Val.set, if_pos hi, h']
        exact ⟨_, rfl⟩
      · cases h
    | struct f =>
      simp only [Val.get] at h
      obtain ⟨v', h'⟩ := ih h
      simp only [Val.set, h']
      exact ⟨_, rfl⟩
    | _ => simp only [Val.get] at h; cases h

/-- What was put is there. -/
theorem get_set {v v' u : Val} {p : List Nat} (hu : Fixed u) (h : v.set p u = .ok v') : v'.get p = .ok u := by
  induction p generalizing v v' with
  | nil => simp only [Val.set, Except.ok.injEq] at h; subst h; simp only [Val.get, hu v]
  | cons i p ih =>
    cases v with
    | arr n f =>
      simp only [Val.set] at h
      split at h
      · rename_i hi
        split at h
        · rename_i w hw
          cases h
          simp only [Val.get, if_pos hi, if_true]
          exact ih hw
        · cases h
      · cases h
    | struct f =>
      simp only [Val.set] at h
      split at h
      · rename_i w hw
        cases h
        simp only [Val.get, if_true]
        exact ih hw
      · cases h
    | _ => simp only [Val.set] at h; cases h

/-- Replacing a part of a part. -/
theorem set_append {v w w' x : Val} {p q : List Nat} (hw : v.get p = .ok w) (hx : w.set q x = .ok w') (hf : Fixed w') :
    v.set (p ++ q) x = v.set p w' := by
  induction p generalizing v with
  | nil =>
    simp only [Val.get, Except.ok.injEq] at hw
    subst hw
    simp only [List.nil_append, hx, Val.set, hf v]
  | cons i p ih =>
    cases v with
    | arr n f =>
      simp only [Val.get] at hw
      split at hw
      · rename_i hi
        simp only [List.cons_append, Val.set, if_pos hi, ih hw]
      · cases hw
    | struct f =>
      simp only [Val.get] at hw
      simp only [List.cons_append, Val.set, ih hw]
    | _ => simp only [Val.get] at hw; cases hw

/-- Replacing twice. -/
theorem set_set {v v' u u' : Val} {p : List Nat} (hu : Fixed u') (h : v.set p u = .ok v') :
    v'.set p u' = v.set p u' := by
  induction p generalizing v v' with
  | nil => simp only [Val.set, hu v', hu v]
  | cons i p ih =>
    cases v with
    | arr n f =>
      simp only [Val.set] at h ⊢
      split at h
      · rename_i hi
        split at h
        · rename_i w hw
          cases h
          simp only [Val.set, if_pos hi, if_true, ih hw]
          split <;> simp only [Except.ok.injEq, Val.arr.injEq, true_and]
          funext j
          by_cases hj : j = i <;> simp [hj]
        · cases h
      · cases h
    | struct f =>
      simp only [Val.set] at h ⊢
      split at h
      · rename_i w hw
        cases h
        simp only [Val.set, if_true, ih hw]
        split <;> simp only [Except.ok.injEq, Val.struct.injEq]
        funext j
        by_cases hj : j = i <;> simp [hj]
      · cases h
    | _ => simp only [Val.set] at h; cases h

/-- Putting what is there. -/
theorem set_get {v w : Val} {p : List Nat} (h : v.get p = .ok w) : v.set p w = .ok v := by
  induction p generalizing v with
  | nil => simp only [Val.get, Except.ok.injEq] at h; subst h; simp only [Val.set, like_self]
  | cons i p ih =>
    cases v with
    | arr n f =>
      simp only [Val.get] at h
      split at h
      · rename_i hi
        simp only [Val.set, if_pos hi, ih h, Except.ok.injEq, Val.arr.injEq, true_and]
        funext j
        by_cases hj : j = i <;> simp [hj]
      · cases h
    | struct f =>
      simp only [Val.get] at h
      simp only [Val.set, ih h, Except.ok.injEq, Val.struct.injEq]
      funext j
      by_cases hj : j = i <;> simp [hj]
    | _ => simp only [Val.get] at h; cases h

/-- Neither path leads through the other. -/
inductive Diverge : List Nat → List Nat → Prop where
  | here {i j : Nat} {p q : List Nat} : i ≠ j → Diverge (i :: p) (j :: q)
  | there {i : Nat} {p q : List Nat} : Diverge p q → Diverge (i :: p) (i :: q)

/-- What is elsewhere stays. -/
theorem get_set_other {v v' u : Val} {p q : List Nat} (hd : Diverge p q) (h : v.set p u = .ok v') : v'.get q = v.get q := by
  induction hd generalizing v v' with
  | here hne =>
    rename_i i j p q
    cases v with
    | arr n f =>
      simp only [Val.set] at h
      split at h
      · split at h
        · cases h
          simp only [Val.get, if_neg (Ne.symm hne)]
        · cases h
      · cases h
    | struct f =>
      simp only [Val.set] at h
      split at h
      · cases h
        simp only [Val.get, if_neg (Ne.symm hne)]
      · cases h
    | _ => simp only [Val.set] at h; cases h
  | there _ ih =>
    cases v with
    | arr n f =>
      simp only [Val.set] at h
      split at h
      · rename_i hi
        split at h
        · rename_i w hw
          cases h
          simp only [Val.get, if_true, ih hw]
        · cases h
      · cases h
    | struct f =>
      simp only [Val.set] at h
      split at h
      · rename_i w hw
        cases h
        simp only [Val.get, if_true, ih hw]
      · cases h
    | _ => simp only [Val.set] at h; cases h

theorem modify_get (vs : List Val) (k j : Nat) (f : Val → Val) :
    (vs.modify k f)[j]? = if k = j then vs[j]?.map f else vs[j]? := by
  rw [List.getElem?_modify]
  by_cases h : k = j
  · simp [h]
  · simp [h]

/-- Places that do not overlap. -/
def Apart (l l' : Loc) : Prop := l.frame ≠ l'.frame ∨ l.slot ≠ l'.slot ∨ Diverge l.path l'.path

section
variable {fr : Nat → List Val} {l l' : Loc} {v w : Val}

theorem look_inv (h : look fr l = .ok v) : ∃ u, (fr l.frame)[l.slot]? = some u ∧ u.get l.path = .ok v := by
  unfold look at h
  split at h
  · rename_i u hu
    exact ⟨u, hu, h⟩
  · cases h

theorem look_sub {k : Nat} (h : look fr l = .ok v) : look fr (l.sub k) = v.get [k] := by
  obtain ⟨u, h1, h2⟩ := look_inv h
  simp only [look, Loc.sub, h1]
  exact get_append _ _ _ _ h2

theorem look_putAt (hw : Fixed w) (h : look fr l = .ok v) : look (putAt fr l w) l = .ok w := by
  obtain ⟨u, h1, h2⟩ := look_inv h
  obtain ⟨u', h3⟩ := set_of_get (u := w) h2
  simp only [look, putAt, if_true, modify_get, h1, Option.map_some, Val.put, h3]
  exact get_set hw h3

theorem look_other (ha : Apart l l') : look (putAt fr l w) l' = look fr l' := by
  simp only [look, putAt]
  by_cases hf : l'.frame = l.frame
  · rw [if_pos hf, modify_get]
    by_cases hs : l.slot = l'.slot
    · rw [if_pos hs]
      cases (fr l'.frame)[l'.slot]? with
      | none => rfl
      | some v =>
        simp only [Option.map_some, Val.put]
        have hd : Diverge l.path l'.path := by
          rcases ha with h | h | h
          · exact absurd hf.symm h
          · exact absurd hs h
          · exact h
        split
        · rename_i hv
          exact get_set_other hd hv
        · rfl
    · rw [if_neg hs]
  · rw [if_neg hf]

theorem putAt_self (h : look fr l = .ok v) : putAt fr l v = fr := by
  obtain ⟨u, h1, h2⟩ := look_inv h
  funext g
  unfold putAt
  split
  · rename_i hg
    subst hg
    apply List.ext_getElem?
    intro k
    rw [modify_get]
    split
    · rename_i hk
      subst hk
      simp only [h1, Option.map_some, Val.put, set_get h2]
    · cases (fr l.frame)[k]? <;> rfl
  · rfl

theorem putAt_putAt {w' : Val} (hw : Fixed w') (h : look fr l = .ok v) : putAt (putAt fr l w) l w' = putAt fr l w' := by
  obtain ⟨u, h1, h2⟩ := look_inv h
  obtain ⟨u', h3⟩ := set_of_get (u := w) h2
  funext g
  unfold putAt
  split
  · rename_i hg
    subst hg
    apply List.ext_getElem?
    intro k
    rw [modify_get, modify_get, modify_get]
    split
    · rename_i hk
      subst hk
      simp only [h1, Option.map_some, Val.put, h3, set_set hw h3]
      obtain ⟨u'', h4⟩ := set_of_get (u := w') h2
      simp only [h4]
    · cases (fr l.frame)[k]? <;> rfl
  · rfl

theorem putAt_of_ne {g : Nat} (h : g ≠ l.frame) : putAt fr l w g = fr g := by simp [putAt, h]

end

section
variable {i : Nat} {old : Nat → List Val} {next : Nat} {l : Loc} {v : Val} {C : List Val}

theorem load_look (hi : l.frame ≠ i) (h : look old l = .ok v) (C : List Val) :
    load l ⟨i, C, old, next⟩ = .ok (v, ⟨i, C, old, next⟩) := by
  obtain ⟨u, h1, h2⟩ := look_inv h
  exact load_some (by simpa [Mem.frame, hi] using h1) h2

theorem at_look (hi : l.frame ≠ i) (hn : l.frame < next) (h : look old l = .ok v) : At i old next l v :=
  ⟨hn, load_look hi h⟩

/-- Storing a part of what is at a place of another frame. -/
theorem store_part {q : List Nat} {x v' : Val} (hi : l.frame ≠ i) (h : look old l = .ok v) (hx : v.set q x = .ok v')
    (hf : Fixed v') :
    store { l with path := l.path ++ q } x ⟨i, C, old, next⟩ = .ok ((), ⟨i, C, putAt old l v', next⟩) := by
  obtain ⟨u, h1, h2⟩ := look_inv h
  obtain ⟨u', h3⟩ := set_of_get (u := v') h2
  have hs : u.set (l.path ++ q) x = .ok u' := (set_append h2 hx hf).trans h3
  have hfr : Mem.frame ⟨i, C, old, next⟩ l.frame = old l.frame := by simp [Mem.frame, hi]
  simp only [store, hfr, h1, hs, Mem.setFrame, if_neg hi, Except.ok.injEq, Prod.mk.injEq, true_and, Mem.mk.injEq, and_true]
  funext g
  unfold putAt
  by_cases hg : g = l.frame
  · subst hg
    rw [if_pos rfl, if_pos rfl]
    apply List.ext_getElem?
    intro k
    rw [modify_get, List.getElem?_set]
    by_cases hk : l.slot = k
    · subst hk
      have : l.slot < (old l.frame).length := (List.getElem?_eq_some_iff.1 h1).1
      rw [if_pos rfl, if_pos this, if_pos rfl, h1]
      simp only [Option.map_some, Val.put, h3]
    · rw [if_neg hk, if_neg hk]
  · rw [if_neg hg, if_neg hg]

end

/-- The memory `m'` is `m` after its frames have become `fr`; there may be new frames. -/
structure Became (m : Mem) (fr : Nat → List Val) (m' : Mem) : Prop where
  id : m'.id = m.id
  next : m.next ≤ m'.next
  frame : ∀ g, g < m.next → m'.frame g = fr g

end Verif.Source.Go
