import Verif.Proofs.GoEval
import Verif.Source.CProgram

/-!
What it means that a run of the text does not stop (C66, C67): the runs have the checks that Go makes at run time, so that a
run that ends with a value made no access outside an array, a slice or a capacity and used no nil pointer; and a block of
the C files is read only from 64 bytes that are there.
-/

namespace Verif.Props

open Verif Verif.Source Verif.Source.Go

/-- C66: `a[i]` is the element for the indices the array has and a panic for all others. -/
theorem C66_index (X : World) (m : Mem) (n : Nat) (f : Nat → Val) (i : Int) (h : m.cur = [.arr n f, .int i]) :
    (0 ≤ i → i < n → evs X (.index (.loc 0) (.loc 1)) m = .ok ([f i.toNat], m)) ∧
      (i < 0 ∨ n ≤ i → evs X (.index (.loc 0) (.loc 1)) m = .error .index) := by
  have h0 : evs X (.loc 0) m = .ok ([.arr n f], m) := by simp [evs, h]
  have h1 : evs X (.loc 1) m = .ok ([.int i], m) := by simp [evs, h]
  have e : evs X (.index (.loc 0) (.loc 1)) m = (do
      let v ← elemOf (.arr n f) (.int i)
      pure [v] : M (List Val)) m := by
    rw [evs, bind_of h0, bind_of (m' := m) (a := .arr n f) rfl, bind_of h1, bind_of (m' := m) (a := .int i) rfl]
  refine ⟨fun a b => ?_, fun a => ?_⟩ <;> rw [e]
  · have : indexIn i n = .ok i.toNat := if_pos ⟨a, b⟩
    have h3 : elemOf (.arr n f) (.int i) m = .ok (f i.toNat, m) := by
      simp only [elemOf, number, need, lift, this, bind, pure]
    exact (bind_of h3 _).trans rfl
  · have : indexIn i n = .error .index := if_neg (by omega)
    simp only [elemOf, number, need, lift, this, bind]

example (X : World) : evs X (.index (.loc 0) (.loc 1)) ⟨1, [.arr 3 fun k => .u8 (BitVec.ofNat 8 k), .int 3], fun _ => [], 2⟩ =
    .error .index :=
  (C66_index X _ 3 _ 3 rfl).2 (.inr (by omega))

theorem bind_stop {α β : Type} {x : M α} {e : Stop} {m : Mem} (h : x m = .error e) (f : α → M β) : (x >>= f) m = .error e := by
  show (match x m with
    | .ok (a, m') => f a m'
    | .error e => .error e) = _
  rw [h]

theorem place_loc (X : World) {m : Mem} {v : Val} {vs : List Val} (h : m.cur = v :: vs) :
    place X (.loc 0) m = .ok (⟨m.id, 0, []⟩, m) ∧ load ⟨m.id, 0, []⟩ m = .ok (v, m) := by
  refine ⟨rfl, ?_⟩
  refine load_some (v := v) ?_ (by cases v <;> rfl)
  simp [Mem.frame, h]

/-- C66: `s[i]` is an element for the indices below the length of the slice and a panic for all others, also for those that
the capacity would allow. -/
theorem C66_index_slice (X : World) (m : Mem) (l : Loc) (off len cap : Nat) (i : Int)
    (h : m.cur = [.slice l off len cap, .int i]) :
    (∀ v, 0 ≤ i → i < len → load (l.sub (off + i.toNat)) m = .ok (v, m) →
      evs X (.index (.loc 0) (.loc 1)) m = .ok ([v], m)) ∧
      (i < 0 ∨ len ≤ i → evs X (.index (.loc 0) (.loc 1)) m = .error .index) := by
  have h0 : evs X (.loc 0) m = .ok ([.slice l off len cap], m) := by simp [evs, h]
  have h1 : evs X (.loc 1) m = .ok ([.int i], m) := by simp [evs, h]
  have e : evs X (.index (.loc 0) (.loc 1)) m = (do
      let v ← elemOf (.slice l off len cap) (.int i)
      pure [v] : M (List Val)) m := by
    rw [evs, bind_of h0, bind_of (m' := m) (a := .slice l off len cap) rfl, bind_of h1, bind_of (m' := m) (a := .int i) rfl]
  refine ⟨fun v a b hv => ?_, fun a => ?_⟩ <;> rw [e]
  · have : indexIn i len = .ok i.toNat := if_pos ⟨a, b⟩
    have h3 : elemOf (.slice l off len cap) (.int i) m = .ok (v, m) := by
      simp only [elemOf, number, need, lift, this, bind]
      exact hv
    exact (bind_of h3 _).trans rfl
  · have : indexIn i len = .error .index := if_neg (by omega)
    simp only [elemOf, number, need, lift, this, bind]

/-- C66: `a[i] = v` changes the element for the indices the array has and is a panic for all others. -/
theorem C66_store (X : World) (N : Nat) (m : Mem) (n : Nat) (f : Nat → Val) (i : Int) (x y : Byte)
    (h : m.cur = [.arr n f, .int i, .u8 y]) (hf : 0 ≤ i → i < n → f i.toNat = .u8 x) :
    (0 ≤ i → i < n → exec X N (.assign (.cons (.index (.loc 0) (.loc 1)) .nil) (.cons (.loc 2) .nil)) m =
        .ok (.normal, { m with cur := [.arr n fun j => if j = i.toNat then .u8 y else f j, .int i, .u8 y] })) ∧
      (i < 0 ∨ n ≤ i → exec X N (.assign (.cons (.index (.loc 0) (.loc 1)) .nil) (.cons (.loc 2) .nil)) m = .error .index) := by
  obtain ⟨p1, p2⟩ := place_loc X h
  have h1 : evs X (.loc 1) m = .ok ([.int i], m) := evs_loc (by rw [h]; rfl)
  have h2 : evs X (.cons (.loc 2) .nil) m = .ok ([.u8 y], m) := by
    rw [evs, bind_of (evs_loc (v := .u8 y) (by rw [h]; rfl))]
    rfl
  refine ⟨fun a b => ?_, fun a => ?_⟩
  · have hi : indexIn i n = .ok i.toNat := if_pos ⟨a, b⟩
    have e1 : elemPlace ⟨m.id, 0, []⟩ (.int i) m = .ok (⟨m.id, 0, [i.toNat]⟩, m) := by
      refine (bind_of (m' := m) (a := i) rfl _).trans ((bind_of p2 _).trans ?_)
      exact (bind_of (m' := m) (a := i.toNat) (by rw [hi]; rfl) _).trans rfl
    have e2 : places X (.cons (.index (.loc 0) (.loc 1)) .nil) m = .ok ([some ⟨m.id, 0, [i.toNat]⟩], m) := by
      exact (bind_of (a := some ⟨m.id, 0, [i.toNat]⟩) (m' := m) ((bind_of (place_index p1 h1 e1) _).trans rfl) _).trans rfl
    have hlt : i.toNat < n := by omega
    have e3 : store ⟨m.id, 0, [i.toNat]⟩ (.u8 y) m =
        .ok ((), { m with cur := [.arr n fun j => if j = i.toNat then .u8 y else f j, .int i, .u8 y] }) := by
      have hs : (Val.arr n f).set [i.toNat] (.u8 y) = .ok (.arr n fun j => if j = i.toNat then .u8 y else f j) := by
        rw [Val.set, if_pos hlt, Val.set, hf a b]
        rfl
      have hm : m.frame m.id = [.arr n f, .int i, .u8 y] := by rw [Mem.frame, if_pos rfl, h]
      unfold store
      simp only [hm, List.getElem?_cons_zero, hs, Mem.setFrame, if_true, List.set]
    refine exec_assign e2 h2 ?_
    rw [storeAll, bind_of e3]
    rfl
  · have hi : indexIn i n = .error .index := if_neg (by omega)
    have e1 : elemPlace ⟨m.id, 0, []⟩ (.int i) m = .error .index := by
      refine (bind_of (m' := m) (a := i) rfl _).trans ((bind_of p2 _).trans ?_)
      exact bind_stop (x := lift (indexIn i n)) (by rw [hi]; rfl) _
    have e0 : place X (.index (.loc 0) (.loc 1)) m = .error .index := by
      exact (bind_of p1 _).trans ((bind_of h1 _).trans ((bind_of (m' := m) (a := .int i) rfl _).trans e1))
    have e2 : places X (.cons (.index (.loc 0) (.loc 1)) .nil) m = .error .index := bind_stop (bind_stop e0 _) _
    rw [exec]
    exact bind_stop e2 _

/-- C66: `s[lo:hi]` is the part of the slice for bounds in order and within the capacity, with the capacity that is left, and
a panic for all others. -/
theorem C66_slice (X : World) (m : Mem) (l : Loc) (off len cap : Nat) (lo hi : Int)
    (h : m.cur = [.slice l off len cap, .int lo, .int hi]) :
    (∀ a b : Nat, lo = a → hi = a + b → a + b ≤ cap →
      evs X (.slice (.loc 0) (.loc 1) (.loc 2)) m = .ok ([.slice l (off + a) b (cap - a)], m)) ∧
      (lo < 0 ∨ hi < lo ∨ cap < hi → evs X (.slice (.loc 0) (.loc 1) (.loc 2)) m = .error .bounds) := by
  obtain ⟨p1, p2⟩ := place_loc X h
  have h1 : evs X (.loc 1) m = .ok ([.int lo], m) := evs_loc (by rw [h]; rfl)
  have h2 : evs X (.loc 2) m = .ok ([.int hi], m) := evs_loc (by rw [h]; rfl)
  have e : sliceOf ⟨m.id, 0, []⟩ (some (.int lo)) (some (.int hi)) m =
      (if 0 ≤ lo ∧ lo ≤ hi ∧ hi ≤ cap then pure (.slice l (off + lo.toNat) (hi - lo).toNat (cap - lo.toNat))
        else stop .bounds : M Val) m := by
    refine (bind_of p2 _).trans ((bind_of (a := (l, off, len, cap)) (m' := m) rfl _).trans ?_)
    exact (bind_of (a := lo) (m' := m) rfl _).trans (bind_of (a := hi) (m' := m) rfl _)
  have e' : evs X (.slice (.loc 0) (.loc 1) (.loc 2)) m = (do
      let v ← sliceOf ⟨m.id, 0, []⟩ (some (.int lo)) (some (.int hi))
      pure [v] : M (List Val)) m := by
    rw [evs, bind_of p1, bind_of h1, bind_of h2]
    rfl
  refine ⟨fun a b ha hb hc => ?_, fun hn => ?_⟩ <;> rw [e']
  · subst ha hb
    have ee : (if 0 ≤ (a : Int) ∧ (a : Int) ≤ a + b ∧ (a : Int) + b ≤ cap then
        pure (.slice l (off + (a : Int).toNat) ((a : Int) + b - a).toNat (cap - (a : Int).toNat)) else stop .bounds : M Val) m =
        .ok (.slice l (off + a) b (cap - a), m) := by
      rw [if_pos (by omega), show ((a : Int) + b - a).toNat = b by omega, show (a : Int).toNat = a by omega]
      rfl
    exact (bind_of (e.trans ee) _).trans rfl
  · rw [if_neg (by omega)] at e
    exact bind_stop e _

/-- C66: a field of what a nil pointer points to is a panic. -/
theorem C66_nil (X : World) (m : Mem) (f : Nat) (h : m.cur = [.null]) : evs X (.field (.loc 0) f) m = .error .nil := by
  rw [evs, bind_of (evs_loc (v := .null) (by rw [h]; rfl)), bind_of (m' := m) (a := .null) rfl]
  exact bind_stop rfl _

/-- C67: the sixteen words of a block are read from 64 bytes; a pointer to fewer stops the run. -/
theorem C67_block (be : Bool) (m : Mem) (l : Loc) (off len cap : Nat) (n : Nat) (f : Nat → Val)
    (h : load l m = .ok (.arr n f, m)) :
    (len < 64 → C.wordsFn be (name! "words") [.slice l off len cap] m = .error .bounds) ∧
      (64 ≤ len → (∀ k, k < 64 → ∃ x : Byte, f (off + k) = .u8 x) → ∃ m' g,
        C.wordsFn be (name! "words") [.slice l off len cap] m = .ok ([.slice ⟨m.next, 0, []⟩ 0 16 16], m') ∧
        (m.id < m.next → load ⟨m.next, 0, []⟩ m' = .ok (.arr 16 g, m')) ∧
        ∀ k, k < 16 → ∃ a b c d : Byte, f (off + 4 * k) = .u8 a ∧ f (off + 4 * k + 1) = .u8 b ∧ f (off + 4 * k + 2) = .u8 c ∧
          f (off + 4 * k + 3) = .u8 d ∧ g k = .u32 (if be then a ++ b ++ c ++ d else d ++ c ++ b ++ a)) := by
  have hA : arrayAt l m = .ok (f, m) := (bind_of h _).trans rfl
  refine ⟨fun hl => ?_, fun hl hb => ?_⟩
  · have : ¬64 ≤ len := by omega
    unfold C.wordsFn
    rw [if_pos rfl]
    refine (bind_of (a := (l, off, len, cap)) (m' := m) rfl _).trans ?_
    simp only [if_neg this, stop]
  · refine ⟨{ m with
        old := fun j =>
          if j = m.next then [.arr 16 fun k => bif Nat.blt k 16 then C.wordAt be f (off + 4 * k) else .u32 0] else m.old j
        next := m.next + 1 },
      fun k => bif Nat.blt k 16 then C.wordAt be f (off + 4 * k) else .u32 0, ?_, ?_, ?_⟩
    · unfold C.wordsFn
      rw [if_pos rfl]
      refine (bind_of (a := (l, off, len, cap)) (m' := m) rfl _).trans ?_
      simp only [if_pos hl]
      exact (bind_of hA _).trans rfl
    · intro hm
      refine load_some (v := .arr 16 _) ?_ rfl
      simp [Mem.frame, Nat.ne_of_gt hm]
    · intro k hk
      obtain ⟨a, ha⟩ := hb (4 * k) (by omega)
      obtain ⟨b, hb'⟩ := hb (4 * k + 1) (by omega)
      obtain ⟨c, hc⟩ := hb (4 * k + 2) (by omega)
      obtain ⟨d, hd⟩ := hb (4 * k + 3) (by omega)
      refine ⟨a, b, c, d, ha, hb', hc, hd, ?_⟩
      have : Nat.blt k 16 = true := by simp [Nat.blt]; omega
      rw [← Nat.add_assoc] at hb' hc hd
      simp only [this, cond_true, C.wordAt, ha, hb', hc, hd]
      cases be <;> rfl

/-- Instances: index 2 of a slice of two of five bytes; a part that begins after its end, and one that is as long as the
capacity allows; a block of 63 bytes and one of 64. -/
example (X : World) (l : Loc) : evs X (.index (.loc 0) (.loc 1)) ⟨1, [.slice l 0 2 5, .int 2], fun _ => [], 2⟩ = .error .index :=
  (C66_index_slice X _ l 0 2 5 2 rfl).2 (.inr (by omega))

example (X : World) (l : Loc) :
    evs X (.slice (.loc 0) (.loc 1) (.loc 2)) ⟨1, [.slice l 4 2 5, .int 2, .int 1], fun _ => [], 2⟩ = .error .bounds ∧
      evs X (.slice (.loc 0) (.loc 1) (.loc 2)) ⟨1, [.slice l 4 2 5, .int 1, .int 5], fun _ => [], 2⟩ =
        .ok ([.slice l 5 4 4], ⟨1, [.slice l 4 2 5, .int 1, .int 5], fun _ => [], 2⟩) :=
  ⟨(C66_slice X _ l 4 2 5 2 1 rfl).2 (by omega), (C66_slice X _ l 4 2 5 1 5 rfl).1 1 4 rfl rfl (by omega)⟩

example (X : World) (N : Nat) : exec X N (.assign (.cons (.index (.loc 0) (.loc 1)) .nil) (.cons (.loc 2) .nil))
    ⟨1, [.arr 3 fun _ => .u8 0, .int (-1), .u8 7], fun _ => [], 2⟩ = .error .index :=
  (C66_store X N _ 3 _ (-1) 0 7 rfl (fun _ _ => rfl)).2 (by omega)

example : C.wordsFn true (name! "words") [.slice ⟨1, 0, []⟩ 1 63 63] ⟨1, [.arr 64 fun _ => .u8 1], fun _ => [], 2⟩ = .error .bounds :=
  (C67_block true _ ⟨1, 0, []⟩ 1 63 63 64 (fun _ => .u8 1) rfl).1 (by omega)

example : ∃ m' g, C.wordsFn true (name! "words") [.slice ⟨1, 0, []⟩ 0 64 64] ⟨1, [.arr 64 fun k => .u8 (BitVec.ofNat 8 k)], fun _ => [], 2⟩ =
      .ok ([.slice ⟨2, 0, []⟩ 0 16 16], m') ∧ load ⟨2, 0, []⟩ m' = .ok (.arr 16 g, m') ∧ g 1 = .u32 0x04050607 := by
  obtain ⟨m', g, h1, h2, h3⟩ := (C67_block true ⟨1, [.arr 64 fun k => .u8 (BitVec.ofNat 8 k)], fun _ => [], 2⟩ ⟨1, 0, []⟩ 0 64 64 64
    (fun k => .u8 (BitVec.ofNat 8 k)) rfl).2 (by omega) (fun _ _ => ⟨_, rfl⟩)
  refine ⟨m', g, h1, h2 (show 1 < 2 by omega), ?_⟩
  obtain ⟨a, b, c, d, ha, hb, hc, hd, hg⟩ := h3 1 (by omega)
  cases ha; cases hb; cases hc; cases hd
  exact hg

end Verif.Props
