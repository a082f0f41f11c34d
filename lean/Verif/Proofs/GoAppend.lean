import Verif.Proofs.GoSum

/-!
`append`, and the functions of sha1cd.go that return a sum.
-/

namespace Verif.Source.Go

open Verif Verif.Source Verif.Model

/-- How much fits into a `[]byte` without a new array. -/
def capOf : Val → Nat
  | .slice _ _ _ cap => cap
  | _ => 0

section
variable {i : Nat} {C : List Val} {old : Nat → List Val} {next : Nat} {room : Nat → Nat} {g : Nat → Val} {bs add : List Byte}

/-- `append` when there is room. -/
theorem append_fits {lp : Loc} {off cap n : Nat} {f : Nat → Val} (hi : lp.frame ≠ i) (h : look old lp = .ok (.arr n f)) (hn : off + cap ≤ n)
    {len k : Nat} (hk : k ≠ 0) (hfit : len + k ≤ cap) :
    appendSlice room (.slice lp off len cap) g k ⟨i, C, old, next⟩ =
      .ok (.slice lp off (len + k) cap, ⟨i, C, putAt old lp (.arr n (splice f g (off + len) k)), next⟩) := by
  simp only [appendSlice, bind_run, need, parts]
  rw [if_pos hfit, if_neg hk]
  simp only [storeMany, bind_run, load_look hi h C]
  rw [if_pos (by omega)]
  have hs := store_part (i := i) (C := C) (next := next) (q := []) (x := .arr n (splice f g (off + len) k))
    (v' := .arr n (splice f g (off + len) k)) hi h (by simp [Val.set, like]) (fixed_arr _ _)
  simp only [List.append_nil] at hs
  rw [hs]
  rfl

/-- `append` when a new array is needed. -/
theorem append_moves {no : Nat} {v : Val} (hv : IsBytes old i no v bs) (hg : ∀ q (hq : q < add.length), g q = .u8 add[q])
    (hfit : ¬bs.length + add.length ≤ capOf v) :
    ∃ c f, appendSlice room v g add.length ⟨i, C, old, next⟩ =
      .ok (.slice ⟨next, 0, []⟩ 0 (bs.length + add.length) c, ⟨i, C, fun j => if j = next then [.arr c f] else old j, next + 1⟩) ∧
      c = bs.length + add.length + room (bs.length + add.length) ∧ (∀ q (hq : q < (bs ++ add).length), f q = .u8 (bs ++ add)[q]) ∧
      ∀ q, (bs ++ add).length ≤ q → f q = .u8 0 := by
  have zer : ∀ h : Nat → Val, ∀ q, (bs ++ add).length ≤ q →
      (fun i => if i < bs.length then h i else if i < bs.length + add.length then g (i - bs.length) else .u8 0) q = .u8 0 := by
    intro h q hq
    simp only [List.length_append] at hq
    simp only [if_neg (show ¬q < bs.length by omega), if_neg (show ¬q < bs.length + add.length by omega)]
  have key : ∀ h : Nat → Val, (∀ q (hq : q < bs.length), h q = .u8 bs[q]) → ∀ q (hq : q < (bs ++ add).length),
      (fun i => if i < bs.length then h i else if i < bs.length + add.length then g (i - bs.length) else .u8 0) q = .u8 (bs ++ add)[q] := by
    intro h hh q hq
    simp only [List.length_append] at hq
    by_cases hq' : q < bs.length
    · simp only [if_pos hq', List.getElem_append_left hq', hh q hq']
    · simp only [if_neg hq', if_pos hq, List.getElem_append_right (Nat.le_of_not_lt hq')]
      exact hg _ _
  cases hv with
  | null =>
    refine ⟨_, _, ?_, rfl, key (fun _ => .null) (fun q hq => by simp at hq), zer _⟩
    simp only [capOf, List.length_nil] at hfit
    simp only [appendSlice, bind_run, need, parts]
    rw [if_neg hfit]
    simp only [sliceElems, bind_run, need, parts, if_true, pure_run, alloc]
    rfl
  | slice h1 h2 hb =>
    rename_i lp off cap
    obtain ⟨h, e1, e2⟩ := sliceElems_bytes (i := i) (C := C) (next := next) (Nat.ne_of_lt h1) hb
    refine ⟨_, _, ?_, rfl, key h e2, zer _⟩
    simp only [capOf] at hfit
    simp only [appendSlice, bind_run, need, parts]
    rw [if_neg hfit]
    simp only [e1, bind_run, pure_run, alloc]

end

/-- What `append(v, add...)` has done to the memory `m` when it is `m'` and the result `v'`, `v` holding `bs`. -/
inductive Appended (room : Nat → Nat) (m m' : Mem) : Val → List Byte → List Byte → Val → Prop where
  /-- the bytes are put behind the ones of the slice, in the same array -/
  | inPlace {lp : Loc} {off cap n : Nat} {f g : Nat → Val} {bs add : List Byte} : look m.frame lp = .ok (.arr n f) → off + cap ≤ n →
      bs.length + add.length ≤ cap → (∀ q (hq : q < add.length), g q = .u8 add[q]) →
      Became m (putAt m.frame lp (.arr n (splice f g (off + bs.length) add.length))) m' →
      Appended room m m' (.slice lp off bs.length cap) bs add (.slice lp off (bs.length + add.length) cap)
  /-- the bytes are in a new array, and nothing else has changed -/
  | moved {k c : Nat} {f : Nat → Val} {v : Val} {bs add : List Byte} : capOf v < bs.length + add.length → m.next ≤ k → k < m'.next →
      Became m m.frame m' → m'.frame k = [.arr c f] → c = bs.length + add.length + room (bs.length + add.length) →
      (∀ q (hq : q < (bs ++ add).length), f q = .u8 (bs ++ add)[q]) → (∀ q, (bs ++ add).length ≤ q → f q = .u8 0) →
      Appended room m m' v bs add (.slice ⟨k, 0, []⟩ 0 (bs.length + add.length) c)

theorem IsBytes.inv {fr : Nat → List Val} {next no off len cap : Nat} {lp : Loc} {bs : List Byte}
    (h : IsBytes fr next no (.slice lp off len cap) bs) :
    len = bs.length ∧ lp.frame < next ∧ lp.frame ≠ no ∧ Bytes fr lp off cap bs := by
  generalize hv : Val.slice lp off len cap = v at h
  cases h with
  | null => cases hv
  | slice h1 h2 h3 => cases hv; exact ⟨rfl, h1, h2, h3⟩

section
variable {room : Nat → Nat} {m m' : Mem} {v v' : Val} {bs add : List Byte} {no : Nat}

/-- The result holds the bytes of the slice and the new ones. -/
theorem Appended.bytes (A : Appended room m m' v bs add v') (hm : no < m.next) (hv : IsBytes m.frame m.next no v bs) :
    IsBytes m'.frame m'.next no v' (bs ++ add) := by
  cases A with
  | inPlace h1 h2 h3 h4 B =>
    rename_i lp off cap n f g
    obtain ⟨_, p1, p2, hb⟩ := hv.inv
    · have hk : bs.length + add.length = (bs ++ add).length := by simp
      rw [hk]
      refine .slice (Nat.lt_of_lt_of_le p1 B.next) p2 ⟨n, _, (look_congr (B.frame _ p1)).trans (look_putAt (fixed_arr _ _) h1), h2,
        by rw [← hk]; exact h3, fun q hq => ?_⟩
      rw [← hk] at hq
      obtain ⟨n', f', k1, k2, k3, k4⟩ := hb
      rw [h1] at k1
      injection k1 with k1
      injection k1 with _ k1
      subst k1
      unfold splice
      by_cases hq' : q < bs.length
      · rw [if_neg (by omega), k4 q hq', List.getElem_append_left hq']
      · rw [if_pos (by omega), List.getElem_append_right (by omega)]
        simp only [show off + q - (off + bs.length) = q - bs.length by omega]
        exact h4 _ _
  | moved h1 h2 h3 B h5 h6 h7 h8 =>
    rename_i k c f
    have hk : bs.length + add.length = (bs ++ add).length := by simp
    rw [hk]
    refine .slice h3 (show k ≠ no by omega) ⟨c, f, ?_, by omega, by rw [← hk]; omega, fun q hq => ?_⟩
    · simp [look, h5, Val.get]
    · rw [Nat.zero_add]; exact h7 q hq

/-- Frames other than the one of the slice are unchanged. -/
theorem Appended.frame (A : Appended room m m' v bs add v') {g : Nat} (hg : g < m.next)
    (hne : ∀ lp off len cap, v = .slice lp off len cap → g ≠ lp.frame) : m'.frame g = m.frame g := by
  cases A with
  | inPlace h1 h2 h3 h4 B => rw [B.frame g hg, putAt_of_ne (hne _ _ _ _ rfl)]
  | moved h1 h2 h3 B h5 h6 h7 h8 => exact B.frame g hg

theorem Appended.id (A : Appended room m m' v bs add v') : m'.id = m.id := by
  cases A with
  | inPlace _ _ _ _ B => exact B.id
  | moved _ _ _ B _ _ _ _ => exact B.id

theorem Appended.next (A : Appended room m m' v bs add v') : m.next ≤ m'.next := by
  cases A with
  | inPlace _ _ _ _ B => exact B.next
  | moved _ _ _ B _ _ _ _ => exact B.next

end

/-- The memory after a function that keeps its frame has returned. -/
theorem leave_frame {m : Mem} {C : List Val} {old : Nat → List Val} {next g : Nat} (hg : g ≠ m.next) :
    (m.leave ⟨m.next, C, old, next⟩ true).frame g = old g := by
  simp only [Mem.leave, Mem.frame]
  by_cases hid : g = m.id
  · rw [if_pos hid, hid]
  · rw [if_neg hid, if_neg hid, if_neg (by simp [hg])]

/-- `return append(in, hash...)` in a function with the frame `m.next`. -/
theorem append_return {m : Mem} {C : List Val} {old : Nat → List Val} {next no : Nat} {room : Nat → Nat} {g : Nat → Val} {v : Val}
    {bs add : List Byte} (hno : m.next < next) (hold : ∀ k, k < m.next → old k = m.frame k)
    (hv : IsBytes m.frame m.next no v bs) (hg : ∀ q (hq : q < add.length), g q = .u8 add[q]) (hadd : add.length ≠ 0) :
    ∃ v' old' next', appendSlice room v g add.length ⟨m.next, C, old, next⟩ = .ok (v', ⟨m.next, C, old', next'⟩) ∧ Fixed v' ∧
      Appended room m (m.leave ⟨m.next, C, old', next'⟩ true) v bs add v' := by
  have hv' : IsBytes old m.next no v bs := by
    cases hv with
    | null => exact .null
    | slice h1 h2 hb => exact .slice h1 h2 (hb.congr (look_congr (hold _ h1)))
  have hlv : ∀ n', (m.leave ⟨m.next, C, old, n'⟩ true).next = n' := fun n' => by simp [Mem.leave]
  by_cases hfit : bs.length + add.length ≤ capOf v
  · cases hv with
    | null => simp only [capOf, List.length_nil] at hfit; omega
    | slice h1 h2 hb =>
      rename_i lp off cap
      obtain ⟨n, f, b1, b2, b3, b4⟩ := hb
      refine ⟨_, _, _, append_fits (Nat.ne_of_lt h1) ((look_congr (hold _ h1)).trans b1) b2 hadd hfit, fixed_slice _ _ _ _,
        .inPlace (f := f) (g := g) b1 b2 hfit hg ⟨rfl, ?_, fun k hk => ?_⟩⟩
      · simp only [Mem.leave, true_or, if_true]
        omega
      · rw [leave_frame (Nat.ne_of_lt hk)]
        simp only [putAt]
        rw [hold k hk]
  · obtain ⟨c, f, a1, a2, a3, a4⟩ := append_moves (room := room) (C := C) (next := next) hv' hg hfit
    refine ⟨_, _, _, a1, fixed_slice _ _ _ _, .moved (by omega) (Nat.le_of_lt hno) ?_ ⟨rfl, ?_, fun k hk => ?_⟩ ?_ a2 a3 a4⟩
    · simp only [Mem.leave, true_or, if_true]
      omega
    · simp only [Mem.leave, true_or, if_true]
      omega
    · rw [leave_frame (Nat.ne_of_lt hk)]
      simp only [if_neg (show k ≠ next by omega), hold k hk]
    · rw [leave_frame (by omega)]
      simp only [if_true]

end Verif.Source.Go
