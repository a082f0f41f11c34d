import Verif.Proofs.GoStore

/-!
Running functions that change, beside their own variables, only what their parameters point to: the statements as plain
functions of the slots and of what the slots point to, and that `exec` agrees with them.

As in `Proofs/GoPure`, `C` are the slots and `D` what they point to; slot `k` points to the place `B k`.
-/

namespace Verif.Source.Go

open Verif Verif.Source

/-- The slot through which an expression leads to a part of what the slot points to, and the path to the part. -/
def rcont (F : Nat → Nat → List Val → Option (List Val)) (D : List (Option Val)) (C : List Val) :
    Expr → Option (Nat × List Nat)
  | .loc k => match view D k with
    | some _ => some (k, [])
    | none => none
  | .index e j => match rcont F D C e, one (pvs F D C j) with
    | some (k, p), some w => match number w, view D k with
      | some x, some v => match v.get p with
        | .ok (.arr n _) => match indexIn x n with
          | .ok q => some (k, p ++ [q])
          | .error _ => none
        | _ => none
      | _, _ => none
    | _, _ => none
  | .field e f => match rcont F D C e with
    | some (k, p) => match view D k with
      | some v => match v.get p with
        | .ok (.struct _) => some (k, p ++ [f])
        | _ => none
      | none => none
    | none => none
  | _ => none

/-- What the slots point to, with a part replaced. -/
def rset (D : List (Option Val)) (k : Nat) (p : List Nat) (x : Val) : Option (List (Option Val)) :=
  match view D k with
  | some v => match v.set p x with
    | .ok v' => some (D.set k (some v'))
    | .error _ => none
  | none => none

/-- The state of a function: what the slots point to, and the slots. -/
abbrev RSt := List (Option Val) × List Val

/-- `b` chooses. -/
def rpick (b : Bool) (x y : Option RSt) : Option RSt := match b with
  | true => x
  | false => y

/-- A statement that changes slots only. -/
def rlocal (F : Nat → Nat → List Val → Option (List Val)) (s : Stmt) (S : RSt) : Option RSt :=
  match pexec F S.1 s S.2 with
  | some C => some (S.1, C)
  | none => none

/-- The state after a statement that ends normally. -/
def rexec (F : Nat → Nat → List Val → Option (List Val)) : Stmt → RSt → Option RSt
  | .skip, S => some S
  | .seq a b, S => match rexec F a S with
    | some S => rexec F b S
    | none => none
  | .assign (.cons l .nil) r, S => match rcont F S.1 S.2 l with
    | some (k, i :: p) => match one (pvs F S.1 S.2 r) with
      | some x => match rset S.1 k (i :: p) x with
        | some D => some (D, S.2)
        | none => none
      | none => none
    | _ => rlocal F (.assign (.cons l .nil) r) S
  | .opAssign o l r, S => match rcont F S.1 S.2 l with
    | some (k, i :: p) => match view S.1 k, one (pvs F S.1 S.2 r) with
      | some v, some b => match v.get (i :: p) with
        | .ok a => match arith o a b with
          | some x => match rset S.1 k (i :: p) x with
            | some D => some (D, S.2)
            | none => none
          | none => none
        | .error _ => none
      | _, _ => none
    | _ => rlocal F (.opAssign o l r) S
  | .ite c a b, S => match one (pvs F S.1 S.2 c) with
    | some (.bool x) => rpick x (rexec F a S) (rexec F b S)
    | _ => none
  | .block n s, S => match rexec F s S with
    | some S => match Nat.ble S.1.length n with
      | true => some (S.1, S.2.take n)
      | false => none
    | none => none
  | s, S => rlocal F s S

/-- The frames with what the slots point to put where they point. -/
def puts : (Nat → Loc) → List (Option Val) → (Nat → List Val) → Nat → List Val
  | _, [], fr => fr
  | B, none :: D, fr => puts (fun k => B (k + 1)) D fr
  | B, some v :: D, fr => puts (fun k => B (k + 1)) D (putAt fr (B 0) v)

/-- Places that hold something, none overlapping another, none in frame `i`. -/
structure Places (D : List (Option Val)) (B : Nat → Loc) (fr : Nat → List Val) (i : Nat) : Prop where
  there : ∀ k v, view D k = some v → ∃ u, look fr (B k) = .ok u
  apart : ∀ k k' v v', view D k = some v → view D k' = some v' → k ≠ k' → Apart (B k) (B k')
  fixed : ∀ k v, view D k = some v → Fixed v
  frame : ∀ k v, view D k = some v → (B k).frame ≠ i

/-- The slots point there. -/
def Points (D : List (Option Val)) (B : Nat → Loc) (C : List Val) : Prop :=
  ∀ k v, view D k = some v → C[k]? = some (.ptr (B k)) ∨
    ∃ n g len c, v = .arr n g ∧ n ≤ len ∧ C[k]? = some (.slice (B k) 0 len c)

theorem Diverge.symm {p q : List Nat} (h : Diverge p q) : Diverge q p := by
  induction h with
  | here h => exact .here (Ne.symm h)
  | there _ ih => exact .there ih

theorem Apart.symm {l l' : Loc} (h : Apart l l') : Apart l' l := by
  rcases h with h | h | h
  · exact .inl (Ne.symm h)
  · exact .inr (.inl (Ne.symm h))
  · exact .inr (.inr h.symm)

theorem set_comm {v v1 v2 u w : Val} {p q : List Nat} (hd : Diverge p q) (h1 : v.set p u = .ok v1)
    (h2 : v.set q w = .ok v2) : v1.set q w = v2.set p u := by
  induction hd generalizing v v1 v2 with
  | here hne =>
    rename_i i j p q
    cases v with
    | arr n f =>
      simp only [Val.set] at h1 h2
      split at h1
      · rename_i hi
        split at h1
        · rename_i a ha
          split at h2
          · rename_i hj
            split at h2
            · rename_i b hb
              cases h1; cases h2
              simp only [Val.set, if_pos hi, if_pos hj, if_neg hne, if_neg (Ne.symm hne), ha, hb, Except.ok.injEq,
                Val.arr.injEq, true_and]
              funext k
              by_cases h : k = i
              · subst h; simp [hne]
              · by_cases h' : k = j
                · subst h'; simp [h]
                · simp [h, h']
            · cases h2
          · cases h2
        · cases h1
      · cases h1
    | struct f =>
      simp only [Val.set] at h1 h2
      split at h1
      · rename_i a ha
        split at h2
        · rename_i b hb
          cases h1; cases h2
          simp only [Val.set, if_neg hne, if_neg (Ne.symm hne), ha, hb, Except.ok.injEq, Val.struct.injEq]
          funext k
          by_cases h : k = i
          · subst h; simp [hne]
          · by_cases h' : k = j
            · subst h'; simp [h]
            · simp [h, h']
        · cases h2
      · cases h1
    | _ => simp only [Val.set] at h1; cases h1
  | there _ ih =>
    rename_i i p q _
    cases v with
    | arr n f =>
      simp only [Val.set] at h1 h2
      split at h1
      · rename_i hi
        rw [if_pos hi] at h2
        split at h1
        · rename_i a ha
          split at h2
          · rename_i b hb
            cases h1; cases h2
            simp only [Val.set, if_pos hi, if_true, ih ha hb]
            split <;> simp only [Except.ok.injEq, Val.arr.injEq, true_and]
            funext k
            by_cases h : k = i <;> simp [h]
          · cases h2
        · cases h1
      · cases h1
    | struct f =>
      simp only [Val.set] at h1 h2
      split at h1
      · rename_i a ha
        split at h2
        · rename_i b hb
          cases h1; cases h2
          simp only [Val.set, if_true, ih ha hb]
          split <;> simp only [Except.ok.injEq, Val.struct.injEq]
          funext k
          by_cases h : k = i <;> simp [h]
        · cases h2
      · cases h1
    | _ => simp only [Val.set] at h1; cases h1

theorem put_comm {v w u x y : Val} {p q : List Nat} (hd : Diverge p q) (h1 : v.get p = .ok x) (h2 : v.get q = .ok y) :
    (v.put p u).put q w = (v.put q w).put p u := by
  obtain ⟨v1, e1⟩ := set_of_get (u := u) h1
  obtain ⟨v2, e2⟩ := set_of_get (u := w) h2
  have e3 := set_comm hd e1 e2
  simp only [Val.put, e1, e2]
  rw [e3]
  have g1 : v2.get p = .ok x := (get_set_other hd.symm e2).trans h1
  obtain ⟨v3, e4⟩ := set_of_get (u := u) g1
  simp only [e4]

section
variable {fr : Nat → List Val} {l l' : Loc} {v v' w w' : Val}

theorem putAt_comm (ha : Apart l l') (h : look fr l = .ok v) (h' : look fr l' = .ok v') :
    putAt (putAt fr l w) l' w' = putAt (putAt fr l' w') l w := by
  obtain ⟨u, h1, h2⟩ := look_inv h
  obtain ⟨u', h1', h2'⟩ := look_inv h'
  funext g
  unfold putAt
  by_cases hg : g = l.frame
  · by_cases hg' : g = l'.frame
    · simp only [if_pos hg, if_pos hg']
      subst hg
      apply List.ext_getElem?
      intro k
      simp only [modify_get]
      by_cases hk : l.slot = k
      · by_cases hk' : l'.slot = k
        · simp only [if_pos hk, if_pos hk']
          subst hk
          rw [← hg', hk', h1] at h1'
          cases h1'
          rw [h1]
          simp only [Option.map_some, Option.some.injEq]
          have hd : Diverge l.path l'.path := by
            rcases ha with h | h | h
            · exact absurd hg' h
            · exact absurd hk'.symm h
            · exact h
          exact put_comm hd h2 h2'
        · simp only [if_pos hk, if_neg hk']
      · by_cases hk' : l'.slot = k
        · simp only [if_neg hk, if_pos hk']
        · simp only [if_neg hk, if_neg hk']
    · simp only [if_pos hg, if_neg hg']
  · by_cases hg' : g = l'.frame
    · simp only [if_neg hg, if_pos hg']
    · simp only [if_neg hg, if_neg hg']

theorem look_putAt_ok {l' : Loc} (hw : Fixed w) (hc : l' = l ∨ Apart l l') (h : look fr l = .ok v)
    (h' : look fr l' = .ok v') : ∃ u, look (putAt fr l w) l' = .ok u := by
  rcases hc with rfl | hc
  · exact ⟨w, look_putAt hw h⟩
  · exact ⟨v', (look_other hc).trans h'⟩

end

theorem view_succ (D : List (Option Val)) (x : Option Val) (k : Nat) : view (x :: D) (k + 1) = view D k := rfl

theorem Places.tail {x : Option Val} {D : List (Option Val)} {B : Nat → Loc} {fr : Nat → List Val} {i : Nat}
    (h : Places (x :: D) B fr i) : Places D (fun k => B (k + 1)) fr i where
  there k v hv := h.there (k + 1) v hv
  apart k k' v v' hv hv' hne := h.apart (k + 1) (k' + 1) v v' hv hv' (by omega)
  fixed k v hv := h.fixed (k + 1) v hv
  frame k v hv := h.frame (k + 1) v hv

/-- What happens at another place does not matter. -/
theorem Places.put {D : List (Option Val)} {B : Nat → Loc} {fr : Nat → List Val} {i : Nat} {l : Loc} {w : Val}
    (h : Places D B fr i) (ha : ∀ k v, view D k = some v → Apart l (B k)) : Places D B (putAt fr l w) i where
  there k v hv := by
    obtain ⟨u, hu⟩ := h.there k v hv
    exact ⟨u, (look_other (ha k v hv)).trans hu⟩
  apart := h.apart
  fixed := h.fixed
  frame := h.frame

theorem puts_putAt : ∀ {D : List (Option Val)} {B : Nat → Loc} {fr : Nat → List Val} {i : Nat} {l : Loc} {v w : Val},
    Places D B fr i → look fr l = .ok v → (∀ k v, view D k = some v → Apart l (B k)) →
    puts B D (putAt fr l w) = putAt (puts B D fr) l w := by
  intro D
  induction D with
  | nil => intros; rfl
  | cons x D ih =>
    intro B fr i l v w hp hl ha
    have ha' : ∀ k v, view D k = some v → Apart l (B (k + 1)) := fun k v hv => ha (k + 1) v hv
    cases x with
    | none => exact ih hp.tail hl ha'
    | some y =>
      obtain ⟨u, hu⟩ := hp.there 0 y rfl
      have h0 := ha 0 y rfl
      show puts _ D (putAt (putAt fr l w) (B 0) y) = putAt (puts _ D (putAt fr (B 0) y)) l w
      rw [putAt_comm h0 hl hu]
      have hp' : Places D (fun k => B (k + 1)) (putAt fr (B 0) y) i :=
        hp.tail.put fun k v hv => hp.apart 0 (k + 1) y v rfl hv (by omega)
      exact ih hp' ((look_other h0.symm).trans hl) ha'

theorem look_puts : ∀ {D : List (Option Val)} {B : Nat → Loc} {fr : Nat → List Val} {i : Nat} {l : Loc},
    Places D B fr i → (∀ k v, view D k = some v → Apart (B k) l) → look (puts B D fr) l = look fr l := by
  intro D
  induction D with
  | nil => intros; rfl
  | cons x D ih =>
    intro B fr i l hp ha
    have ha' : ∀ k v, view D k = some v → Apart (B (k + 1)) l := fun k v hv => ha (k + 1) v hv
    cases x with
    | none => exact ih hp.tail ha'
    | some y =>
      have hp' : Places D (fun k => B (k + 1)) (putAt fr (B 0) y) i :=
        hp.tail.put fun k v hv => hp.apart 0 (k + 1) y v rfl hv (by omega)
      show look (puts _ D (putAt fr (B 0) y)) l = _
      rw [ih hp' ha', look_other (ha 0 y rfl)]

theorem look_puts_self : ∀ {D : List (Option Val)} {B : Nat → Loc} {fr : Nat → List Val} {i k : Nat} {v : Val},
    Places D B fr i → view D k = some v → look (puts B D fr) (B k) = .ok v := by
  intro D
  induction D with
  | nil => intro B fr i k v _ h; simp [view] at h
  | cons x D ih =>
    intro B fr i k v hp hv
    cases x with
    | none =>
      cases k with
      | zero => cases hv
      | succ k => exact ih (k := k) hp.tail hv
    | some y =>
      have hp' : Places D (fun k => B (k + 1)) (putAt fr (B 0) y) i :=
        hp.tail.put fun k v hv => hp.apart 0 (k + 1) y v rfl hv (by omega)
      cases k with
      | zero =>
        cases hv
        obtain ⟨u, hu⟩ := hp.there 0 v rfl
        show look (puts _ D (putAt fr (B 0) v)) (B 0) = _
        rw [look_puts hp' fun k w hw => hp.apart (k + 1) 0 w v hw rfl (by omega)]
        exact look_putAt (hp.fixed 0 v rfl) hu
      | succ k => exact ih (k := k) hp' hv

theorem puts_set : ∀ {D : List (Option Val)} {B : Nat → Loc} {fr : Nat → List Val} {i k : Nat} {v w : Val},
    Places D B fr i → view D k = some v → Fixed w → puts B (D.set k (some w)) fr = putAt (puts B D fr) (B k) w := by
  intro D
  induction D with
  | nil => intro B fr i k v w _ h; simp [view] at h
  | cons x D ih =>
    intro B fr i k v w hp hv hw
    cases k with
    | zero =>
      simp only [view, List.getElem?_cons_zero] at hv
      subst hv
      obtain ⟨u, hu⟩ := hp.there 0 v rfl
      have hp' : Places D (fun k => B (k + 1)) (putAt fr (B 0) v) i :=
        hp.tail.put fun k v' hv => hp.apart 0 (k + 1) v v' rfl hv (by omega)
      show puts _ D (putAt fr (B 0) w) = putAt (puts _ D (putAt fr (B 0) v)) (B 0) w
      rw [← puts_putAt hp' (look_putAt (hp.fixed 0 v rfl) hu)
        fun k v' hv => hp.apart 0 (k + 1) v v' rfl hv (by omega), putAt_putAt hw hu]
    | succ k =>
      cases x with
      | none => exact ih hp.tail hv hw
      | some y =>
        have hp' : Places D (fun k => B (k + 1)) (putAt fr (B 0) y) i :=
          hp.tail.put fun k v' hv => hp.apart 0 (k + 1) y v' rfl hv (by omega)
        exact ih hp' hv hw

theorem puts_self : ∀ {D : List (Option Val)} {B : Nat → Loc} {fr : Nat → List Val},
    (∀ k v, view D k = some v → look fr (B k) = .ok v) → puts B D fr = fr := by
  intro D
  induction D with
  | nil => intros; rfl
  | cons x D ih =>
    intro B fr h
    cases x with
    | none => exact ih fun k v hv => h (k + 1) v hv
    | some y =>
      show puts _ D (putAt fr (B 0) y) = fr
      rw [putAt_self (h 0 y rfl)]
      exact ih fun k v hv => h (k + 1) v hv

theorem view_set {D : List (Option Val)} {k j : Nat} {v u w : Val} (hk : view D k = some v)
    (h : view (D.set k (some w)) j = some u) : (j = k ∧ u = w) ∨ (j ≠ k ∧ view D j = some u) := by
  have hlt := view_lt hk
  unfold view at h
  rw [List.getElem?_set] at h
  by_cases hj : k = j
  · subst hj
    rw [if_pos rfl, if_pos hlt] at h
    simp only [Option.some.injEq] at h
    exact .inl ⟨rfl, h.symm⟩
  · rw [if_neg hj] at h
    exact .inr ⟨Ne.symm hj, h⟩

theorem Places.set {D : List (Option Val)} {B : Nat → Loc} {fr : Nat → List Val} {i k : Nat} {v w : Val}
    (h : Places D B fr i) (hk : view D k = some v) (hw : Fixed w) : Places (D.set k (some w)) B fr i where
  there j u hu := by
    rcases view_set hk hu with ⟨rfl, _⟩ | ⟨_, h'⟩
    · exact h.there _ v hk
    · exact h.there j u h'
  apart j j' u u' hu hu' hne := by
    have e1 : ∃ x, view D j = some x := by
      rcases view_set hk hu with ⟨rfl, _⟩ | ⟨_, h'⟩
      · exact ⟨v, hk⟩
      · exact ⟨u, h'⟩
    have e2 : ∃ x, view D j' = some x := by
      rcases view_set hk hu' with ⟨rfl, _⟩ | ⟨_, h'⟩
      · exact ⟨v, hk⟩
      · exact ⟨u', h'⟩
    exact h.apart j j' _ _ e1.choose_spec e2.choose_spec hne
  fixed j u hu := by
    rcases view_set hk hu with ⟨_, rfl⟩ | ⟨_, h'⟩
    · exact hw
    · exact h.fixed j u h'
  frame j u hu := by
    rcases view_set hk hu with ⟨rfl, _⟩ | ⟨_, h'⟩
    · exact h.frame _ v hk
    · exact h.frame j u h'

/-- What has parts is stored as it is, and keeps its size when a part is replaced. -/
theorem set_cons {v v' x : Val} {i : Nat} {p : List Nat} (h : v.set (i :: p) x = .ok v') :
    Fixed v' ∧ ∀ n g, v = .arr n g → ∃ g', v' = .arr n g' := by
  cases v with
  | arr n f =>
    simp only [Val.set] at h
    split at h
    · split at h
      · cases h
        exact ⟨fixed_arr _ _, fun n g e => by cases e; exact ⟨_, rfl⟩⟩
      · cases h
    · cases h
  | struct f =>
    simp only [Val.set] at h
    split at h
    · cases h
      exact ⟨fixed_struct _, fun n g e => by cases e⟩
    · cases h
  | _ => simp only [Val.set] at h; cases h

/-- A state of a function that `rexec` runs. -/
structure Stage (B : Nat → Loc) (fr : Nat → List Val) (i : Nat) (S : RSt) : Prop where
  places : Places S.1 B fr i
  points : Points S.1 B S.2

section
variable {X : World} {F : Nat → Nat → List Val → Option (List Val)} {B : Nat → Loc} {fr : Nat → List Val} {i next : Nat}
  {S S' : RSt}

/-- The memory of the function in a state. -/
def memOf (B : Nat → Loc) (fr : Nat → List Val) (i next : Nat) (S : RSt) : Mem := ⟨i, S.2, puts B S.1 fr, next⟩

theorem Stage.seen (h : Stage B fr i S) : Seen S.1 i (puts B S.1 fr) next S.2 := by
  intro k v hv
  have hl := look_puts_self h.places hv
  have hi := h.places.frame k v hv
  rcases h.points k v hv with hc | ⟨n, g, len, c, rfl, hn, hc⟩
  · exact ⟨_, hc, fun C' => load_look hi hl C'⟩
  · refine ⟨_, hc, n, g, rfl, hn, fun q hq C' => ?_⟩
    have : look (puts B S.1 fr) ((B k).sub (0 + q)) = .ok (g q) := by
      rw [look_sub hl]
      simp only [Val.get, Nat.zero_add, if_pos hq]
    exact load_look (l := (B k).sub (0 + q)) hi this C'

/-- Functions that say what they return change nothing, whatever the memory. -/
def Rights (X : World) (F : Nat → Nat → List Val → Option (List Val)) : Prop :=
  ∀ p n vs rs, F p n vs = some rs → ∀ m : Mem, X.call p n vs m = .ok (rs, m)

theorem Rights.right (h : Rights X F) (D : List (Option Val)) (old : Nat → List Val) : Right X F D i old next :=
  ⟨fun p n vs rs hf C => h p n vs rs hf _⟩

theorem place_rcont (hr : Rights X F) (hs : Stage B fr i S) : ∀ (e : Expr) (k : Nat) (p : List Nat),
    rcont F S.1 S.2 e = some (k, p) →
    (e = .loc k ∧ p = []) ∨ (p ≠ [] ∧
      place X e (memOf B fr i next S) = .ok ({ B k with path := (B k).path ++ p }, memOf B fr i next S)) := by
  intro e
  induction e with
  | loc j =>
    intro k p h
    simp only [rcont] at h
    split at h
    · cases h
      exact .inl ⟨rfl, rfl⟩
    · cases h
  | index e j ihe _ =>
    intro k p h
    simp only [rcont] at h
    split at h
    · rename_i k' p' w hp hw
      split at h
      · rename_i x v hx hv
        split at h
        · rename_i n g hg
          split at h
          · rename_i q hq
            cases h
            refine .inr ⟨by simp, ?_⟩
            have hl := look_puts_self hs.places hv
            have hi := hs.places.frame _ v hv
            have hev : evs X j (memOf B fr i next S) = .ok ([w], memOf B fr i next S) :=
              evs_pvs (hr.right _ _) hs.seen _ _ (one_some hw)
            rcases ihe k p' hp with ⟨rfl, rfl⟩ | ⟨hne, hpl⟩
            · simp only [Val.get, Except.ok.injEq] at hg
              subst hg
              refine place_index (show place X (.loc k) _ = .ok (⟨i, k, []⟩, _) from rfl) hev ?_
              rcases hs.points k _ hv with hc | ⟨n', g', len, c, hng, hn, hc⟩
              · have h1 : load ⟨i, k, []⟩ (memOf B fr i next S) = .ok (.ptr (B k), memOf B fr i next S) :=
                  load_pget (by simp only [pget, hc, Val.get])
                have h2 : load (B k) (memOf B fr i next S) = .ok (.arr n g, memOf B fr i next S) := load_look hi hl _
                simp only [elemPlace, bind_run, Go.need, hx, h1, h2, lift, hq, pure_run, Loc.sub, List.nil_append]
              · cases hng
                have h1 : load ⟨i, k, []⟩ (memOf B fr i next S) = .ok (.slice (B k) 0 len c, memOf B fr i next S) :=
                  load_pget (by simp only [pget, hc, Val.get])
                have hq' : indexIn x len = .ok q := by
                  unfold indexIn at hq ⊢
                  split at hq
                  · cases hq
                    rw [if_pos (by omega)]
                  · cases hq
                simp only [elemPlace, bind_run, Go.need, hx, h1, lift, hq', pure_run, Loc.sub, List.nil_append,
                  Nat.zero_add]
            · refine place_index hpl hev ?_
              have hld : load { B k with path := (B k).path ++ p' } (memOf B fr i next S)
                  = .ok (.arr n g, memOf B fr i next S) := by
                obtain ⟨u, h1, h2⟩ := look_inv hl
                refine load_look (l := { B k with path := (B k).path ++ p' }) hi ?_ _
                simp only [look, h1]
                rw [get_append _ _ _ _ h2, hg]
              simp only [elemPlace, bind_run, Go.need, hx, hld, lift, hq, pure_run, Loc.sub, List.append_assoc]
          · cases h
        · cases h
      · cases h
    · cases h
  | field e f ihe =>
    intro k p h
    simp only [rcont] at h
    split at h
    · rename_i k' p' hp
      split at h
      · rename_i v hv
        split at h
        · rename_i g hg
          cases h
          refine .inr ⟨by simp, ?_⟩
          have hl := look_puts_self hs.places hv
          have hi := hs.places.frame _ v hv
          rcases ihe k p' hp with ⟨rfl, rfl⟩ | ⟨hne, hpl⟩
          · simp only [Val.get, Except.ok.injEq] at hg
            subst hg
            rcases hs.points k _ hv with hc | ⟨n', g', len, c, hng, hn, hc⟩
            · have h1 : load ⟨i, k, []⟩ (memOf B fr i next S) = .ok (.ptr (B k), memOf B fr i next S) :=
                load_pget (by simp only [pget, hc, Val.get])
              show (place X (.loc k) >>= _) _ = _
              rw [bind_of (show place X (.loc k) _ = .ok (⟨i, k, []⟩, _) from rfl)]
              show (through ⟨i, k, []⟩ >>= _) (memOf B fr i next S) = _
              rw [bind_of (a := B k) (m' := memOf B fr i next S) (by simp only [through, bind_run, h1, pure_run])]
              simp only [pure_run, Loc.sub, List.nil_append]
            · cases hng
          · have hld : load { B k with path := (B k).path ++ p' } (memOf B fr i next S)
                = .ok (.struct g, memOf B fr i next S) := by
              obtain ⟨u, h1, h2⟩ := look_inv hl
              refine load_look (l := { B k with path := (B k).path ++ p' }) hi ?_ _
              simp only [look, h1]
              rw [get_append _ _ _ _ h2, hg]
            show (place X e >>= _) _ = _
            rw [bind_of hpl]
            rw [bind_of (a := { B k with path := (B k).path ++ p' }) (m' := memOf B fr i next S)
              (by simp only [through, bind_run, hld, pure_run])]
            simp only [pure_run, Loc.sub, List.append_assoc]
        · cases h
      · cases h
    · cases h
  | _ => intro k p h; simp [rcont] at h

theorem store_rset (hs : Stage B fr i S) {k j : Nat} {p : List Nat} {x : Val} {D : List (Option Val)}
    (h : rset S.1 k (j :: p) x = some D) :
    store { B k with path := (B k).path ++ j :: p } x (memOf B fr i next S) = .ok ((), memOf B fr i next (D, S.2)) ∧
      Stage B fr i (D, S.2) := by
  unfold rset at h
  split at h
  · rename_i v hv
    split at h
    · rename_i v' hv'
      cases h
      obtain ⟨hf, hn⟩ := set_cons hv'
      refine ⟨?_, hs.places.set hv hf, ?_⟩
      · have := store_part (C := S.2) (next := next) (hs.places.frame _ v hv) (look_puts_self hs.places hv) hv' hf
        unfold memOf
        rw [this, puts_set hs.places hv hf]
      · intro m u hu
        rcases view_set hv hu with ⟨rfl, rfl⟩ | ⟨_, h'⟩
        · rcases hs.points _ _ hv with hc | ⟨n, g, len, c, rfl, hn', hc⟩
          · exact .inl hc
          · obtain ⟨g', rfl⟩ := hn n g rfl
            exact .inr ⟨n, g', len, c, rfl, hn', hc⟩
        · exact hs.points m u h'
    · cases h
  · cases h

theorem pset_keeps {D : List (Option Val)} {C C' : List Val} {k j : Nat} {p : List Nat} {u v : Val}
    (hv : view D k = some v) (h : pset D C j p u = some C') : C'[k]? = C[k]? := by
  unfold pset at h
  split at h
  · rename_i hw
    split at h
    · split at h
      · cases h
        rw [List.getElem?_set, if_neg]
        rintro rfl
        simp [writable, hv] at hw
      · cases h
    · cases h
  · cases h

theorem psetAll_keeps {D : List (Option Val)} {k : Nat} {v : Val} (hv : view D k = some v) :
    ∀ (ls : List (Option (Nat × List Nat))) (vs C C' : List Val), psetAll D ls vs C = some C' → C'[k]? = C[k]? := by
  intro ls
  induction ls with
  | nil =>
    intro vs C C' h
    cases vs with
    | nil => simp only [psetAll, Option.some.injEq] at h; subst h; rfl
    | cons v vs => simp [psetAll] at h
  | cons l ls ih =>
    intro vs C C' h
    cases vs with
    | nil => cases l <;> simp [psetAll] at h
    | cons w vs =>
      cases l with
      | none => exact ih vs C C' h
      | some l =>
        simp only [psetAll] at h
        split at h
        · rename_i C1 h1
          exact (ih vs C1 C' h).trans (pset_keeps hv h1)
        · cases h

/-- The slots that point somewhere stay. -/
theorem pexec_keeps {D : List (Option Val)} {k : Nat} {v : Val} (hv : view D k = some v) :
    ∀ (s : Stmt) (C C' : List Val), pexec F D s C = some C' → k < C.length → C'[k]? = C[k]? := by
  intro s
  induction s with
  | skip => intro C C' h _; simp only [pexec, Option.some.injEq] at h; subst h; rfl
  | seq a b iha ihb =>
    intro C C' h hk
    simp only [pexec] at h
    split at h
    · rename_i C1 h1
      have e1 := iha C C1 h1 hk
      have hk1 : k < C1.length := by
        rw [List.getElem?_eq_getElem hk] at e1
        exact (List.getElem?_eq_some_iff.1 e1).1
      exact (ihb C1 C' h hk1).trans e1
    · cases h
  | define n es =>
    intro C C' h hk
    simp only [pexec] at h
    split at h
    · split at h
      · cases h
        rw [List.getElem?_append_left hk]
      · cases h
    · cases h
  | var t =>
    intro C C' h hk
    simp only [pexec] at h
    split at h
    · cases h
      rw [List.getElem?_append_left hk]
    · cases h
  | assign ls rs =>
    intro C C' h hk
    simp only [pexec] at h
    split at h
    · exact psetAll_keeps hv _ _ _ _ h
    · cases h
  | opAssign o l r =>
    intro C C' h hk
    simp only [pexec] at h
    split at h
    · split at h
      · split at h
        · exact pset_keeps hv h
        · cases h
      · cases h
    · cases h
  | ite c a b iha ihb =>
    intro C C' h hk
    simp only [pexec] at h
    split at h
    · rename_i x _
      cases x with
      | true => exact iha C C' h hk
      | false => exact ihb C C' h hk
    · cases h
  | block n s ih =>
    intro C C' h hk
    simp only [pexec] at h
    split at h
    · rename_i C1 h1
      split at h
      · rename_i hn
        cases h
        have := Nat.le_of_ble_eq_true hn
        have := view_lt hv
        rw [List.getElem?_take, if_pos (by omega)]
        exact ih C C1 h1 hk
      · cases h
    · cases h
  | _ => intro C C' h; simp [pexec] at h

theorem exec_rlocal (hr : Rights X F) (N : Nat) {s : Stmt} (hs : Stage B fr i S) (h : rlocal F s S = some S') :
    exec X N s (memOf B fr i next S) = .ok (.normal, memOf B fr i next S') ∧ Stage B fr i S' := by
  unfold rlocal at h
  split at h
  · rename_i C hC
    cases h
    obtain ⟨h1, h2⟩ := exec_pexec (hr.right (i := i) (next := next) S.1 (puts B S.1 fr)) N s S.2 C hC hs.seen
    refine ⟨h1, hs.places, ?_⟩
    intro k v hv
    obtain ⟨w, hw, hsh⟩ := h2 k v hv
    have hkeep : C[k]? = S.2[k]? := by
      have hk : k < S.2.length := by
        rcases hs.points k v hv with hc | ⟨n, g, len, c, _, _, hc⟩ <;> exact (List.getElem?_eq_some_iff.1 hc).1
      exact pexec_keeps hv s S.2 C hC hk
    rcases hs.points k v hv with hc | ⟨n, g, len, c, rfl, hn, hc⟩
    · exact .inl (hkeep.trans hc)
    · exact .inr ⟨n, g, len, c, rfl, hn, hkeep.trans hc⟩
  · cases h

/-- `rexec` is right. -/
theorem exec_rexec (hr : Rights X F) (N : Nat) : ∀ (s : Stmt) (S S' : RSt), rexec F s S = some S' → Stage B fr i S →
    exec X N s (memOf B fr i next S) = .ok (.normal, memOf B fr i next S') ∧ Stage B fr i S' := by
  intro s
  induction s with
  | skip => intro S S' h hs; simp only [rexec, Option.some.injEq] at h; subst h; exact ⟨rfl, hs⟩
  | seq a b iha ihb =>
    intro S S' h hs
    simp only [rexec] at h
    split at h
    · rename_i S1 h1
      obtain ⟨h2, h3⟩ := iha S S1 h1 hs
      obtain ⟨h4, h5⟩ := ihb S1 S' h h3
      exact ⟨(exec_seq h2).trans h4, h5⟩
    · cases h
  | assign l r =>
    intro S S' h hs
    cases l with
    | cons a b =>
      cases b with
      | nil =>
        simp only [rexec] at h
        split at h
        · rename_i k j p hc
          split at h
          · rename_i x hx
            split at h
            · rename_i D hD
              cases h
              obtain ⟨h1, h2⟩ := store_rset (next := next) hs hD
              refine ⟨?_, h2⟩
              rcases place_rcont (next := next) hr hs _ _ _ hc with ⟨_, h0⟩ | ⟨_, hp⟩
              · cases h0
              · refine exec_assign (ps := [some { B k with path := (B k).path ++ j :: p }]) (m1 := memOf B fr i next S) ?_
                  (evs_pvs (hr.right _ _) hs.seen _ _ (one_some hx)) (storeAll_one h1)
                have : a ≠ .blank := by rintro rfl; simp [rcont] at hc
                cases a <;> first | exact absurd rfl this | (simp only [places, bind_run, hp, pure_run])
            · cases h
          · cases h
        · exact exec_rlocal hr N hs h
      | _ => exact exec_rlocal hr N hs h
    | _ => exact exec_rlocal hr N hs h
  | opAssign o l r =>
    intro S S' h hs
    simp only [rexec] at h
    split at h
    · rename_i k j p hc
      split at h
      · rename_i v b hv hb
        split at h
        · rename_i a ha
          split at h
          · rename_i x hx
            split at h
            · rename_i D hD
              cases h
              obtain ⟨h1, h2⟩ := store_rset (next := next) hs hD
              refine ⟨?_, h2⟩
              rcases place_rcont (next := next) hr hs _ _ _ hc with ⟨_, h0⟩ | ⟨_, hp⟩
              · cases h0
              · have hl := look_puts_self hs.places hv
                have hld : load { B k with path := (B k).path ++ j :: p } (memOf B fr i next S)
                    = .ok (a, memOf B fr i next S) := by
                  obtain ⟨u, e1, e2⟩ := look_inv hl
                  refine load_look (l := { B k with path := (B k).path ++ j :: p }) (hs.places.frame _ v hv) ?_ _
                  simp only [look, e1]
                  rw [get_append _ _ _ _ e2, ha]
                have he : ev X r (memOf B fr i next S) = .ok (b, memOf B fr i next S) :=
                  ev_pvs (hr.right _ _) hs.seen hb
                show (place X l >>= _) _ = _
                rw [bind_of hp, bind_of hld, bind_of he, hx, bind_of (show need (some x) _ = .ok (x, _) from rfl),
                  bind_of h1]
                rfl
            · cases h
          · cases h
        · cases h
      · cases h
    · exact exec_rlocal hr N hs h
  | ite c a b iha ihb =>
    intro S S' h hs
    simp only [rexec] at h
    split at h
    · rename_i x hx
      have he : ev X c (memOf B fr i next S) = .ok (.bool x, memOf B fr i next S) :=
        ev_pvs (hr.right _ _) hs.seen hx
      cases x with
      | true =>
        obtain ⟨h1, h2⟩ := iha S S' h hs
        exact ⟨(exec_ite_true he).trans h1, h2⟩
      | false =>
        obtain ⟨h1, h2⟩ := ihb S S' h hs
        exact ⟨(exec_ite_false he).trans h1, h2⟩
    · cases h
  | block n s ih =>
    intro S S' h hs
    simp only [rexec] at h
    split at h
    · rename_i S1 h1
      split at h
      · rename_i hn
        cases h
        obtain ⟨h2, h3⟩ := ih S S1 h1 hs
        refine ⟨exec_block h2, h3.places, ?_⟩
        intro k v hv
        have hlt : k < S1.1.length := view_lt hv
        have hn' := Nat.le_of_ble_eq_true hn
        have e : (S1.2.take n)[k]? = S1.2[k]? := by rw [List.getElem?_take, if_pos (by omega)]
        rcases h3.points k v hv with hc | ⟨m, g, len, c, rfl, hm, hc⟩
        · exact .inl (e.trans hc)
        · exact .inr ⟨m, g, len, c, rfl, hm, e.trans hc⟩
      · cases h
    · cases h
  | _ =>
    intro S S' h hs
    exact exec_rlocal hr N hs h

end

end Verif.Source.Go
