import Verif.Spec.Sync
import Verif.Proofs.Par
import Mathlib.Data.Nat.Find
import Mathlib.Tactic.ByContra

/-!
Goroutines that synchronise: every execution on the weak memory is one in which sections are executed one after the other.
-/

namespace Verif.Sync

open Verif Verif.Model Verif.Model.C Verif.Model.Par Verif.Model.Sync Verif.Par Verif.Spec Verif.Spec.Par Verif.Spec.Sync

/-! ### Memory -/

theorem get_put (M : Memory) (l : Loc) (v : l.ty) : (M.put l v).get l = v := by
  cases l with
  | go o f =>
    show Verif.Model.Conc.get (if o = o then Verif.Model.Conc.put (M.go o) f v else _) f = v
    rw [if_pos rfl]
    cases f with
    | h i =>
      show Verif.Model.Conc.getH (Verif.Model.Conc.putH (M.go o).h i v) i = v
      revert v
      match i with
      | 0 | 1 | 2 | 3 | 4 => intro v; rfl
    | x i =>
      show ((M.go o).x.1.set i.val v)[i.val]'_ = v
      exact List.getElem_set_self _
    | _ => rfl
  | cgo o f =>
    show cget (if o = o then cput (M.cgo o) f v else _) f = v
    rw [if_pos rfl]
    cases f <;> rfl
  | byte a i => exact if_pos ⟨rfl, rfl⟩
  | dv i => exact if_pos rfl

theorem get_put_other (M : Memory) (l l' : Loc) (v : l.ty) (h : l ≠ l') : (M.put l v).get l' = M.get l' := by
  by_cases e : l'.thing = l.thing
  · cases l with
    | go o f =>
      cases l' with
      | go o' f' =>
        obtain rfl : o' = o := by injection e
        show Verif.Model.Conc.get (if o' = o' then Verif.Model.Conc.put (M.go o') f v else _) f' = _
        rw [if_pos rfl]
        show _ = Verif.Model.Conc.get (M.go o') f'
        cases f with
        | h i =>
          cases f' with
          | h i' =>
            have hne : i ≠ i' := fun e => h (by rw [e])
            show Verif.Model.Conc.getH (Verif.Model.Conc.putH (M.go o').h i v) i' = Verif.Model.Conc.getH (M.go o').h i'
            revert v hne
            match i, i' with
            | 0, 0 | 1, 1 | 2, 2 | 3, 3 | 4, 4 => intro v hne; exact absurd rfl hne
            | 0, 1 | 0, 2 | 0, 3 | 0, 4 | 1, 0 | 1, 2 | 1, 3 | 1, 4 | 2, 0 | 2, 1 | 2, 3 | 2, 4 | 3, 0 | 3, 1 | 3, 2
            | 3, 4 | 4, 0 | 4, 1 | 4, 2 | 4, 3 => intro v _; rfl
          | _ => rfl
        | x i =>
          cases f' with
          | x i' =>
            have hne : i.val ≠ i'.val := fun e => h (by rw [Fin.ext e])
            show ((M.go o').x.1.set i.val v)[i'.val]'_ = (M.go o').x.1[i'.val]'_
            exact List.getElem_set_ne hne _
          | _ => rfl
        | _ => cases f' <;> first | rfl | exact absurd rfl h
      | _ => cases e
    | cgo o f =>
      cases l' with
      | cgo o' f' =>
        obtain rfl : o' = o := by injection e
        show cget (if o' = o' then cput (M.cgo o') f v else _) f' = _
        rw [if_pos rfl]
        show _ = cget (M.cgo o') f'
        cases f <;> cases f' <;> first | rfl | exact absurd rfl h
      | _ => cases e
    | byte a i =>
      cases l' with
      | byte a' i' =>
        injection e with e1 e2
        subst e1; subst e2
        exact absurd rfl h
      | _ => cases e
    | dv i =>
      cases l' with
      | dv i' =>
        injection e with e1
        subst e1
        exact absurd rfl h
      | _ => cases e
  · exact sameAt_get (put_other M l v e)

theorem solo_step {α : Type} (n : Nat) (r : Memory × Prog α) : solo (n + 1) r = (solo n r).2.step (solo n r).1 :=
  solo_add n 1 r

theorem Touches.solo {α : Type} {R W : Thing → Prop} {Q : α → Prop} {p : Prog α} (h : Touches R W Q p) (n : Nat)
    (M : Memory) : Touches R W Q (solo n (M, p)).2 := by
  induction n with
  | zero => exact h
  | succ n ih => rw [solo_step]; exact ih.step _

/-- Code does the same on memories that agree on what it uses. -/
theorem solo_same {α : Type} {R W : Thing → Prop} {Q : α → Prop} {p : Prog α} (h : Touches R W Q p) {M M' : Memory}
    (hM : ∀ t, R t → SameAt M M' t) (n : Nat) :
    (solo n (M, p)).2 = (solo n (M', p)).2 ∧ ∀ t, R t → SameAt (solo n (M, p)).1 (solo n (M', p)).1 t := by
  induction n with
  | zero => exact ⟨rfl, hM⟩
  | succ n ih =>
    have ht := Touches.solo h n M
    rw [solo_step, solo_step, ← ih.1]
    cases hp : (solo n (M, p)).2 with
    | ret a => exact ⟨rfl, ih.2⟩
    | panic e => exact ⟨rfl, ih.2⟩
    | rd l k =>
      rw [hp] at ht
      refine ⟨?_, ih.2⟩
      show k _ = k _
      rw [sameAt_get (ih.2 _ ht.1)]
    | wr l v k =>
      refine ⟨rfl, fun t hq => ?_⟩
      show SameAt (Memory.put _ l v) (Memory.put _ l v) t
      by_cases e : t = l.thing
      · subst e; exact put_same l v (ih.2 _ hq)
      · exact sameAt_trans (put_other _ l v e) (sameAt_trans (ih.2 t hq) (sameAt_symm (put_other _ l v e)))

/-- Code leaves what it does not write. -/
theorem solo_frame {α : Type} {R W : Thing → Prop} {Q : α → Prop} {p : Prog α} (h : Touches R W Q p) (M : Memory)
    (n : Nat) {t : Thing} (ht : ¬ W t) : SameAt (solo n (M, p)).1 M t := by
  induction n with
  | zero => exact sameAt_refl _ _
  | succ n ih =>
    have hT := Touches.solo h n M
    rw [solo_step]
    cases hp : (solo n (M, p)).2 with
    | ret a => exact ih
    | panic e => exact ih
    | rd l k => exact ih
    | wr l v k =>
      rw [hp] at hT
      exact sameAt_trans (put_other _ l v fun e => ht (e ▸ hT.1)) ih

theorem whole_eq {α : Type} (p : Prog α) : ∀ M : Memory, Model.Sync.whole M p = alone M p := by
  induction p with
  | ret a => intro M; rfl
  | panic e => intro M; rfl
  | rd l k ih => intro M; exact ih _ M
  | wr l v k ih => intro M; exact ih _

theorem whole_of_solo {α : Type} (n : Nat) : ∀ (M : Memory) (p : Prog α) (a : α), (solo n (M, p)).2 = .ret a →
    Model.Sync.whole M p = .ok ((solo n (M, p)).1, a) := by
  induction n with
  | zero => intro M p a h; cases (show p = .ret a from h); rfl
  | succ n ih =>
    intro M p a h
    cases p with
    | ret b => exact ih M (.ret b) a h
    | panic e => exact ih M (.panic e) a h
    | rd l k => exact ih M (k (M.get l)) a h
    | wr l v k => exact ih (M.put l v) k a h

theorem whole_panic_of_solo {α : Type} (n : Nat) : ∀ (M : Memory) (p : Prog α) (e : Panic),
    (solo n (M, p)).2 = .panic e → Model.Sync.whole M p = .error e := by
  induction n with
  | zero => intro M p a h; cases (show p = .panic a from h); rfl
  | succ n ih =>
    intro M p a h
    cases p with
    | ret b => exact ih M (.ret b) a h
    | panic e => exact ih M (.panic e) a h
    | rd l k => exact ih M (k (M.get l)) a h
    | wr l v k => exact ih (M.put l v) k a h

/-! ### Views -/

/-- `V'` has everything that `V` has. -/
def le (V V' : View) : Prop := ∀ l, (V l).1 ≤ (V' l).1

theorem le_refl (V : View) : le V V := fun _ => Nat.le_refl _

theorem le_trans {V V' V'' : View} (h : le V V') (h' : le V' V'') : le V V'' := fun l => Nat.le_trans (h l) (h' l)

theorem le_join_left (V V' : View) : le V (V.join V') := fun l => by
  unfold View.join
  split <;> omega

theorem le_join_right (V V' : View) : le V' (V.join V') := fun l => by
  unfold View.join
  split <;> omega

theorem le_joins (f : Nat × Nat → View) (xs : List (Nat × Nat)) : ∀ V : View,
    le V (xs.foldl (fun V x => V.join (f x)) V) ∧ ∀ x ∈ xs, le (f x) (xs.foldl (fun V x => V.join (f x)) V) := by
  induction xs with
  | nil => intro V; exact ⟨le_refl _, by simp⟩
  | cons x xs ih =>
    intro V
    obtain ⟨h1, h2⟩ := ih (V.join (f x))
    refine ⟨le_trans (le_join_left _ _) h1, fun y hy => ?_⟩
    rcases List.mem_cons.1 hy with rfl | hy
    · exact le_trans (le_join_right _ _) h1
    · exact h2 y hy

theorem set_same (V : View) (l : Loc) (x : Nat × l.ty) : V.set l x l = x := by
  unfold View.set; rw [dif_pos rfl]

theorem set_other (V : View) (l l' : Loc) (x : Nat × l.ty) (h : l ≠ l') : V.set l x l' = V l' := by
  unfold View.set; rw [dif_neg h]

theorem le_set (V : View) (l : Loc) (x : Nat × l.ty) (h : (V l).1 ≤ x.1) : le V (V.set l x) := fun l' => by
  by_cases e : l = l'
  · subst e; rw [set_same]; exact h
  · rw [set_other _ _ _ _ e]

theorem setAt_same {α : Type} (f : Nat → α) (i : Nat) (a : α) : setAt f i a i = a := if_pos rfl

theorem setAt_other {α : Type} (f : Nat → α) {i j : Nat} (a : α) (h : j ≠ i) : setAt f i a j = f j := if_neg h

/-! ### Who may go on -/

/-- What goroutine `j` gets when it takes mutex `m`, or has already if it holds it. -/
def src (c : State) (m : Nat) : View :=
  match c.held m with
  | some j => c.view j
  | none => c.left m

/-- All that comes before section `y` is over and in view `V`. -/
def Known (gs : Nat → List Section) (c : State) (y : Nat × Nat) (V : View) : Prop :=
  ∀ x, Before gs x y → x.2 < (c.done x.1).length ∧ le (c.sent x.1 x.2) V

/-- The section a goroutine is in. -/
def In (gs : Nat → List Section) (c : State) (i : Nat) (s : Section) : Prop :=
  c.now i ≠ none ∧ (gs i)[(c.done i).length]? = some s

structure Ctl (gs : Nat → List Section) (c : State) : Prop where
  sec : ∀ i, c.now i ≠ none → ∃ s, (gs i)[(c.done i).length]? = some s
  held : ∀ m j, c.held m = some j ↔ ∃ s, In gs c j s ∧ s.lock = some m
  own : ∀ i k, k < (c.done i).length → le (c.sent i k) (c.view i)
  run : ∀ i, c.now i ≠ none → Known gs c (i, (c.done i).length) (c.view i)
  com : ∀ i k, k < (c.done i).length → Known gs c (i, k) (c.sent i k)
  lock : ∀ i k s m, (gs i)[k]? = some s → s.lock = some m → k < (c.done i).length → le (c.sent i k) (src c m)
  len : ∀ i, (c.done i).length ≤ (gs i).length

theorem Ctl.init (gs : Nat → List Section) (M : Memory) : Ctl gs (State.init M) where
  sec := fun i h => absurd rfl h
  held := fun m j => ⟨fun h => (by cases h), fun ⟨s, h, _⟩ => absurd rfl h.1⟩
  own := fun i k h => absurd h (Nat.not_lt_zero _)
  run := fun i h => absurd rfl h
  com := fun i k h => absurd h (Nat.not_lt_zero _)
  lock := fun i k s m _ _ h => absurd h (Nat.not_lt_zero _)
  len := fun i => Nat.zero_le _

/-- Two goroutines that are in sections at the same time do not touch what the other one changes. -/
theorem Ctl.apart {gs : Nat → List Section} (hs : Synced gs) {c : State} (h : Ctl gs c) {i j : Nat} (hij : i ≠ j)
    {s s' : Section} (hi : In gs c i s) (hj : In gs c j s') {t : Thing} (hc : ChangesL s.acts t) :
    ¬ UsesL s'.acts t := by
  intro hu
  rcases hs (i, _) (j, _) s s' t hij hi.2 hj.2 hc hu with ⟨m, h1, h2⟩ | hb | hb
  · have a := (h.held m i).2 ⟨s, hi, h1⟩
    have b := (h.held m j).2 ⟨s', hj, h2⟩
    rw [a] at b
    exact hij (Option.some.inj b)
  · exact absurd (h.run j hj.1 _ hb).1 (Nat.lt_irrefl _)
  · exact absurd (h.run i hi.1 _ hb).1 (Nat.lt_irrefl _)

/-- Views may grow. -/
theorem Ctl.grow {gs : Nat → List Section} {c c' : State} (h : Ctl gs c) (h1 : c'.held = c.held) (h2 : c'.left = c.left)
    (h3 : c'.done = c.done) (h4 : c'.sent = c.sent) (h5 : ∀ i, c'.now i ≠ none ↔ c.now i ≠ none)
    (h6 : ∀ i, le (c.view i) (c'.view i)) : Ctl gs c' := by
  refine ⟨fun i hi => ?_, fun m j => ?_, fun i k hk => ?_, fun i hi => ?_, fun i k hk => ?_, fun i k s m hs hm hk => ?_,
    fun i => ?_⟩
  · rw [h3]; exact h.sec i ((h5 i).1 hi)
  · rw [h1, h.held]
    unfold In
    rw [h3]
    simp only [h5]
  · rw [h3] at hk; rw [h4]; exact le_trans (h.own i k hk) (h6 i)
  · intro x hx
    rw [h3] at hx ⊢
    rw [h4]
    obtain ⟨a, b⟩ := h.run i ((h5 i).1 hi) x hx
    exact ⟨a, le_trans b (h6 i)⟩
  · intro x hx
    rw [h3] at hk ⊢
    rw [h4]
    exact h.com i k hk x hx
  · rw [h3] at hk
    rw [h4]
    refine le_trans (h.lock i k s m hs hm hk) ?_
    unfold src
    rw [h1, h2]
    cases c.held m with
    | none => exact le_refl _
    | some j => exact h6 j
  · rw [h3]; exact h.len i

theorem ready_lock {c : State} {s : Section} (h : c.ready s = true) {m : Nat} (hm : s.lock = some m) :
    c.held m = none := by
  unfold State.ready at h
  rw [hm] at h
  simp only [Bool.and_eq_true] at h
  exact Option.isNone_iff_eq_none.1 h.1

theorem ready_waits {c : State} {s : Section} (h : c.ready s = true) {x : Nat × Nat} (hx : x ∈ s.waits) :
    x.2 < (c.done x.1).length := by
  unfold State.ready at h
  simp only [Bool.and_eq_true] at h
  exact of_decide_eq_true (List.all_eq_true.1 h.2 x hx)

/-- The view with which a section begins. -/
def beginView (c : State) (i : Nat) (s : Section) : View :=
  s.waits.foldl (fun V x => V.join (c.sent x.1 x.2)) (match s.lock with
    | some m => (c.view i).join (c.left m)
    | none => c.view i)

theorem begin_view (blk : List DvInfo → BlockFn) (cfg : Plat) (c : State) (i : Nat) (s : Section) :
    (c.begin blk cfg i s).view = setAt c.view i (beginView c i s) := rfl

theorem le_beginView (c : State) (i : Nat) (s : Section) : le (c.view i) (beginView c i s) := by
  refine le_trans ?_ (le_joins _ _ _).1
  cases s.lock with
  | none => exact le_refl _
  | some m => exact le_join_left _ _

theorem le_beginView_lock (c : State) (i : Nat) (s : Section) {m : Nat} (hm : s.lock = some m) :
    le (c.left m) (beginView c i s) := by
  refine le_trans ?_ (le_joins _ _ _).1
  rw [hm]
  exact le_join_right _ _

theorem le_beginView_waits (c : State) (i : Nat) (s : Section) {x : Nat × Nat} (hx : x ∈ s.waits) :
    le (c.sent x.1 x.2) (beginView c i s) := (le_joins (fun x => c.sent x.1 x.2) _ _).2 x hx

theorem Ctl.begin {gs : Nat → List Section} (blk : List DvInfo → BlockFn) (cfg : Plat) {c : State} (h : Ctl gs c)
    {i : Nat} {s : Section} (hi : c.now i = none) (hs : (gs i)[(c.done i).length]? = some s) (hr : c.ready s = true) :
    Ctl gs (c.begin blk cfg i s) := by
  have hv : ∀ j, le (c.view j) ((c.begin blk cfg i s).view j) := by
    intro j
    rw [begin_view]
    by_cases e : j = i
    · subst e; rw [setAt_same]; exact le_beginView _ _ _
    · rw [setAt_other _ _ e]; exact le_refl _
  have hn : ∀ j, (c.begin blk cfg i s).now j ≠ none ↔ j = i ∨ c.now j ≠ none := by
    intro j
    show setAt c.now i _ j ≠ none ↔ _
    by_cases e : j = i
    · subst e; rw [setAt_same]; simp
    · rw [setAt_other _ _ e]; simp [e]
  have hin : ∀ j s', In gs (c.begin blk cfg i s) j s' ↔ (j = i ∧ s' = s) ∨ In gs c j s' := by
    intro j s'
    unfold In
    rw [hn]
    show _ ∧ (gs j)[(c.done j).length]? = some s' ↔ _
    constructor
    · rintro ⟨rfl | a, b⟩
      · rw [hs] at b; exact .inl ⟨rfl, (Option.some.inj b).symm⟩
      · exact .inr ⟨a, b⟩
    · rintro (⟨rfl, rfl⟩ | ⟨a, b⟩)
      · exact ⟨.inl rfl, hs⟩
      · exact ⟨.inr a, b⟩
  refine ⟨fun j hj => ?_, fun m j => ?_, fun j k hk => le_trans (h.own j k hk) (hv j), fun j hj => ?_,
    fun j k hk x hx => h.com j k hk x hx, fun j k s' m hs' hm hk => ?_, h.len⟩
  · rcases (hn j).1 hj with rfl | e
    · exact ⟨s, hs⟩
    · exact h.sec j e
  · simp only [hin]
    show (match s.lock with
      | some m => setAt c.held m (some i)
      | none => c.held) m = some j ↔ _
    cases hl : s.lock with
    | none =>
      simp only
      rw [h.held]
      constructor
      · rintro ⟨s', a, b⟩; exact ⟨s', .inr a, b⟩
      · rintro ⟨s', ⟨rfl, rfl⟩ | a, b⟩
        · rw [hl] at b; cases b
        · exact ⟨s', a, b⟩
    | some m' =>
      simp only
      by_cases e : m = m'
      · subst e
        rw [setAt_same]
        constructor
        · intro a; cases a; exact ⟨s, .inl ⟨rfl, rfl⟩, hl⟩
        · rintro ⟨s', ⟨rfl, rfl⟩ | a, b⟩
          · rfl
          · have := (h.held m j).2 ⟨s', a, b⟩
            rw [ready_lock hr hl] at this
            cases this
      · rw [setAt_other _ _ e, h.held]
        constructor
        · rintro ⟨s', a, b⟩; exact ⟨s', .inr a, b⟩
        · rintro ⟨s', ⟨rfl, rfl⟩ | a, b⟩
          · rw [hl] at b; cases b; exact absurd rfl e
          · exact ⟨s', a, b⟩
  · rcases (hn j).1 hj with rfl | e
    · intro x hx
      show x.2 < (c.done x.1).length ∧ le (c.sent x.1 x.2) (setAt c.view j (beginView c j s) j)
      rw [setAt_same]
      have key : ∀ z, Direct gs z (j, (c.done j).length) →
          z.2 < (c.done z.1).length ∧ le (c.sent z.1 z.2) (beginView c j s) := by
        rintro ⟨z1, z2⟩ (⟨a, b⟩ | ⟨s', a, b⟩)
        · dsimp only at a b ⊢
          subst a
          have : z2 < (c.done z1).length := by omega
          exact ⟨this, le_trans (h.own z1 z2 this) (le_beginView _ _ _)⟩
        · rw [show (gs j)[(c.done j).length]? = some s' from a] at hs
          cases hs
          exact ⟨ready_waits hr b, le_beginView_waits _ _ _ b⟩
      rcases Relation.TransGen.tail'_iff.1 hx with ⟨z, hxz, hz⟩
      obtain ⟨a, b⟩ := key z hz
      rcases Relation.reflTransGen_iff_eq_or_transGen.1 hxz with rfl | hxz
      · exact ⟨a, b⟩
      · obtain ⟨a', b'⟩ := h.com z.1 z.2 a x hxz
        exact ⟨a', le_trans b' b⟩
    · intro x hx
      obtain ⟨a, b⟩ := h.run j e x hx
      exact ⟨a, le_trans b (hv j)⟩
  · refine le_trans (h.lock j k s' m hs' hm hk) ?_
    unfold src
    show le _ (match (match s.lock with
      | some m => setAt c.held m (some i)
      | none => c.held) m with
      | some j => (c.begin blk cfg i s).view j
      | none => c.left m)
    have old : le (match c.held m with
        | some j => c.view j
        | none => c.left m) (match c.held m with
        | some j => (c.begin blk cfg i s).view j
        | none => c.left m) := by
      cases c.held m with
      | none => exact le_refl _
      | some j => exact hv j
    cases hl : s.lock with
    | none => exact old
    | some m' =>
      by_cases e : m = m'
      · subst e
        simp only [setAt_same]
        rw [ready_lock hr hl]
        rw [begin_view, setAt_same]
        exact le_beginView_lock _ _ _ hl
      · simp only [setAt_other _ _ e]
        exact old

theorem Ctl.finish {gs : Nat → List Section} {c : State} (h : Ctl gs c) {i : Nat} {s : Section} {rs : List Res}
    (hi : In gs c i s) : Ctl gs (c.finish i s rs) := by
  have hd : ∀ j, ((c.finish i s rs).done j).length = if j = i then (c.done i).length + 1 else (c.done j).length := by
    intro j
    show (setAt c.done i _ j).length = _
    by_cases e : j = i
    · subst e; rw [setAt_same, if_pos rfl, List.length_append]; rfl
    · rw [setAt_other _ _ e, if_neg e]
  have hold : ∀ x : Nat × Nat, x.2 < (c.done x.1).length →
      x.2 < ((c.finish i s rs).done x.1).length ∧ (c.finish i s rs).sent x.1 x.2 = c.sent x.1 x.2 := by
    intro x hx
    rw [hd]
    refine ⟨?_, ?_⟩
    · split
      · rename_i e; rw [e] at hx; omega
      · exact hx
    · show setAt c.sent i _ x.1 x.2 = _
      by_cases e : x.1 = i
      · rw [e, setAt_same, setAt_other]
        rw [e] at hx; omega
      · rw [setAt_other _ _ e]
  have hnew : (c.finish i s rs).sent i (c.done i).length = c.view i := by
    show setAt c.sent i _ i _ = _
    rw [setAt_same, setAt_same]
  have hcase : ∀ j k, k < ((c.finish i s rs).done j).length → k < (c.done j).length ∨ (j = i ∧ k = (c.done i).length) := by
    intro j k hk
    rw [hd] at hk
    split at hk
    · rename_i e; subst e
      by_cases e : k = (c.done j).length
      · exact .inr ⟨rfl, e⟩
      · exact .inl (by omega)
    · exact .inl hk
  have hknown : ∀ y V, Known gs c y V → Known gs (c.finish i s rs) y V := by
    intro y V hk x hx
    obtain ⟨a, b⟩ := hk x hx
    obtain ⟨a', b'⟩ := hold x a
    exact ⟨a', b' ▸ b⟩
  have hin : ∀ j s', In gs (c.finish i s rs) j s' ↔ j ≠ i ∧ In gs c j s' := by
    intro j s'
    unfold In
    rw [hd]
    show setAt c.now i none j ≠ none ∧ _ ↔ _
    by_cases e : j = i
    · subst e; rw [setAt_same]; simp
    · rw [setAt_other _ _ e, if_neg e]; simp [e]
  have hsrc : ∀ m, src (c.finish i s rs) m = src c m := by
    intro m
    unfold src
    show (match (match s.lock with
      | some m => setAt c.held m none
      | none => c.held) m with
      | some j => c.view j
      | none => (match s.lock with
        | some m => setAt c.left m (c.view i)
        | none => c.left) m) = _
    cases hl : s.lock with
    | none => rfl
    | some m' =>
      by_cases e : m = m'
      · subst e
        simp only [setAt_same]
        rw [(h.held m i).2 ⟨s, hi, hl⟩]
      · simp only [setAt_other _ _ e]
  refine ⟨fun j hj => ?_, fun m j => ?_, fun j k hk => ?_, fun j hj => ?_, fun j k hk => ?_,
    fun j k s' m hs' hm hk => ?_, fun j => ?_⟩
  · have hj' : setAt c.now i none j ≠ none := hj
    by_cases e : j = i
    · subst e; rw [setAt_same] at hj'; exact absurd rfl hj'
    · rw [setAt_other _ _ e] at hj'
      rw [hd, if_neg e]
      exact h.sec j hj'
  · simp only [hin]
    show (match s.lock with
      | some m => setAt c.held m none
      | none => c.held) m = some j ↔ _
    have old : s.lock ≠ some m → (c.held m = some j ↔ ∃ s', (j ≠ i ∧ In gs c j s') ∧ s'.lock = some m) := by
      intro hne
      rw [h.held]
      constructor
      · rintro ⟨s', a, b⟩
        refine ⟨s', ⟨?_, a⟩, b⟩
        rintro rfl
        have := a.2.symm.trans hi.2
        cases this
        exact hne b
      · rintro ⟨s', ⟨_, a⟩, b⟩; exact ⟨s', a, b⟩
    cases hl : s.lock with
    | none => exact old (by rw [hl]; simp)
    | some m' =>
      by_cases e : m = m'
      · subst e
        simp only [setAt_same]
        constructor
        · intro a; cases a
        · rintro ⟨s', ⟨a, b⟩, d⟩
          have h1 := (h.held m i).2 ⟨s, hi, hl⟩
          have h2 := (h.held m j).2 ⟨s', b, d⟩
          rw [h1] at h2
          exact absurd (Option.some.inj h2).symm a
      · simp only [setAt_other _ _ e]
        exact old (by rw [hl]; simpa using fun a => e a.symm)
  · show le _ (c.view j)
    rcases hcase j k hk with hk | ⟨rfl, rfl⟩
    · rw [(hold (j, k) hk).2]; exact h.own j k hk
    · rw [hnew]; exact le_refl _
  · have hj' : setAt c.now i none j ≠ none := hj
    by_cases e : j = i
    · subst e; rw [setAt_same] at hj'; exact absurd rfl hj'
    · rw [setAt_other _ _ e] at hj'
      rw [hd, if_neg e]
      exact hknown _ _ (h.run j hj')
  · rcases hcase j k hk with hk | ⟨rfl, rfl⟩
    · rw [(hold (j, k) hk).2]; exact hknown _ _ (h.com j k hk)
    · rw [hnew]; exact hknown _ _ (h.run j hi.1)
  · rw [hsrc]
    rcases hcase j k hk with hk | ⟨rfl, rfl⟩
    · rw [(hold (j, k) hk).2]; exact h.lock j k s' m hs' hm hk
    · rw [hnew]
      obtain rfl : s' = s := Option.some.inj (hs'.symm.trans hi.2)
      unfold src
      rw [(h.held m j).2 ⟨s', hi, hm⟩]
      exact le_refl _
  · rw [hd]
    split
    · rename_i e; subst e
      have := List.getElem?_eq_some_iff.1 hi.2
      obtain ⟨a, _⟩ := this
      omega
    · exact h.len j

/-! ### What is newest -/

/-- The entries of a view are writes that were made: at most the newest, `N l`, and that with the newest value. -/
def Good (G : Memory) (N : Loc → Nat) (V : View) : Prop := ∀ l, (V l).1 ≤ N l ∧ ((V l).1 = N l → (V l).2 = G.get l)

theorem Good.join {G : Memory} {N : Loc → Nat} {V V' : View} (h : Good G N V) (h' : Good G N V') :
    Good G N (V.join V') := fun l => by
  unfold View.join
  split
  · exact h' l
  · exact h l

theorem Good.joins {G : Memory} {N : Loc → Nat} (f : Nat × Nat → View) (hf : ∀ x, Good G N (f x)) (xs : List (Nat × Nat)) :
    ∀ {V : View}, Good G N V → Good G N (xs.foldl (fun V x => V.join (f x)) V) := by
  induction xs with
  | nil => intro V h; exact h
  | cons x xs ih => intro V h; exact ih (h.join (hf x))

theorem Good.set {G : Memory} {N : Loc → Nat} {V : View} (h : Good G N V) (l : Loc) (x : Nat × l.ty) (h1 : x.1 ≤ N l)
    (h2 : x.1 = N l → x.2 = G.get l) : Good G N (V.set l x) := fun l' => by
  by_cases e : l = l'
  · subst e; rw [set_same]; exact ⟨h1, h2⟩
  · rw [set_other _ _ _ _ e]; exact h l'

/-- The numbers of the newest writes after write `n` to `l`. -/
def newN (N : Loc → Nat) (l : Loc) (n : Nat) : Loc → Nat := fun l' => if l = l' then n else N l'

theorem Good.put {G : Memory} {N : Loc → Nat} {V : View} (h : Good G N V) (l : Loc) (v : l.ty) (n : Nat) (hn : N l < n) :
    Good (G.put l v) (newN N l n) V := fun l' => by
  unfold newN
  by_cases e : l = l'
  · subst e
    rw [if_pos rfl]
    have := (h l).1
    exact ⟨by omega, fun e => absurd e (by omega)⟩
  · rw [if_neg e, get_put_other _ _ _ _ e]; exact h l'

structure Fresh (gs : Nat → List Section) (c : State) (G : Memory) (N : Loc → Nat) : Prop where
  clock : ∀ l, N l ≤ c.clock
  view : ∀ i, Good G N (c.view i)
  left : ∀ m, Good G N (c.left m)
  sent : ∀ i k, Good G N (c.sent i k)
  log : ∀ x ∈ c.log, x.2.1 ≤ N x.1 ∧ (x.2.1 = N x.1 → x.2.2 = G.get x.1)
  last : ∀ l, N l ≠ 0 → ∃ (x : Nat × Nat) (s : Section), (gs x.1)[x.2]? = some s ∧ ChangesL s.acts l.thing ∧
    ((x.2 < (c.done x.1).length ∧ N l ≤ (c.sent x.1 x.2 l).1) ∨
      (x.2 = (c.done x.1).length ∧ c.now x.1 ≠ none ∧ N l ≤ (c.view x.1 l).1))

theorem Fresh.init (gs : Nat → List Section) (M : Memory) : Fresh gs (State.init M) M fun _ => 0 where
  clock := fun _ => Nat.le_refl _
  view := fun _ _ => ⟨Nat.le_refl _, fun _ => rfl⟩
  left := fun _ _ => ⟨Nat.le_refl _, fun _ => rfl⟩
  sent := fun _ _ _ => ⟨Nat.le_refl _, fun _ => rfl⟩
  log := fun x hx => by cases hx
  last := fun _ h => absurd rfl h

/-- A goroutine in a section reads the newest value of everything the section uses. -/
theorem Fresh.newest {gs : Nat → List Section} (hs : Synced gs) {c : State} (hc : Ctl gs c) {G : Memory} {N : Loc → Nat}
    (h : Fresh gs c G N) {i : Nat} {s : Section} (hi : In gs c i s) {l : Loc} (hl : UsesL s.acts l.thing) :
    (c.view i l).2 = G.get l := by
  refine (h.view i l).2 (Nat.le_antisymm (h.view i l).1 ?_)
  by_cases h0 : N l = 0
  · omega
  obtain ⟨x, s', hx, hch, hcase⟩ := h.last l h0
  by_cases e : x.1 = i
  · rcases hcase with ⟨a, b⟩ | ⟨_, _, b⟩
    · rw [← e]; exact Nat.le_trans b (hc.own x.1 x.2 a l)
    · rw [← e]; exact b
  · rcases hs x (i, _) s' s _ e hx hi.2 hch hl with ⟨m, h1, h2⟩ | hb | hb
    · have hm := (hc.held m i).2 ⟨s, hi, h2⟩
      rcases hcase with ⟨a, b⟩ | ⟨a, a', b⟩
      · have := hc.lock x.1 x.2 s' m hx h1 a l
        unfold src at this
        rw [hm] at this
        exact Nat.le_trans b this
      · have := (hc.held m x.1).2 ⟨s', ⟨a', a ▸ hx⟩, h1⟩
        rw [hm] at this
        exact absurd (Option.some.inj this).symm e
    · obtain ⟨a, b⟩ := hc.run i hi.1 x hb
      rcases hcase with ⟨_, d⟩ | ⟨d, _⟩
      · exact Nat.le_trans d (b l)
      · omega
    · rcases hcase with ⟨a, _⟩ | ⟨a, a', _⟩
      · exact absurd (hc.com x.1 x.2 a _ hb).1 (Nat.lt_irrefl _)
      · have := hc.run x.1 a'
        rw [← a] at this
        exact absurd (this _ hb).1 (Nat.lt_irrefl _)

theorem Fresh.begin {gs : Nat → List Section} (blk : List DvInfo → BlockFn) (cfg : Plat) {c : State} {G : Memory}
    {N : Loc → Nat} (h : Fresh gs c G N) {i : Nat} {s : Section} : Fresh gs (c.begin blk cfg i s) G N := by
  refine ⟨h.clock, fun j => ?_, h.left, h.sent, h.log, fun l hl => ?_⟩
  · rw [begin_view]
    by_cases e : j = i
    · subst e; rw [setAt_same]
      refine Good.joins _ (fun x => h.sent x.1 x.2) _ ?_
      cases s.lock with
      | none => exact h.view j
      | some m => exact (h.view j).join (h.left m)
    · rw [setAt_other _ _ e]; exact h.view j
  · obtain ⟨x, s', hx, hch, hcase⟩ := h.last l hl
    refine ⟨x, s', hx, hch, hcase.imp id fun ⟨a, b, d⟩ => ⟨a, ?_, ?_⟩⟩
    · show setAt c.now i _ x.1 ≠ none
      by_cases e : x.1 = i
      · rw [e, setAt_same]; simp
      · rw [setAt_other _ _ e]; exact b
    · rw [begin_view]
      by_cases e : x.1 = i
      · rw [e] at d ⊢
        rw [setAt_same]; exact Nat.le_trans d (le_beginView _ _ _ l)
      · rw [setAt_other _ _ e]; exact d

theorem Fresh.finish {gs : Nat → List Section} {c : State} {G : Memory} {N : Loc → Nat} (h : Fresh gs c G N) {i : Nat}
    {s : Section} {rs : List Res} : Fresh gs (c.finish i s rs) G N := by
  refine ⟨h.clock, h.view, fun m => ?_, fun j k => ?_, h.log, fun l hl => ?_⟩
  · show Good G N ((match s.lock with
      | some m => setAt c.left m (c.view i)
      | none => c.left) m)
    cases s.lock with
    | none => exact h.left m
    | some m' =>
      by_cases e : m = m'
      · subst e; simp only [setAt_same]; exact h.view i
      · simp only [setAt_other _ _ e]; exact h.left m
  · show Good G N (setAt c.sent i _ j k)
    by_cases e : j = i
    · subst e; rw [setAt_same]
      by_cases e' : k = (c.done j).length
      · subst e'; rw [setAt_same]; exact h.view j
      · rw [setAt_other _ _ e']; exact h.sent j k
    · rw [setAt_other _ _ e]; exact h.sent j k
  · obtain ⟨x, s', hx, hch, hcase⟩ := h.last l hl
    refine ⟨x, s', hx, hch, ?_⟩
    show (x.2 < (setAt c.done i _ x.1).length ∧ N l ≤ (setAt c.sent i _ x.1 x.2 l).1) ∨
      (x.2 = (setAt c.done i _ x.1).length ∧ setAt c.now i none x.1 ≠ none ∧ N l ≤ (c.view x.1 l).1)
    by_cases e : x.1 = i
    · left
      rw [e] at hcase ⊢
      rw [setAt_same, setAt_same, List.length_append]
      rcases hcase with ⟨a, b⟩ | ⟨a, _, b⟩
      · rw [setAt_other _ _ (by omega)]
        exact ⟨by simp; omega, b⟩
      · rw [a, setAt_same]
        exact ⟨by simp, b⟩
    · rw [setAt_other _ _ e, setAt_other _ _ e, setAt_other _ _ e]; exact hcase

theorem Fresh.write {gs : Nat → List Section} {c : State} {G : Memory} {N : Loc → Nat} (h : Fresh gs c G N) {i : Nat}
    {s : Section} (hi : In gs c i s) {l : Loc} {v : l.ty} {k : Prog (List Res)} (hl : ChangesL s.acts l.thing) :
    Fresh gs { c with
        clock := c.clock + 1
        log := c.log ++ [⟨l, c.clock + 1, v⟩]
        view := setAt c.view i ((c.view i).set l (c.clock + 1, v))
        now := setAt c.now i (some k) } (G.put l v) (newN N l (c.clock + 1)) := by
  have hlt : N l < c.clock + 1 := Nat.lt_succ_of_le (h.clock l)
  have hN : newN N l (c.clock + 1) l = c.clock + 1 := if_pos rfl
  refine ⟨fun l' => ?_, fun j => ?_, fun m => (h.left m).put l v _ hlt, fun j k => (h.sent j k).put l v _ hlt,
    fun x hx => ?_, fun l' hl' => ?_⟩
  · show newN N l (c.clock + 1) l' ≤ c.clock + 1
    unfold newN
    split
    · exact Nat.le_refl _
    · exact Nat.le_succ_of_le (h.clock l')
  · show Good _ _ (setAt c.view i _ j)
    by_cases e : j = i
    · subst e; rw [setAt_same]
      exact ((h.view j).put l v _ hlt).set l _ (Nat.le_of_eq hN.symm) fun _ => (get_put _ _ _).symm
    · rw [setAt_other _ _ e]; exact (h.view j).put l v _ hlt
  · rcases List.mem_append.1 hx with hx | hx
    · have := h.log x hx
      unfold newN
      by_cases e : l = x.1
      · rw [if_pos e]
        have hk := h.clock x.1
        exact ⟨by omega, fun e => absurd e (by omega)⟩
      · rw [if_neg e, get_put_other _ _ _ _ e]; exact this
    · rw [List.mem_singleton] at hx
      subst hx
      exact ⟨Nat.le_of_eq hN.symm, fun _ => (get_put _ _ _).symm⟩
  · by_cases e : l = l'
    · subst e
      refine ⟨(i, (c.done i).length), s, hi.2, hl, .inr ⟨rfl, ?_, ?_⟩⟩
      · show setAt c.now i _ i ≠ none
        rw [setAt_same]; simp
      · show newN N l (c.clock + 1) l ≤ (setAt c.view i _ i l).1
        rw [setAt_same, set_same, hN]
    · have hN' : newN N l (c.clock + 1) l' = N l' := if_neg e
      rw [hN'] at hl' ⊢
      obtain ⟨x, s', hx, hch, hcase⟩ := h.last l' hl'
      refine ⟨x, s', hx, hch, hcase.imp id fun ⟨a, b, d⟩ => ⟨a, ?_, ?_⟩⟩
      · show setAt c.now i _ x.1 ≠ none
        by_cases e : x.1 = i
        · rw [e, setAt_same]; simp
        · rw [setAt_other _ _ e]; exact b
      · show _ ≤ (setAt c.view i _ x.1 l').1
        by_cases e' : x.1 = i
        · rw [e'] at d ⊢
          rw [setAt_same, set_other _ _ _ _ e]; exact d
        · rw [setAt_other _ _ e']; exact d

/-! ### One section after the other -/

/-- The code of a section. -/
abbrev secCode (B : Build) (cfg : Plat) (s : Section) : Prog (List Res) := goroutine (fun t => B.blockWith t) cfg s.acts

structure Ser (B : Build) (cfg : Plat) (gs : Nat → List Section) (M : Memory) (c : State) (G S : Memory)
    (τ : List (Nat × Nat)) (outs : List (Nat × List Res)) : Prop where
  order : Order gs (fun i => (c.done i).length) τ
  one : oneByOne B cfg gs M τ = .ok (S, outs)
  res : ∀ i, resultsOf i outs = c.done i
  code : ∀ i p s, c.now i = some p → In gs c i s → Touches (UsesL s.acts) (ChangesL s.acts) Any p ∧
    ∃ n, (solo n (S, secCode B cfg s)).2 = p ∧ ∀ t, UsesL s.acts t → SameAt G (solo n (S, secCode B cfg s)).1 t
  rest : ∀ t, (∀ i s, In gs c i s → ¬ ChangesL s.acts t) → SameAt G S t

theorem Ser.init (B : Build) (cfg : Plat) (gs : Nat → List Section) (M : Memory) :
    Ser B cfg gs M (State.init M) M M [] [] where
  order := ⟨fun i => rfl, fun a y b h => by simp at h⟩
  one := rfl
  res := fun i => rfl
  code := fun i p s h => by cases h
  rest := fun t _ => sameAt_refl _ _

theorem ChangesL.uses {cs : List Act} {t : Thing} : ChangesL cs t → UsesL cs t := fun ⟨c, h, h'⟩ => ⟨c, h, .inr h'⟩

theorem oneByOne_cons (B : Build) (cfg : Plat) (gs : Nat → List Section) (M : Memory) (x : Nat × Nat)
    (τ : List (Nat × Nat)) : oneByOne B cfg gs M (x :: τ) =
      (Model.Sync.whole M (goroutine (fun t => B.blockWith t) cfg (actsOf gs x)) >>= fun r =>
        oneByOne B cfg gs r.1 τ >>= fun rs => pure (rs.1, (x.1, r.2) :: rs.2)) := rfl

theorem oneByOne_append (B : Build) (cfg : Plat) (gs : Nat → List Section) (x : Nat × Nat) (τ : List (Nat × Nat)) :
    ∀ {M S S' : Memory} {outs : List (Nat × List Res)} {rs : List Res}, oneByOne B cfg gs M τ = .ok (S, outs) →
      Model.Sync.whole S (goroutine (fun t => B.blockWith t) cfg (actsOf gs x)) = .ok (S', rs) →
      oneByOne B cfg gs M (τ ++ [x]) = .ok (S', outs ++ [(x.1, rs)]) := by
  induction τ with
  | nil =>
    intro M S S' outs rs h h'
    cases h
    rw [List.nil_append, oneByOne_cons, h']
    rfl
  | cons y τ ih =>
    intro M S S' outs rs h h'
    rw [List.cons_append, oneByOne_cons]
    rw [oneByOne_cons] at h
    cases hw : Model.Sync.whole M (goroutine (fun t => B.blockWith t) cfg (actsOf gs y)) with
    | error e => rw [hw] at h; cases h
    | ok r =>
      rw [hw] at h
      change (oneByOne B cfg gs r.1 τ >>= fun rs => pure (rs.1, (y.1, r.2) :: rs.2)) = _ at h
      show (oneByOne B cfg gs r.1 (τ ++ [x]) >>= fun rs => pure (rs.1, (y.1, r.2) :: rs.2)) = _
      cases hw' : oneByOne B cfg gs r.1 τ with
      | error e => rw [hw'] at h; cases h
      | ok q =>
        rw [hw'] at h
        cases h
        rw [ih hw' h']
        rfl

theorem oneByOne_split (B : Build) (cfg : Plat) (gs : Nat → List Section) (x : Nat × Nat) (b a : List (Nat × Nat)) :
    ∀ {M S : Memory} {outs : List (Nat × List Res)}, oneByOne B cfg gs M (a ++ x :: b) = .ok (S, outs) →
      ∃ S1 outs1 S2 rs outs2, oneByOne B cfg gs M a = .ok (S1, outs1) ∧
        Model.Sync.whole S1 (goroutine (fun t => B.blockWith t) cfg (actsOf gs x)) = .ok (S2, rs) ∧
        outs = outs1 ++ (x.1, rs) :: outs2 := by
  induction a with
  | nil =>
    intro M S outs h
    rw [List.nil_append, oneByOne_cons] at h
    cases hw : Model.Sync.whole M (goroutine (fun t => B.blockWith t) cfg (actsOf gs x)) with
    | error e => rw [hw] at h; cases h
    | ok r =>
      rw [hw] at h
      change (oneByOne B cfg gs r.1 b >>= fun rs => pure (rs.1, (x.1, r.2) :: rs.2)) = _ at h
      cases hw' : oneByOne B cfg gs r.1 b with
      | error e => rw [hw'] at h; cases h
      | ok q =>
        rw [hw'] at h
        cases h
        exact ⟨M, [], r.1, r.2, q.2, rfl, hw, rfl⟩
  | cons y a ih =>
    intro M S outs h
    rw [List.cons_append, oneByOne_cons] at h
    cases hw : Model.Sync.whole M (goroutine (fun t => B.blockWith t) cfg (actsOf gs y)) with
    | error e => rw [hw] at h; cases h
    | ok r =>
      rw [hw] at h
      change (oneByOne B cfg gs r.1 (a ++ x :: b) >>= fun rs => pure (rs.1, (y.1, r.2) :: rs.2)) = _ at h
      cases hw' : oneByOne B cfg gs r.1 (a ++ x :: b) with
      | error e => rw [hw'] at h; cases h
      | ok q =>
        rw [hw'] at h
        cases h
        obtain ⟨S1, outs1, S2, rs, outs2, h1, h2, h3⟩ := ih (outs := q.2) (S := q.1) hw'
        refine ⟨S1, (y.1, r.2) :: outs1, S2, rs, outs2, ?_, h2, ?_⟩
        · rw [oneByOne_cons, hw]
          show (oneByOne B cfg gs r.1 a >>= fun rs => pure (rs.1, (y.1, r.2) :: rs.2)) = _
          rw [h1]
          rfl
        · rw [h3]; rfl

theorem whole_frame {α : Type} {R W : Thing → Prop} {Q : α → Prop} {t : Thing} (ht : ¬ W t) (p : Prog α) :
    ∀ {M M' : Memory} {a : α}, Touches R W Q p → Model.Sync.whole M p = .ok (M', a) → SameAt M' M t := by
  induction p with
  | ret b => intro M M' a _ h; cases h; exact sameAt_refl _ _
  | panic e => intro M M' a _ h; cases h
  | rd l k ih => intro M M' a hT h; exact ih _ (hT.2 _) h
  | wr l v k ih =>
    intro M M' a hT h
    exact sameAt_trans (ih hT.2 h) (put_other _ l v fun e => ht (e ▸ hT.1))

/-- Code has the same result on memories that agree on what it uses. -/
theorem whole_same {α : Type} {R W : Thing → Prop} {Q : α → Prop} (p : Prog α) :
    ∀ {M M' : Memory}, Touches R W Q p → (∀ t, R t → SameAt M M' t) →
      (Model.Sync.whole M p).map (·.2) = (Model.Sync.whole M' p).map (·.2) := by
  induction p with
  | ret b => intro M M' _ _; rfl
  | panic e => intro M M' _ _; rfl
  | rd l k ih =>
    intro M M' hT h
    show (Model.Sync.whole M (k (M.get l))).map _ = (Model.Sync.whole M' (k (M'.get l))).map _
    rw [sameAt_get (h _ hT.1)]
    exact ih _ (hT.2 _) h
  | wr l v k ih =>
    intro M M' hT h
    refine ih hT.2 fun t hq => ?_
    by_cases e : t = l.thing
    · subst e; exact put_same l v (h _ hq)
    · exact sameAt_trans (put_other _ l v e) (sameAt_trans (h t hq) (sameAt_symm (put_other _ l v e)))

theorem oneByOne_frame (B : Build) (cfg : Plat) (gs : Nat → List Section) {t : Thing} (τ : List (Nat × Nat)) :
    ∀ {M S : Memory} {outs : List (Nat × List Res)}, oneByOne B cfg gs M τ = .ok (S, outs) →
      (∀ x ∈ τ, ¬ ChangesL (actsOf gs x) t) → SameAt S M t := by
  induction τ with
  | nil => intro M S outs h _; cases h; exact sameAt_refl _ _
  | cons y τ ih =>
    intro M S outs h ht
    rw [oneByOne_cons] at h
    cases hw : Model.Sync.whole M (goroutine (fun t => B.blockWith t) cfg (actsOf gs y)) with
    | error e => rw [hw] at h; cases h
    | ok r =>
      rw [hw] at h
      change (oneByOne B cfg gs r.1 τ >>= fun rs => pure (rs.1, (y.1, r.2) :: rs.2)) = _ at h
      cases hw' : oneByOne B cfg gs r.1 τ with
      | error e => rw [hw'] at h; cases h
      | ok q =>
        rw [hw'] at h
        cases h
        exact sameAt_trans (ih hw' fun x hx => ht x (by simp [hx]))
          (whole_frame (ht y (by simp)) _ (touches_goroutine _ cfg _) hw)

theorem mem_order {gs : Nat → List Section} {n : Nat → Nat} {τ : List (Nat × Nat)} (h : Order gs n τ) {x : Nat × Nat}
    (hx : x.2 < n x.1) : x ∈ τ := by
  have : x ∈ τ.filter fun y => y.1 = x.1 := by
    rw [h.1 x.1]
    exact List.mem_map.2 ⟨x.2, List.mem_range.2 hx, rfl⟩
  exact (List.mem_filter.1 this).1

theorem count_order {gs : Nat → List Section} {n : Nat → Nat} {τ : List (Nat × Nat)} (h : Order gs n τ)
    (x : Nat × Nat) : τ.count x = if x.2 < n x.1 then 1 else 0 := by
  have e : τ.count x = (τ.filter fun y => y.1 = x.1).count x := (List.count_filter (by simp)).symm
  rw [e, h.1 x.1]
  generalize n x.1 = k
  induction k with
  | zero => rfl
  | succ k ih =>
    rw [List.range_succ, List.map_append, List.count_append, ih]
    show _ + List.count x [(x.1, k)] = _
    by_cases hk : x.2 = k
    · have : x = (x.1, k) := by rw [← hk]
      rw [← this, if_neg (by omega), if_pos (by omega)]
      simp
    · have : ¬ x = (x.1, k) := fun e => hk (congrArg Prod.snd e)
      rw [List.count_eq_zero_of_not_mem (by simpa using this)]
      by_cases h' : x.2 < k
      · rw [if_pos h', if_pos (by omega)]
      · rw [if_neg h', if_neg (by omega)]

theorem order_snoc {gs : Nat → List Section} {n n' : Nat → Nat} {τ : List (Nat × Nat)} (h : Order gs n τ) {i : Nat}
    (hn : n' i = n i + 1) (hn' : ∀ j, j ≠ i → n' j = n j) (hb : ∀ x, Before gs x (i, n i) → x.2 < n x.1) :
    Order gs n' (τ ++ [(i, n i)]) := by
  refine ⟨fun j => ?_, fun a y b e x hx => ?_⟩
  · rw [List.filter_append, h.1 j]
    by_cases e : j = i
    · subst e; rw [hn, List.range_succ, List.map_append]; simp
    · rw [hn' j e]; simp [Ne.symm e]
  · rcases List.eq_nil_or_concat b with rfl | ⟨b', z, rfl⟩
    · obtain ⟨rfl, e2⟩ := List.append_inj' e rfl
      cases e2
      exact mem_order h (hb x hx)
    · have e' : τ ++ [(i, n i)] = (a ++ y :: b') ++ [z] := by rw [e]; simp
      obtain ⟨rfl, _⟩ := List.append_inj' e' rfl
      exact h.2 a y b' rfl x hx

theorem Ser.begin {B : Build} {cfg : Plat} {gs : Nat → List Section} (hs : Synced gs) {M : Memory} {c : State}
    {G S : Memory} {τ : List (Nat × Nat)} {outs : List (Nat × List Res)} (h : Ser B cfg gs M c G S τ outs) {i : Nat}
    {s : Section} (hi : c.now i = none) (hsec : (gs i)[(c.done i).length]? = some s)
    (hc' : Ctl gs (c.begin (fun t => B.blockWith t) cfg i s)) :
    Ser B cfg gs M (c.begin (fun t => B.blockWith t) cfg i s) G S τ outs := by
  have hin : In gs (c.begin (fun t => B.blockWith t) cfg i s) i s :=
    ⟨by show setAt c.now i _ i ≠ none; rw [setAt_same]; simp, hsec⟩
  have hup : ∀ j s', In gs c j s' → j ≠ i ∧ In gs (c.begin (fun t => B.blockWith t) cfg i s) j s' := by
    intro j s' hj
    have e : j ≠ i := by rintro rfl; exact hj.1 hi
    exact ⟨e, by show setAt c.now i _ j ≠ none; rw [setAt_other _ _ e]; exact hj.1, hj.2⟩
  refine ⟨h.order, h.one, h.res, fun j p s' hp hj => ?_, fun t ht => h.rest t fun j s' hj => ht j s' (hup j s' hj).2⟩
  have hp' : setAt c.now i (some (secCode B cfg s)) j = some p := hp
  by_cases e : j = i
  · subst e
    rw [setAt_same] at hp'
    cases hp'
    have e : s' = s := Option.some.inj (hj.2.symm.trans hsec)
    subst e
    refine ⟨touches_goroutine _ _ _, 0, rfl, fun t ht => h.rest t fun k s'' hk hch => ?_⟩
    obtain ⟨a, b⟩ := hup k s'' hk
    exact hc'.apart hs a b hj hch ht
  · rw [setAt_other _ _ e] at hp'
    refine h.code j p s' hp' ⟨by rw [hp']; simp, hj.2⟩

theorem Ser.finish {B : Build} {cfg : Plat} {gs : Nat → List Section} (hs : Synced gs) {M : Memory} {c : State}
    (hc : Ctl gs c) {G S : Memory} {τ : List (Nat × Nat)} {outs : List (Nat × List Res)} (h : Ser B cfg gs M c G S τ outs)
    {i : Nat} {s : Section} {rs : List Res} (hp : c.now i = some (.ret rs))
    (hsec : (gs i)[(c.done i).length]? = some s) :
    ∃ S', Ser B cfg gs M (c.finish i s rs) G S' (τ ++ [(i, (c.done i).length)]) (outs ++ [(i, rs)]) := by
  have hin : In gs c i s := ⟨by rw [hp]; simp, hsec⟩
  obtain ⟨_, n, hn, hG⟩ := h.code i _ s hp hin
  have ht := touches_goroutine (fun t => B.blockWith t) cfg s.acts
  have hd : ∀ j, j ≠ i → (c.finish i s rs).done j = c.done j := fun j e => setAt_other _ _ e
  have hdi : (c.finish i s rs).done i = c.done i ++ [rs] := setAt_same _ _ _
  have hdown : ∀ j s', In gs (c.finish i s rs) j s' → j ≠ i ∧ In gs c j s' := by
    intro j s' hj
    have e : j ≠ i := by
      rintro rfl
      refine hj.1 ?_
      exact setAt_same _ _ _
    refine ⟨e, ?_, ?_⟩
    · have := hj.1
      rw [show (c.finish i s rs).now j = c.now j from setAt_other _ _ e] at this
      exact this
    · have := hj.2
      rw [hd j e] at this
      exact this
  refine ⟨(solo n (S, secCode B cfg s)).1, ?_, ?_, fun j => ?_, fun j p s' hp' hj => ?_, fun t hrest => ?_⟩
  · refine order_snoc h.order ?_ (fun j e => by rw [hd j e]) fun x hx => (hc.run i hin.1 x hx).1
    show ((c.finish i s rs).done i).length = _
    rw [hdi, List.length_append]; rfl
  · refine oneByOne_append B cfg gs _ τ h.one ?_
    have : actsOf gs (i, (c.done i).length) = s.acts := by
      unfold actsOf; rw [show (gs i)[(c.done i).length]? = some s from hsec]; rfl
    rw [this]
    exact whole_of_solo n _ _ _ hn
  · unfold resultsOf
    rw [List.filter_append, List.map_append]
    by_cases e : j = i
    · subst e
      rw [hdi, ← h.res j]
      simp [resultsOf]
    · rw [hd j e, ← h.res j]
      simp [resultsOf, Ne.symm e]
  · obtain ⟨e, hj'⟩ := hdown j s' hj
    rw [show (c.finish i s rs).now j = c.now j from setAt_other _ _ e] at hp'
    obtain ⟨a, m, b, d⟩ := h.code j p s' hp' hj'
    have same := solo_same (touches_goroutine (fun t => B.blockWith t) cfg s'.acts) (M := S)
      (M' := (solo n (S, secCode B cfg s)).1)
      (fun t hu => sameAt_symm (solo_frame ht S n fun hw => hc.apart hs (Ne.symm e) hin hj' hw hu)) m
    exact ⟨a, m, same.1.symm.trans b, fun t hu => sameAt_trans (d t hu) (same.2 t hu)⟩
  · by_cases hw : ChangesL s.acts t
    · exact hG t (ChangesL.uses hw)
    · refine sameAt_trans (h.rest t fun j s' hj => ?_) (sameAt_symm (solo_frame ht S n hw))
      by_cases e : j = i
      · subst e
        obtain rfl : s' = s := Option.some.inj (hj.2.symm.trans hsec)
        exact hw
      · refine hrest j s' ⟨?_, ?_⟩
        · rw [show (c.finish i s rs).now j = c.now j from setAt_other _ _ e]; exact hj.1
        · rw [hd j e]; exact hj.2

theorem Ser.read {B : Build} {cfg : Plat} {gs : Nat → List Section} {M : Memory} {c : State}
    {G S : Memory} {τ : List (Nat × Nat)} {outs : List (Nat × List Res)} (h : Ser B cfg gs M c G S τ outs)
    {i : Nat} {s : Section} {l : Loc} {k : l.ty → Prog (List Res)} (hp : c.now i = some (.rd l k))
    (hsec : (gs i)[(c.done i).length]? = some s) (hv : (c.view i l).2 = G.get l) :
    Ser B cfg gs M { c with now := setAt c.now i (some (k (c.view i l).2)) } G S τ outs := by
  have hin : In gs c i s := ⟨by rw [hp]; simp, hsec⟩
  have hiff : ∀ j s', In gs { c with now := setAt c.now i (some (k (c.view i l).2)) } j s' ↔ In gs c j s' := by
    intro j s'
    unfold In
    show setAt c.now i _ j ≠ none ∧ _ ↔ _
    by_cases e : j = i
    · subst e; rw [setAt_same, hp]; simp
    · rw [setAt_other _ _ e]
  refine ⟨h.order, h.one, h.res, fun j p s' hp' hj => ?_, fun t ht => h.rest t fun j s' hj => ht j s' ((hiff j s').2 hj)⟩
  rw [hiff] at hj
  change setAt c.now i _ j = some p at hp'
  by_cases e : j = i
  · subst e
    rw [setAt_same] at hp'
    cases hp'
    obtain ⟨a, n, b, d⟩ := h.code j _ s' hp hj
    refine ⟨a.2 _, n + 1, ?_, ?_⟩
    · rw [solo_step, b, hv, sameAt_get (d _ a.1)]; rfl
    · rw [solo_step, b]; exact d
  · rw [setAt_other _ _ e] at hp'
    exact h.code j p s' hp' hj

theorem Ser.write {B : Build} {cfg : Plat} {gs : Nat → List Section} (hs : Synced gs) {M : Memory} {c : State}
    (hc : Ctl gs c) {G S : Memory} {τ : List (Nat × Nat)} {outs : List (Nat × List Res)} (h : Ser B cfg gs M c G S τ outs)
    {i : Nat} {s : Section} {l : Loc} {v : l.ty} {k : Prog (List Res)} (hp : c.now i = some (.wr l v k))
    (hsec : (gs i)[(c.done i).length]? = some s) (hch : ChangesL s.acts l.thing) :
    Ser B cfg gs M { c with
        clock := c.clock + 1
        log := c.log ++ [⟨l, c.clock + 1, v⟩]
        view := setAt c.view i ((c.view i).set l (c.clock + 1, v))
        now := setAt c.now i (some k) } (G.put l v) S τ outs := by
  have hin : In gs c i s := ⟨by rw [hp]; simp, hsec⟩
  have hiff : ∀ j s', In gs { c with
        clock := c.clock + 1
        log := c.log ++ [⟨l, c.clock + 1, v⟩]
        view := setAt c.view i ((c.view i).set l (c.clock + 1, v))
        now := setAt c.now i (some k) } j s' ↔ In gs c j s' := by
    intro j s'
    unfold In
    show setAt c.now i _ j ≠ none ∧ _ ↔ _
    by_cases e : j = i
    · subst e; rw [setAt_same, hp]; simp
    · rw [setAt_other _ _ e]
  refine ⟨h.order, h.one, h.res, fun j p s' hp' hj => ?_, fun t ht => ?_⟩
  · rw [hiff] at hj
    change setAt c.now i _ j = some p at hp'
    by_cases e : j = i
    · subst e
      rw [setAt_same] at hp'
      cases hp'
      obtain ⟨a, n, b, d⟩ := h.code j _ s' hp hj
      refine ⟨a.2, n + 1, ?_, fun t hu => ?_⟩
      · rw [solo_step, b]; rfl
      · rw [solo_step, b]
        show SameAt (G.put l v) (Memory.put _ l v) t
        by_cases e : t = l.thing
        · subst e; exact put_same l v (d _ hu)
        · exact sameAt_trans (put_other _ l v e) (sameAt_trans (d t hu) (sameAt_symm (put_other _ l v e)))
    · rw [setAt_other _ _ e] at hp'
      obtain ⟨a, n, b, d⟩ := h.code j _ s' hp' hj
      refine ⟨a, n, b, fun t hu => sameAt_trans (put_other _ l v ?_) (d t hu)⟩
      rintro rfl
      exact hc.apart hs (Ne.symm e) hin hj hch hu
  · refine sameAt_trans (put_other _ l v ?_) (h.rest t fun j s' hj => ht j s' ((hiff j s').2 hj))
    rintro rfl
    exact ht i s ((hiff i s).2 hin) hch

/-! ### All executions -/

structure Inv (B : Build) (cfg : Plat) (gs : Nat → List Section) (M : Memory) (c : State) : Prop where
  ctl : Ctl gs c
  data : ∃ G N S τ outs, Fresh gs c G N ∧ Ser B cfg gs M c G S τ outs

theorem Inv.step {B : Build} {cfg : Plat} {gs : Nat → List Section} (hs : Synced gs) {M : Memory} {c : State}
    (h : Inv B cfg gs M c) (i : Nat) : Inv B cfg gs M (c.step (fun t => B.blockWith t) cfg gs i) := by
  obtain ⟨hc, G, N, S, τ, outs, hf, hr⟩ := h
  unfold State.step
  cases hsec : (gs i)[(c.done i).length]? with
  | none => exact ⟨hc, G, N, S, τ, outs, hf, hr⟩
  | some s =>
    simp only
    cases hp : c.now i with
    | none =>
      simp only
      split
      · rename_i hready
        have hc' := hc.begin (fun t => B.blockWith t) cfg hp hsec hready
        exact ⟨hc', G, N, S, τ, outs, hf.begin _ _, hr.begin hs hp hsec hc'⟩
      · exact ⟨hc, G, N, S, τ, outs, hf, hr⟩
    | some p =>
      have hin : In gs c i s := ⟨by rw [hp]; simp, hsec⟩
      have ht := (hr.code i p s hp hin).1
      cases p with
      | ret rs =>
        simp only
        obtain ⟨S', hr'⟩ := hr.finish hs hc hp hsec
        exact ⟨hc.finish hin, G, N, S', _, _, hf.finish, hr'⟩
      | panic e => exact ⟨hc, G, N, S, τ, outs, hf, hr⟩
      | rd l k =>
        simp only
        have hnow : ∀ j, setAt c.now i (some (k (c.view i l).2)) j ≠ none ↔ c.now j ≠ none := by
          intro j
          by_cases e : j = i
          · subst e; rw [setAt_same, hp]; simp
          · rw [setAt_other _ _ e]
        refine ⟨hc.grow rfl rfl rfl rfl hnow fun _ => le_refl _, G, N, S, τ, outs, ?_,
          hr.read hp hsec (hf.newest hs hc hin ht.1)⟩
        refine ⟨hf.clock, hf.view, hf.left, hf.sent, hf.log, fun l' hl' => ?_⟩
        obtain ⟨x, s', hx, hch, hcase⟩ := hf.last l' hl'
        exact ⟨x, s', hx, hch, hcase.imp id fun ⟨a, b, d⟩ => ⟨a, (hnow _).2 b, d⟩⟩
      | wr l v k =>
        simp only
        have hnow : ∀ j, setAt c.now i (some k) j ≠ none ↔ c.now j ≠ none := by
          intro j
          by_cases e : j = i
          · subst e; rw [setAt_same, hp]; simp
          · rw [setAt_other _ _ e]
        refine ⟨hc.grow rfl rfl rfl rfl hnow fun j => ?_, G.put l v, _, S, τ, outs, hf.write hin ht.1,
          hr.write hs hc hp hsec ht.1⟩
        show le (c.view j) (setAt c.view i _ j)
        by_cases e : j = i
        · subst e; rw [setAt_same]
          exact le_set _ _ _ (Nat.le_trans (hf.view j l).1 (Nat.le_succ_of_le (hf.clock l)))
        · rw [setAt_other _ _ e]; exact le_refl _

theorem Inv.next {B : Build} {cfg : Plat} {gs : Nat → List Section} (hs : Synced gs) {M : Memory} {c : State}
    (h : Inv B cfg gs M c) (e : SEv) : Inv B cfg gs M (c.next (fun t => B.blockWith t) cfg gs e) := by
  cases e with
  | go i => exact h.step hs i
  | reach n i =>
    unfold State.next
    simp only
    cases hx : c.log[n]? with
    | none => exact h
    | some x =>
      simp only
      split
      · rename_i hlt
        obtain ⟨hc, G, N, S, τ, outs, hf, hr⟩ := h
        have hv : ∀ j, le (c.view j) (setAt c.view i ((c.view i).set x.1 x.2) j) := by
          intro j
          by_cases e : j = i
          · subst e; rw [setAt_same]; exact le_set _ _ _ (Nat.le_of_lt hlt)
          · rw [setAt_other _ _ e]; exact le_refl _
        refine ⟨hc.grow rfl rfl rfl rfl (fun _ => Iff.rfl) hv, G, N, S, τ, outs, ?_,
          ⟨hr.order, hr.one, hr.res, hr.code, hr.rest⟩⟩
        refine ⟨hf.clock, fun j => ?_, hf.left, hf.sent, hf.log, fun l' hl' => ?_⟩
        · show Good G N (setAt c.view i _ j)
          by_cases e : j = i
          · subst e; rw [setAt_same]
            have := hf.log x (List.mem_of_getElem? hx)
            exact (hf.view j).set x.1 x.2 this.1 this.2
          · rw [setAt_other _ _ e]; exact hf.view j
        · obtain ⟨y, s', hy, hch, hcase⟩ := hf.last l' hl'
          exact ⟨y, s', hy, hch, hcase.imp id fun ⟨a, b, d⟩ => ⟨a, b, Nat.le_trans d (hv _ _)⟩⟩
      · exact h

theorem Inv.run {B : Build} {cfg : Plat} {gs : Nat → List Section} (hs : Synced gs) {M : Memory} (es : List SEv) :
    ∀ {c : State}, Inv B cfg gs M c → Inv B cfg gs M (c.run (fun t => B.blockWith t) cfg gs es) := by
  induction es with
  | nil => intro c h; exact h
  | cons e es ih => intro c h; exact ih (h.next hs e)

theorem inv_exec (B : Build) (cfg : Plat) {gs : Nat → List Section} (hs : Synced gs) (M : Memory) (es : List SEv) :
    Inv B cfg gs M (exec B cfg M gs es) :=
  Inv.run hs es ⟨Ctl.init gs M, M, _, M, [], [], Fresh.init gs M, Ser.init B cfg gs M⟩

/-! ### Going on -/

theorem run_append (blk : List DvInfo → BlockFn) (cfg : Plat) (gs : Nat → List Section) (es es' : List SEv) :
    ∀ c : State, c.run blk cfg gs (es ++ es') = (c.run blk cfg gs es).run blk cfg gs es' := by
  induction es with
  | nil => intro c; rfl
  | cons e es ih => intro c; exact ih _

/-- A goroutine in a section can end it, if there is no panic. -/
theorem run_end (blk : List DvInfo → BlockFn) (cfg : Plat) (gs : Nat → List Section) (i : Nat) (s : Section)
    (p : Prog (List Res)) : ∀ c : State, c.now i = some p → (gs i)[(c.done i).length]? = some s →
      (∀ es e, (c.run blk cfg gs es).now i ≠ some (.panic e)) →
      ∃ es rs, (c.run blk cfg gs es).done = setAt c.done i (c.done i ++ [rs]) ∧
        (c.run blk cfg gs es).now = setAt c.now i none := by
  induction p with
  | ret rs =>
    intro c hp hs _
    have e1 : c.step blk cfg gs i = c.finish i s rs := by
      unfold State.step; rw [hs]; simp only [hp]
    exact ⟨[.go i], rs, congrArg State.done e1, congrArg State.now e1⟩
  | panic e => intro c hp _ hne; exact absurd hp (hne [] e)
  | rd l k ih =>
    intro c hp hs hne
    have e1 : c.step blk cfg gs i = { c with now := setAt c.now i (some (k (c.view i l).2)) } := by
      unfold State.step; rw [hs]; simp only [hp]
    obtain ⟨es, rs, h1, h2⟩ := ih (c.view i l).2 (c.step blk cfg gs i) (by rw [e1]; exact setAt_same _ _ _)
      (by rw [e1]; exact hs) fun es e => hne (.go i :: es) e
    refine ⟨.go i :: es, rs, h1.trans ?_, h2.trans ?_⟩
    · rw [e1]
    · rw [e1]
      funext j
      show setAt (setAt c.now i _) i none j = _
      by_cases e : j = i
      · subst e; rw [setAt_same, setAt_same]
      · rw [setAt_other _ _ e, setAt_other _ _ e, setAt_other _ _ e]
  | wr l v k ih =>
    intro c hp hs hne
    have e1 : c.step blk cfg gs i = { c with
        clock := c.clock + 1
        log := c.log ++ [⟨l, c.clock + 1, v⟩]
        view := setAt c.view i ((c.view i).set l (c.clock + 1, v))
        now := setAt c.now i (some k) } := by
      unfold State.step; rw [hs]; simp only [hp]
    obtain ⟨es, rs, h1, h2⟩ := ih (c.step blk cfg gs i) (by rw [e1]; exact setAt_same _ _ _)
      (by rw [e1]; exact hs) fun es e => hne (.go i :: es) e
    refine ⟨.go i :: es, rs, h1.trans ?_, h2.trans ?_⟩
    · rw [e1]
    · rw [e1]
      funext j
      show setAt (setAt c.now i _) i none j = _
      by_cases e : j = i
      · subst e; rw [setAt_same, setAt_same]
      · rw [setAt_other _ _ e, setAt_other _ _ e, setAt_other _ _ e]

/-- The sections left to the first `n` goroutines. -/
def todo (gs : Nat → List Section) (c : State) : Nat → Nat
  | 0 => 0
  | n + 1 => todo gs c n + ((gs n).length - (c.done n).length)

theorem todo_congr (gs : Nat → List Section) {c c' : State} (h : c'.done = c.done) (n : Nat) :
    todo gs c' n = todo gs c n := by
  induction n with
  | zero => rfl
  | succ n ih => show todo gs c' n + _ = todo gs c n + _; rw [ih, h]

theorem todo_lt {gs : Nat → List Section} {c c' : State} {i : Nat} (hi : (c.done i).length < (gs i).length)
    (h : (c'.done i).length = (c.done i).length + 1) (h' : ∀ j, j ≠ i → (c'.done j).length = (c.done j).length) (n : Nat) :
    todo gs c' n + (if i < n then 1 else 0) = todo gs c n := by
  induction n with
  | zero => rfl
  | succ n ih =>
    show todo gs c' n + ((gs n).length - (c'.done n).length) + _ = todo gs c n + ((gs n).length - (c.done n).length)
    by_cases e : n = i
    · subst e
      rw [if_neg (by omega)] at ih
      rw [if_pos (by omega)]
      omega
    · rw [h' n e]
      by_cases e' : i < n
      · rw [if_pos e'] at ih
        rw [if_pos (by omega)]
        omega
      · rw [if_neg e'] at ih
        rw [if_neg (by omega)]
        omega

/-- If no section waits, directly or not, for itself or for one that does not exist, and no goroutine panics, the first
`n` goroutines, which are all that have something to do, can end. -/
theorem finishes {B : Build} {cfg : Plat} {gs : Nat → List Section} (hs : Synced gs) {M : Memory} (n : Nat)
    (hn : ∀ i, n ≤ i → gs i = []) (r : Nat × Nat → Nat) (hr : ∀ x y, Direct gs x y → r x < r y)
    (hw : ∀ i s x, s ∈ gs i → x ∈ s.waits → x.2 < (gs x.1).length)
    (hp : ∀ es i e, (exec B cfg M gs es).now i ≠ some (.panic e)) (es : List SEv) :
    ∃ es', ∀ i, ((exec B cfg M gs (es ++ es')).done i).length = (gs i).length ∧
      (exec B cfg M gs (es ++ es')).now i = none := by
  classical
  have hcat : ∀ es es', exec B cfg M gs (es ++ es') = (exec B cfg M gs es).run (fun t => B.blockWith t) cfg gs es' :=
    fun es es' => run_append _ _ _ _ _ _
  have hlen := fun es => (inv_exec B cfg hs M es).ctl.len
  -- a goroutine in a section ends it
  have hend : ∀ es i p, (exec B cfg M gs es).now i = some p → ∃ es',
      todo gs (exec B cfg M gs (es ++ es')) n < todo gs (exec B cfg M gs es) n := by
    intro es i p hi
    obtain ⟨s, hsec⟩ := (inv_exec B cfg hs M es).ctl.sec i (by rw [hi]; simp)
    obtain ⟨es', rs, h1, _⟩ := run_end (fun t => B.blockWith t) cfg gs i s p _ hi hsec
      fun es' e => by rw [← hcat]; exact hp _ i e
    refine ⟨es', ?_⟩
    rw [← hcat] at h1
    have hlt : ((exec B cfg M gs es).done i).length < (gs i).length := (List.getElem?_eq_some_iff.1 hsec).1
    have hin : i < n := by
      rcases Nat.lt_or_ge i n with h | h
      · exact h
      · rw [hn i h] at hlt; exact absurd hlt (Nat.not_lt_zero _)
    have := todo_lt (c := exec B cfg M gs es) (c' := exec B cfg M gs (es ++ es')) hlt
      (by rw [h1, setAt_same, List.length_append]; rfl) (fun j e => by rw [h1, setAt_other _ _ e]) n
    rw [if_pos hin] at this
    omega
  suffices H : ∀ k es, todo gs (exec B cfg M gs es) n = k → ∃ es',
      ∀ i, ((exec B cfg M gs (es ++ es')).done i).length = (gs i).length ∧
        (exec B cfg M gs (es ++ es')).now i = none from H _ es rfl
  intro k
  induction k using Nat.strongRecOn with
  | _ k ih =>
    intro es hk
    have again : (∃ es', todo gs (exec B cfg M gs (es ++ es')) n < todo gs (exec B cfg M gs es) n) → ∃ es',
        ∀ i, ((exec B cfg M gs (es ++ es')).done i).length = (gs i).length ∧
          (exec B cfg M gs (es ++ es')).now i = none := by
      rintro ⟨es', hlt⟩
      obtain ⟨es'', h⟩ := ih _ (hk ▸ hlt) (es ++ es') rfl
      exact ⟨es' ++ es'', by rw [← List.append_assoc]; exact h⟩
    by_cases hrun : ∃ i p, (exec B cfg M gs es).now i = some p
    · obtain ⟨i, p, hi⟩ := hrun
      exact again (hend es i p hi)
    have hidle : ∀ i, (exec B cfg M gs es).now i = none := by
      intro i
      cases h : (exec B cfg M gs es).now i with
      | none => rfl
      | some p => exact absurd ⟨i, p, h⟩ hrun
    by_cases hall : ∀ i, ((exec B cfg M gs es).done i).length = (gs i).length
    · exact ⟨[], fun i => by rw [List.append_nil]; exact ⟨hall i, hidle i⟩⟩
    -- the first section in the order `r` that is left can begin
    have hex : ∃ a i, ((exec B cfg M gs es).done i).length < (gs i).length ∧
        r (i, ((exec B cfg M gs es).done i).length) = a := by
      by_contra hno
      refine hall fun i => Nat.le_antisymm (hlen es i) ?_
      by_contra hlt
      exact hno ⟨_, i, by omega, rfl⟩
    obtain ⟨i, hi, hri⟩ := Nat.find_spec hex
    have hmin : ∀ j, ((exec B cfg M gs es).done j).length < (gs j).length →
        r (i, ((exec B cfg M gs es).done i).length) ≤ r (j, ((exec B cfg M gs es).done j).length) := by
      intro j hj
      rw [hri]
      exact Nat.find_min' hex ⟨j, hj, rfl⟩
    obtain ⟨s, hsec⟩ : ∃ s, (gs i)[((exec B cfg M gs es).done i).length]? = some s :=
      ⟨_, List.getElem?_eq_getElem hi⟩
    have hmono : ∀ j a d, r (j, a) ≤ r (j, a + d) := by
      intro j a d
      induction d with
      | zero => exact Nat.le_refl _
      | succ d ihd => exact Nat.le_trans ihd (Nat.le_of_lt (hr (j, a + d) (j, a + (d + 1)) (.inl ⟨rfl, rfl⟩)))
    have hready : (exec B cfg M gs es).ready s = true := by
      unfold State.ready
      rw [Bool.and_eq_true]
      constructor
      · cases hl : s.lock with
        | none => rfl
        | some m =>
          simp only
          cases hh : (exec B cfg M gs es).held m with
          | none => rfl
          | some j =>
            obtain ⟨_, hin, _⟩ := ((inv_exec B cfg hs M es).ctl.held m j).1 hh
            exact absurd (hidle j) hin.1
      · refine List.all_eq_true.2 fun x hx => decide_eq_true ?_
        by_contra hno
        have hx2 := hw i s x (List.mem_of_getElem? hsec) hx
        have h1 := hmin x.1 (by omega)
        have h2 := hr x (i, ((exec B cfg M gs es).done i).length) (.inr ⟨s, hsec, hx⟩)
        have h3 := hmono x.1 ((exec B cfg M gs es).done x.1).length (x.2 - ((exec B cfg M gs es).done x.1).length)
        rw [show ((exec B cfg M gs es).done x.1).length + (x.2 - ((exec B cfg M gs es).done x.1).length) = x.2 by omega]
          at h3
        have h4 : r (x.1, x.2) = r x := rfl
        omega
    have hstep : exec B cfg M gs (es ++ [.go i]) = (exec B cfg M gs es).begin (fun t => B.blockWith t) cfg i s := by
      rw [hcat]
      show (exec B cfg M gs es).step (fun t => B.blockWith t) cfg gs i = _
      unfold State.step
      rw [hsec]
      simp only [hidle i]
      rw [if_pos hready]
    have hnow : (exec B cfg M gs (es ++ [.go i])).now i = some (secCode B cfg s) := by
      rw [hstep]; exact setAt_same _ _ _
    have htodo : todo gs (exec B cfg M gs (es ++ [.go i])) n = todo gs (exec B cfg M gs es) n := by
      rw [hstep]; exact todo_congr gs (c := exec B cfg M gs es) (c' := (exec B cfg M gs es).begin (fun t => B.blockWith t) cfg i s) rfl n
    obtain ⟨es', h⟩ := hend _ i _ hnow
    exact again ⟨.go i :: es', by
      rw [← List.singleton_append, ← List.append_assoc, ← htodo]; exact h⟩

end Verif.Sync
