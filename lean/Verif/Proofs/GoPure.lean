import Verif.Source.GoSem

/-!
Running the programs of `Source/GoSyntax` where nothing but the variables of the running function changes: the
expressions and statements as plain functions of those variables, and that `evs` and `exec` agree with them.

`C` are the slots of the running function; `D` is what its first slots point to, if it is known; `F` says what functions
return that change nothing.
-/

namespace Verif.Source.Go

open Verif Verif.Source

theorem bind_run {α β : Type} (x : M α) (f : α → M β) (m : Mem) :
    (x >>= f) m = match x m with
      | .ok (a, m') => f a m'
      | .error e => .error e := rfl

theorem pure_run {α : Type} (a : α) (m : Mem) : (pure a : M α) m = .ok (a, m) := rfl

/-- If `x` returns `a`, then `x >>= f` is `f a`. -/
theorem bind_of {α β : Type} {x : M α} {a : α} {m m' : Mem} (h : x m = .ok (a, m')) (f : α → M β) :
    (x >>= f) m = f a m' := by rw [bind_run, h]

/-- What slot `k` points to. -/
def view (D : List (Option Val)) (k : Nat) : Option Val := match D[k]? with
  | some v => v
  | none => none

/-- Slot `k` may change. -/
def writable (D : List (Option Val)) (k : Nat) : Bool := match view D k with
  | some _ => false
  | none => true

/-- Element `i` of an array. -/
def pelem (a : Val) (i : Int) : Option Val := match a with
  | .arr n f => match indexIn i n with
    | .ok k => some (f k)
    | .error _ => none
  | _ => none

/-- The only value. -/
def one : Option (List Val) → Option Val
  | some [v] => some v
  | _ => none

/-- The part of a slot at the end of a path. -/
def pget (C : List Val) (k : Nat) (p : List Nat) : Option Val := match C[k]? with
  | some v => match v.get p with
    | .ok w => some w
    | .error _ => none
  | none => none

/-- The slots with a part of one replaced. -/
def pset (D : List (Option Val)) (C : List Val) (k : Nat) (p : List Nat) (v : Val) : Option (List Val) :=
  match writable D k with
  | true => match C[k]? with
    | some old => match old.set p v with
      | .ok w => some (C.set k w)
      | .error _ => none
    | none => none
  | false => none

section
variable (F : Nat → Nat → List Val → Option (List Val)) (D : List (Option Val)) (C : List Val)

/-- What a variable points to. -/
def pat : Expr → Option Val
  | .loc k => view D k
  | _ => none

/-- The values of an expression. -/
def pvs : Expr → Option (List Val)
  | .nil => some []
  | .cons e es => match pvs e, pvs es with
    | some v, some vs => some (v ++ vs)
    | _, _ => none
  | .num n => some [.const n]
  | .str s => some [.str s]
  | .bool b => some [.bool b]
  | .null => some [.null]
  | .loc k => match C[k]? with
    | some v => some [v]
    | none => none
  | .both a b => match one (pvs a), one (pvs b) with
    | some (.bool x), some (.bool y) => some [.bool (x && y)]
    | _, _ => none
  | .either a b => match one (pvs a), one (pvs b) with
    | some (.bool x), some (.bool y) => some [.bool (x || y)]
    | _, _ => none
  | .bin o a b => match one (pvs a), one (pvs b) with
    | some x, some y => match arith o x y with
      | some v => some [v]
      | none => none
    | _, _ => none
  | .un o a => match one (pvs a) with
    | some x => match unary o x with
      | some v => some [v]
      | none => none
    | _ => none
  | .conv t e => match one (pvs e) with
    | some x => match t with
      | .str => none
      | _ => match convert t x with
        | some v => some [v]
        | none => none
    | none => none
  | .index e i => match one (pvs e), one (pvs i) with
    | some a, some i => match number i with
      | some i => match a with
        | .ptr _ | .slice _ _ _ _ => match pat D e with
          | some a => match pelem a i with
            | some v => some [v]
            | none => none
          | none => none
        | a => match pelem a i with
          | some v => some [v]
          | none => none
      | none => none
    | _, _ => none
  | .field e f => match one (pvs e) with
    | some a => match a with
      | .ptr _ => match pat D e with
        | some (.struct g) => some [g f]
        | _ => none
      | .struct g => some [g f]
      | _ => none
    | none => none
  | .call p n args => match pvs args with
    | some vs => F p n vs
    | none => none
  | .lit t es => match t with
    | .arr n u => match pvs es with
      | some vs => some [.arr n (fromList u vs)]
      | none => none
    | _ => none
  | .len e => match one (pvs e) with
    | some (.arr n _) => some [.int n]
    | some (.slice _ _ n _) => some [.int n]
    | _ => none
  | _ => none

/-- The slot and path of a variable or element. -/
def pplace : Expr → Option (Nat × List Nat)
  | .loc k => some (k, [])
  | .index e i => match pplace e, one (pvs F D C i) with
    | some (k, p), some i => match number i, pget C k p with
      | some i, some (.arr n _) => match indexIn i n with
        | .ok j => some (k, p ++ [j])
        | .error _ => none
      | _, _ => none
    | _, _ => none
  | _ => none

/-- The places on the left of an assignment. -/
def pplaces : Expr → Option (List (Option (Nat × List Nat)))
  | .nil => some []
  | .cons e es => match pplaces es with
    | some ls => match e with
      | .blank => some (none :: ls)
      | _ => match pplace F D C e with
        | some l => some (some l :: ls)
        | none => none
    | none => none
  | _ => none

end

/-- Put values at places. -/
def psetAll (D : List (Option Val)) : List (Option (Nat × List Nat)) → List Val → List Val → Option (List Val)
  | [], [], C => some C
  | none :: ls, _ :: vs, C => psetAll D ls vs C
  | some l :: ls, v :: vs, C => match pset D C l.1 l.2 v with
    | some C => psetAll D ls vs C
    | none => none
  | _, _, _ => none

/-- `b` chooses. -/
def pick (b : Bool) (x y : Option (List Val)) : Option (List Val) := match b with
  | true => x
  | false => y

/-- The slots after a statement that ends normally. -/
def pexec (F : Nat → Nat → List Val → Option (List Val)) (D : List (Option Val)) : Stmt → List Val → Option (List Val)
  | .skip, C => some C
  | .seq a b, C => match pexec F D a C with
    | some C => pexec F D b C
    | none => none
  | .define k es, C => match pvs F D C es with
    | some vs => match Nat.beq vs.length k, Nat.ble D.length C.length with
      | true, true => some (C ++ vs.map fresh)
      | _, _ => none
    | none => none
  | .var t, C => match Nat.ble D.length C.length with
    | true => some (C ++ [zero t])
    | false => none
  | .assign ls rs, C => match pplaces F D C ls, pvs F D C rs with
    | some ps, some vs => psetAll D ps vs C
    | _, _ => none
  | .opAssign o l r, C => match pplace F D C l, one (pvs F D C r) with
    | some (k, p), some b => match pget C k p with
      | some a => match arith o a b with
        | some v => pset D C k p v
        | none => none
      | none => none
    | _, _ => none
  | .ite c a b, C => match one (pvs F D C c) with
    | some (.bool x) => pick x (pexec F D a C) (pexec F D b C)
    | _ => none
  | .block n s, C => match pexec F D s C with
    | some C => match Nat.ble D.length n with
      | true => some (C.take n)
      | false => none
    | none => none
  | _, _ => none

/-- What `F` and `D` say is right, for a function in frame `i` with the other frames `old`. -/
structure Right (X : World) (F : Nat → Nat → List Val → Option (List Val)) (D : List (Option Val)) (i : Nat)
    (old : Nat → List Val) (next : Nat) : Prop where
  call : ∀ p n vs rs, F p n vs = some rs → ∀ C, X.call p n vs ⟨i, C, old, next⟩ = .ok (rs, ⟨i, C, old, next⟩)

/-- What a pointer points to, or the first elements of a slice. -/
def Shows (i : Nat) (old : Nat → List Val) (next : Nat) (v : Val) : Val → Prop
  | .ptr l => ∀ C', load l ⟨i, C', old, next⟩ = .ok (v, ⟨i, C', old, next⟩)
  | .slice l off len _ => ∃ n g, v = .arr n g ∧ n ≤ len ∧
      ∀ q, q < n → ∀ C', load (l.sub (off + q)) ⟨i, C', old, next⟩ = .ok (g q, ⟨i, C', old, next⟩)
  | _ => False

/-- What `D` says about the slots is right. -/
def Seen (D : List (Option Val)) (i : Nat) (old : Nat → List Val) (next : Nat) (C : List Val) : Prop :=
  ∀ k v, view D k = some v → ∃ w, C[k]? = some w ∧ Shows i old next v w

theorem view_lt {D : List (Option Val)} {k : Nat} {v : Val} (h : view D k = some v) : k < D.length := by
  by_cases hk : k < D.length
  · exact hk
  · simp [view, List.getElem?_eq_none (Nat.not_lt.1 hk)] at h

section
variable {X : World} {F : Nat → Nat → List Val → Option (List Val)} {D : List (Option Val)} {i : Nat}
  {old : Nat → List Val} {next : Nat} {C : List Val}

theorem one_some {x : Option (List Val)} {v : Val} (h : one x = some v) : x = some [v] := by
  unfold one at h
  split at h
  · cases h; rfl
  · cases h

theorem single_one (v : Val) (m : Mem) : single [v] m = .ok (v, m) := rfl

theorem load_pget {k : Nat} {p : List Nat} {v : Val} (h : pget C k p = some v) :
    load ⟨i, k, p⟩ ⟨i, C, old, next⟩ = .ok (v, ⟨i, C, old, next⟩) := by
  unfold pget at h
  simp only [load, Mem.frame, if_true]
  split at h
  · rename_i w hw
    rw [hw]
    simp only
    split at h
    · rename_i u hu
      cases h
      rw [hu]
    · cases h
  · cases h

theorem store_pset {k : Nat} {p : List Nat} {v : Val} {C' : List Val} (h : pset D C k p v = some C') :
    store ⟨i, k, p⟩ v ⟨i, C, old, next⟩ = .ok ((), ⟨i, C', old, next⟩) := by
  unfold pset at h
  simp only [store, Mem.frame, if_true]
  split at h
  · split at h
    · rename_i w hw
      rw [hw]
      simp only
      split at h
      · rename_i u hu
        cases h
        rw [hu]
        simp only [Mem.setFrame, if_true]
      · cases h
    · cases h
  · cases h

theorem seen_pset {k : Nat} {p : List Nat} {v : Val} {C' : List Val} (hs : Seen D i old next C)
    (h : pset D C k p v = some C') : Seen D i old next C' := by
  unfold pset at h
  split at h
  · rename_i hw
    split at h
    · split at h
      · cases h
        intro j u hu
        obtain ⟨l, hl, hl'⟩ := hs j u hu
        refine ⟨l, ?_, hl'⟩
        rw [List.getElem?_set]
        have hne : k ≠ j := by
          intro hkj
          subst hkj
          simp [writable, hu] at hw
        rw [if_neg hne]
        exact hl
      · cases h
    · cases h
  · cases h

theorem length_pset {k : Nat} {p : List Nat} {v : Val} {C' : List Val} (h : pset D C k p v = some C') :
    C'.length = C.length := by
  unfold pset at h
  split at h
  · split at h
    · split at h
      · cases h; simp
      · cases h
    · cases h
  · cases h


theorem elemOf_arr {a k : Val} {j : Int} {v : Val} {m : Mem} (hk : number k = some j) (h : pelem a j = some v) :
    elemOf a k m = .ok (v, m) := by
  unfold pelem at h
  split at h
  · split at h
    · rename_i n f q hq
      cases h
      simp only [elemOf, bind_run, need, hk, lift, hq, pure_run]
    · cases h
  · cases h

theorem elemOf_ptr {a k : Val} {j : Int} {v : Val} {l : Loc} {m : Mem} (hk : number k = some j)
    (hl : load l m = .ok (a, m)) (h : pelem a j = some v) :
    elemOf (.ptr l) k m = .ok (v, m) := by
  unfold pelem at h
  split at h
  · split at h
    · rename_i n f q hq
      cases h
      simp only [elemOf, bind_run, need, hk, hl, lift, hq, pure_run]
    · cases h
  · cases h

theorem elemOf_shows {a b k : Val} {j : Int} {v : Val} (hk : number k = some j) (hw : Shows i old next a b)
    (h : pelem a j = some v) : elemOf b k ⟨i, C, old, next⟩ = .ok (v, ⟨i, C, old, next⟩) := by
  cases b with
  | ptr l => exact elemOf_ptr hk (hw C) h
  | slice l off len c =>
    obtain ⟨n, g, rfl, hn, hg⟩ := hw
    simp only [pelem] at h
    split at h
    · rename_i q hq
      cases h
      have hq' : q < n ∧ indexIn j len = .ok q := by
        unfold indexIn at hq ⊢
        split at hq
        · rename_i hj
          cases hq
          rw [if_pos (by omega)]
          exact ⟨by omega, rfl⟩
        · cases hq
      simp only [elemOf, bind_run, need, hk, lift, hq'.2, hg q hq'.1 C]
    · cases h
  | _ => exact hw.elim

theorem load_field {l : Loc} {m : Mem} {g : Nat → Val} {f : Nat} (h : load l m = .ok (.struct g, m)) :
    load (l.sub f) m = .ok (g f, m) := by
  have get_append : ∀ (p : List Nat) (v w : Val), v.get p = .ok w → v.get (p ++ [f]) = w.get [f] := by
    intro p
    induction p with
    | nil => intro v w h; simp only [Val.get, Except.ok.injEq] at h; subst h; rfl
    | cons i p ih =>
      intro v w h
      cases v with
      | arr n g =>
        simp only [Val.get] at h
        split at h
        · rename_i hi
          simp only [List.cons_append, Val.get, if_pos hi]
          exact ih _ _ h
        · cases h
      | struct g =>
        simp only [Val.get] at h
        simp only [List.cons_append, Val.get]
        exact ih _ _ h
      | _ => simp only [Val.get] at h; cases h
  unfold load at h ⊢
  simp only [Loc.sub]
  split at h
  · split at h
    · rename_i w hw
      cases h
      rw [get_append _ _ _ hw]
      simp only [Val.get]
    · cases h
  · cases h

/-- `pvs` is right. -/
theorem evs_pvs (hr : Right X F D i old next) (hs : Seen D i old next C) : ∀ (e : Expr) (vs : List Val),
    pvs F D C e = some vs → evs X e ⟨i, C, old, next⟩ = .ok (vs, ⟨i, C, old, next⟩) := by
  intro e
  induction e with
  | nil => intro vs h; simp only [pvs, Option.some.injEq] at h; subst h; rfl
  | cons a b iha ihb =>
    intro vs h
    simp only [pvs] at h
    split at h
    · rename_i v w hv hw
      cases h
      show (evs X a >>= _) _ = _
      rw [bind_of (iha _ hv), bind_of (ihb _ hw)]
      rfl
    · cases h
  | num n => intro vs h; simp only [pvs, Option.some.injEq] at h; subst h; rfl
  | str n => intro vs h; simp only [pvs, Option.some.injEq] at h; subst h; rfl
  | bool n => intro vs h; simp only [pvs, Option.some.injEq] at h; subst h; rfl
  | null => intro vs h; simp only [pvs, Option.some.injEq] at h; subst h; rfl
  | loc k =>
    intro vs h
    simp only [pvs] at h
    split at h
    · rename_i v hv
      cases h
      show (match C[k]? with | some v => _ | none => _) = _
      rw [hv]
    · cases h
  | both a b iha ihb =>
    intro vs h
    simp only [pvs] at h
    split at h
    · rename_i x y hx hy
      cases h
      show (evs X a >>= _) _ = _
      rw [bind_of (iha _ (one_some hx)), bind_of (single_one _ _)]
      cases x
      · rfl
      · exact ihb _ (one_some hy)
    · cases h
  | either a b iha ihb =>
    intro vs h
    simp only [pvs] at h
    split at h
    · rename_i x y hx hy
      cases h
      show (evs X a >>= _) _ = _
      rw [bind_of (iha _ (one_some hx)), bind_of (single_one _ _)]
      cases x
      · exact ihb _ (one_some hy)
      · rfl
    · cases h
  | bin o a b iha ihb =>
    intro vs h
    simp only [pvs] at h
    split at h
    · rename_i x y hx hy
      split at h
      · rename_i v hv
        cases h
        show (evs X a >>= _) _ = _
        rw [bind_of (iha _ (one_some hx)), bind_of (single_one _ _), bind_of (ihb _ (one_some hy)),
          bind_of (single_one _ _), hv]
        rfl
      · cases h
    · cases h
  | un o a iha =>
    intro vs h
    simp only [pvs] at h
    split at h
    · rename_i x hx
      split at h
      · rename_i v hv
        cases h
        show (evs X a >>= _) _ = _
        rw [bind_of (iha _ (one_some hx)), bind_of (single_one _ _), hv]
        rfl
      · cases h
    · cases h
  | conv t e ih =>
    intro vs h
    simp only [pvs] at h
    split at h
    · rename_i x hx
      show (evs X e >>= _) _ = _
      rw [bind_of (ih _ (one_some hx)), bind_of (single_one _ _)]
      split at h
      · cases h
      · split at h
        · rename_i v hv
          cases h
          simp only [hv]
          rfl
        · cases h
    · cases h
  | index e k ihe ihk =>
    intro vs h
    simp only [pvs] at h
    split at h
    · rename_i a q ha hq
      show (evs X e >>= _) _ = _
      rw [bind_of (ihe _ (one_some ha)), bind_of (single_one _ _), bind_of (ihk _ (one_some hq)),
        bind_of (single_one _ _)]
      split at h
      · rename_i j hj
        split at h
        · split at h
          · rename_i w hw
            split at h
            · rename_i v hv
              cases h
              cases e with
              | loc k =>
                simp only [pat] at hw
                obtain ⟨b, h1, h2⟩ := hs k w hw
                simp only [pvs, h1, one, Option.some.injEq] at ha
                subst ha
                rw [bind_of (elemOf_shows hj h2 hv)]
                rfl
              | _ => simp [pat] at hw
            · cases h
          · cases h
        · split at h
          · rename_i w hw
            split at h
            · rename_i v hv
              cases h
              cases e with
              | loc k =>
                simp only [pat] at hw
                obtain ⟨b, h1, h2⟩ := hs k w hw
                simp only [pvs, h1, one, Option.some.injEq] at ha
                subst ha
                rw [bind_of (elemOf_shows hj h2 hv)]
                rfl
              | _ => simp [pat] at hw
            · cases h
          · cases h
        · split at h
          · rename_i v hv
            cases h
            rw [bind_of (elemOf_arr hj hv)]
            rfl
          · cases h
      · cases h
    · cases h
  | field e f ih =>
    intro vs h
    simp only [pvs] at h
    split at h
    · rename_i a ha
      show (evs X e >>= _) _ = _
      rw [bind_of (ih _ (one_some ha)), bind_of (single_one _ _)]
      split at h
      · rename_i l
        split at h
        · rename_i g hg
          cases h
          cases e with
          | loc k =>
            simp only [pat] at hg
            obtain ⟨b, h1, h2⟩ := hs k _ hg
            simp only [pvs, h1, one, Option.some.injEq] at ha
            subst ha
            rw [bind_of (show fieldOf (.ptr l) f _ = .ok (g f, _) from load_field (h2 C))]
            rfl
          | _ => simp [pat] at hg
        · cases h
      · cases h
        rfl
      · cases h
    · cases h
  | call p n args ih =>
    intro vs h
    simp only [pvs] at h
    split at h
    · rename_i as has
      show (evs X args >>= _) _ = _
      rw [bind_of (ih _ has)]
      exact hr.call p n as vs h C
    · cases h
  | lit t es ih =>
    intro vs h
    simp only [pvs] at h
    split at h
    · rename_i n u
      split at h
      · rename_i ws hws
        cases h
        show (evs X es >>= _) _ = _
        rw [bind_of (ih _ hws)]
        rfl
      · cases h
    · cases h
  | len e ih =>
    intro vs h
    simp only [pvs] at h
    split at h
    · rename_i n f hx
      cases h
      show (evs X e >>= _) _ = _
      rw [bind_of (ih _ (one_some hx)), bind_of (single_one _ _)]
      rfl
    · rename_i l off n c hx
      cases h
      show (evs X e >>= _) _ = _
      rw [bind_of (ih _ (one_some hx)), bind_of (single_one _ _)]
      rfl
    · cases h
  | _ => intro vs h; simp [pvs] at h

/-- `pplace` is right. -/
theorem place_pplace (hr : Right X F D i old next) (hs : Seen D i old next C) : ∀ (e : Expr) (k : Nat) (p : List Nat),
    pplace F D C e = some (k, p) → place X e ⟨i, C, old, next⟩ = .ok (⟨i, k, p⟩, ⟨i, C, old, next⟩) := by
  intro e
  induction e with
  | loc k' => intro k p h; simp only [pplace, Option.some.injEq, Prod.mk.injEq] at h; obtain ⟨rfl, rfl⟩ := h; rfl
  | index e j ihe _ =>
    intro k p h
    simp only [pplace] at h
    split at h
    · rename_i k' p' w hp hw
      split at h
      · rename_i q n f hq hn
        split at h
        · rename_i j' hj'
          simp only [Option.some.injEq, Prod.mk.injEq] at h
          obtain ⟨rfl, rfl⟩ := h
          show (place X e >>= _) _ = _
          rw [bind_of (ihe _ _ hp), bind_of (evs_pvs hr hs _ _ (one_some hw)), bind_of (single_one _ _)]
          simp only [elemPlace, bind_run, need, hq, load_pget hn, lift, hj', pure_run, Loc.sub]
        · cases h
      · cases h
    · cases h
  | _ => intro k p h; simp [pplace] at h

/-- A slot and path as a place. -/
def at_ (i : Nat) (l : Option (Nat × List Nat)) : Option Loc := match l with
  | some (k, p) => some ⟨i, k, p⟩
  | none => none

/-- `pplaces` is right. -/
theorem places_pplaces (hr : Right X F D i old next) (hs : Seen D i old next C) :
    ∀ (e : Expr) (ls : List (Option (Nat × List Nat))), pplaces F D C e = some ls →
      places X e ⟨i, C, old, next⟩ = .ok (ls.map (at_ i), ⟨i, C, old, next⟩) := by
  intro e
  induction e with
  | nil => intro ls h; simp only [pplaces, Option.some.injEq] at h; subst h; rfl
  | cons a b _ ihb =>
    intro ls h
    simp only [pplaces] at h
    split at h
    · rename_i ls' hls
      simp only [places, bind_run]
      split at h
      · cases h
        simp only [pure_run, ihb _ hls]
        rfl
      · rename_i hne
        split at h
        · rename_i l hl
          cases h
          have hp := place_pplace hr hs _ _ _ hl
          simp only [bind_run, hp, pure_run, ihb _ hls]
          rfl
        · cases h
    · cases h
  | _ => intro ls h; simp [pplaces] at h

/-- `psetAll` is right. -/
theorem storeAll_psetAll : ∀ (ls : List (Option (Nat × List Nat))) (vs C C' : List Val), psetAll D ls vs C = some C' →
    Seen D i old next C →
    storeAll (ls.map (at_ i)) vs ⟨i, C, old, next⟩ = .ok ((), ⟨i, C', old, next⟩) ∧ Seen D i old next C' ∧
      C'.length = C.length := by
  intro ls
  induction ls with
  | nil =>
    intro vs C C' h hs
    cases vs with
    | nil => simp only [psetAll, Option.some.injEq] at h; subst h; exact ⟨rfl, hs, rfl⟩
    | cons v vs => simp [psetAll] at h
  | cons l ls ih =>
    intro vs C C' h hs
    cases vs with
    | nil => cases l <;> simp [psetAll] at h
    | cons v vs =>
      cases l with
      | none =>
        simp only [psetAll] at h
        exact ih vs C C' h hs
      | some l =>
        simp only [psetAll] at h
        split at h
        · rename_i C1 h1
          obtain ⟨h2, h3, h4⟩ := ih vs C1 C' h (seen_pset hs h1)
          refine ⟨?_, h3, h4.trans (length_pset h1)⟩
          show (store _ _ >>= _) _ = _
          rw [bind_of (store_pset h1)]
          exact h2
        · cases h

theorem seen_append (vs : List Val) (hs : Seen D i old next C) : Seen D i old next (C ++ vs) := by
  intro k v h
  obtain ⟨l, h1, h2⟩ := hs k v h
  refine ⟨l, ?_, h2⟩
  rw [List.getElem?_append_left (by
    rcases Nat.lt_or_ge k C.length with h | h
    · exact h
    · rw [List.getElem?_eq_none h] at h1; cases h1)]
  exact h1

theorem seen_take (n : Nat) (hn : D.length ≤ n) (hs : Seen D i old next C) : Seen D i old next (C.take n) := by
  intro k v h
  obtain ⟨l, h1, h2⟩ := hs k v h
  refine ⟨l, ?_, h2⟩
  have := view_lt h
  rw [List.getElem?_take, if_pos (by omega)]
  exact h1

/-- `pexec` is right. -/
theorem exec_pexec (hr : Right X F D i old next) (N : Nat) : ∀ (s : Stmt) (C C' : List Val), pexec F D s C = some C' →
    Seen D i old next C →
    exec X N s ⟨i, C, old, next⟩ = .ok (.normal, ⟨i, C', old, next⟩) ∧ Seen D i old next C' := by
  intro s
  induction s with
  | skip => intro C C' h hs; simp only [pexec, Option.some.injEq] at h; subst h; exact ⟨rfl, hs⟩
  | seq a b iha ihb =>
    intro C C' h hs
    simp only [pexec] at h
    split at h
    · rename_i C1 h1
      obtain ⟨h2, h3⟩ := iha C C1 h1 hs
      obtain ⟨h4, h5⟩ := ihb C1 C' h h3
      refine ⟨?_, h5⟩
      show (exec X N a >>= _) _ = _
      rw [bind_of h2]
      exact h4
    · cases h
  | define k es =>
    intro C C' h hs
    simp only [pexec] at h
    split at h
    · rename_i vs hvs
      split at h
      · rename_i hk hD
        cases h
        refine ⟨?_, seen_append _ hs⟩
        show (evs X es >>= _) _ = _
        rw [bind_of (evs_pvs hr hs _ _ hvs), if_pos (Nat.eq_of_beq_eq_true hk)]
        rfl
      · cases h
    · cases h
  | var t =>
    intro C C' h hs
    simp only [pexec] at h
    split at h
    · cases h
      exact ⟨rfl, seen_append _ hs⟩
    · cases h
  | assign ls rs =>
    intro C C' h hs
    simp only [pexec] at h
    split at h
    · rename_i ps vs hps hvs
      obtain ⟨h1, h2, _⟩ := storeAll_psetAll ps vs C C' h hs
      refine ⟨?_, h2⟩
      show (places X ls >>= _) _ = _
      rw [bind_of (places_pplaces hr hs _ _ hps), bind_of (evs_pvs hr hs _ _ hvs), bind_of h1]
      rfl
    · cases h
  | opAssign o l r =>
    intro C C' h hs
    simp only [pexec] at h
    split at h
    · rename_i k p b hp hb
      split at h
      · rename_i a ha
        split at h
        · rename_i v hv
          refine ⟨?_, seen_pset hs h⟩
          show (place X l >>= _) _ = _
          rw [bind_of (place_pplace hr hs _ _ _ hp), bind_of (load_pget ha)]
          show (ev X r >>= _) _ = _
          have he : ev X r ⟨i, C, old, next⟩ = .ok (b, ⟨i, C, old, next⟩) := by
            rw [ev, bind_of (evs_pvs hr hs _ _ (one_some hb))]; rfl
          rw [bind_of he, hv, bind_of (show need (some v) _ = .ok (v, _) from rfl), bind_of (store_pset h)]
          rfl
        · cases h
      · cases h
    · cases h
  | ite c a b iha ihb =>
    intro C C' h hs
    simp only [pexec] at h
    split at h
    · rename_i x hx
      have he : ev X c ⟨i, C, old, next⟩ = .ok (.bool x, ⟨i, C, old, next⟩) := by
        rw [ev, bind_of (evs_pvs hr hs _ _ (one_some hx))]; rfl
      cases x with
      | true =>
        obtain ⟨h1, h2⟩ := iha C C' h hs
        refine ⟨?_, h2⟩
        show (ev X c >>= _) _ = _
        rw [bind_of he]
        exact h1
      | false =>
        obtain ⟨h1, h2⟩ := ihb C C' h hs
        refine ⟨?_, h2⟩
        show (ev X c >>= _) _ = _
        rw [bind_of he]
        exact h1
    · cases h
  | block n s ih =>
    intro C C' h hs
    simp only [pexec] at h
    split at h
    · rename_i C1 h1
      split at h
      · rename_i hn
        cases h
        obtain ⟨h2, h3⟩ := ih C C1 h1 hs
        refine ⟨?_, seen_take n (Nat.le_of_ble_eq_true hn) h3⟩
        show (exec X N s >>= _) _ = _
        rw [bind_of h2]
        rfl
      · cases h
    · cases h
  | _ => intro C C' h; simp [pexec] at h

/-- The value of an expression, by `pvs`. -/
theorem ev_pvs (hr : Right X F D i old next) (hs : Seen D i old next C) {e : Expr} {v : Val}
    (h : one (pvs F D C e) = some v) : ev X e ⟨i, C, old, next⟩ = .ok (v, ⟨i, C, old, next⟩) := by
  rw [ev, bind_of (evs_pvs hr hs _ _ (one_some h))]; rfl

theorem exec_seq {N : Nat} {a b : Stmt} {m m' : Mem} (h : exec X N a m = .ok (.normal, m')) :
    exec X N (.seq a b) m = exec X N b m' := by
  show (exec X N a >>= _) _ = _
  rw [bind_of h]

theorem exec_seq_ret {N : Nat} {a b : Stmt} {m m' : Mem} {vs : List Val} (h : exec X N a m = .ok (.ret vs, m')) :
    exec X N (.seq a b) m = .ok (.ret vs, m') := by
  show (exec X N a >>= _) _ = _
  rw [bind_of h]; rfl

theorem exec_seq_goto {N : Nat} {a b : Stmt} {m m' : Mem} {l : Nat} (h : exec X N a m = .ok (.goto l, m')) :
    exec X N (.seq a b) m = .ok (.goto l, m') := by
  show (exec X N a >>= _) _ = _
  rw [bind_of h]; rfl

theorem exec_ite_true {N : Nat} {c : Expr} {a b : Stmt} {m m' : Mem} (h : ev X c m = .ok (.bool true, m')) :
    exec X N (.ite c a b) m = exec X N a m' := by
  show (ev X c >>= _) _ = _
  rw [bind_of h]

theorem exec_ite_false {N : Nat} {c : Expr} {a b : Stmt} {m m' : Mem} (h : ev X c m = .ok (.bool false, m')) :
    exec X N (.ite c a b) m = exec X N b m' := by
  show (ev X c >>= _) _ = _
  rw [bind_of h]

theorem exec_block {N n : Nat} {s : Stmt} {m m' : Mem} (h : exec X N s m = .ok (.normal, m')) :
    exec X N (.block n s) m = .ok (.normal, { m' with cur := m'.cur.take n }) := by
  show (exec X N s >>= _) _ = _
  rw [bind_of h]; rfl

theorem exec_block_goto {N n l : Nat} {s : Stmt} {m m' : Mem} (h : exec X N s m = .ok (.goto l, m')) :
    exec X N (.block n s) m = .ok (.goto l, { m' with cur := m'.cur.take n }) := by
  show (exec X N s >>= _) _ = _
  rw [bind_of h]; rfl

theorem exec_block_ret {N n : Nat} {s : Stmt} {m m' : Mem} {vs : List Val} (h : exec X N s m = .ok (.ret vs, m')) :
    exec X N (.block n s) m = .ok (.ret vs, m') := by
  show (exec X N s >>= _) _ = _
  rw [bind_of h]; rfl

theorem exec_ret {N : Nat} {e : Expr} {m m' : Mem} {vs : List Val} (h : evs X e m = .ok (vs, m')) :
    exec X N (.ret e) m = .ok (.ret vs, m') := by
  show (evs X e >>= _) _ = _
  rw [bind_of h]; rfl

/-- Nothing is known. -/
theorem right_none (X : World) (i : Nat) (old : Nat → List Val) (next : Nat) :
    Right X (fun _ _ _ => none) [] i old next := ⟨fun _ _ _ _ h => by cases h⟩

theorem seen_nil (i : Nat) (old : Nat → List Val) (next : Nat) (C : List Val) : Seen [] i old next C := by
  intro k v h
  simp [view] at h

end
end Verif.Source.Go
