import Verif.Proofs.CLexed

/-!
Reading the C files in parts: the preprocessor and the parser on the lines and tokens of one part after the other.
-/

namespace Verif.Source.C

open Verif.Source
open Verif.Source.Go (GTok Func sameToks eq_of_sameToks)

/-- What the preprocessor has after some lines: how many more it may read, what it knows, the tokens backwards. -/
def preTo (files : List (List Nat × List (List GTok))) :
    Nat → Pre → List (List GTok) → List GTok → Option (Nat × Pre × List GTok)
  | n, p, [], out => some (n, p, out)
  | 0, _, _ :: _, _ => none
  | n + 1, p, l :: ls, out => match line files p l with
    | some (p', inc, ts) => preTo files n p' (inc ++ ls) (revOnto ts out)
    | none => none

theorem preprocess_append {files : List (List Nat × List (List GTok))} : ∀ {n : Nat} {p : Pre} {a : List (List GTok)}
    {out : List GTok} {n' : Nat} {p' : Pre} {out' : List GTok} (b : List (List GTok)),
    preTo files n p a out = some (n', p', out') → preprocess files n p (a ++ b) out = preprocess files n' p' b out' := by
  intro n
  induction n with
  | zero =>
    intro p a out n' p' out' b h
    cases a with
    | nil => simp only [preTo, Option.some.injEq, Prod.mk.injEq] at h; obtain ⟨rfl, rfl, rfl⟩ := h; rfl
    | cons l ls => simp [preTo] at h
  | succ n ih =>
    intro p a out n' p' out' b h
    cases a with
    | nil => simp only [preTo, Option.some.injEq, Prod.mk.injEq] at h; obtain ⟨rfl, rfl, rfl⟩ := h; rfl
    | cons l ls =>
      simp only [preTo] at h
      simp only [List.cons_append, preprocess]
      split at h
      · rename_i q inc ts hq
        simp only [hq]
        rw [← List.append_assoc]
        exact ih b h
      · cases h

theorem revOnto_eq (ts out : List GTok) : revOnto ts out = ts.reverse ++ out := by
  induction ts generalizing out with
  | nil => rfl
  | cons t ts ih => simp [revOnto, ih]

theorem preTo_out {files : List (List Nat × List (List GTok))} : ∀ {n : Nat} {p : Pre} {a : List (List GTok)}
    {out out' : List GTok} {n' : Nat} {p' : Pre},
    preTo files n p a [] = some (n', p', out') → preTo files n p a out = some (n', p', out' ++ out) := by
  have key : ∀ {n : Nat} {p : Pre} {a : List (List GTok)} {out : List GTok} (x : List GTok),
      preTo files n p a (out ++ x) = (preTo files n p a out).map fun r => (r.1, r.2.1, r.2.2 ++ x) := by
    intro n
    induction n with
    | zero => intro p a out x; cases a <;> rfl
    | succ n ih =>
      intro p a out x
      cases a with
      | nil => rfl
      | cons l ls =>
        simp only [preTo]
        cases line files p l with
        | none => rfl
        | some r =>
          obtain ⟨q, inc, ts⟩ := r
          simp only
          rw [revOnto_eq, ← List.append_assoc, ← revOnto_eq]
          exact ih x
  intro n p a out out' n' p' h
  have := key (n := n) (p := p) (a := a) (out := []) out
  rw [List.nil_append, h] at this
  exact this

/-- The same macro. -/
def sameMacro (a b : Macro) : Bool :=
  bif Nat.beq a.name b.name then
    bif sameToks a.body b.body then
      match a.params, b.params with
      | none, none => true
      | some x, some y => bif (decide (x = y)) then true else false
      | _, _ => false
    else false
  else false

/-- The same macros. -/
def sameMacros : List Macro → List Macro → Bool
  | [], [] => true
  | a :: as, b :: bs => bif sameMacro a b then sameMacros as bs else false
  | _, _ => false

/-- The same parts. -/
def sameParts : List Part → List Part → Bool
  | [], [] => true
  | .on :: as, .on :: bs => sameParts as bs
  | .off :: as, .off :: bs => sameParts as bs
  | .never :: as, .never :: bs => sameParts as bs
  | _, _ => false

theorem eq_of_sameMacro {a b : Macro} (h : sameMacro a b = true) : a = b := by
  obtain ⟨n, p, t⟩ := a
  obtain ⟨n', p', t'⟩ := b
  simp only [sameMacro] at h
  cases h1 : Nat.beq n n' with
  | false => rw [h1] at h; cases h
  | true =>
    rw [h1] at h
    cases h2 : sameToks t t' with
    | false => rw [h2] at h; cases h
    | true =>
      rw [h2] at h
      have := Nat.eq_of_beq_eq_true h1
      have := eq_of_sameToks h2
      subst_vars
      cases p <;> cases p' <;> simp_all

theorem eq_of_sameMacros : ∀ {a b : List Macro}, sameMacros a b = true → a = b := by
  intro a
  induction a with
  | nil => intro b h; cases b with
    | nil => rfl
    | cons _ _ => cases h
  | cons x xs ih =>
    intro b h
    cases b with
    | nil => cases h
    | cons y ys =>
      rw [sameMacros] at h
      cases hs : sameMacro x y with
      | true => rw [hs] at h; rw [eq_of_sameMacro hs, ih h]
      | false => rw [hs] at h; cases h

theorem eq_of_sameParts : ∀ {a b : List Part}, sameParts a b = true → a = b := by
  intro a
  induction a with
  | nil => intro b h; cases b with
    | nil => rfl
    | cons _ _ => cases h
  | cons x xs ih =>
    intro b h
    cases b with
    | nil => cases x <;> cases h
    | cons y ys => cases x <;> cases y <;> first | (cases h; done) | (rw [ih h])

/-- Some lines, in the state `p` and with `n` lines allowed, leave the given tokens, the state `p'`, and `n'` lines. -/
def leaves (files : List (List Nat × List (List GTok))) (n : Nat) (p : Pre) (a : List (List GTok)) (n' : Nat) (p' : Pre)
    (ts : List GTok) : Bool :=
  match preTo files n p a [] with
  | some (k, q, out) =>
    bif Nat.beq k n' then
      bif Nat.beq q.defs.mask p'.defs.mask then
        bif sameMacros q.defs.macros p'.defs.macros then
          bif sameParts q.parts p'.parts then sameToks out.reverse ts else false
        else false
      else false
    else false
  | none => false

theorem preTo_of_leaves {files : List (List Nat × List (List GTok))} {n n' : Nat} {p p' : Pre} {a : List (List GTok)}
    {ts : List GTok} (h : leaves files n p a n' p' ts = true) : preTo files n p a [] = some (n', p', ts.reverse) := by
  unfold leaves at h
  split at h
  · rename_i k q out hk
    obtain ⟨⟨m, ms⟩, ps⟩ := q
    obtain ⟨⟨m', ms'⟩, ps'⟩ := p'
    cases h1 : Nat.beq k n' with
    | false => rw [h1] at h; cases h
    | true =>
      rw [h1] at h
      cases h2 : Nat.beq m m' with
      | false => simp only [h2] at h; cases h
      | true =>
        simp only [h2] at h
        cases h3 : sameMacros ms ms' with
        | false => simp only [h3] at h; cases h
        | true =>
          simp only [h3] at h
          cases h4 : sameParts ps ps' with
          | false => simp only [h4] at h; cases h
          | true =>
            simp only [h4] at h
            have e1 := Nat.eq_of_beq_eq_true h1
            have e2 := Nat.eq_of_beq_eq_true h2
            have e3 := eq_of_sameMacros h3
            have e4 := eq_of_sameParts h4
            have e5 := eq_of_sameToks h
            subst e1 e2 e3 e4 e5
            rw [hk, List.reverse_reverse]
  · cases h

/-- Lines that are read in two parts. -/
theorem preprocess_cut {files : List (List Nat × List (List GTok))} {n n' : Nat} {p p' : Pre} {a : List (List GTok)}
    {k : Nat} {ts : List GTok} (h : leaves files n p (a.take k) n' p' ts = true) (out : List GTok) :
    preprocess files n p a out = preprocess files n' p' (a.drop k) (ts.reverse ++ out) := by
  conv => lhs; rw [← List.take_append_drop k a]
  exact preprocess_append _ (preTo_out (preTo_of_leaves h))

/-- Lines that are read to the end. -/
theorem preprocess_all {files : List (List Nat × List (List GTok))} {n n' : Nat} {p p' : Pre} {a : List (List GTok)}
    {ts : List GTok} (h : leaves files n p a (n' + 1) p' ts = true) (hp : p'.parts = []) (out : List GTok) :
    preprocess files n p a out = some (ts.reverse ++ out) := by
  have := preprocess_append [] (preTo_out (out := out) (preTo_of_leaves h))
  rw [List.append_nil] at this
  rw [this]
  simp only [preprocess, hp]

/-- `n` declarations: what is declared afterwards, the functions among them, the rest of the tokens. -/
def declsTo : Nat → Env → List GTok → Option (Env × List Func × List GTok)
  | 0, v, ts => some (v, [], ts)
  | _ + 1, _, [] => none
  | n + 1, v, t :: ts =>
    match declP v (parsers v 1000) { toks := t :: ts, scope := [], base := 0, ret := .none } with
    | some (d, s) =>
      match declsTo n (Prog.add ⟨v, []⟩ d).env s.toks with
      | some (v', fs, rest) => some (v', (Prog.add ⟨v, []⟩ d).funcs ++ fs, rest)
      | none => none
    | none => none

theorem add_split (v : Env) (fs : List Func) (d : Decl) :
    Prog.add ⟨v, fs⟩ d = ⟨(Prog.add ⟨v, []⟩ d).env, fs ++ (Prog.add ⟨v, []⟩ d).funcs⟩ := by
  cases d <;> simp [Prog.add]

theorem addDecls_append : ∀ {n k : Nat} {v v' : Env} {fs gs : List Func} {ts rest : List GTok},
    declsTo n v ts = some (v', gs, rest) → addDecls (n + k) ⟨v, fs⟩ ts = addDecls k ⟨v', fs ++ gs⟩ rest := by
  intro n
  induction n with
  | zero =>
    intro k v v' fs gs ts rest h
    simp only [declsTo, Option.some.injEq, Prod.mk.injEq] at h
    obtain ⟨rfl, rfl, rfl⟩ := h
    rw [Nat.zero_add, List.append_nil]
  | succ n ih =>
    intro k v v' fs gs ts rest h
    rw [show n + 1 + k = (n + k) + 1 from by omega]
    cases ts with
    | nil => simp [declsTo] at h
    | cons t ts =>
      simp only [declsTo] at h
      simp only [addDecls]
      split at h
      · rename_i d s hd
        simp only [hd]
        split at h
        · rename_i v1 fs1 rest1 h1
          cases h
          rw [add_split, ih h1, List.append_assoc]
        · cases h
      · cases h

/-- Tokens that are read in two parts. -/
theorem addDecls_cut {n k : Nat} {v v' : Env} {fs gs : List Func} {ts : List GTok} (rest : List GTok)
    (h : ∀ rest, declsTo n v (ts ++ rest) = some (v', gs, rest)) :
    addDecls (n + k) ⟨v, fs⟩ (ts ++ rest) = addDecls k ⟨v', fs ++ gs⟩ rest := addDecls_append (h rest)

/-- The tokens of a file that is read at once. -/
theorem tokens_one {files files' : List (List Nat × List (List GTok))} {pre : List (Nat × Nat)} {ls a : List (List GTok)}
    {n : Nat} {p : Pre} {ts : List GTok} (hf : files = files') (hl : ls = a)
    (h : leaves files' 5000 ⟨predefined pre, []⟩ a (n + 1) p ts = true) (hp : p.parts = []) :
    tokens files pre ls = some ts := by
  subst hf hl
  unfold tokens
  rw [preprocess_all h hp]
  simp only [List.append_nil, List.reverse_reverse]

/-- The tokens of a file that is read in five parts. -/
theorem tokens_five {files files' : List (List Nat × List (List GTok))} {pre : List (Nat × Nat)} {ls a : List (List GTok)}
    {k1 k2 k3 k4 n1 n2 n3 n4 n5 : Nat} {p1 p2 p3 p4 p5 : Pre} {t1 t2 t3 t4 t5 : List GTok} (hf : files = files') (hl : ls = a)
    (h1 : leaves files' 5000 ⟨predefined pre, []⟩ (a.take k1) n1 p1 t1 = true)
    (h2 : leaves files' n1 p1 ((a.drop k1).take k2) n2 p2 t2 = true)
    (h3 : leaves files' n2 p2 (((a.drop k1).drop k2).take k3) n3 p3 t3 = true)
    (h4 : leaves files' n3 p3 ((((a.drop k1).drop k2).drop k3).take k4) n4 p4 t4 = true)
    (h5 : leaves files' n4 p4 ((((a.drop k1).drop k2).drop k3).drop k4) (n5 + 1) p5 t5 = true) (hp : p5.parts = []) :
    tokens files pre ls = some (t1 ++ (t2 ++ (t3 ++ (t4 ++ t5)))) := by
  subst hf hl
  unfold tokens
  rw [preprocess_cut h1, preprocess_cut h2, preprocess_cut h3, preprocess_cut h4, preprocess_all h5 hp]
  simp only [List.reverse_append, List.reverse_reverse, List.append_nil, List.append_assoc]

/-- The program of two files of which the second is read in five parts. -/
theorem linked_of {u t1 t2 t3 t4 t5 : List GTok} {v0 v1 v2 v3 v4 v5 : Env} {f0 f1 f2 f3 f4 f5 : List Func}
    (h0 : ∀ rest, declsTo 37 Prog.empty.env (u ++ rest) = some (v0, f0, rest))
    (h1 : ∀ rest, declsTo 16 v0 (t1 ++ rest) = some (v1, f1, rest))
    (h2 : ∀ rest, declsTo 1 v1 (t2 ++ rest) = some (v2, f2, rest))
    (h3 : ∀ rest, declsTo 1 v2 (t3 ++ rest) = some (v3, f3, rest))
    (h4 : ∀ rest, declsTo 1 v3 (t4 ++ rest) = some (v4, f4, rest))
    (h5 : declsTo 11 v4 t5 = some (v5, f5, [])) :
    linked u (t1 ++ (t2 ++ (t3 ++ (t4 ++ t5)))) = some ⟨v5, Prog.empty.funcs ++ f0 ++ f1 ++ f2 ++ f3 ++ f4 ++ f5⟩ := by
  have hU : addDecls 500 Prog.empty u = some ⟨v0, Prog.empty.funcs ++ f0⟩ := by
    have := addDecls_append (k := 463) (fs := Prog.empty.funcs) (h0 [])
    rw [List.append_nil] at this
    exact this
  unfold linked
  rw [hU]
  simp only
  rw [show 500 = 16 + 484 from rfl, addDecls_cut _ h1, show 484 = 1 + 483 from rfl, addDecls_cut _ h2,
    show 483 = 1 + 482 from rfl, addDecls_cut _ h3, show 482 = 1 + 481 from rfl, addDecls_cut _ h4,
    show 481 = 11 + 470 from rfl, addDecls_append h5]
  rfl

theorem bind_of {α β : Type} {a b : Option α} {x y : α} {f : α → α → Option β} {z : β} (ha : a = some x) (hb : b = some y)
    (h : f x y = some z) : (a.bind fun u => b.bind fun s => f u s) = some z := by
  subst ha hb
  exact h

/-- The program of two files of which the tokens are known. -/
theorem read_of {pre : List (Nat × Nat)} {u s : List GTok} {g : Prog} (hu : tokens headers pre (lines ubcCLines) = some u)
    (hs : tokens headers pre (lines sha1CLines) = some s) (h : linked u s = some g) : read pre = some g :=
  bind_of hu hs h

end Verif.Source.C
