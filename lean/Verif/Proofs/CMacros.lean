import Verif.Source.CClient

/-!
The preprocessor asks only for the macros that the files name: two compilers that agree on those leave the same tokens.
-/

namespace Verif.Source.C

open Verif.Source Verif.Source.Go

/-- Every macro has its bit in the mask. -/
def Covered (d : Defs) : Prop := ∀ m ∈ d.macros, d.mask.testBit (m.name % 1021) = true

theorem findMacro_mem {x : Nat} : ∀ {ms : List Macro} {m : Macro}, findMacro x ms = some m → m ∈ ms ∧ m.name = x
  | [], _, h => by cases h
  | a :: ms, m, h => by
    unfold findMacro at h
    cases e : Nat.beq a.name x with
    | true =>
      rw [e] at h
      cases h
      exact ⟨List.mem_cons_self .., Nat.eq_of_beq_eq_true e⟩
    | false =>
      rw [e] at h
      exact ⟨List.mem_cons_of_mem _ (findMacro_mem h).1, (findMacro_mem h).2⟩

theorem find_eq {d : Defs} (h : Covered d) (x : Nat) : d.find x = findMacro x d.macros := by
  unfold Defs.find
  cases e : Nat.beq (Nat.land 1 (Nat.shiftRight d.mask (Nat.mod x 1021))) 0 with
  | false => rfl
  | true =>
    cases f : findMacro x d.macros with
    | none => rfl
    | some m =>
      obtain ⟨h1, h2⟩ := findMacro_mem f
      have h3 := h m h1
      rw [h2] at h3
      have h4 : Nat.land 1 (Nat.shiftRight d.mask (Nat.mod x 1021)) = 0 := Nat.eq_of_beq_eq_true e
      simp only [Nat.testBit] at h3
      have h5 : 1 &&& d.mask >>> (x % 1021) = 0 := h4
      rw [h5] at h3
      cases h3

theorem covered_add {d : Defs} (h : Covered d) (m : Macro) : Covered (d.add m) := by
  intro a ha
  have e : (d.add m).mask = d.mask ||| (1 <<< (m.name % 1021)) := rfl
  rw [e, Nat.testBit_or]
  rcases List.mem_cons.1 ha with rfl | ha
  · simp [Nat.testBit_shiftLeft]
  · rw [h a ha]; rfl

theorem mem_without {x : Nat} {m : Macro} : ∀ {ms : List Macro}, m ∈ without x ms → m ∈ ms
  | [], h => h
  | a :: ms, h => by
    unfold without at h
    cases e : Nat.beq a.name x with
    | true => rw [e] at h; exact List.mem_cons_of_mem _ (mem_without h)
    | false =>
      rw [e] at h
      rcases List.mem_cons.1 h with rfl | h
      · exact List.mem_cons_self ..
      · exact List.mem_cons_of_mem _ (mem_without h)

theorem find_without {x y : Nat} : ∀ ms : List Macro, findMacro y (without x ms) = if y = x then none else findMacro y ms
  | [] => by simp [without, findMacro]
  | a :: ms => by
    unfold without
    cases e : Nat.beq a.name x with
    | true =>
      have e' := Nat.eq_of_beq_eq_true e
      simp only [cond_true, find_without ms]
      split
      · rfl
      · rename_i hy
        conv => rhs; unfold findMacro
        have : Nat.beq a.name y = false := by
          cases f : Nat.beq a.name y with
          | false => rfl
          | true => exact absurd ((Nat.eq_of_beq_eq_true f).symm.trans e') hy
        rw [this]; rfl
    | false =>
      simp only [cond_false]
      unfold findMacro
      cases f : Nat.beq a.name y with
      | true =>
        have f' := Nat.eq_of_beq_eq_true f
        have : y ≠ x := by
          rintro rfl
          rw [f] at e; cases e
        simp [this]
      | false => simp [find_without ms]

/-- All names among the tokens are in `K`. -/
def In (K : Nat → Prop) (ts : List GTok) : Prop := ∀ y, .id y ∈ ts → K y

section
variable {K : Nat → Prop}

theorem In.nil : In K [] := fun _ h => by cases h
theorem In.tail {t : GTok} {ts : List GTok} (h : In K (t :: ts)) : In K ts := fun y hy => h y (List.mem_cons_of_mem _ hy)
theorem In.head {x : Nat} {ts : List GTok} (h : In K (.id x :: ts)) : K x := h x (List.mem_cons_self ..)
theorem In.cons {t : GTok} {ts : List GTok} (ht : ∀ y, t = .id y → K y) (h : In K ts) : In K (t :: ts) := fun y hy => by
  rcases List.mem_cons.1 hy with e | hy
  · exact ht y e.symm
  · exact h y hy
theorem In.put {t : GTok} {ts out : List GTok} (h : In K (t :: ts)) (ho : In K out) : In K (t :: out) :=
  .cons (fun y e => h y (by rw [e]; exact List.mem_cons_self ..)) ho
theorem In.reverse {ts : List GTok} (h : In K ts) : In K ts.reverse := fun y hy => h y (List.mem_reverse.1 hy)

theorem In.revOnto : ∀ {ts out : List GTok}, In K ts → In K out → In K (revOnto ts out)
  | [], _, _, h => h
  | t :: ts, out, h, ho => by
    have := In.revOnto (ts := ts) (out := t :: out) h.tail (h.put ho)
    exact this

/-- The same macros with the names in `K`, whose bodies have such names only. -/
structure Same (K : Nat → Prop) (d d' : Defs) : Prop where
  left : Covered d
  right : Covered d'
  find : ∀ x, K x → findMacro x d.macros = findMacro x d'.macros
  body : ∀ x m, K x → findMacro x d.macros = some m → In K m.body

variable {d d' : Defs}

theorem Same.eq (h : Same K d d') {x : Nat} (hx : K x) : d.find x = d'.find x := by
  rw [find_eq h.left, find_eq h.right, h.find x hx]

theorem Same.bodyOf (h : Same K d d') {x : Nat} {m : Macro} (hx : K x) (hm : d.find x = some m) : In K m.body := by
  rw [find_eq h.left] at hm
  exact h.body x m hx hm

theorem Same.add (h : Same K d d') {m : Macro} (hm : In K m.body) : Same K (d.add m) (d'.add m) := by
  refine ⟨covered_add h.left m, covered_add h.right m, fun x hx => ?_, fun x a hx ha => ?_⟩
  · show findMacro x (m :: d.macros) = findMacro x (m :: d'.macros)
    unfold findMacro
    rw [h.find x hx]
  · have ha : findMacro x (m :: d.macros) = some a := ha
    unfold findMacro at ha
    cases e : Nat.beq m.name x with
    | true => rw [e] at ha; cases ha; exact hm
    | false => rw [e] at ha; exact h.body x a hx ha

theorem Same.drop (h : Same K d d') (y : Nat) : Same K (d.drop y) (d'.drop y) := by
  refine ⟨fun m hm => h.left m (mem_without hm), fun m hm => h.right m (mem_without hm), fun x hx => ?_, fun x a hx ha => ?_⟩
  · show findMacro x (without y d.macros) = findMacro x (without y d'.macros)
    rw [find_without, find_without, h.find x hx]
  · have ha : findMacro x (without y d.macros) = some a := ha
    rw [find_without] at ha
    split at ha
    · cases ha
    · exact h.body x a hx ha

theorem In.argOf {x : Nat} : ∀ {ps : List Nat} {as : List (List GTok)} {a : List GTok}, (∀ a ∈ as, In K a) →
    argOf x ps as = some a → In K a
  | [], _, _, _, h => by cases h
  | _ :: _, [], _, _, h => by cases h
  | p :: ps, b :: as, a, ha, h => by
    unfold C.argOf at h
    cases e : Nat.beq p x with
    | true => rw [e] at h; cases h; exact ha _ (List.mem_cons_self ..)
    | false => rw [e] at h; exact In.argOf (fun a h => ha a (List.mem_cons_of_mem _ h)) h

theorem In.paste (hK : ∀ n k, K n → k ≤ 9 → K (256 * n + (48 + k))) {l t : GTok} {a : List GTok} (hl : ∀ y, l = .id y → K y)
    (h : paste l a = some t) : ∀ y, t = .id y → K y := by
  unfold C.paste at h
  split at h
  · rename_i n k
    have hn := hl n rfl
    cases e : Nat.ble k 9 with
    | true =>
      rw [e] at h
      cases h
      intro y hy
      cases hy
      exact hK n k hn (Nat.le_of_ble_eq_true e)
    | false =>
      rw [e] at h
      cases f : Nat.ble k 99 with
      | true =>
        rw [f] at h
        cases h
        intro y hy
        cases hy
        exact hK _ _ (hK _ _ hn (by have := Nat.le_of_ble_eq_true f; omega)) (by omega)
      | false => rw [f] at h; cases h
  · cases h

theorem In.subst (hK : ∀ n k, K n → k ≤ 9 → K (256 * n + (48 + k))) {ps : List Nat} {raw full : List (List GTok)}
    (hfull : ∀ a ∈ full, In K a) (n : Nat) : ∀ (ts out r : List GTok), ts.length ≤ n → In K ts → In K out →
    subst ps raw full ts out = some r → In K r := by
  induction n with
  | zero =>
    intro ts out r hn ht ho h
    cases ts with
    | nil => unfold C.subst at h; cases h; exact ho
    | cons => simp at hn
  | succ n ih =>
    intro ts out r hn ht ho h
    unfold C.subst at h
    split at h
    · cases h; exact ho
    · rename_i o ts
      simp only [List.length_cons, Nat.add_le_add_iff_right] at hn
      cases e : Nat.beq o (name! "##") with
      | true =>
        rw [e] at h
        simp only [cond_true] at h
        split at h
        · rename_i x rest l out'
          simp only [List.length_cons] at hn
          split at h
          · rename_i a ha
            split at h
            · rename_i t hp
              refine ih _ _ _ (by omega) ht.tail.tail (In.cons ?_ ho.tail) h
              exact In.paste hK (fun y e => ho y (by rw [e]; exact List.mem_cons_self ..)) hp
            · cases h
          · cases h
        · cases h
      | false =>
        rw [e] at h
        exact ih _ _ _ hn ht.tail (In.cons (fun y e => by cases e) ho) h
    · rename_i x ts
      simp only [List.length_cons, Nat.add_le_add_iff_right] at hn
      split at h
      · rename_i a ha
        exact ih _ _ _ hn ht.tail (In.revOnto (In.argOf hfull ha) ho) h
      · exact ih _ _ _ hn ht.tail (ht.put ho) h
    · rename_i t ts _ _
      simp only [List.length_cons, Nat.add_le_add_iff_right] at hn
      exact ih _ _ _ hn ht.tail (ht.put ho) h

/-- Two replacements of macros that do the same with tokens in `K`, and leave such. -/
structure Alike (K : Nat → Prop) (f g : List GTok → Option (List GTok)) : Prop where
  eq : ∀ ts, In K ts → f ts = g ts
  stay : ∀ ts r, In K ts → f ts = some r → In K r

theorem Alike.allOf {f g : List GTok → Option (List GTok)} (h : Alike K f g) : ∀ (as : List (List GTok)), (∀ a ∈ as, In K a) →
    allOf f as = allOf g as ∧ ∀ r, allOf f as = some r → ∀ a ∈ r, In K a
  | [], _ => ⟨rfl, fun r hr => by cases hr; simp⟩
  | a :: as, ha => by
    have h1 := ha a (List.mem_cons_self ..)
    obtain ⟨i1, i2⟩ := Alike.allOf h as (fun a h => ha a (List.mem_cons_of_mem _ h))
    unfold C.allOf
    rw [← h.eq a h1, ← i1]
    refine ⟨rfl, fun r hr => ?_⟩
    split at hr
    · rename_i y hy
      split at hr
      · rename_i ys hys
        cases hr
        intro b hb
        rcases List.mem_cons.1 hb with rfl | hb
        · exact h.stay a _ h1 hy
        · exact i2 _ hys b hb
      · cases hr
    · cases hr

/-- What a replacement of macros has read. -/
def ScanIn (K : Nat → Prop) : Scan → Prop
  | .plain => True
  | .named m => In K m.body
  | .args m _ cur done => In K m.body ∧ In K cur ∧ ∀ a ∈ done, In K a

theorem scan_same (hK : ∀ n k, K n → k ≤ 9 → K (256 * n + (48 + k))) (hd : Same K d d') {f g : List GTok → Option (List GTok)}
    (hf : Alike K f g) : ∀ (ts : List GTok) (s : Scan) (out : List GTok), In K ts → ScanIn K s → In K out →
    scan f d s ts out = scan g d' s ts out ∧ ∀ r, scan f d s ts out = some r → In K r := by
  intro ts
  induction ts with
  | nil =>
    intro s out _ hs ho
    cases s with
    | plain => exact ⟨rfl, fun r hr => by cases hr; exact ho⟩
    | named m => exact ⟨rfl, fun r hr => by cases hr⟩
    | args m k cur done => exact ⟨rfl, fun r hr => by cases hr⟩
  | cons t ts ih =>
    intro s out ht hs ho
    cases s with
    | plain =>
      have ht' : d.ofTok t = d'.ofTok t ∧ ∀ m, d.ofTok t = some m → In K m.body := by
        cases t with
        | id x => exact ⟨hd.eq ht.head, fun m hm => hd.bodyOf ht.head hm⟩
        | num n => exact ⟨rfl, fun m hm => by cases hm⟩
        | str n => exact ⟨rfl, fun m hm => by cases hm⟩
        | op n => exact ⟨rfl, fun m hm => by cases hm⟩
      unfold scan
      rw [← ht'.1]
      cases e : d.ofTok t with
      | none => exact ih _ _ ht.tail trivial (ht.put ho)
      | some m =>
        have hm := ht'.2 m e
        simp only
        cases e2 : m.params with
        | some ps => exact ih _ _ ht.tail hm ho
        | none =>
          simp only
          rw [← hf.eq _ hm]
          cases e3 : f m.body with
          | none => exact ⟨rfl, fun r hr => by cases hr⟩
          | some b => exact ih _ _ ht.tail trivial (In.revOnto (hf.stay _ _ hm e3) ho)
    | named m =>
      unfold scan
      cases e : isOp (name! "(") t with
      | true => exact ih _ _ ht.tail ⟨hs, .nil, by simp⟩ ho
      | false => exact ⟨rfl, fun r hr => by cases hr⟩
    | args m k cur done =>
      obtain ⟨hm, hc, hdn⟩ := hs
      have hput : In K (t :: cur) := ht.put hc
      unfold scan
      cases e : isOp (name! ")") t with
      | true =>
        simp only [cond_true]
        cases k with
        | succ k' => exact ih _ _ ht.tail ⟨hm, hput, hdn⟩ ho
        | zero =>
          simp only
          have hraw : ∀ a ∈ (cur.reverse :: done).reverse, In K a := by
            intro a ha
            rcases List.mem_cons.1 (List.mem_reverse.1 ha) with rfl | ha
            · exact hc.reverse
            · exact hdn a ha
          obtain ⟨a1, a2⟩ := hf.allOf _ hraw
          rw [← a1]
          cases e2 : allOf f (cur.reverse :: done).reverse with
          | none => exact ⟨rfl, fun r hr => by cases hr⟩
          | some full =>
            cases e3 : m.params with
            | none => exact ⟨rfl, fun r hr => by cases hr⟩
            | some ps =>
              simp only
              cases e4 : Nat.beq full.length ps.length with
              | false => exact ⟨rfl, fun r hr => by cases hr⟩
              | true =>
                simp only [cond_true]
                cases e5 : subst ps (cur.reverse :: done).reverse full m.body [] with
                | none => exact ⟨rfl, fun r hr => by cases hr⟩
                | some b =>
                  have hb := In.subst hK (a2 _ e2) _ _ _ _ (Nat.le_refl _) hm .nil e5
                  simp only
                  rw [← hf.eq _ hb.reverse]
                  cases e6 : f b.reverse with
                  | none => exact ⟨rfl, fun r hr => by cases hr⟩
                  | some b' => exact ih _ _ ht.tail trivial (In.revOnto (hf.stay _ _ hb.reverse e6) ho)
      | false =>
        simp only [cond_false]
        cases e2 : isOp (name! "(") t with
        | true => exact ih _ _ ht.tail ⟨hm, hput, hdn⟩ ho
        | false =>
          simp only [cond_false]
          cases e3 : isOp (name! ",") t && Nat.beq k 0 with
          | true =>
            refine ih _ _ ht.tail ⟨hm, .nil, fun a ha => ?_⟩ ho
            rcases List.mem_cons.1 ha with rfl | ha
            · exact hc.reverse
            · exact hdn a ha
          | false => exact ih _ _ ht.tail ⟨hm, hput, hdn⟩ ho

theorem expand_same (hK : ∀ n k, K n → k ≤ 9 → K (256 * n + (48 + k))) (hd : Same K d d') : ∀ n, Alike K (expand d n) (expand d' n)
  | 0 => ⟨fun _ _ => rfl, fun _ _ _ h => by cases h⟩
  | n + 1 => by
    have key := fun ts ht => scan_same hK hd (expand_same hK hd n) ts .plain [] ht trivial .nil
    refine ⟨fun ts ht => ?_, fun ts r ht h => ?_⟩
    · unfold expand
      rw [(key ts ht).1]
    · unfold expand at h
      split at h
      · rename_i out ho
        cases h
        exact ((key ts ht).2 _ ho).reverse
      · cases h

theorem condition_3 (d : Defs) (n l : Nat) (ts : List GTok) : condition d (n + 1) (l + 3) ts = match ts with
    | .num k :: rest => some (k, rest)
    | .id x :: rest =>
      bif Nat.beq x (name! "defined") then
        match rest with
        | .op p :: .id y :: .op q :: rest' =>
          bif Nat.beq p (name! "(") && Nat.beq q (name! ")") then some (ofBool (d.find y).isSome, rest') else none
        | _ => none
      else some (d.value x, rest)
    | .op o :: rest =>
      bif Nat.beq o (name! "!") then
        match condition d n 3 rest with
        | some (a, rest') => some (ofBool (Nat.beq a 0), rest')
        | none => none
      else bif Nat.beq o (name! "(") then
        match condition d n 0 rest with
        | some (a, .op q :: rest') => bif Nat.beq q (name! ")") then some (a, rest') else none
        | _ => none
      else none
    | _ => none := rfl

theorem condition_same (hd : Same K d d') : ∀ (n l : Nat) (ts : List GTok), In K ts →
    condition d n l ts = condition d' n l ts ∧ ∀ k r, condition d n l ts = some (k, r) → In K r := by
  intro n
  induction n with
  | zero => intro l ts _; exact ⟨rfl, fun _ _ h => by cases h⟩
  | succ n ih =>
    intro l ts ht
    match l with
    | 0 =>
      rw [condition.eq_2, condition.eq_2]
      rw [← (ih 1 ts ht).1]
      have h1 := (ih 1 ts ht).2
      split
      · rename_i a o rest e
        have hr := h1 _ _ e
        cases f : Nat.beq o (name! "||") with
        | true =>
          simp only [cond_true]
          rw [← (ih 0 rest hr.tail).1]
          refine ⟨rfl, fun k r h => ?_⟩
          split at h
          · rename_i b rest' e2
            cases h
            exact (ih 0 rest hr.tail).2 _ _ e2
          · cases h
        | false => exact ⟨rfl, fun k r h => by cases h; exact hr⟩
      · exact ⟨rfl, h1⟩
    | 1 =>
      rw [condition.eq_3, condition.eq_3]
      rw [← (ih 2 ts ht).1]
      have h1 := (ih 2 ts ht).2
      split
      · rename_i a o rest e
        have hr := h1 _ _ e
        cases f : Nat.beq o (name! "&&") with
        | true =>
          simp only [cond_true]
          rw [← (ih 1 rest hr.tail).1]
          refine ⟨rfl, fun k r h => ?_⟩
          split at h
          · rename_i b rest' e2
            cases h
            exact (ih 1 rest hr.tail).2 _ _ e2
          · cases h
        | false => exact ⟨rfl, fun k r h => by cases h; exact hr⟩
      · exact ⟨rfl, h1⟩
    | 2 =>
      rw [condition.eq_4, condition.eq_4]
      rw [← (ih 3 ts ht).1]
      have h1 := (ih 3 ts ht).2
      split
      · rename_i a o rest e
        have hr := h1 _ _ e
        cases f : Nat.beq o (name! "==") with
        | true =>
          simp only [cond_true]
          rw [← (ih 3 rest hr.tail).1]
          refine ⟨rfl, fun k r h => ?_⟩
          split at h
          · rename_i b rest' e2
            cases h
            exact (ih 3 rest hr.tail).2 _ _ e2
          · cases h
        | false => exact ⟨rfl, fun k r h => by cases h; exact hr⟩
      · exact ⟨rfl, h1⟩
    | l + 3 =>
      rw [condition_3, condition_3]
      cases ts with
      | nil => exact ⟨rfl, fun _ _ h => by cases h⟩
      | cons t rest =>
        cases t with
        | num k => exact ⟨rfl, fun _ _ h => by cases h; exact ht.tail⟩
        | str k => exact ⟨rfl, fun _ _ h => by cases h⟩
        | id x =>
          simp only
          cases f : Nat.beq x (name! "defined") with
          | true =>
            simp only [cond_true]
            split
            · rename_i p y q rest'
              rw [← hd.eq ht.tail.tail.head]
              refine ⟨rfl, fun k r h => ?_⟩
              cases f2 : Nat.beq p (name! "(") && Nat.beq q (name! ")") with
              | true => rw [f2] at h; cases h; exact ht.tail.tail.tail.tail
              | false => rw [f2] at h; cases h
            · exact ⟨rfl, fun _ _ h => by cases h⟩
          | false =>
            simp only [cond_false, Defs.value]
            rw [← hd.eq ht.head]
            exact ⟨rfl, fun _ _ h => by cases h; exact ht.tail⟩
        | op o =>
          simp only
          cases f : Nat.beq o (name! "!") with
          | true =>
            simp only [cond_true]
            rw [← (ih 3 rest ht.tail).1]
            refine ⟨rfl, fun k r h => ?_⟩
            split at h
            · rename_i b rest' e2
              cases h
              exact (ih 3 rest ht.tail).2 _ _ e2
            · cases h
          | false =>
            simp only [cond_false]
            cases f2 : Nat.beq o (name! "(") with
            | true =>
              simp only [cond_true]
              rw [← (ih 0 rest ht.tail).1]
              refine ⟨rfl, fun k r h => ?_⟩
              split at h
              · rename_i a q rest' e2
                cases f3 : Nat.beq q (name! ")") with
                | true => rw [f3] at h; cases h; exact ((ih 0 rest ht.tail).2 _ _ e2).tail
                | false => rw [f3] at h; cases h
              · cases h
            | false => exact ⟨rfl, fun _ _ h => by cases h⟩

theorem holds_same (hd : Same K d d') {ts : List GTok} (ht : In K ts) : holds d ts = holds d' ts := by
  unfold holds
  rw [(condition_same hd 200 0 ts ht).1]

theorem In.paramsOf (n : Nat) : ∀ {ts r : List GTok} {ps : List Nat}, ts.length ≤ n → In K ts → paramsOf ts = some (ps, r) → In K r := by
  induction n with
  | zero =>
    intro ts r ps hn ht h
    cases ts with
    | nil => unfold C.paramsOf at h; cases h
    | cons => simp at hn
  | succ n ih =>
    intro ts r ps hn ht h
    unfold C.paramsOf at h
    split at h
    · rename_i x o ts
      simp only [List.length_cons] at hn
      cases e : Nat.beq o (name! ")") with
      | true => rw [e] at h; cases h; exact ht.tail.tail
      | false =>
        rw [e] at h
        simp only [cond_false] at h
        cases e2 : Nat.beq o (name! ",") with
        | true =>
          rw [e2] at h
          simp only [cond_true] at h
          split at h
          · rename_i xs rest e3
            cases h
            exact ih (by omega) ht.tail.tail e3
          · cases h
        | false => rw [e2] at h; cases h
    · cases h

theorem In.macroOf {ts : List GTok} {m : Macro} (ht : In K ts) (h : macroOf ts = some m) : In K m.body := by
  unfold C.macroOf at h
  split at h
  · rename_i x o ts
    cases e : Nat.beq o (name! "(") with
    | true =>
      rw [e] at h
      simp only [cond_true] at h
      split at h
      · rename_i ps body e2
        cases h
        exact In.paramsOf _ (Nat.le_refl _) ht.tail.tail e2
      · cases h
    | false => rw [e] at h; cases h; exact ht.tail
  · cases h; exact ht.tail
  · cases h

/-- The preprocessor knows the same of the names in `K`. -/
structure SamePre (K : Nat → Prop) (p p' : Pre) : Prop where
  defs : Same K p.defs p'.defs
  parts : p.parts = p'.parts

/-- A line is the same for both, and includes lines with names in `K` only. -/
def SameLine (K : Nat → Prop) (a b : LineIs) : Prop :=
  (a = none ∧ b = none) ∨ ∃ p p' inc ts, a = some (p, inc, ts) ∧ b = some (p', inc, ts) ∧ SamePre K p p' ∧ ∀ l ∈ inc, In K l

theorem SameLine.no : SameLine K none none := .inl ⟨rfl, rfl⟩
theorem SameLine.yes {p p' : Pre} (h : SamePre K p p') (ts : List GTok) : SameLine K (some (p, [], ts)) (some (p', [], ts)) :=
  .inr ⟨_, _, _, _, rfl, rfl, h, by simp⟩

theorem plainLine_same (hK : ∀ n k, K n → k ≤ 9 → K (256 * n + (48 + k))) {p p' : Pre} (h : SamePre K p p') {l : List GTok}
    (hl : In K l) : SameLine K (plainLine p l) (plainLine p' l) := by
  unfold plainLine
  rw [← h.parts, ← (expand_same hK h.defs 12).eq l hl]
  cases live p.parts with
  | false => exact .yes h []
  | true =>
    simp only [cond_true]
    cases expand p.defs 12 l with
    | none => exact .no
    | some ts => exact .yes h ts

theorem fileOf_in {s : List Nat} : ∀ {files : List (List Nat × List (List GTok))} {inc : List (List GTok)},
    (∀ f ∈ files, ∀ l ∈ f.2, In K l) → fileOf s files = some inc → ∀ l ∈ inc, In K l
  | [], _, _, h => by cases h
  | (n, ls) :: rest, inc, hf, h => by
    unfold fileOf at h
    split at h
    · cases h
      exact hf _ (List.mem_cons_self ..)
    · exact fileOf_in (fun f h => hf f (List.mem_cons_of_mem _ h)) h

theorem SameLine.put {d d' : Defs} {ps : List Part} (h : Same K d d') :
    SameLine K (some (⟨d, ps⟩, [], [])) (some (⟨d', ps⟩, [], [])) :=
  .inr ⟨_, _, _, _, rfl, rfl, ⟨h, rfl⟩, by simp⟩

theorem instruction_same {files : List (List Nat × List (List GTok))} (hf : ∀ f ∈ files, ∀ l ∈ f.2, In K l) {p p' : Pre}
    (h : SamePre K p p') (w : Nat) {ts : List GTok} (ht : In K ts) : SameLine K (instruction files p w ts) (instruction files p' w ts) := by
  obtain ⟨d, ps⟩ := p
  obtain ⟨d', ps'⟩ := p'
  obtain ⟨hd, hp⟩ := h
  cases hp
  have hd : Same K d d' := hd
  unfold instruction
  cases Nat.beq w (name! "ifdef") with
  | true =>
    simp only [cond_true]
    split
    · rw [← hd.eq ht.head]; exact .put hd
    · exact .no
  | false =>
  cases Nat.beq w (name! "ifndef") with
  | true =>
    simp only [cond_true, cond_false]
    split
    · rw [← hd.eq ht.head]; exact .put hd
    · exact .no
  | false =>
  cases Nat.beq w (name! "if") with
  | true =>
    simp only [cond_true, cond_false]
    rw [← holds_same hd ht]
    split
    · exact .put hd
    · exact .no
  | false =>
  cases Nat.beq w (name! "elif") with
  | true =>
    simp only [cond_true, cond_false]
    rw [← holds_same hd ht]
    split
    · exact .put hd
    · split
      · exact .put hd
      · exact .no
    · exact .put hd
    · exact .no
  | false =>
  cases Nat.beq w (name! "else") with
  | true =>
    simp only [cond_true, cond_false]
    split
    · exact .put hd
    · exact .put hd
    · exact .put hd
    · exact .no
  | false =>
  cases Nat.beq w (name! "endif") with
  | true =>
    simp only [cond_true, cond_false]
    split
    · exact .put hd
    · exact .no
  | false =>
  cases live ps with
  | false => exact .put hd
  | true =>
  cases Nat.beq w (name! "define") with
  | true =>
    simp only [cond_true, cond_false]
    cases e : macroOf ts with
    | none => exact .no
    | some m => exact .put (hd.add (In.macroOf ht e))
  | false =>
  cases Nat.beq w (name! "undef") with
  | true =>
    simp only [cond_true, cond_false]
    split
    · exact .put (hd.drop _)
    · exact .no
  | false =>
  cases Nat.beq w (name! "include") with
  | true =>
    simp only [cond_true, cond_false]
    split
    · rename_i s
      cases e : fileOf s files with
      | none => exact .no
      | some inc => exact .inr ⟨_, _, _, _, rfl, rfl, ⟨hd, rfl⟩, fileOf_in hf e⟩
    · rename_i a _
      cases Nat.beq a (name! "<") with
      | true => exact .put hd
      | false => exact .no
    · exact .no
  | false => exact .no

theorem line_same (hK : ∀ n k, K n → k ≤ 9 → K (256 * n + (48 + k))) {files : List (List Nat × List (List GTok))}
    (hf : ∀ f ∈ files, ∀ l ∈ f.2, In K l) {p p' : Pre} (h : SamePre K p p') {l : List GTok} (hl : In K l) :
    SameLine K (line files p l) (line files p' l) := by
  unfold line
  split
  · rename_i o rest
    cases Nat.beq o (name! "#") with
    | true =>
      simp only [cond_true]
      split
      · exact instruction_same hf h _ hl.tail.tail
      · exact .no
    | false => exact plainLine_same hK h hl
  · exact plainLine_same hK h hl

theorem preprocess_same (hK : ∀ n k, K n → k ≤ 9 → K (256 * n + (48 + k))) {files : List (List Nat × List (List GTok))}
    (hf : ∀ f ∈ files, ∀ l ∈ f.2, In K l) : ∀ (n : Nat) {p p' : Pre} (ls : List (List GTok)) (out : List GTok), SamePre K p p' →
    (∀ l ∈ ls, In K l) → preprocess files n p ls out = preprocess files n p' ls out
  | 0, _, _, _, _, _, _ => rfl
  | n + 1, p, p', [], out, h, _ => by
    unfold preprocess
    rw [h.parts]
  | n + 1, p, p', l :: ls, out, h, hl => by
    unfold preprocess
    rcases line_same hK hf h (hl l (List.mem_cons_self ..)) with ⟨a, b⟩ | ⟨q, q', inc, ts, a, b, c, e⟩
    · rw [a, b]
    · rw [a, b]
      refine preprocess_same hK hf n _ _ c fun x hx => ?_
      rcases List.mem_append.1 hx with hx | hx
      · exact e x hx
      · exact hl x (List.mem_cons_of_mem _ hx)

end

theorem defsOf_macros : ∀ ms : List Macro, (defsOf ms).macros = ms ∧ Covered (defsOf ms)
  | [] => ⟨rfl, fun _ h => by cases h⟩
  | m :: ms => ⟨congrArg (m :: ·) (defsOf_macros ms).1, covered_add (defsOf_macros ms).2 m⟩

theorem predefined_eq : ∀ pre : List (Nat × Nat), predefined pre = defsOf (numbers pre)
  | [] => rfl
  | (x, k) :: rest => by
    show (predefined rest).add _ = (defsOf (numbers rest)).add _
    rw [predefined_eq rest]

theorem named_files : ∀ f ∈ headers, ∀ l ∈ f.2, In Named l := by
  intro f hf l hl y hy
  refine .written (l := l) ?_ hy
  simp only [headers, List.mem_cons, List.not_mem_nil, or_false] at hf
  rcases hf with rfl | rfl
  · exact List.mem_append_left _ (List.mem_append_left _ (List.mem_append_left _ hl))
  · exact List.mem_append_left _ (List.mem_append_left _ (List.mem_append_right _ hl))

/-- Two compilers whose macros agree on the names in the files read the same program. -/
theorem readWith_eq {ms : List Macro} {pre : List (Nat × Nat)} (h : ∀ x, Named x → findMacro x ms = findMacro x (numbers pre)) :
    readWith ms = read pre := by
  have hs : SamePre Named ⟨defsOf ms, []⟩ ⟨predefined pre, []⟩ := by
    refine ⟨⟨(defsOf_macros ms).2, ?_, fun x hx => ?_, fun x m hx hm => ?_⟩, rfl⟩
    · show Covered (predefined pre)
      rw [predefined_eq]
      exact (defsOf_macros _).2
    · show findMacro x (defsOf ms).macros = findMacro x (predefined pre).macros
      rw [predefined_eq, (defsOf_macros ms).1, (defsOf_macros _).1]
      exact h x hx
    · have hm : findMacro x (defsOf ms).macros = some m := hm
      rw [(defsOf_macros ms).1, h x hx] at hm
      obtain ⟨p, _, rfl⟩ := List.mem_map.1 (findMacro_mem hm).1
      intro y hy
      simp at hy
  have key : ∀ ls : List (List GTok), (∀ l ∈ ls, l ∈ allLines) → tokensWith headers ms ls = tokens headers pre ls := by
    intro ls hls
    unfold tokensWith tokens
    rw [preprocess_same (fun _ _ a b => .digit a b) named_files 5000 ls [] hs fun l hl y hy => .written (hls l hl) hy]
    generalize preprocess headers 5000 ⟨predefined pre, []⟩ ls [] = r
    cases r <;> rfl
  unfold readWith read
  rw [key _ fun l hl => List.mem_append_left _ (List.mem_append_right _ hl), key _ fun l hl => List.mem_append_right _ hl]

end Verif.Source.C
