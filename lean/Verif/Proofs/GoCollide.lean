import Verif.Proofs.GoReadMain
import Verif.Proofs.GoTable
import Verif.Proofs.GoLoops
import Verif.Model.Block

/-!
`hasCollided` as it is read from the text of sha1cdblock_generic.go is `Model.hasCollided`.
-/

namespace Verif.Source.Go

open Verif Verif.Source Verif.Model

/-- Five 32-bit words. -/
def five (r : Regs) : Val := words 5 fun j => match j.val with
  | 0 => r.a
  | 1 => r.b
  | 2 => r.c
  | 3 => r.d
  | _ => r.e

/-- The functions of package `bits` that are used. -/
def bitsPure (p n : Nat) (vs : List Val) : Option (List Val) :=
  match Nat.beq p (name! "bits"), Nat.beq n (name! "RotateLeft32"), vs with
  | true, true, [.u32 x, k] => match number k with
    | some k => some [.u32 (rotateLeft32 x k)]
    | none => none
  | _, _, _ => none

theorem right_bits (P : Program) (N d : Nat) (D : List (Option Val)) (i : Nat) (old : Nat → List Val) (next : Nat) :
    Right (P.world N (d + 1)) bitsPure D i old next := by
  constructor
  intro p n vs rs h C
  unfold bitsPure at h
  split at h
  · rename_i x k hp hn
    cases Nat.eq_of_beq_eq_true hp
    cases Nat.eq_of_beq_eq_true hn
    split at h
    · rename_i k' hk
      cases h
      simp only [Program.world, Program.call, extern, and_self, if_true, bind_run, need, hk, pure_run, rotateLeft32]
    · cases h
  · cases h

/-- sha1cdblock_generic.go:186-273. -/
def hasFunc : Func := evaluated! getFunc progSha1cd (name! "sha1cd") (name! "hasCollided")
/-- The statements of sha1cdblock_generic.go:188-272. -/
def hasBody : List Stmt := evaluated! inside (hasFunc.body.getD .skip)

/-- What is done in the `if` of the body of a loop, the last statement. -/
def ifBody : Stmt → Stmt
  | .block _ (.seq _ (.loop _ _ (.block _ s))) => match (flat s).getLast? with
    | some (.ite _ a _) => a
    | _ => .skip
  | _ => .skip

/-- sha1cdblock_generic.go:199-201. -/
def undo1 : Stmt := evaluated! ifBody (hasBody.getD 2 .skip)
/-- sha1cdblock_generic.go:207-209. -/
def undo2 : Stmt := evaluated! ifBody (hasBody.getD 3 .skip)
/-- sha1cdblock_generic.go:215-217. -/
def undo3 : Stmt := evaluated! ifBody (hasBody.getD 4 .skip)
/-- sha1cdblock_generic.go:224-227. -/
def undo4 : Stmt := evaluated! ifBody (hasBody.getD 5 .skip)
/-- sha1cdblock_generic.go:248-250. -/
def redo5 : Stmt := evaluated! ifBody (hasBody.getD 16 .skip)
/-- sha1cdblock_generic.go:255-257. -/
def redo6 : Stmt := evaluated! ifBody (hasBody.getD 17 .skip)

/-- A loop with a `uint32` variable in slot 11. -/
def loop11 (start : Nat) (o : BOp) (bound : Nat) (o' : BOp) (pre : List Stmt) (c : Expr) (body : Stmt) : Stmt :=
  .block 11 (.seq (.define 1 (.cons (.conv .u32 (.num start)) .nil))
    (.loop (.bin o (.loc 11) (.num bound)) (.opAssign o' (.loc 11) (.num 1))
      (.block 12 (seqs (pre ++ [.ite c body .skip])))))

/-- `a, b, c, d, e = b, c, d, e, a`, sha1cdblock_generic.go:197. -/
def turn : Stmt := .assign (.cons (.loc 6) (.cons (.loc 7) (.cons (.loc 8) (.cons (.loc 9) (.cons (.loc 10) .nil)))))
  (.cons (.loc 7) (.cons (.loc 8) (.cons (.loc 9) (.cons (.loc 10) (.cons (.loc 6) .nil)))))

/-- The six loops of sha1cdblock_generic.go:196-258. -/
def hasLoops : List Stmt :=
  [loop11 64 .ge 60 .sub [turn] (.bin .gt (.loc 0) (.loc 11)) undo1,
   loop11 59 .ge 40 .sub [turn] (.bin .gt (.loc 0) (.loc 11)) undo2,
   loop11 39 .ge 20 .sub [turn] (.bin .gt (.loc 0) (.loc 11)) undo3,
   loop11 20 .gt 0 .sub [.define 1 (.cons (.bin .sub (.loc 11) (.num 1)) .nil), turn] (.bin .gt (.loc 0) (.loc 12)) undo4,
   loop11 40 .lt 60 .add [] (.bin .le (.loc 0) (.loc 11)) redo5,
   loop11 60 .lt 80 .add [] (.bin .le (.loc 0) (.loc 11)) redo6]

/-- sha1cdblock_generic.go:188-190. -/
def hasFirst : List Stmt := evaluated! hasBody.take 2
/-- sha1cdblock_generic.go:231-240. -/
def hasMiddle : List Stmt := evaluated! (hasBody.drop 6).take 10
/-- sha1cdblock_generic.go:261-265. -/
def hasAdd : List Stmt := evaluated! (hasBody.drop 18).take 5
/-- The condition of sha1cdblock_generic.go:267-268. -/
def hasCond : Expr := evaluated! (match hasBody.getD 23 .skip with
  | .ite c _ _ => c
  | _ => .nil)

theorem hasFunc_eq : hasFunc = ⟨name! "sha1cd", name! "hasCollided", [.u32, .ptr (.arr 80 .u32), .ptr (.arr 80 .u32),
    .ptr (.arr 5 .u32), .ptr (.arr 5 .u32)], [.bool], false, some (.block 5 (seqs (
      hasFirst ++ (hasLoops.take 4 ++ (hasMiddle ++ (hasLoops.drop 4 ++ (hasAdd ++
      [.ite hasCond (.block 11 (.seq (.ret (.cons (.bool true) .nil)) .skip)) .skip,
       .ret (.cons (.bool false) .nil)])))))))⟩ := by by_kernel

/-- A value with an element replaced. -/
def updVal (v : Val) (i : Nat) (w : Word) : Val := match v.set [i] (.u32 w) with
  | .ok v => v
  | .error _ => v

section
variable (step : Word) (l1 l2 l3 l4 : Loc) (m1 dm : Fin 80 → Word) (state h : Regs) (v : Val)

/-- What the arguments point to. -/
def hasViews : List (Option Val) := [none, some (words 80 m1), some (words 80 dm), some (five state), some (five h)]

/-- The slots. -/
def hasSlots (r : Regs) : List Val :=
  [.u32 step, .ptr l1, .ptr l2, .ptr l3, .ptr l4, v, .u32 r.a, .u32 r.b, .u32 r.c, .u32 r.d, .u32 r.e]

/-- The slots in a loop. -/
def hasSlots' (i : Nat) (r : Regs) : List Val :=
  [.u32 step, .ptr l1, .ptr l2, .ptr l3, .ptr l4, v, .u32 r.a, .u32 r.b, .u32 r.c, .u32 r.d, .u32 r.e,
   .u32 (BitVec.ofNat 32 i)]

/-- A step is undone. -/
def undoT (f : Word → Word → Word → Word) (k : Word) (m2 : Word) (s : Regs) : Regs :=
  ⟨s.b, rotateLeft32 s.c (-30), s.d, s.e,
    s.a - (rotateLeft32 s.b 5 + f (rotateLeft32 s.c (-30)) s.d s.e + k + m2)⟩

/-- A step is not undone. -/
def undoF (s : Regs) : Regs := ⟨s.b, s.c, s.d, s.e, s.a⟩

theorem undo_eq (f : Word → Word → Word → Word) (k : Word) (i : Nat) (m2 : Word) (s : Regs) :
    undo f k step i m2 s = if step.toNat > i then undoT f k m2 s else undoF s := rfl

/-- A step is done. -/
def redoT (f : Word → Word → Word → Word) (k : Word) (m2 : Word) (s : Regs) : Regs :=
  ⟨rotateLeft32 s.a 5 + f s.b s.c s.d + s.e + k + m2, s.a, rotateLeft32 s.b 30, s.c, s.d⟩

theorem redo_eq (f : Word → Word → Word → Word) (k : Word) (i : Nat) (m2 : Word) (s : Regs) :
    redo f k step i m2 s = if step.toNat ≤ i then redoT f k m2 s else s := rfl

end

theorem pexec_seqs_append {F : Nat → Nat → List Val → Option (List Val)} {D : List (Option Val)} {ss ts : List Stmt}
    {C C' : List Val} (h : pexec F D (seqs ss) C = some C') :
    pexec F D (seqs (ss ++ ts)) C = pexec F D (seqs ts) C' := by
  induction ss generalizing C with
  | nil => cases h; rfl
  | cons s ss ih =>
    simp only [seqs, pexec, List.cons_append] at h ⊢
    split at h
    · exact ih h
    · cases h

/-- An iteration with an `if` at the end. -/
theorem pexec_iter {F : Nat → Nat → List Val → Option (List Val)} {D : List (Option Val)} {A : Type} {pre : List Stmt}
    {c : Expr} {X post : Stmt} {k : Nat} {C : List Val} (S S1 S2 : A → List Val) {P : Prop} [Decidable P] {rt rf : A}
    (hpre : pexec F D (seqs pre) C = some (S1 rf))
    (hc : one (pvs F D (S1 rf) c) = some (.bool (decide P)))
    (hX : pexec F D X (S1 rf) = some (S1 rt))
    (hk : Nat.ble D.length k = true)
    (hS : ∀ a, (S1 a).take k = S2 a)
    (hpost : ∀ a, pexec F D post (S2 a) = some (S a)) :
    pexec F D (.seq (.block k (seqs (pre ++ [.ite c X .skip]))) post) C = some (S (if P then rt else rf)) := by
  simp only [pexec, pexec_seqs_append hpre, seqs, hc, hX, hk]
  by_cases h : P <;> simp [h, pick, hS, hpost]

section
variable {X : World} {F : Nat → Nat → List Val → Option (List Val)} {D : List (Option Val)} {i : Nat}
  {old : Nat → List Val} {next : Nat}

/-- A loop that counts down, with its variable. -/
theorem exec_forDown (hr : Right X F D i old next) {N k : Nat} {init : Stmt} {c : Expr} {body post : Stmt} {A : Type}
    {C : List Val} (S : Nat → A → List Val) (T : A → List Val) (lo n : Nat) (f : (i : Nat) → lo ≤ i → i < lo + n → A → A) (a : A)
    (hk : D.length ≤ k) (hi : pexec F D init C = some (S n a))
    (hc : ∀ j, j < n → ∀ a, one (pvs F D (S (j + 1) a) c) = some (.bool true))
    (hb : ∀ j (hj : j < n) (a : A), pexec F D (.seq body post) (S (j + 1) a) =
      some (S j (f (lo + j) (Nat.le_add_right _ _) (Nat.add_lt_add_left hj lo) a)))
    (h0 : ∀ a, one (pvs F D (S 0 a) c) = some (.bool false)) (hT : ∀ a, (S 0 a).take k = T a) (hn : n < N)
    (hs : Seen D i old next C) :
    exec X N (.block k (.seq init (.loop c post body))) ⟨i, C, old, next⟩ =
      .ok (.normal, ⟨i, T (loopDown lo n f a), old, next⟩) ∧ Seen D i old next (T (loopDown lo n f a)) := by
  obtain ⟨h1, h2⟩ := exec_pexec hr N _ _ _ hi hs
  obtain ⟨h3, h4⟩ := exec_loopDown hr (N := N) (post := post) (body := body) (c := c) S lo n f a N hc hb h0 hn h2
  rw [← hT]
  exact ⟨exec_block ((exec_seq h1).trans (show exec X N (.loop c post body) _ = _ from h3)), seen_take _ hk h4⟩

/-- A loop that counts up, with its variable. -/
theorem exec_forUp (hr : Right X F D i old next) {N k : Nat} {init : Stmt} {c : Expr} {body post : Stmt} {A : Type}
    {C : List Val} (S : Nat → A → List Val) (T : A → List Val) (lo n : Nat) (f : (i : Nat) → lo ≤ i → i < lo + n → A → A) (a : A)
    (hk : D.length ≤ k) (hi : pexec F D init C = some (S 0 a))
    (hc : ∀ j, j < n → ∀ a, one (pvs F D (S j a) c) = some (.bool true))
    (hb : ∀ j (hj : j < n) (a : A), pexec F D (.seq body post) (S j a) =
      some (S (j + 1) (f (lo + j) (Nat.le_add_right _ _) (Nat.add_lt_add_left hj lo) a)))
    (h0 : ∀ a, one (pvs F D (S n a) c) = some (.bool false)) (hT : ∀ a, (S n a).take k = T a) (hn : n < N)
    (hs : Seen D i old next C) :
    exec X N (.block k (.seq init (.loop c post body))) ⟨i, C, old, next⟩ =
      .ok (.normal, ⟨i, T (loopUp lo n f a), old, next⟩) ∧ Seen D i old next (T (loopUp lo n f a)) := by
  obtain ⟨h1, h2⟩ := exec_pexec hr N _ _ _ hi hs
  obtain ⟨h3, h4⟩ := exec_loopUp hr (N := N) (post := post) (body := body) (c := c) S lo n f a N hc hb h0 hn h2
  rw [← hT]
  exact ⟨exec_block ((exec_seq h1).trans (show exec X N (.loop c post body) _ = _ from h3)), seen_take _ hk h4⟩

end

section
variable {X : World} {i : Nat} {old : Nat → List Val} {next N : Nat}
variable (step : Word) (l1 l2 l3 l4 : Loc) (m1 dm : Fin 80 → Word) (state h : Regs) (v : Val)

/-- Check a statement about all numbers below a literal one by one. -/
macro "one_by_one" : tactic =>
  `(tactic| (repeat refine below_succ ?_ (fun r => by by_kernel)
             intro j hj
             omega))

/-- sha1cdblock_generic.go:196-203. -/
theorem has1 (hr : Right X bitsPure (hasViews m1 dm state h) i old next) (r : Regs) (hN : 20 < N)
    (hs : Seen (hasViews m1 dm state h) i old next (hasSlots step l1 l2 l3 l4 v r)) :
    exec X N (loop11 64 .ge 60 .sub [turn]
      (.bin .gt (.loc 0) (.loc 11)) undo1) ⟨i, hasSlots step l1 l2 l3 l4 v r, old, next⟩ =
      .ok (.normal, ⟨i, hasSlots step l1 l2 l3 l4 v
        (loopDown 60 5 (fun i _ hi s => undo fPar K3 step i (m1 ⟨i, by omega⟩ ^^^ dm ⟨i, by omega⟩) s) r),
        old, next⟩) ∧
      Seen (hasViews m1 dm state h) i old next (hasSlots step l1 l2 l3 l4 v
        (loopDown 60 5 (fun i _ hi s => undo fPar K3 step i (m1 ⟨i, by omega⟩ ^^^ dm ⟨i, by omega⟩) s) r)) := by
  have hc : ∀ j, j < 5 → ∀ r, one (pvs bitsPure (hasViews m1 dm state h)
      (hasSlots' step l1 l2 l3 l4 v (59 + (j + 1)) r) (.bin .gt (.loc 0) (.loc 11))) =
      some (.bool (decide (step.toNat > 60 + j))) := by one_by_one
  have hX : ∀ j (hj : j < 5) r, pexec bitsPure (hasViews m1 dm state h) undo1
      (hasSlots' step l1 l2 l3 l4 v (59 + (j + 1)) (undoF r)) = some
      (hasSlots' step l1 l2 l3 l4 v (59 + (j + 1)) (undoT fPar K3 (m1 ⟨60 + j, by omega⟩ ^^^ dm ⟨60 + j, by omega⟩) r)) := by one_by_one
  have hp : ∀ j, j < 5 → ∀ r, pexec bitsPure (hasViews m1 dm state h) (.opAssign .sub (.loc 11) (.num 1))
      (hasSlots' step l1 l2 l3 l4 v (59 + (j + 1)) r) = some (hasSlots' step l1 l2 l3 l4 v (59 + j) r) := by one_by_one
  have ha : ∀ j, j < 5 → ∀ r, pexec bitsPure (hasViews m1 dm state h) (seqs [turn])
      (hasSlots' step l1 l2 l3 l4 v (59 + (j + 1)) r) = some (hasSlots' step l1 l2 l3 l4 v (59 + (j + 1)) (undoF r)) := by one_by_one
  refine exec_forDown hr (fun j r => hasSlots' step l1 l2 l3 l4 v (59 + j) r) (hasSlots step l1 l2 l3 l4 v) 60 5 _ r
    (by show 5 ≤ 11; omega) (by by_kernel) (by one_by_one) ?_ (fun a => by by_kernel) (fun a => rfl) (by omega) hs
  intro j hj r
  simp only [undo_eq]
  exact pexec_iter _ (hasSlots' step l1 l2 l3 l4 v (59 + (j + 1))) (hasSlots' step l1 l2 l3 l4 v (59 + (j + 1)))
    (ha j hj r) (hc j hj _) (hX j hj r) rfl (fun a => rfl) (hp j hj)

/-- sha1cdblock_generic.go:204-211. -/
theorem has2 (hr : Right X bitsPure (hasViews m1 dm state h) i old next) (r : Regs) (hN : 20 < N)
    (hs : Seen (hasViews m1 dm state h) i old next (hasSlots step l1 l2 l3 l4 v r)) :
    exec X N (loop11 59 .ge 40 .sub [turn]
      (.bin .gt (.loc 0) (.loc 11)) undo2) ⟨i, hasSlots step l1 l2 l3 l4 v r, old, next⟩ =
      .ok (.normal, ⟨i, hasSlots step l1 l2 l3 l4 v
        (loopDown 40 20 (fun i _ hi s => undo fMaj K2 step i (m1 ⟨i, by omega⟩ ^^^ dm ⟨i, by omega⟩) s) r),
        old, next⟩) ∧
      Seen (hasViews m1 dm state h) i old next (hasSlots step l1 l2 l3 l4 v
        (loopDown 40 20 (fun i _ hi s => undo fMaj K2 step i (m1 ⟨i, by omega⟩ ^^^ dm ⟨i, by omega⟩) s) r)) := by
  have hc : ∀ j, j < 20 → ∀ r, one (pvs bitsPure (hasViews m1 dm state h)
      (hasSlots' step l1 l2 l3 l4 v (39 + (j + 1)) r) (.bin .gt (.loc 0) (.loc 11))) =
      some (.bool (decide (step.toNat > 40 + j))) := by one_by_one
  have hX : ∀ j (hj : j < 20) r, pexec bitsPure (hasViews m1 dm state h) undo2
      (hasSlots' step l1 l2 l3 l4 v (39 + (j + 1)) (undoF r)) = some
      (hasSlots' step l1 l2 l3 l4 v (39 + (j + 1)) (undoT fMaj K2 (m1 ⟨40 + j, by omega⟩ ^^^ dm ⟨40 + j, by omega⟩) r)) := by one_by_one
  have hp : ∀ j, j < 20 → ∀ r, pexec bitsPure (hasViews m1 dm state h) (.opAssign .sub (.loc 11) (.num 1))
      (hasSlots' step l1 l2 l3 l4 v (39 + (j + 1)) r) = some (hasSlots' step l1 l2 l3 l4 v (39 + j) r) := by one_by_one
  have ha : ∀ j, j < 20 → ∀ r, pexec bitsPure (hasViews m1 dm state h) (seqs [turn])
      (hasSlots' step l1 l2 l3 l4 v (39 + (j + 1)) r) = some (hasSlots' step l1 l2 l3 l4 v (39 + (j + 1)) (undoF r)) := by one_by_one
  refine exec_forDown hr (fun j r => hasSlots' step l1 l2 l3 l4 v (39 + j) r) (hasSlots step l1 l2 l3 l4 v) 40 20 _ r
    (by show 5 ≤ 11; omega) (by by_kernel) (by one_by_one) ?_ (fun a => by by_kernel) (fun a => rfl) (by omega) hs
  intro j hj r
  simp only [undo_eq]
  exact pexec_iter _ (hasSlots' step l1 l2 l3 l4 v (39 + (j + 1))) (hasSlots' step l1 l2 l3 l4 v (39 + (j + 1)))
    (ha j hj r) (hc j hj _) (hX j hj r) rfl (fun a => rfl) (hp j hj)

/-- sha1cdblock_generic.go:212-219. -/
theorem has3 (hr : Right X bitsPure (hasViews m1 dm state h) i old next) (r : Regs) (hN : 20 < N)
    (hs : Seen (hasViews m1 dm state h) i old next (hasSlots step l1 l2 l3 l4 v r)) :
    exec X N (loop11 39 .ge 20 .sub [turn]
      (.bin .gt (.loc 0) (.loc 11)) undo3) ⟨i, hasSlots step l1 l2 l3 l4 v r, old, next⟩ =
      .ok (.normal, ⟨i, hasSlots step l1 l2 l3 l4 v
        (loopDown 20 20 (fun i _ hi s => undo fPar K1 step i (m1 ⟨i, by omega⟩ ^^^ dm ⟨i, by omega⟩) s) r),
        old, next⟩) ∧
      Seen (hasViews m1 dm state h) i old next (hasSlots step l1 l2 l3 l4 v
        (loopDown 20 20 (fun i _ hi s => undo fPar K1 step i (m1 ⟨i, by omega⟩ ^^^ dm ⟨i, by omega⟩) s) r)) := by
  have hc : ∀ j, j < 20 → ∀ r, one (pvs bitsPure (hasViews m1 dm state h)
      (hasSlots' step l1 l2 l3 l4 v (19 + (j + 1)) r) (.bin .gt (.loc 0) (.loc 11))) =
      some (.bool (decide (step.toNat > 20 + j))) := by one_by_one
  have hX : ∀ j (hj : j < 20) r, pexec bitsPure (hasViews m1 dm state h) undo3
      (hasSlots' step l1 l2 l3 l4 v (19 + (j + 1)) (undoF r)) = some
      (hasSlots' step l1 l2 l3 l4 v (19 + (j + 1)) (undoT fPar K1 (m1 ⟨20 + j, by omega⟩ ^^^ dm ⟨20 + j, by omega⟩) r)) := by one_by_one
  have hp : ∀ j, j < 20 → ∀ r, pexec bitsPure (hasViews m1 dm state h) (.opAssign .sub (.loc 11) (.num 1))
      (hasSlots' step l1 l2 l3 l4 v (19 + (j + 1)) r) = some (hasSlots' step l1 l2 l3 l4 v (19 + j) r) := by one_by_one
  have ha : ∀ j, j < 20 → ∀ r, pexec bitsPure (hasViews m1 dm state h) (seqs [turn])
      (hasSlots' step l1 l2 l3 l4 v (19 + (j + 1)) r) = some (hasSlots' step l1 l2 l3 l4 v (19 + (j + 1)) (undoF r)) := by one_by_one
  refine exec_forDown hr (fun j r => hasSlots' step l1 l2 l3 l4 v (19 + j) r) (hasSlots step l1 l2 l3 l4 v) 20 20 _ r
    (by show 5 ≤ 11; omega) (by by_kernel) (by one_by_one) ?_ (fun a => by by_kernel) (fun a => rfl) (by omega) hs
  intro j hj r
  simp only [undo_eq]
  exact pexec_iter _ (hasSlots' step l1 l2 l3 l4 v (19 + (j + 1))) (hasSlots' step l1 l2 l3 l4 v (19 + (j + 1)))
    (ha j hj r) (hc j hj _) (hX j hj r) rfl (fun a => rfl) (hp j hj)

/-- sha1cdblock_generic.go:220-229. -/
theorem has4 (hr : Right X bitsPure (hasViews m1 dm state h) i old next) (r : Regs) (hN : 20 < N)
    (hs : Seen (hasViews m1 dm state h) i old next (hasSlots step l1 l2 l3 l4 v r)) :
    exec X N (loop11 20 .gt 0 .sub [.define 1 (.cons (.bin .sub (.loc 11) (.num 1)) .nil), turn]
      (.bin .gt (.loc 0) (.loc 12)) undo4) ⟨i, hasSlots step l1 l2 l3 l4 v r, old, next⟩ =
      .ok (.normal, ⟨i, hasSlots step l1 l2 l3 l4 v
        (loopDown 0 20 (fun i _ hi s => undo fCh K0 step i (m1 ⟨i, by omega⟩ ^^^ dm ⟨i, by omega⟩) s) r),
        old, next⟩) ∧
      Seen (hasViews m1 dm state h) i old next (hasSlots step l1 l2 l3 l4 v
        (loopDown 0 20 (fun i _ hi s => undo fCh K0 step i (m1 ⟨i, by omega⟩ ^^^ dm ⟨i, by omega⟩) s) r)) := by
  have hc : ∀ j, j < 20 → ∀ r, one (pvs bitsPure (hasViews m1 dm state h)
      (hasSlots' step l1 l2 l3 l4 v (j + 1) r ++ [.u32 (BitVec.ofNat 32 j)]) (.bin .gt (.loc 0) (.loc 12))) =
      some (.bool (decide (step.toNat > 0 + j))) := by one_by_one
  have hX : ∀ j (hj : j < 20) r, pexec bitsPure (hasViews m1 dm state h) undo4
      (hasSlots' step l1 l2 l3 l4 v (j + 1) (undoF r) ++ [.u32 (BitVec.ofNat 32 j)]) = some
      (hasSlots' step l1 l2 l3 l4 v (j + 1) (undoT fCh K0 (m1 ⟨0 + j, by omega⟩ ^^^ dm ⟨0 + j, by omega⟩) r) ++ [.u32 (BitVec.ofNat 32 j)]) := by one_by_one
  have hp : ∀ j, j < 20 → ∀ r, pexec bitsPure (hasViews m1 dm state h) (.opAssign .sub (.loc 11) (.num 1))
      (hasSlots' step l1 l2 l3 l4 v (j + 1) r) = some (hasSlots' step l1 l2 l3 l4 v j r) := by one_by_one
  have ha : ∀ j, j < 20 → ∀ r, pexec bitsPure (hasViews m1 dm state h) (seqs [.define 1 (.cons (.bin .sub (.loc 11) (.num 1)) .nil), turn])
      (hasSlots' step l1 l2 l3 l4 v (j + 1) r) = some (hasSlots' step l1 l2 l3 l4 v (j + 1) (undoF r) ++ [.u32 (BitVec.ofNat 32 j)]) := by one_by_one
  refine exec_forDown hr (fun j r => hasSlots' step l1 l2 l3 l4 v j r) (hasSlots step l1 l2 l3 l4 v) 0 20 _ r
    (by show 5 ≤ 11; omega) (by by_kernel) (by one_by_one) ?_ (fun a => by by_kernel) (fun a => rfl) (by omega) hs
  intro j hj r
  simp only [undo_eq]
  exact pexec_iter _ (fun r => hasSlots' step l1 l2 l3 l4 v (j + 1) r ++ [.u32 (BitVec.ofNat 32 j)]) (hasSlots' step l1 l2 l3 l4 v (j + 1))
    (ha j hj r) (hc j hj _) (hX j hj r) rfl (fun a => rfl) (hp j hj)

/-- sha1cdblock_generic.go:246-252. -/
theorem has5 (hr : Right X bitsPure (hasViews m1 dm state h) i old next) (r : Regs) (hN : 20 < N)
    (hs : Seen (hasViews m1 dm state h) i old next (hasSlots step l1 l2 l3 l4 v r)) :
    exec X N (loop11 40 .lt 60 .add [] (.bin .le (.loc 0) (.loc 11)) redo5)
      ⟨i, hasSlots step l1 l2 l3 l4 v r, old, next⟩ =
      .ok (.normal, ⟨i, hasSlots step l1 l2 l3 l4 v
        (loopUp 40 20 (fun i _ hi s => redo fMaj K2 step i (m1 ⟨i, by omega⟩ ^^^ dm ⟨i, by omega⟩) s) r),
        old, next⟩) ∧
      Seen (hasViews m1 dm state h) i old next (hasSlots step l1 l2 l3 l4 v
        (loopUp 40 20 (fun i _ hi s => redo fMaj K2 step i (m1 ⟨i, by omega⟩ ^^^ dm ⟨i, by omega⟩) s) r)) := by
  have hc : ∀ j, j < 20 → ∀ r, one (pvs bitsPure (hasViews m1 dm state h) (hasSlots' step l1 l2 l3 l4 v (40 + j) r)
      (.bin .le (.loc 0) (.loc 11))) = some (.bool (decide (step.toNat ≤ 40 + j))) := by one_by_one
  have hX : ∀ j (hj : j < 20) r, pexec bitsPure (hasViews m1 dm state h) redo5
      (hasSlots' step l1 l2 l3 l4 v (40 + j) r) = some (hasSlots' step l1 l2 l3 l4 v (40 + j)
        (redoT fMaj K2 (m1 ⟨40 + j, by omega⟩ ^^^ dm ⟨40 + j, by omega⟩) r)) := by one_by_one
  have hp : ∀ j, j < 20 → ∀ r, pexec bitsPure (hasViews m1 dm state h) (.opAssign .add (.loc 11) (.num 1))
      (hasSlots' step l1 l2 l3 l4 v (40 + j) r) = some (hasSlots' step l1 l2 l3 l4 v (40 + (j + 1)) r) := by one_by_one
  refine exec_forUp hr (fun j r => hasSlots' step l1 l2 l3 l4 v (40 + j) r) (hasSlots step l1 l2 l3 l4 v) 40 20 _ r
    (by show 5 ≤ 11; omega) (by by_kernel) (by one_by_one) ?_ (fun a => by by_kernel) (fun a => rfl) (by omega) hs
  intro j hj r
  simp only [redo_eq]
  exact pexec_iter (pre := []) _ (hasSlots' step l1 l2 l3 l4 v (40 + j)) (hasSlots' step l1 l2 l3 l4 v (40 + j))
    rfl (hc j hj _) (hX j hj r) rfl (fun a => rfl) (hp j hj)

/-- sha1cdblock_generic.go:253-259. -/
theorem has6 (hr : Right X bitsPure (hasViews m1 dm state h) i old next) (r : Regs) (hN : 20 < N)
    (hs : Seen (hasViews m1 dm state h) i old next (hasSlots step l1 l2 l3 l4 v r)) :
    exec X N (loop11 60 .lt 80 .add [] (.bin .le (.loc 0) (.loc 11)) redo6)
      ⟨i, hasSlots step l1 l2 l3 l4 v r, old, next⟩ =
      .ok (.normal, ⟨i, hasSlots step l1 l2 l3 l4 v
        (loopUp 60 20 (fun i _ hi s => redo fPar K3 step i (m1 ⟨i, by omega⟩ ^^^ dm ⟨i, by omega⟩) s) r),
        old, next⟩) ∧
      Seen (hasViews m1 dm state h) i old next (hasSlots step l1 l2 l3 l4 v
        (loopUp 60 20 (fun i _ hi s => redo fPar K3 step i (m1 ⟨i, by omega⟩ ^^^ dm ⟨i, by omega⟩) s) r)) := by
  have hc : ∀ j, j < 20 → ∀ r, one (pvs bitsPure (hasViews m1 dm state h) (hasSlots' step l1 l2 l3 l4 v (60 + j) r)
      (.bin .le (.loc 0) (.loc 11))) = some (.bool (decide (step.toNat ≤ 60 + j))) := by one_by_one
  have hX : ∀ j (hj : j < 20) r, pexec bitsPure (hasViews m1 dm state h) redo6
      (hasSlots' step l1 l2 l3 l4 v (60 + j) r) = some (hasSlots' step l1 l2 l3 l4 v (60 + j)
        (redoT fPar K3 (m1 ⟨60 + j, by omega⟩ ^^^ dm ⟨60 + j, by omega⟩) r)) := by one_by_one
  have hp : ∀ j, j < 20 → ∀ r, pexec bitsPure (hasViews m1 dm state h) (.opAssign .add (.loc 11) (.num 1))
      (hasSlots' step l1 l2 l3 l4 v (60 + j) r) = some (hasSlots' step l1 l2 l3 l4 v (60 + (j + 1)) r) := by one_by_one
  refine exec_forUp hr (fun j r => hasSlots' step l1 l2 l3 l4 v (60 + j) r) (hasSlots step l1 l2 l3 l4 v) 60 20 _ r
    (by show 5 ≤ 11; omega) (by by_kernel) (by one_by_one) ?_ (fun a => by by_kernel) (fun a => rfl) (by omega) hs
  intro j hj r
  simp only [redo_eq]
  exact pexec_iter (pre := []) _ (hasSlots' step l1 l2 l3 l4 v (60 + j)) (hasSlots' step l1 l2 l3 l4 v (60 + j))
    rfl (hc j hj _) (hX j hj r) rfl (fun a => rfl) (hp j hj)

end

/-- `ihv` as it is made, sha1cdblock_generic.go:188. -/
def ihv0 : Val := .arr 5 (fromList .u32 [])
/-- `ihv` after the first loops, sha1cdblock_generic.go:231-235. -/
def ihv1 (r : Regs) : Val := updVal (updVal (updVal (updVal (updVal ihv0 0 r.a) 1 r.b) 2 r.c) 3 r.d) 4 r.e
/-- `ihv` in the end, sha1cdblock_generic.go:261-265. -/
def ihv2 (r s : Regs) : Val :=
  updVal (updVal (updVal (updVal (updVal (ihv1 r) 0 (r.a + s.a)) 1 (r.b + s.b)) 2 (r.c + s.c)) 3 (r.d + s.d)) 4 (r.e + s.e)

theorem exec_seqs_cons {X : World} {N : Nat} {s : Stmt} {ss : List Stmt} {m m' : Mem}
    (h : exec X N s m = .ok (.normal, m')) : exec X N (seqs (s :: ss)) m = exec X N (seqs ss) m' := exec_seq h

/-- What is seen of places of other frames in a new one. -/
theorem seen_enter {m : Mem} {as : List Val} {D : List (Option Val)} {C : List Val}
    (h : ∀ k v, view D k = some v → ∃ l, C[k]? = some (.ptr l) ∧ m.Has l ∧ load l m = .ok (v, m)) :
    Seen D m.next (m.enter as).old (m.next + 1) C := by
  intro k v hv
  obtain ⟨l, h1, h2, h3⟩ := h k v hv
  exact ⟨.ptr l, h1, load_enter h2 h3 as⟩

/-- `hasCollided`, sha1cdblock_generic.go:185-273. -/
theorem has_eq {P : Program} (hf : findFunc (name! "sha1cd") (name! "hasCollided") P.funcs = some hasFunc) {N : Nat}
    (hN : 20 < N) (d : Nat) (step : Word) (l1 l2 l3 l4 : Loc) (m1 dm : Fin 80 → Word) (state h : Regs) (m : Mem)
    (b1 : m.Has l1) (b2 : m.Has l2) (b3 : m.Has l3) (b4 : m.Has l4) (h1 : load l1 m = .ok (words 80 m1, m))
    (h2 : load l2 m = .ok (words 80 dm, m)) (h3 : load l3 m = .ok (five state, m)) (h4 : load l4 m = .ok (five h, m)) :
    P.call N (d + 2) (name! "sha1cd") (name! "hasCollided") [.u32 step, .ptr l1, .ptr l2, .ptr l3, .ptr l4] m =
      .ok ([.bool (hasCollided step m1 dm state h)], m) := by
  rw [call_of (by rfl) hf (by rw [hasFunc_eq])]
  have hr := right_bits P N d (hasViews m1 dm state h) m.next
    (m.enter [.u32 step, .ptr l1, .ptr l2, .ptr l3, .ptr l4]).old (m.next + 1)
  have hs : Seen (hasViews m1 dm state h) m.next (m.enter [.u32 step, .ptr l1, .ptr l2, .ptr l3, .ptr l4]).old
      (m.next + 1) [.u32 step, .ptr l1, .ptr l2, .ptr l3, .ptr l4] := by
    refine seen_enter fun k v hv => ?_
    match k with
    | 0 => simp [view, hasViews] at hv
    | 1 => simp only [view, hasViews] at hv; cases hv; exact ⟨l1, rfl, b1, h1⟩
    | 2 => simp only [view, hasViews] at hv; cases hv; exact ⟨l2, rfl, b2, h2⟩
    | 3 => simp only [view, hasViews] at hv; cases hv; exact ⟨l3, rfl, b3, h3⟩
    | 4 => simp only [view, hasViews] at hv; cases hv; exact ⟨l4, rfl, b4, h4⟩
    | k + 5 => simp [view, hasViews] at hv
  obtain ⟨e0, s0⟩ := exec_pexec hr N (seqs hasFirst) _ (hasSlots step l1 l2 l3 l4 ihv0 state) (by by_kernel) hs
  obtain ⟨e1, s1⟩ := has1 step l1 l2 l3 l4 m1 dm state h ihv0 hr _ hN s0
  obtain ⟨e2, s2⟩ := has2 step l1 l2 l3 l4 m1 dm state h ihv0 hr _ hN s1
  obtain ⟨e3, s3⟩ := has3 step l1 l2 l3 l4 m1 dm state h ihv0 hr _ hN s2
  obtain ⟨e4, s4⟩ := has4 step l1 l2 l3 l4 m1 dm state h ihv0 hr _ hN s3
  have hm : ∀ r, pexec bitsPure (hasViews m1 dm state h) (seqs hasMiddle) (hasSlots step l1 l2 l3 l4 ihv0 r) =
      some (hasSlots step l1 l2 l3 l4 (ihv1 r) state) := fun r => by by_kernel
  obtain ⟨e5, s5⟩ := exec_pexec hr N _ _ _ (hm _) s4
  obtain ⟨e6, s6⟩ := has5 step l1 l2 l3 l4 m1 dm state h _ hr _ hN s5
  obtain ⟨e7, s7⟩ := has6 step l1 l2 l3 l4 m1 dm state h _ hr _ hN s6
  have ha : ∀ r s, pexec bitsPure (hasViews m1 dm state h) (seqs hasAdd) (hasSlots step l1 l2 l3 l4 (ihv1 r) s) =
      some (hasSlots step l1 l2 l3 l4 (ihv2 r s) s) := fun r s => by by_kernel
  obtain ⟨e8, s8⟩ := exec_pexec hr N _ _ _ (ha _ _) s7
  have hc : ∀ r s, one (pvs bitsPure (hasViews m1 dm state h) (hasSlots step l1 l2 l3 l4 (ihv2 r s) s) hasCond) =
      some (.bool (decide ((((r.a + s.a) ^^^ h.a) ||| ((r.b + s.b) ^^^ h.b) ||| ((r.c + s.c) ^^^ h.c) |||
        ((r.d + s.d) ^^^ h.d) ||| ((r.e + s.e) ^^^ h.e)) = 0))) := fun r s => by by_kernel
  have e9 := ev_pvs hr s8 (hc _ _)
  have hh : ∀ (p : Prop) [Decidable p] (C : List Val),
      ev (P.world N (d + 1)) hasCond ⟨m.next, C, (m.enter [.u32 step, .ptr l1, .ptr l2, .ptr l3, .ptr l4]).old,
        m.next + 1⟩ = .ok (.bool (decide p), ⟨m.next, C, (m.enter [.u32 step, .ptr l1, .ptr l2, .ptr l3, .ptr l4]).old,
        m.next + 1⟩) →
      exec (P.world N (d + 1)) N (seqs [.ite hasCond (.block 11 (.seq (.ret (.cons (.bool true) .nil)) .skip)) .skip,
        .ret (.cons (.bool false) .nil)])
        ⟨m.next, C, (m.enter [.u32 step, .ptr l1, .ptr l2, .ptr l3, .ptr l4]).old, m.next + 1⟩ =
      .ok (.ret [.bool (if p then true else false)],
        ⟨m.next, C, (m.enter [.u32 step, .ptr l1, .ptr l2, .ptr l3, .ptr l4]).old, m.next + 1⟩) := by
    intro p _ C he
    by_cases hp : p
    · rw [if_pos hp]
      exact exec_seq_ret ((exec_ite_true (he.trans (by rw [decide_eq_true hp]))).trans rfl)
    · rw [if_neg hp]
      exact (exec_seq ((exec_ite_false (he.trans (by rw [decide_eq_false hp]))).trans rfl)).trans rfl
  refine (runFunc_of (s := .ret [.bool (hasCollided step m1 dm state h)]) (congrArg Func.body hasFunc_eq) (by rw [hasFunc_eq]; exact Nat.lt_irrefl 5)
    (exec_block_ret ((exec_seqs_append e0).trans (((exec_seqs_cons e1).trans ((exec_seqs_cons e2).trans
      ((exec_seqs_cons e3).trans ((exec_seqs_cons e4).trans ((exec_seqs_append e5).trans ((exec_seqs_cons e6).trans
      ((exec_seqs_cons e7).trans ((exec_seqs_append e8).trans (hh _ _ e9)))))))))))) (by rw [hasFunc_eq]; rfl)).trans ?_
  rw [show (Stmt.addrs _) = false by by_kernel, leave_enter]
  rfl

end Verif.Source.Go
