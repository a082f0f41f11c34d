import Verif.Proofs.GoCheck
import Verif.Proofs.GoStore

/-!
The rounds of `blockGeneric` as they are read from the text of sha1cdblock_generic.go are `Model.rounds`.
-/

namespace Verif.Source.Go

open Verif Verif.Source Verif.Model

/-- sha1cdblock_generic.go:20-143. -/
def blockFunc : Func := evaluated! getFunc progSha1cd (name! "sha1cd") (name! "blockGeneric")

/-- The statements of sha1cdblock_generic.go:23-142. -/
def blockStmts : List Stmt := evaluated! inside (blockFunc.body.getD .skip)

/-- The statements from the label on, sha1cdblock_generic.go:41-139. -/
def labelStmts : List Stmt := evaluated! (match blockStmts.getD 3 .skip with
  | .loop _ _ (.block _ (.seq _ (.seq _ (.label _ _ t)))) => flat t
  | _ => [])

/-- The body of a loop. -/
def bodyOf : Stmt → Stmt
  | .block _ (.seq _ (.loop _ _ b)) => b
  | _ => .skip

/-- sha1cdblock_generic.go:52-61. -/
def rBody1 : Stmt := evaluated! bodyOf (labelStmts.getD 3 .skip)
/-- sha1cdblock_generic.go:64-72. -/
def rBody2 : Stmt := evaluated! bodyOf (labelStmts.getD 4 .skip)
/-- sha1cdblock_generic.go:75-83. -/
def rBody3 : Stmt := evaluated! bodyOf (labelStmts.getD 5 .skip)
/-- sha1cdblock_generic.go:86-99. -/
def rBody4 : Stmt := evaluated! bodyOf (labelStmts.getD 6 .skip)
/-- sha1cdblock_generic.go:102-115. -/
def rBody5 : Stmt := evaluated! bodyOf (labelStmts.getD 7 .skip)

/-- `for ; i < n; i++`, sha1cdblock_generic.go:51,63,74,85,101. -/
def upto (n : Nat) (body : Stmt) : Stmt :=
  .block 17 (.seq .skip (.loop (.bin .lt (.loc 16) (.num n)) (.opAssign .add (.loc 16) (.num 1)) body))

/-- sha1cdblock_generic.go:41-49. -/
def labelFirst : List Stmt := evaluated! labelStmts.take 3
/-- sha1cdblock_generic.go:118-122. -/
def labelAdd : List Stmt := evaluated! (labelStmts.drop 8).take 5
/-- sha1cdblock_generic.go:124-139. -/
def labelLast : List Stmt := evaluated! labelStmts.drop 13

theorem labelStmts_eq : labelStmts = labelFirst ++ ([upto 16 rBody1, upto 20 rBody2, upto 40 rBody3, upto 60 rBody4,
    upto 80 rBody5] ++ (labelAdd ++ labelLast)) := by by_kernel

/-- The slots at the label, and more. -/
def bSlots (dg p w cs : Val) (h : Regs) (m1 : Val) (hi : Nat) (more : List Val) : List Val :=
  dg :: p :: w :: cs :: .u32 h.a :: .u32 h.b :: .u32 h.c :: .u32 h.d :: .u32 h.e :: m1 :: .int hi :: more

/-- `a`, `b`, `c`, `d`, `e` and `i`. -/
def rMore (r : Regs) (i : Nat) : List Val := [.u32 r.a, .u32 r.b, .u32 r.c, .u32 r.d, .u32 r.e, .int i]

/-- The slots in the rounds. -/
def rSlots (dg p : Val) (h : Regs) (hi : Nat) (i : Nat) (s : RoundState) : List Val :=
  bSlots dg p (words 16 s.w) (three s.cs) h (words 80 s.m1) hi (rMore s.r i)

/-- What the slots point to: the first 64 bytes. -/
def bViews (p : List Byte) (hp : 64 ≤ p.length) : List (Option Val) :=
  [none, some (.arr 64 fun q => .u8 (if h : q < 64 then p[q]'(Nat.lt_of_lt_of_le h hp) else 0))]

/-- Five words as an array literal makes them. -/
def lit5 (r : Regs) : Val := .arr 5 (fromList .u32 [.u32 r.a, .u32 r.b, .u32 r.c, .u32 r.d, .u32 r.e])

theorem lit5_eq (r : Regs) : lit5 r = five r := by
  simp only [lit5, five, words, Val.arr.injEq, true_and]
  funext j
  match j with
  | 0 => rfl
  | 1 => rfl
  | 2 => rfl
  | 3 => rfl
  | 4 => rfl
  | j + 5 => simp [fromList, zero]; intro h; omega

theorem updVal_words {n : Nat} (w : Fin n → Word) (k : Fin n) (x : Word) : updVal (words n w) k.val x = words n (upd w k x) := by
  simp only [updVal, words, Val.set, if_pos k.isLt, like, Val.arr.injEq, true_and]
  funext j
  by_cases hj : j = k.val
  · subst hj
    simp [upd]
  · rw [if_neg hj]
    by_cases hn : j < n
    · have : (⟨j, hn⟩ : Fin n) ≠ k := fun h => hj (congrArg Fin.val h)
      simp [hn, upd, this]
    · simp [hn]

/-- `cs` with an element replaced. -/
def setCs (v : Val) (k : Nat) (r : Regs) : Val := match v.set [k] (lit5 r) with
  | .ok v => v
  | .error _ => v

theorem setCs_three (cs : Fin 3 → Regs) (k : Fin 3) (r : Regs) : setCs (three cs) k.val r = three (upd cs k r) := by
  have hl : ∀ v, like v (lit5 r) = lit5 r := fixed_arr _ _
  simp only [setCs, three, Val.set, if_pos k.isLt, hl, Val.arr.injEq, true_and]
  rw [lit5_eq]
  funext j
  by_cases hj : j = k.val
  · subst hj
    simp [upd]
  · rw [if_neg hj]
    by_cases hn : j < 3
    · have : (⟨j, hn⟩ : Fin 3) ≠ k := fun h => hj (congrArg Fin.val h)
      simp [hn, upd, this]
    · simp [hn]

section
variable (dg pv : Val) (p : List Byte) (hp : 64 ≤ p.length) (h : Regs) (hi : Nat)

theorem step1 (lp : Loc) (off len cap : Nat) : ∀ j (hj : j < 16) (s : RoundState),
    pexec bitsPure (bViews p hp) (.seq rBody1 (.opAssign .add (.loc 16) (.num 1))) (rSlots dg (.slice lp off len cap) h hi (0 + j) s) =
      some (rSlots dg (.slice lp off len cap) h hi (0 + (j + 1)) (round1 p hp (0 + j) (by omega) s)) := by
  have key : ∀ j (hj : j < 16) (s : RoundState),
      pexec bitsPure (bViews p hp) (.seq rBody1 (.opAssign .add (.loc 16) (.num 1))) (rSlots dg (.slice lp off len cap) h hi (0 + j) s) =
      some (bSlots dg (.slice lp off len cap) (updVal (words 16 s.w) (0 + j) (load32 p ((0 + j) * 4) (by omega))) (three s.cs) h
        (updVal (words 80 s.m1) (0 + j) (load32 p ((0 + j) * 4) (by omega))) hi
        (rMore (round1 p hp (0 + j) (by omega) s).r (0 + (j + 1)))) := by one_by_one
  intro j hj s
  rw [key j hj s]
  have h1 := updVal_words s.w ⟨0 + j, by omega⟩ (load32 p ((0 + j) * 4) (by omega))
  have h2 := updVal_words s.m1 ⟨0 + j, by omega⟩ (load32 p ((0 + j) * 4) (by omega))
  have hix : ix (0 + j) = ⟨0 + j, by omega⟩ := by
    apply Fin.ext
    show (0 + j) &&& 15 = 0 + j
    have := Nat.and_two_pow_sub_one_of_lt_two_pow (x := 0 + j) (n := 4) (by omega)
    simpa using this
  simp only at h1 h2
  rw [h1, h2]
  have hm : (round1 p hp (0 + j) (by omega) s).m1 = upd s.m1 ⟨0 + j, by omega⟩ (load32 p ((0 + j) * 4) (by omega)) := by
    simp only [round1, hix, upd, if_true]
  simp only [rSlots, hm]
  rfl

/-- What a later iteration does to the slots. -/
theorem stepN (f : Word → Word → Word → Word) (k : Word) (i : Nat) (hi' : i < 80) (s t : RoundState) (ht : t = s) :
    bSlots dg pv (updVal (words 16 s.w) (ix i).val ((roundN f k i hi' t).w (ix i))) (three s.cs) h
        (updVal (words 80 s.m1) i ((roundN f k i hi' t).w (ix i))) hi (rMore (roundN f k i hi' t).r (i + 1)) =
      rSlots dg pv h hi (i + 1) (roundN f k i hi' t) := by
  subst ht
  have h2 := updVal_words t.m1 ⟨i, hi'⟩ ((roundN f k i hi' t).w (ix i))
  simp only at h2
  rw [updVal_words, h2]
  have hw : upd t.w (ix i) ((roundN f k i hi' t).w (ix i)) = (roundN f k i hi' t).w := by
    funext j
    simp only [roundN, expand, upd]
    split <;> rfl
  rw [hw]
  rfl

theorem step2 : ∀ j (hj : j < 4) (s : RoundState),
    pexec bitsPure (bViews p hp) (.seq rBody2 (.opAssign .add (.loc 16) (.num 1))) (rSlots dg pv h hi (16 + j) s) =
      some (rSlots dg pv h hi (16 + (j + 1)) (roundN fCh K0 (16 + j) (by omega) s)) := by
  have key : ∀ j (hj : j < 4) (s : RoundState),
      pexec bitsPure (bViews p hp) (.seq rBody2 (.opAssign .add (.loc 16) (.num 1))) (rSlots dg pv h hi (16 + j) s) =
      some (bSlots dg pv (updVal (words 16 s.w) (ix (16 + j)).val ((roundN fCh K0 (16 + j) (by omega) s).w (ix (16 + j))))
        (three s.cs) h (updVal (words 80 s.m1) (16 + j) ((roundN fCh K0 (16 + j) (by omega) s).w (ix (16 + j)))) hi
        (rMore (roundN fCh K0 (16 + j) (by omega) s).r (16 + j + 1))) := by one_by_one
  intro j hj s
  rw [key j hj s, stepN dg pv h hi fCh K0 (16 + j) (by omega) s s rfl]
  rfl

theorem step3 : ∀ j (hj : j < 20) (s : RoundState),
    pexec bitsPure (bViews p hp) (.seq rBody3 (.opAssign .add (.loc 16) (.num 1))) (rSlots dg pv h hi (20 + j) s) =
      some (rSlots dg pv h hi (20 + (j + 1)) (roundN fPar K1 (20 + j) (by omega) s)) := by
  have key : ∀ j (hj : j < 20) (s : RoundState),
      pexec bitsPure (bViews p hp) (.seq rBody3 (.opAssign .add (.loc 16) (.num 1))) (rSlots dg pv h hi (20 + j) s) =
      some (bSlots dg pv (updVal (words 16 s.w) (ix (20 + j)).val ((roundN fPar K1 (20 + j) (by omega) s).w (ix (20 + j))))
        (three s.cs) h (updVal (words 80 s.m1) (20 + j) ((roundN fPar K1 (20 + j) (by omega) s).w (ix (20 + j)))) hi
        (rMore (roundN fPar K1 (20 + j) (by omega) s).r (20 + j + 1))) := by one_by_one
  intro j hj s
  rw [key j hj s, stepN dg pv h hi fPar K1 (20 + j) (by omega) s s rfl]
  rfl

theorem step4 : ∀ j (hj : j < 20) (s : RoundState),
    pexec bitsPure (bViews p hp) (.seq rBody4 (.opAssign .add (.loc 16) (.num 1))) (rSlots dg pv h hi (40 + j) s) =
      some (rSlots dg pv h hi (40 + (j + 1)) (roundN fMaj K2 (40 + j) (by omega) (storeCs 58 1 (40 + j) s))) := by
  have key : ∀ j (hj : j < 20) (s : RoundState),
      pexec bitsPure (bViews p hp) (.seq rBody4 (.opAssign .add (.loc 16) (.num 1))) (rSlots dg pv h hi (40 + j) s) =
      some (bSlots dg pv (updVal (words 16 s.w) (ix (40 + j)).val ((roundN fMaj K2 (40 + j) (by omega) s).w (ix (40 + j))))
        (if 40 + j = 58 then setCs (three s.cs) (1 : Fin 3).val s.r else three s.cs) h
        (updVal (words 80 s.m1) (40 + j) ((roundN fMaj K2 (40 + j) (by omega) s).w (ix (40 + j)))) hi
        (rMore (roundN fMaj K2 (40 + j) (by omega) s).r (40 + j + 1))) := by one_by_one
  intro j hj s
  rw [key j hj s]
  by_cases h58 : 40 + j = 58
  · simp only [storeCs, if_pos h58, setCs_three]
    exact congrArg some (stepN dg pv h hi fMaj K2 (40 + j) (by omega) { s with cs := upd s.cs 1 s.r } _ rfl)
  · simp only [storeCs, if_neg h58]
    exact congrArg some (stepN dg pv h hi fMaj K2 (40 + j) (by omega) s s rfl)

theorem step5 : ∀ j (hj : j < 20) (s : RoundState),
    pexec bitsPure (bViews p hp) (.seq rBody5 (.opAssign .add (.loc 16) (.num 1))) (rSlots dg pv h hi (60 + j) s) =
      some (rSlots dg pv h hi (60 + (j + 1)) (roundN fPar K3 (60 + j) (by omega) (storeCs 65 2 (60 + j) s))) := by
  have key : ∀ j (hj : j < 20) (s : RoundState),
      pexec bitsPure (bViews p hp) (.seq rBody5 (.opAssign .add (.loc 16) (.num 1))) (rSlots dg pv h hi (60 + j) s) =
      some (bSlots dg pv (updVal (words 16 s.w) (ix (60 + j)).val ((roundN fPar K3 (60 + j) (by omega) s).w (ix (60 + j))))
        (if 60 + j = 65 then setCs (three s.cs) (2 : Fin 3).val s.r else three s.cs) h
        (updVal (words 80 s.m1) (60 + j) ((roundN fPar K3 (60 + j) (by omega) s).w (ix (60 + j)))) hi
        (rMore (roundN fPar K3 (60 + j) (by omega) s).r (60 + j + 1))) := by one_by_one
  intro j hj s
  rw [key j hj s]
  by_cases h65 : 60 + j = 65
  · simp only [storeCs, if_pos h65, setCs_three]
    exact congrArg some (stepN dg pv h hi fPar K3 (60 + j) (by omega) { s with cs := upd s.cs 2 s.r } _ rfl)
  · simp only [storeCs, if_neg h65]
    exact congrArg some (stepN dg pv h hi fPar K3 (60 + j) (by omega) s s rfl)

end

section
variable {X : World} {i : Nat} {old : Nat → List Val} {next N : Nat}
variable (dg : Val) (lp : Loc) (off len cap : Nat) (p : List Byte) (hp : 64 ≤ p.length) (h : Regs) (hi : Nat)

/-- The rounds, sha1cdblock_generic.go:41-122: `rest` runs after them. -/
theorem rounds_ok (hr : Right X bitsPure (bViews p hp) i old next) (hN : 20 < N) (w : Fin 16 → Word) (cs : Fin 3 → Regs)
    (m1 : Fin 80 → Word) (hs : Seen (bViews p hp) i old next (bSlots dg (.slice lp off len cap) (words 16 w) (three cs) h (words 80 m1) hi [])) :
    ∃ r, r = rounds p hp h { w := w, m1 := m1, r := h, cs := cs } ∧
      exec X N (seqs labelStmts) ⟨i, bSlots dg (.slice lp off len cap) (words 16 w) (three cs) h (words 80 m1) hi [], old, next⟩ =
      exec X N (seqs labelLast) ⟨i, rSlots dg (.slice lp off len cap) (h.add r.r) hi 80 r, old, next⟩ ∧
      Seen (bViews p hp) i old next (rSlots dg (.slice lp off len cap) (h.add r.r) hi 80 r) := by
  refine ⟨_, rfl, ?_⟩
  have e0' : pexec bitsPure (bViews p hp) (seqs labelFirst) (bSlots dg (.slice lp off len cap) (words 16 w) (three cs) h (words 80 m1) hi []) =
      some (bSlots dg (.slice lp off len cap) (words 16 w) (setCs (three cs) (0 : Fin 3).val h) h (words 80 m1) hi (rMore h 0)) := by by_kernel
  rw [setCs_three] at e0'
  obtain ⟨e0, s0⟩ := exec_pexec hr N _ _ (rSlots dg (.slice lp off len cap) h hi (0 + 0) { w := w, m1 := m1, r := h, cs := upd cs 0 h }) e0' hs
  obtain ⟨e1, s1⟩ := exec_forUp hr (k := 17) (init := .skip) (c := .bin .lt (.loc 16) (.num 16))
    (post := .opAssign .add (.loc 16) (.num 1)) (body := rBody1) (N := N) (fun j s => rSlots dg (.slice lp off len cap) h hi (0 + j) s) (fun s => rSlots dg (.slice lp off len cap) h hi (0 + 16) s) 0 16
    (fun i _ hi s => round1 p hp i (by omega) s) _ (by show 2 ≤ 17; omega) rfl (by one_by_one)
    (step1 dg p hp h hi lp off len cap) (fun a => by by_kernel) (fun a => rfl) (by omega) s0
  obtain ⟨e2, s2⟩ := exec_forUp hr (k := 17) (init := .skip) (c := .bin .lt (.loc 16) (.num 20))
    (post := .opAssign .add (.loc 16) (.num 1)) (body := rBody2) (N := N) (fun j s => rSlots dg (.slice lp off len cap) h hi (16 + j) s) (fun s => rSlots dg (.slice lp off len cap) h hi (16 + 4) s) 16 4
    (fun i _ hi s => roundN fCh K0 i (by omega) s) _ (by show 2 ≤ 17; omega) rfl (by one_by_one)
    (step2 dg (.slice lp off len cap) p hp h hi) (fun a => by by_kernel) (fun a => rfl) (by omega) s1
  obtain ⟨e3, s3⟩ := exec_forUp hr (k := 17) (init := .skip) (c := .bin .lt (.loc 16) (.num 40))
    (post := .opAssign .add (.loc 16) (.num 1)) (body := rBody3) (N := N) (fun j s => rSlots dg (.slice lp off len cap) h hi (20 + j) s) (fun s => rSlots dg (.slice lp off len cap) h hi (20 + 20) s) 20 20
    (fun i _ hi s => roundN fPar K1 i (by omega) s) _ (by show 2 ≤ 17; omega) rfl (by one_by_one)
    (step3 dg (.slice lp off len cap) p hp h hi) (fun a => by by_kernel) (fun a => rfl) (by omega) s2
  obtain ⟨e4, s4⟩ := exec_forUp hr (k := 17) (init := .skip) (c := .bin .lt (.loc 16) (.num 60))
    (post := .opAssign .add (.loc 16) (.num 1)) (body := rBody4) (N := N) (fun j s => rSlots dg (.slice lp off len cap) h hi (40 + j) s) (fun s => rSlots dg (.slice lp off len cap) h hi (40 + 20) s) 40 20
    (fun i _ hi s => roundN fMaj K2 i (by omega) (storeCs 58 1 i s)) _ (by show 2 ≤ 17; omega) rfl (by one_by_one)
    (step4 dg (.slice lp off len cap) p hp h hi) (fun a => by by_kernel) (fun a => rfl) (by omega) s3
  obtain ⟨e5, s5⟩ := exec_forUp hr (k := 17) (init := .skip) (c := .bin .lt (.loc 16) (.num 80))
    (post := .opAssign .add (.loc 16) (.num 1)) (body := rBody5) (N := N) (fun j s => rSlots dg (.slice lp off len cap) h hi (60 + j) s) (fun s => rSlots dg (.slice lp off len cap) h hi (60 + 20) s) 60 20
    (fun i _ hi s => roundN fPar K3 i (by omega) (storeCs 65 2 i s)) _ (by show 2 ≤ 17; omega) rfl (by one_by_one)
    (step5 dg (.slice lp off len cap) p hp h hi) (fun a => by by_kernel) (fun a => rfl) (by omega) s4
  have e6' : ∀ r, pexec bitsPure (bViews p hp) (seqs labelAdd) (rSlots dg (.slice lp off len cap) h hi (60 + 20) r) =
      some (rSlots dg (.slice lp off len cap) (h.add r.r) hi 80 r) := fun r => by by_kernel
  obtain ⟨e6, s6⟩ := exec_pexec hr N _ _ _ (e6' _) s5
  refine ⟨?_, s6⟩
  rw [labelStmts_eq]
  refine (exec_seqs_append e0).trans ?_
  show exec X N (seqs (upto 16 rBody1 :: upto 20 rBody2 :: upto 40 rBody3 :: upto 60 rBody4 :: upto 80 rBody5 ::
    (labelAdd ++ labelLast))) _ = _
  refine (exec_seqs_cons e1).trans ((exec_seqs_cons e2).trans ((exec_seqs_cons e3).trans ((exec_seqs_cons e4).trans
    ((exec_seqs_cons e5).trans ?_))))
  exact exec_seqs_append e6

end

end Verif.Source.Go
