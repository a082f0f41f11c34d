import Verif.Proofs.CTextUbc
import Verif.Model.CSha1

/-!
`sha1_compression_W` and `sha1recompress_fast_58`, `sha1recompress_fast_65` as they are read from the text of cgo/sha1.c
are the functions of `Model/CSha1`.
-/

namespace Verif.Source.C

open Verif Verif.Source Verif.Source.Go Verif.Model
open Verif.Model.C (Step step stepBW stepsW stepsBack stepsForw runW runBack runForw rd)

/-- An array of five words. -/
def quint (r : Regs) : Val := words 5 fun j => match j.val with
  | 0 => r.a
  | 1 => r.b
  | 2 => r.c
  | 3 => r.d
  | _ => r.e

/-- A place, and from where on and how much of it a slice is. -/
abbrev Part4 := Loc × Nat × Nat × Nat

/-- The slice. -/
def sl (p : Part4) : Val := .slice p.1 p.2.1 p.2.2.1 p.2.2.2

/-- The variables `a`, …, `e`. -/
def vals (v : Model.C.Env) : List Val := [.u32 (v .a), .u32 (v .b), .u32 (v .c), .u32 (v .d), .u32 (v .e)]

/-- Word `t`. -/
def at80 (W : Fin 80 → Word) (t : Nat) : Word := if h : t < 80 then W ⟨t, h⟩ else 0

theorem rd_at80 {W : Fin 80 → Word} {t : Nat} (h : t < 80) : rd W t = .ok (at80 W t) := by
  simp [rd, at80, h]
  rfl

/-- cgo/sha1.c:364-457. -/
def wFunc : Func := evaluated! funcOf funcs1 (name! "sha1_compression_W")
/-- The statements of cgo/sha1.c:366-456. -/
def wBody : List Stmt := evaluated! inside (wFunc.body.getD .skip)
/-- The statements of cgo/sha1.c:368-450. -/
def wSteps : List Stmt := evaluated! (wBody.drop 1).take 160

/-- `uint32_t a = s[0], …` for the parameter `k` (cgo/sha1.c:366,461,874). -/
def locals (k : Nat) : Stmt :=
  .seq (.define 1 (.cons (.index (.loc k) (.num 0)) .nil)) (.seq (.define 1 (.cons (.index (.loc k) (.num 1)) .nil))
    (.seq (.define 1 (.cons (.index (.loc k) (.num 2)) .nil)) (.seq (.define 1 (.cons (.index (.loc k) (.num 3)) .nil))
      (.define 1 (.cons (.index (.loc k) (.num 4)) .nil)))))

/-- `s[0] += a; …` for the parameter 0 (cgo/sha1.c:452-456,864-868). -/
def adds (b : Nat) : List Stmt :=
  [.opAssign .add (.index (.loc 0) (.num 0)) (.loc b), .opAssign .add (.index (.loc 0) (.num 1)) (.loc (b + 1)),
   .opAssign .add (.index (.loc 0) (.num 2)) (.loc (b + 2)), .opAssign .add (.index (.loc 0) (.num 3)) (.loc (b + 3)),
   .opAssign .add (.index (.loc 0) (.num 4)) (.loc (b + 4))]

theorem wFunc_eq : wFunc = ⟨name! "C", name! "sha1_compression_W", [.slice .u32, .slice .u32], [], false,
    some (.block 2 (seqs ([locals 0] ++ (wSteps ++ adds 2))))⟩ := by by_kernel

/-- The state of `sha1_compression_W`. -/
def wS (r : Regs) (W : Fin 80 → Word) (p q : Part4) (v : Model.C.Env) : RSt :=
  ([some (quint r), some (words 80 W)], sl p :: sl q :: vals v)

/-- Statements that are steps. -/
inductive WSteps : List Stmt → List Step → Prop where
  | nil : WSteps [] []
  | skip {ss ts} : WSteps ss ts → WSteps (.skip :: ss) ts
  | cons {s t ss ts} : (∀ r W p q v, rexec noPure s (wS r W p q v) = some (wS r W p q (step t (at80 W t.t) v))) →
      WSteps ss ts → WSteps (s :: ss) (t :: ts)

theorem w_steps : WSteps wSteps stepsW := by
  unfold wSteps stepsW
  repeat refine WSteps.cons (fun r W p q v => by by_kernel) (WSteps.skip ?_)
  exact WSteps.nil

/-- The elements of `quint`. -/
def quintFn (r : Regs) (j : Nat) : Val := .u32 (if h : j < 5 then (match (⟨j, h⟩ : Fin 5).val with
  | 0 => r.a
  | 1 => r.b
  | 2 => r.c
  | 3 => r.d
  | _ => r.e) else 0)

theorem quint_set (r : Regs) (a b c d e : Word) :
    (Val.arr 5 fun j => if j = 4 then .u32 e else if j = 3 then .u32 d else if j = 2 then .u32 c else if j = 1 then .u32 b
      else if j = 0 then .u32 a else quintFn r j) = quint ⟨a, b, c, d, e⟩ := by
  unfold quint words
  congr 1
  funext j
  match j with
  | 0 | 1 | 2 | 3 | 4 => rfl
  | j + 5 => simp [quintFn, show ¬(j + 5 < 5) by omega]

theorem adds_do (r : Regs) (W : Fin 80 → Word) (p q : Part4) (v : Model.C.Env) :
    rexec noPure (seqs (adds 2)) (wS r W p q v) = some (wS (r.add v.regs) W p q v) := by
  refine Eq.trans (b := some ([some (.arr 5 fun j => if j = 4 then .u32 (r.e + v .e) else if j = 3 then .u32 (r.d + v .d)
    else if j = 2 then .u32 (r.c + v .c) else if j = 1 then .u32 (r.b + v .b) else if j = 0 then .u32 (r.a + v .a)
    else quintFn r j), some (words 80 W)], sl p :: sl q :: vals v)) (by by_kernel) ?_
  rw [quint_set]
  rfl

theorem runW_ok {W : Fin 80 → Word} : ∀ {ts : List Step}, (∀ t ∈ ts, t.t < 80) → ∀ v,
    runW W ts v = .ok (ts.foldl (fun v t => step t (at80 W t.t) v) v)
  | [], _, _ => rfl
  | t :: ts, h, v => by
    rw [runW, rd_at80 (h t (by simp))]
    exact runW_ok (fun t ht => h t (by simp [ht])) _

theorem wSteps_do {ss : List Stmt} {ts : List Step} (h : WSteps ss ts) (r : Regs) (W : Fin 80 → Word) (p q : Part4) :
    ∀ v, rexec noPure (seqs ss) (wS r W p q v) =
      some (wS r W p q (ts.foldl (fun v t => step t (at80 W t.t) v) v)) := by
  induction h with
  | nil => intro v; rfl
  | skip _ ih => intro v; exact ih v
  | cons h _ ih =>
    intro v
    simp only [seqs, rexec, h r W p q v, List.foldl_cons]
    exact ih _

/-- The body of `sha1_compression_W` (cgo/sha1.c:365-457). -/
theorem w_body {r r' : Regs} {W : Fin 80 → Word} {p q : Part4} {b : Stmt} (hb : wFunc.body = some b)
    (h : Model.C.sha1_compression_W r W = .ok r') :
    rexec noPure b ([some (quint r), some (words 80 W)], [sl p, sl q]) =
      some ([some (quint r'), some (words 80 W)], [sl p, sl q]) := by
  rw [wFunc_eq] at hb
  cases hb
  have hw := runW_ok (W := W) (ts := stepsW) (by decide) (Model.C.Env.of r)
  generalize hv : stepsW.foldl (fun v t => step t (at80 W t.t) v) (Model.C.Env.of r) = v at hw
  have hr : r' = r.add v.regs := by
    unfold Model.C.sha1_compression_W at h
    rw [hw] at h
    exact (Except.ok.inj h).symm
  subst hr
  have h1 : rexec noPure (seqs [locals 0]) ([some (quint r), some (words 80 W)], [sl p, sl q]) =
      some (wS r W p q (Model.C.Env.of r)) := by by_kernel
  have h2 := wSteps_do w_steps r W p q (Model.C.Env.of r)
  rw [hv] at h2
  have h3 : rexec noPure (seqs ([locals 0] ++ (wSteps ++ adds 2)))
      ([some (quint r), some (words 80 W)], [sl p, sl q]) = some (wS (r.add v.regs) W p q v) :=
    (rexec_seqs_append h1).trans ((rexec_seqs_append h2).trans (adds_do r W p q v))
  rw [rexec, h3]
  rfl

/-- cgo/sha1.c:871-1210,1450. -/
def fast58Func : Func := evaluated! funcOf funcs3 (name! "sha1recompress_fast_58")
/-- cgo/sha1.c:871-1210,1478. -/
def fast65Func : Func := evaluated! funcOf funcs4 (name! "sha1recompress_fast_65")

/-- The statements of a function. -/
def bodyOf (f : Func) : List Stmt := inside (f.body.getD .skip)

/-- The statements of cgo/sha1.c:875-1034 for 58. -/
def back58 : List Stmt := evaluated! ((bodyOf fast58Func).drop 1).take 160
/-- The statements of cgo/sha1.c:1045-1204 for 58. -/
def forw58 : List Stmt := evaluated! ((bodyOf fast58Func).drop 171).take 160
/-- The statements of cgo/sha1.c:875-1034 for 65. -/
def back65 : List Stmt := evaluated! ((bodyOf fast65Func).drop 1).take 160
/-- The statements of cgo/sha1.c:1045-1204 for 65. -/
def forw65 : List Stmt := evaluated! ((bodyOf fast65Func).drop 171).take 160

/-- `ihvin[0] = a; …` (cgo/sha1.c:1036-1040). -/
def putIn : List Stmt :=
  [.assign (.cons (.index (.loc 0) (.num 0)) .nil) (.cons (.loc 4) .nil),
   .assign (.cons (.index (.loc 0) (.num 1)) .nil) (.cons (.loc 5) .nil),
   .assign (.cons (.index (.loc 0) (.num 2)) .nil) (.cons (.loc 6) .nil),
   .assign (.cons (.index (.loc 0) (.num 3)) .nil) (.cons (.loc 7) .nil),
   .assign (.cons (.index (.loc 0) (.num 4)) .nil) (.cons (.loc 8) .nil)]

/-- `a = state[0]; …` (cgo/sha1.c:1041-1045). -/
def again : List Stmt :=
  [.assign (.cons (.loc 4) .nil) (.cons (.index (.loc 3) (.num 0)) .nil),
   .assign (.cons (.loc 5) .nil) (.cons (.index (.loc 3) (.num 1)) .nil),
   .assign (.cons (.loc 6) .nil) (.cons (.index (.loc 3) (.num 2)) .nil),
   .assign (.cons (.loc 7) .nil) (.cons (.index (.loc 3) (.num 3)) .nil),
   .assign (.cons (.loc 8) .nil) (.cons (.index (.loc 3) (.num 4)) .nil)]

/-- `ihvout[0] = ihvin[0] + a; …` (cgo/sha1.c:1205-1209). -/
def putOut : List Stmt :=
  [.assign (.cons (.index (.loc 1) (.num 0)) .nil) (.cons (.bin .add (.index (.loc 0) (.num 0)) (.loc 4)) .nil),
   .assign (.cons (.index (.loc 1) (.num 1)) .nil) (.cons (.bin .add (.index (.loc 0) (.num 1)) (.loc 5)) .nil),
   .assign (.cons (.index (.loc 1) (.num 2)) .nil) (.cons (.bin .add (.index (.loc 0) (.num 2)) (.loc 6)) .nil),
   .assign (.cons (.index (.loc 1) (.num 3)) .nil) (.cons (.bin .add (.index (.loc 0) (.num 3)) (.loc 7)) .nil),
   .assign (.cons (.index (.loc 1) (.num 4)) .nil) (.cons (.bin .add (.index (.loc 0) (.num 4)) (.loc 8)) .nil)]

/-- The body of `SHA1_RECOMPRESS(t)` (cgo/sha1.c:871-1210) with the given steps. -/
def fastBody (back forw : List Stmt) : Stmt :=
  .block 4 (seqs ([locals 3] ++ (back ++ (putIn ++ (again ++ (forw ++ putOut))))))

theorem fast58Func_eq : fast58Func = ⟨name! "C", name! "sha1recompress_fast_58",
    [.slice .u32, .slice .u32, .slice .u32, .slice .u32], [], false, some (fastBody back58 forw58)⟩ := by by_kernel

theorem fast65Func_eq : fast65Func = ⟨name! "C", name! "sha1recompress_fast_65",
    [.slice .u32, .slice .u32, .slice .u32, .slice .u32], [], false, some (fastBody back65 forw65)⟩ := by by_kernel

/-- What the parameters of `sha1recompress_fast_t` point to. -/
def fD (i o : Regs) (W : Fin 80 → Word) (r : Regs) : List (Option Val) :=
  [some (quint i), some (quint o), some (words 80 W), some (quint r)]

/-- The state of `sha1recompress_fast_t`. -/
def fS (i o : Regs) (W : Fin 80 → Word) (r : Regs) (p q p' q' : Part4) (v : Model.C.Env) : RSt :=
  (fD i o W r, sl p :: sl q :: sl p' :: sl q' :: vals v)

/-- Statements that are steps back. -/
inductive BackSteps (t : Nat) : List Stmt → List (Nat × Step) → Prop where
  | nil : BackSteps t [] []
  | cons {s x ss xs} : (∀ i o W r p q p' q' v, rexec noPure s (fS i o W r p q p' q' v) =
        some (fS i o W r p q p' q' (if t > x.1 then stepBW x.2 (at80 W x.2.t) v else v))) →
      BackSteps t ss xs → BackSteps t (s :: .skip :: ss) (x :: xs)

/-- Statements that are steps forward. -/
inductive ForwSteps (t : Nat) : List Stmt → List (Nat × Step) → Prop where
  | nil : ForwSteps t [] []
  | cons {s x ss xs} : (∀ i o W r p q p' q' v, rexec noPure s (fS i o W r p q p' q' v) =
        some (fS i o W r p q p' q' (if t ≤ x.1 then step x.2 (at80 W x.2.t) v else v))) →
      ForwSteps t ss xs → ForwSteps t (s :: .skip :: ss) (x :: xs)

theorem back58_do : BackSteps 58 back58 stepsBack := by
  unfold back58 stepsBack
  repeat refine BackSteps.cons (fun i o W r p q p' q' v => by by_kernel) ?_
  exact BackSteps.nil

theorem back65_do : BackSteps 65 back65 stepsBack := by
  unfold back65 stepsBack
  repeat refine BackSteps.cons (fun i o W r p q p' q' v => by by_kernel) ?_
  exact BackSteps.nil

theorem forw58_do : ForwSteps 58 forw58 stepsForw := by
  unfold forw58 stepsForw
  repeat refine ForwSteps.cons (fun i o W r p q p' q' v => by by_kernel) ?_
  exact ForwSteps.nil

theorem forw65_do : ForwSteps 65 forw65 stepsForw := by
  unfold forw65 stepsForw
  repeat refine ForwSteps.cons (fun i o W r p q p' q' v => by by_kernel) ?_
  exact ForwSteps.nil

theorem runBack_ok {t : Nat} {W : Fin 80 → Word} : ∀ {xs : List (Nat × Step)}, (∀ x ∈ xs, x.2.t < 80) → ∀ v,
    runBack t W xs v = .ok (xs.foldl (fun v x => if t > x.1 then stepBW x.2 (at80 W x.2.t) v else v) v)
  | [], _, _ => rfl
  | x :: xs, h, v => by
    rw [runBack, List.foldl_cons]
    by_cases hx : t > x.1
    · rw [if_pos hx, if_pos hx, rd_at80 (h x (by simp))]
      exact runBack_ok (fun y hy => h y (by simp [hy])) _
    · rw [if_neg hx, if_neg hx]
      exact runBack_ok (fun y hy => h y (by simp [hy])) _

theorem runForw_ok {t : Nat} {W : Fin 80 → Word} : ∀ {xs : List (Nat × Step)}, (∀ x ∈ xs, x.2.t < 80) → ∀ v,
    runForw t W xs v = .ok (xs.foldl (fun v x => if t ≤ x.1 then step x.2 (at80 W x.2.t) v else v) v)
  | [], _, _ => rfl
  | x :: xs, h, v => by
    rw [runForw, List.foldl_cons]
    by_cases hx : t ≤ x.1
    · rw [if_pos hx, if_pos hx, rd_at80 (h x (by simp))]
      exact runForw_ok (fun y hy => h y (by simp [hy])) _
    · rw [if_neg hx, if_neg hx]
      exact runForw_ok (fun y hy => h y (by simp [hy])) _

section
variable {t : Nat} {ss : List Stmt} {xs : List (Nat × Step)} {i o : Regs} {W : Fin 80 → Word} {r : Regs}
  {p q p' q' : Part4}

theorem back_do (h : BackSteps t ss xs) : ∀ v, rexec noPure (seqs ss) (fS i o W r p q p' q' v) =
    some (fS i o W r p q p' q' (xs.foldl (fun v x => if t > x.1 then stepBW x.2 (at80 W x.2.t) v else v) v)) := by
  induction h with
  | nil => intro v; rfl
  | cons h _ ih =>
    intro v
    simp only [seqs, rexec, h i o W r p q p' q' v, List.foldl_cons]
    exact ih _

theorem forw_do (h : ForwSteps t ss xs) : ∀ v, rexec noPure (seqs ss) (fS i o W r p q p' q' v) =
    some (fS i o W r p q p' q' (xs.foldl (fun v x => if t ≤ x.1 then step x.2 (at80 W x.2.t) v else v) v)) := by
  induction h with
  | nil => intro v; rfl
  | cons h _ ih =>
    intro v
    simp only [seqs, rexec, h i o W r p q p' q' v, List.foldl_cons]
    exact ih _

theorem putIn_do (v : Model.C.Env) : rexec noPure (seqs putIn) (fS i o W r p q p' q' v) =
    some (fS v.regs o W r p q p' q' v) := by
  refine Eq.trans (b := some ([some (.arr 5 fun j => if j = 4 then .u32 (v .e) else if j = 3 then .u32 (v .d)
    else if j = 2 then .u32 (v .c) else if j = 1 then .u32 (v .b) else if j = 0 then .u32 (v .a) else quintFn i j),
    some (quint o), some (words 80 W), some (quint r)], sl p :: sl q :: sl p' :: sl q' :: vals v)) (by by_kernel) ?_
  rw [quint_set]
  rfl

theorem putOut_do (v : Model.C.Env) : rexec noPure (seqs putOut) (fS i o W r p q p' q' v) =
    some (fS i (i.add v.regs) W r p q p' q' v) := by
  refine Eq.trans (b := some ([some (quint i), some (.arr 5 fun j => if j = 4 then .u32 (i.e + v .e)
    else if j = 3 then .u32 (i.d + v .d) else if j = 2 then .u32 (i.c + v .c) else if j = 1 then .u32 (i.b + v .b)
    else if j = 0 then .u32 (i.a + v .a) else quintFn o j),
    some (words 80 W), some (quint r)], sl p :: sl q :: sl p' :: sl q' :: vals v)) (by by_kernel) ?_
  rw [quint_set]
  rfl

/-- The body of `sha1recompress_fast_t` (cgo/sha1.c:871-1210). -/
theorem fast_body {back forw : List Stmt} {i' o' : Regs} (hb : BackSteps t back stepsBack) (hf : ForwSteps t forw stepsForw)
    (h : Model.C.sha1recompress_fast t W r = .ok (i', o')) :
    rexec noPure (fastBody back forw) (fD i o W r, [sl p, sl q, sl p', sl q']) =
      some (fD i' o' W r, [sl p, sl q, sl p', sl q']) := by
  have e1 := runBack_ok (t := t) (W := W) (xs := stepsBack) (by decide) (Model.C.Env.of r)
  have e2 := runForw_ok (t := t) (W := W) (xs := stepsForw) (by decide) (Model.C.Env.of r)
  have h2 := fun (i o : Regs) => back_do (i := i) (o := o) (W := W) (r := r) (p := p) (q := q) (p' := p') (q' := q') hb
    (Model.C.Env.of r)
  have h5 := fun (i o : Regs) => forw_do (i := i) (o := o) (W := W) (r := r) (p := p) (q := q) (p' := p') (q' := q') hf
    (Model.C.Env.of r)
  generalize stepsBack.foldl (fun v x => if t > x.1 then stepBW x.2 (at80 W x.2.t) v else v) (Model.C.Env.of r) = v1
    at e1 h2
  generalize stepsForw.foldl (fun v x => if t ≤ x.1 then step x.2 (at80 W x.2.t) v else v) (Model.C.Env.of r) = v2
    at e2 h5
  have hr : i' = v1.regs ∧ o' = v1.regs.add v2.regs := by
    unfold Model.C.sha1recompress_fast at h
    rw [e1, e2] at h
    have := Except.ok.inj h
    simp only [Prod.mk.injEq] at this
    exact ⟨this.1.symm, this.2.symm⟩
  obtain ⟨rfl, rfl⟩ := hr
  have h1 : rexec noPure (seqs [locals 3]) (fD i o W r, [sl p, sl q, sl p', sl q']) =
      some (fS i o W r p q p' q' (Model.C.Env.of r)) := by by_kernel
  have h4 : rexec noPure (seqs again) (fS v1.regs o W r p q p' q' v1) =
      some (fS v1.regs o W r p q p' q' (Model.C.Env.of r)) := by by_kernel
  have h3 : rexec noPure (seqs ([locals 3] ++ (back ++ (putIn ++ (again ++ (forw ++ putOut))))))
      (fD i o W r, [sl p, sl q, sl p', sl q']) = some (fS v1.regs (v1.regs.add v2.regs) W r p q p' q' v2) :=
    (rexec_seqs_append h1).trans ((rexec_seqs_append (h2 i o)).trans ((rexec_seqs_append (putIn_do v1)).trans
      ((rexec_seqs_append h4).trans ((rexec_seqs_append (h5 _ o)).trans (putOut_do v2)))))
  rw [fastBody, rexec, h3]
  rfl

end

end Verif.Source.C
