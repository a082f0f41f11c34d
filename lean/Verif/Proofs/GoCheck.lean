import Verif.Proofs.GoCollide
import Verif.Proofs.GoEval

/-!
`checkCollision` as it is read from the text of sha1cdblock_generic.go is `Model.checkCollision`.
-/

namespace Verif.Source.Go

open Verif Verif.Source Verif.Model

/-- sha1cdblock_generic.go:145-182. -/
def checkFunc : Func := evaluated! getFunc progSha1cd (name! "sha1cd") (name! "checkCollision")

/-- `dvs[i].f`, sha1cdblock_generic.go:154,155,157,165,169,173. -/
def dvE (f : Nat) : Expr := .field (.index (.loc 4) (.loc 5)) f

/-- `csState = &cs[k]`, sha1cdblock_generic.go:159,161,163. -/
def setState (k : Nat) : Stmt :=
  .block 8 (.seq (.assign (.cons (.loc 6) .nil) (.cons (.addr (.index (.loc 1) (.num k))) .nil)) .skip)

/-- The format of sha1cdblock_generic.go:165. -/
def badFormat : List Nat := chars! "dvs data is trying to use a testT that isn't available: %d"

/-- `default` of sha1cdblock_generic.go:164-165. -/
def badState : Stmt := .block 8 (.seq (.expr (.panic (.call (name! "fmt") (name! "Sprintf")
  (.cons (.str badFormat) (.cons (dvE (name! "TestT")) .nil))))) .skip)

/-- The `switch` of sha1cdblock_generic.go:157-166. -/
def switchState : Stmt := .block 7 (.seq (.define 1 (.cons (dvE (name! "TestT")) .nil))
  (.ite (.bin .eq (.loc 7) (.num 58)) (setState 1) (.ite (.bin .eq (.loc 7) (.num 65)) (setState 2)
    (.ite (.bin .eq (.loc 7) (.num 0)) (setState 0) badState))))

/-- The call of sha1cdblock_generic.go:168-174. -/
def callCollided : Expr := .call (name! "sha1cd") (name! "hasCollided") (.cons (dvE (name! "TestT")) (.cons (.loc 0)
  (.cons (.addr (dvE (name! "Dm"))) (.cons (.loc 6) (.cons (.loc 2) .nil)))))

/-- The condition of sha1cdblock_generic.go:155. -/
def bitCond : Expr := .bin .ne (.bin .and (.loc 3) (.bin .shl (.conv .u32 (.num 1))
  (.conv .u32 (dvE (name! "MaskB"))))) (.num 0)

/-- The `if` of sha1cdblock_generic.go:155-179. -/
def checkIf : Stmt := .ite bitCond (.block 6 (.seq (.var (.ptr (.arr 5 .u32))) (.seq switchState
  (.seq (.define 1 (.cons callCollided .nil))
    (.seq (.ite (.loc 7) (.block 8 (.seq (.ret (.cons (.bool true) .nil)) .skip)) .skip) .skip))))) .skip

/-- The loop of sha1cdblock_generic.go:154-180. -/
def checkLoop : Stmt := .loop (.bin .ne (dvE (name! "DvType")) (.num 0)) (.opAssign .add (.loc 5) (.num 1))
  (.block 6 (.seq checkIf .skip))

/-- The body of `checkCollision`, sha1cdblock_generic.go:151-182. -/
def checkBody : Stmt := .block 3
  (.seq (.block 3 (.seq (.define 1 (.cons (.call (name! "ubc") (name! "CalculateDvMask") (.cons (.loc 0) .nil)) .nil))
    (.ite (.bin .ne (.loc 3) (.num 0)) (.block 4
      (.seq (.define 1 (.cons (.call (name! "ubc") (name! "SHA1_dvs") .nil) .nil))
        (.seq (.block 5 (.seq (.define 1 (.cons (.num 0) .nil)) checkLoop)) .skip))) .skip)))
  (.seq (.ret (.cons (.bool false) .nil)) .skip))

theorem checkFunc_eq : checkFunc = ⟨name! "sha1cd", name! "checkCollision", [.ptr (.arr 80 .u32),
    .ptr (.arr 3 (.arr 5 .u32)), .ptr (.arr 5 .u32)], [.bool], false, some checkBody⟩ := by by_kernel

/-- Three times five 32-bit words. -/
def three (cs : Fin 3 → Regs) : Val := .arr 3 fun j => five (if h : j < 3 then cs ⟨j, h⟩ else ⟨0, 0, 0, 0, 0⟩)

/-- A panic of the model and the end of a run that it stands for. -/
def Stands : Panic → Stop → Prop
  | .indexOutOfRange, .index => True
  | .sliceOutOfRange, .bounds => True
  | .badTestT, .panic (.str s) => s = badFormat
  | .nxNotZero, .panic (.str s) => s = chars! "d.nx != 0"
  | _, _ => False

section
variable {X : World} {N i : Nat} {old : Nat → List Val} {next : Nat} {l0 l1 l2 lt : Loc} {ds : List DvInfo}
  {m1 : Fin 80 → Word} {cs : Fin 3 → Regs} {h : Regs} {mask : Word}

/-- The slots in the loop. -/
def checkSlots (l0 l1 l2 lt : Loc) (mask : Word) (n k : Nat) : List Val :=
  [.ptr l0, .ptr l1, .ptr l2, .u32 mask, .slice lt 0 n n, .int k]

/-- The fields of an entry. -/
def dvField (d : DvInfo) (f : Nat) : Val := match dvVal d with
  | .struct g => g f
  | _ => .null

theorem evs_dv (ht : At i old next lt (table ds)) {k : Nat} {d : DvInfo} (hd : ds[k]? = some d) (T : List Val) (f : Nat) :
    evs X (dvE f) ⟨i, checkSlots l0 l1 l2 lt mask ds.length k ++ T, old, next⟩ =
      .ok ([dvField d f], ⟨i, checkSlots l0 l1 l2 lt mask ds.length k ++ T, old, next⟩) := by
  have hk : k < ds.length := (List.getElem?_eq_some_iff.1 hd).1
  refine evs_field (evs_index (evs_loc rfl) (evs_loc rfl) (elemOf_slice hk ((ht.elem hk).load _))) ?_
  simp only [hd]
  rfl

/-- What the result of the loop stands for. -/
def LoopRes (i : Nat) (old : Nat → List Val) (next : Nat) : GoM Bool → Except Stop (Sig × Mem) → Prop
  | .ok true, r => ∃ C, r = .ok (.ret [.bool true], ⟨i, C, old, next⟩)
  | .ok false, r => ∃ C, r = .ok (.normal, ⟨i, C, old, next⟩)
  | .error e, r => ∃ s, r = .error s ∧ Stands e s

/-- What the result of an iteration stands for; `C` are the slots after a normal one. -/
def LoopRes' (i : Nat) (old : Nat → List Val) (next : Nat) (C : List Val) : GoM Bool → Except Stop (Sig × Mem) → Prop
  | .ok true, r => ∃ C, r = .ok (.ret [.bool true], ⟨i, C, old, next⟩)
  | .ok false, r => r = .ok (.normal, ⟨i, C, old, next⟩)
  | .error e, r => ∃ s, r = .error s ∧ Stands e s

theorem setState_ok (h1 : At i old next l1 (three cs)) {k : Nat} (c : Fin 3) (S7 : Val) :
    exec X N (setState c.val) ⟨i, checkSlots l0 l1 l2 lt mask ds.length k ++ [.null, S7], old, next⟩ =
      .ok (.normal, ⟨i, checkSlots l0 l1 l2 lt mask ds.length k ++ [.ptr (l1.sub c.val), S7], old, next⟩) := by
  have hp : place X (.index (.loc 1) (.num c.val)) ⟨i, checkSlots l0 l1 l2 lt mask ds.length k ++ [.null, S7], old, next⟩ =
      .ok (l1.sub c.val, ⟨i, checkSlots l0 l1 l2 lt mask ds.length k ++ [.null, S7], old, next⟩) := by
    refine place_index (m1 := ⟨i, checkSlots l0 l1 l2 lt mask ds.length k ++ [.null, S7], old, next⟩)
      (l := ⟨i, 1, []⟩) rfl rfl ?_
    have hl : load ⟨i, 1, []⟩ ⟨i, checkSlots l0 l1 l2 lt mask ds.length k ++ [.null, S7], old, next⟩ =
      .ok (.ptr l1, ⟨i, checkSlots l0 l1 l2 lt mask ds.length k ++ [.null, S7], old, next⟩) := load_pget rfl
    have hi : indexIn (c.val : Int) 3 = .ok c.val := by simp only [indexIn]; rw [if_pos (by omega)]; rfl
    have h1' := h1.load (checkSlots l0 l1 l2 lt mask ds.length k ++ [.null, S7])
    simp only [elemPlace, bind_run, need, number, hl, h1', three, lift, hi, pure_run]
  have hs : store ⟨i, 6, []⟩ (.ptr (l1.sub c.val)) ⟨i, checkSlots l0 l1 l2 lt mask ds.length k ++ [.null, S7], old, next⟩ =
      .ok ((), ⟨i, checkSlots l0 l1 l2 lt mask ds.length k ++ [.ptr (l1.sub c.val), S7], old, next⟩) := by
    simp [store, Mem.frame, Mem.setFrame, checkSlots, Val.set, like]
  exact exec_block (exec_last (exec_assign places_one (evs_one (evs_addr hp)) (storeAll_one hs)))

theorem evs_eq7 {k n : Nat} {t : Word} {S6 : Val} {j : Nat} :
    ev X (.bin .eq (.loc 7) (.num j)) ⟨i, checkSlots l0 l1 l2 lt mask n k ++ [S6, .u32 t], old, next⟩ =
      .ok (.bool (decide (t = BitVec.ofInt 32 j)), ⟨i, checkSlots l0 l1 l2 lt mask n k ++ [S6, .u32 t], old, next⟩) :=
  ev_of (evs_bin (evs_loc rfl) rfl rfl)

theorem eq7_true {k n : Nat} {t : Word} {S6 : Val} {j : Nat} (h : t = BitVec.ofInt 32 j) :
    ev X (.bin .eq (.loc 7) (.num j)) ⟨i, checkSlots l0 l1 l2 lt mask n k ++ [S6, .u32 t], old, next⟩ =
      .ok (.bool true, ⟨i, checkSlots l0 l1 l2 lt mask n k ++ [S6, .u32 t], old, next⟩) :=
  evs_eq7.trans (by rw [decide_eq_true h])

theorem eq7_false {k n : Nat} {t : Word} {S6 : Val} {j : Nat} (h : ¬t = BitVec.ofInt 32 j) :
    ev X (.bin .eq (.loc 7) (.num j)) ⟨i, checkSlots l0 l1 l2 lt mask n k ++ [S6, .u32 t], old, next⟩ =
      .ok (.bool false, ⟨i, checkSlots l0 l1 l2 lt mask n k ++ [S6, .u32 t], old, next⟩) :=
  evs_eq7.trans (by rw [decide_eq_false h])

theorem switch_ok (h1 : At i old next l1 (three cs)) (ht : At i old next lt (table ds))
    (hspr : ∀ C t, X.call (name! "fmt") (name! "Sprintf") [.str badFormat, t] ⟨i, C, old, next⟩ =
      .ok ([.str badFormat], ⟨i, C, old, next⟩)) {k : Nat} {d : DvInfo}
    (hd : ds[k]? = some d) :
    match selectCs cs d.TestT with
    | .ok st => ∃ lc, At i old next lc (five st) ∧
        exec X N switchState ⟨i, checkSlots l0 l1 l2 lt mask ds.length k ++ [.null], old, next⟩ =
          .ok (.normal, ⟨i, checkSlots l0 l1 l2 lt mask ds.length k ++ [.ptr lc], old, next⟩)
    | .error e => ∃ s, exec X N switchState ⟨i, checkSlots l0 l1 l2 lt mask ds.length k ++ [.null], old, next⟩ =
        .error s ∧ Stands e s := by
  have hdef : exec X N (.define 1 (.cons (dvE (name! "TestT")) .nil))
      ⟨i, checkSlots l0 l1 l2 lt mask ds.length k ++ [.null], old, next⟩ =
      .ok (.normal, ⟨i, checkSlots l0 l1 l2 lt mask ds.length k ++ [.null, .u32 d.TestT], old, next⟩) :=
    exec_define (evs_one (evs_dv ht hd [.null] _)) rfl
  have key : ∀ c : Fin 3, At i old next (l1.sub c.val) (five (cs c)) := fun c => by
    have := At.elem (k := c.val) h1 c.isLt
    simpa using this
  unfold selectCs
  by_cases h58 : d.TestT = 58
  · rw [if_pos h58]
    refine ⟨_, key 1, ?_⟩
    exact exec_block ((exec_seq hdef).trans ((exec_ite_true (eq7_true h58)).trans
      (setState_ok h1 1 _)))
  rw [if_neg h58]
  by_cases h65 : d.TestT = 65
  · rw [if_pos h65]
    refine ⟨_, key 2, ?_⟩
    exact exec_block ((exec_seq hdef).trans ((exec_ite_false (eq7_false h58)).trans
      ((exec_ite_true (eq7_true h65)).trans (setState_ok h1 2 _))))
  rw [if_neg h65]
  by_cases h0 : d.TestT = 0
  · rw [if_pos h0]
    refine ⟨_, key 0, ?_⟩
    exact exec_block ((exec_seq hdef).trans ((exec_ite_false (eq7_false h58)).trans
      ((exec_ite_false (eq7_false h65)).trans
      ((exec_ite_true (eq7_true h0)).trans (setState_ok h1 0 _)))))
  rw [if_neg h0]
  refine ⟨.panic (.str badFormat), ?_, rfl⟩
  refine exec_block_error ((exec_seq hdef).trans ((exec_ite_false (eq7_false h58)).trans
      ((exec_ite_false (eq7_false h65)).trans
      ((exec_ite_false (eq7_false h0)).trans (exec_block_error (exec_seq_error
        (exec_expr_error ?_)))))))
  have ha : evs X (.cons (.str badFormat) (.cons (dvE (name! "TestT")) .nil))
      ⟨i, checkSlots l0 l1 l2 lt mask ds.length k ++ [.null, .u32 d.TestT], old, next⟩ =
      .ok ([.str badFormat, .u32 d.TestT],
        ⟨i, checkSlots l0 l1 l2 lt mask ds.length k ++ [.null, .u32 d.TestT], old, next⟩) :=
    evs_cons (vs := [.str badFormat]) (m1 := ⟨i, checkSlots l0 l1 l2 lt mask ds.length k ++ [.null, .u32 d.TestT], old, next⟩)
      rfl (evs_one (evs_dv ht hd _ _))
  show (evs X (.call _ _ _) >>= _) _ = _
  rw [bind_of ((evs_call ha).trans (hspr _ _))]
  rfl

theorem bitCond_ok (ht : At i old next lt (table ds)) {k : Nat} {d : DvInfo} (hd : ds[k]? = some d) :
    ev X bitCond ⟨i, checkSlots l0 l1 l2 lt mask ds.length k, old, next⟩ =
      .ok (.bool (decide (mask &&& ((1#32) <<< d.MaskB.toNat) ≠ 0)),
        ⟨i, checkSlots l0 l1 l2 lt mask ds.length k, old, next⟩) :=
  have hm := evs_dv (X := X) (l0 := l0) (l1 := l1) (l2 := l2) (mask := mask) ht hd [] (name! "MaskB")
  ev_of (evs_bin (evs_bin (evs_loc rfl) (evs_bin (evs_conv32 evs_num rfl) (evs_conv32 hm rfl) rfl) rfl) evs_num rfl)

theorem typeCond_ok (ht : At i old next lt (table ds)) {k : Nat} {d : DvInfo} (hd : ds[k]? = some d) :
    ev X (.bin .ne (dvE (name! "DvType")) (.num 0)) ⟨i, checkSlots l0 l1 l2 lt mask ds.length k, old, next⟩ =
      .ok (.bool (decide (d.DvType ≠ 0)), ⟨i, checkSlots l0 l1 l2 lt mask ds.length k, old, next⟩) :=
  have hm := evs_dv (X := X) (l0 := l0) (l1 := l1) (l2 := l2) (mask := mask) ht hd [] (name! "DvType")
  ev_of (evs_bin hm evs_num rfl)

theorem typeCond_end {k : Nat} (hk : ¬k < ds.length) :
    ev X (.bin .ne (dvE (name! "DvType")) (.num 0)) ⟨i, checkSlots l0 l1 l2 lt mask ds.length k, old, next⟩ =
      .error .index := by
  exact ev_error (evs_bin_error (evs_field_error (evs_index_error (evs_loc rfl) (evs_loc rfl) (elemOf_slice_error hk))))

/-- One iteration of the loop, sha1cdblock_generic.go:155-179. -/
theorem checkIf_ok
    (h1 : At i old next l1 (three cs)) (ht : At i old next lt (table ds))
    (hcall : ∀ C t ld lc dm st, At i old next ld (words 80 dm) → At i old next lc (five st) →
      X.call (name! "sha1cd") (name! "hasCollided") [.u32 t, .ptr l0, .ptr ld, .ptr lc, .ptr l2] ⟨i, C, old, next⟩ =
        .ok ([.bool (hasCollided t m1 dm st h)], ⟨i, C, old, next⟩))
    (hspr : ∀ C t, X.call (name! "fmt") (name! "Sprintf") [.str badFormat, t] ⟨i, C, old, next⟩ =
      .ok ([.str badFormat], ⟨i, C, old, next⟩)) {k : Nat} {d : DvInfo} (hd : ds[k]? = some d) :
    LoopRes' i old next (checkSlots l0 l1 l2 lt mask ds.length k)
      (if mask &&& ((1#32) <<< d.MaskB.toNat) ≠ 0 then do
        let csState ← selectCs cs d.TestT
        pure (hasCollided d.TestT m1 d.Dm csState h)
       else pure false)
      (exec X N (.block 6 (.seq checkIf .skip)) ⟨i, checkSlots l0 l1 l2 lt mask ds.length k, old, next⟩) := by
  by_cases hb : mask &&& ((1#32) <<< d.MaskB.toNat) ≠ 0
  · rw [if_pos hb]
    have hc := (bitCond_ok (X := X) (l0 := l0) (l1 := l1) (l2 := l2) (mask := mask) ht hd).trans
      (by rw [decide_eq_true hb])
    have hv : exec X N (.var (.ptr (.arr 5 .u32))) ⟨i, checkSlots l0 l1 l2 lt mask ds.length k, old, next⟩ =
      .ok (.normal, ⟨i, checkSlots l0 l1 l2 lt mask ds.length k ++ [.null], old, next⟩) := rfl
    have hw := switch_ok (X := X) (N := N) (l0 := l0) (l2 := l2) (mask := mask) h1 ht hspr hd
    cases hsel : selectCs cs d.TestT with
    | error e =>
      rw [hsel] at hw
      obtain ⟨s, hs1, hs2⟩ := hw
      exact ⟨s, exec_block_error (exec_seq_error ((exec_ite_true hc).trans (exec_block_error ((exec_seq hv).trans
        (exec_seq_error hs1))))), hs2⟩
    | ok st =>
      rw [hsel] at hw
      obtain ⟨lc, hlc, hs1⟩ := hw
      have hdm : At i old next ((lt.sub k).sub (name! "Dm")) (words 80 d.Dm) := by
        have hk : k < ds.length := (List.getElem?_eq_some_iff.1 hd).1
        have := (ht.elem hk)
        simp only [hd] at this
        exact this.field
      have hpl : place X (dvE (name! "Dm")) ⟨i, checkSlots l0 l1 l2 lt mask ds.length k ++ [.ptr lc], old, next⟩ =
          .ok ((lt.sub k).sub (name! "Dm"),
            ⟨i, checkSlots l0 l1 l2 lt mask ds.length k ++ [.ptr lc], old, next⟩) := by
        have hk : k < ds.length := (List.getElem?_eq_some_iff.1 hd).1
        have hl : load ⟨i, 4, []⟩ ⟨i, checkSlots l0 l1 l2 lt mask ds.length k ++ [.ptr lc], old, next⟩ =
          .ok (.slice lt 0 ds.length ds.length,
            ⟨i, checkSlots l0 l1 l2 lt mask ds.length k ++ [.ptr lc], old, next⟩) := load_pget rfl
        have hi : indexIn (k : Int) ds.length = .ok k := by simp [indexIn, hk]
        refine place_field (m1 := ⟨i, checkSlots l0 l1 l2 lt mask ds.length k ++ [.ptr lc], old, next⟩) (l := lt.sub k) (l' := lt.sub k) (place_index (l := ⟨i, 4, []⟩) rfl (evs_loc rfl) ?_) ?_
        · simp only [elemPlace, bind_run, need, number, hl, lift, hi, pure_run, Nat.zero_add]
        · have := (ht.elem hk).load (checkSlots l0 l1 l2 lt mask ds.length k ++ [.ptr lc])
          simp only [hd, dvVal] at this
          simp only [through, bind_run, this, pure_run]
      have hargs := evs_cons (evs_dv (X := X) (l0 := l0) (l1 := l1) (l2 := l2) (mask := mask) ht hd [.ptr lc] (name! "TestT"))
        (evs_cons (e := .loc 0) (evs_loc rfl) (evs_cons (evs_addr hpl) (evs_cons (e := .loc 6) (evs_loc rfl)
          (evs_one (e := .loc 2) (evs_loc rfl)))))
      have hcl := (evs_call (p := name! "sha1cd") (n := name! "hasCollided") hargs).trans
        (hcall _ d.TestT _ lc d.Dm st hdm hlc)
      have hdf := exec_define (N := N) (k := 1) (evs_one hcl) rfl
      show LoopRes' _ _ _ _ (pure (hasCollided d.TestT m1 d.Dm st h)) _
      cases hcol : hasCollided d.TestT m1 d.Dm st h with
      | true =>
        rw [hcol] at hdf
        exact ⟨_, exec_block_ret (exec_seq_ret ((exec_ite_true hc).trans (exec_block_ret ((exec_seq hv).trans
          ((exec_seq hs1).trans ((exec_seq hdf).trans (exec_seq_ret ((exec_ite_true (ev_of (evs_loc rfl))).trans rfl))))))))⟩
      | false =>
        rw [hcol] at hdf
        exact exec_block (exec_last ((exec_ite_true hc).trans (exec_block ((exec_seq hv).trans
          ((exec_seq hs1).trans ((exec_seq hdf).trans (exec_last ((exec_ite_false (ev_of (evs_loc rfl))).trans exec_skip))))))))
  · rw [if_neg hb]
    have hc := (bitCond_ok (X := X) (l0 := l0) (l1 := l1) (l2 := l2) (mask := mask) ht hd).trans
      (by rw [decide_eq_false hb])
    exact exec_block (exec_last ((exec_ite_false hc).trans exec_skip))

/-- The loop, sha1cdblock_generic.go:154-180. -/
theorem checkLoop_ok
    (h1 : At i old next l1 (three cs)) (ht : At i old next lt (table ds))
    (hcall : ∀ C t ld lc dm st, At i old next ld (words 80 dm) → At i old next lc (five st) →
      X.call (name! "sha1cd") (name! "hasCollided") [.u32 t, .ptr l0, .ptr ld, .ptr lc, .ptr l2] ⟨i, C, old, next⟩ =
        .ok ([.bool (hasCollided t m1 dm st h)], ⟨i, C, old, next⟩))
    (hspr : ∀ C t, X.call (name! "fmt") (name! "Sprintf") [.str badFormat, t] ⟨i, C, old, next⟩ =
      .ok ([.str badFormat], ⟨i, C, old, next⟩)) (hlen : ds.length < 2 ^ 62) :
    ∀ (rest : List DvInfo) (k n : Nat), ds.drop k = rest → k ≤ ds.length → rest.length < n →
      LoopRes i old next (scanDvs mask m1 cs h rest)
        (runLoop (ev X (.bin .ne (dvE (name! "DvType")) (.num 0))) (exec X N (.block 6 (.seq checkIf .skip)))
          (exec X N (.opAssign .add (.loc 5) (.num 1))) n ⟨i, checkSlots l0 l1 l2 lt mask ds.length k, old, next⟩) := by
  intro rest
  induction rest with
  | nil =>
    intro k n hd hk hn
    obtain ⟨n, rfl⟩ : ∃ n', n = n' + 1 := ⟨n - 1, by simp at hn; omega⟩
    refine ⟨.index, runLoop_stop (typeCond_end ?_), trivial⟩
    have := List.drop_eq_nil_iff.1 hd
    omega
  | cons dv rest ih =>
    intro k n hd hk hn
    obtain ⟨n, rfl⟩ : ∃ n', n = n' + 1 := ⟨n - 1, by simp at hn; omega⟩
    have hdv : ds[k]? = some dv := by
      have := List.getElem?_drop (xs := ds) (i := k) (j := 0)
      rw [hd] at this
      simpa using this.symm
    have hk' : k < ds.length := (List.getElem?_eq_some_iff.1 hdv).1
    have hrest : ds.drop (k + 1) = rest := by
      have := List.drop_drop (i := 1) (j := k) (l := ds)
      rw [hd] at this
      simpa using this.symm
    have hty := typeCond_ok (X := X) (l0 := l0) (l1 := l1) (l2 := l2) (mask := mask) ht hdv
    by_cases h0 : dv.DvType ≠ 0
    · rw [decide_eq_true h0] at hty
      have hit := checkIf_ok (N := N) (mask := mask) h1 ht hcall hspr hdv
      have hpost : exec X N (.opAssign .add (.loc 5) (.num 1))
          ⟨i, checkSlots l0 l1 l2 lt mask ds.length k, old, next⟩ =
          .ok (.normal, ⟨i, checkSlots l0 l1 l2 lt mask ds.length (k + 1), old, next⟩) := by
        have hw : wrap ((k : Int) + 1) = ((k + 1 : Nat) : Int) := by
          unfold wrap
          rw [BitVec.toInt_ofInt, Int.bmod_def]
          omega
        have := (exec_pexec (right_none X i old next) N (.opAssign .add (.loc 5) (.num 1))
          (checkSlots l0 l1 l2 lt mask ds.length k)
          [.ptr l0, .ptr l1, .ptr l2, .u32 mask, .slice lt 0 ds.length ds.length, .int (wrap ((k : Int) + 1))]
          rfl (seen_nil _ _ _ _)).1
        rw [hw] at this
        exact this
      have hsc : scanDvs mask m1 cs h (dv :: rest) = (do
          let b ← (if mask &&& ((1#32) <<< dv.MaskB.toNat) ≠ 0 then do
              let csState ← selectCs cs dv.TestT
              pure (hasCollided dv.TestT m1 dv.Dm csState h)
            else pure false)
          if b then pure true else scanDvs mask m1 cs h rest) := by
        rw [scanDvs, if_pos h0]
        by_cases hb : mask &&& ((1#32) <<< dv.MaskB.toNat) ≠ 0
        · rw [if_pos hb, if_pos hb]
          cases selectCs cs dv.TestT <;> rfl
        · rw [if_neg hb, if_neg hb]
          rfl
      rw [hsc]
      generalize (if mask &&& ((1#32) <<< dv.MaskB.toNat) ≠ 0 then do
              let csState ← selectCs cs dv.TestT
              pure (hasCollided dv.TestT m1 dv.Dm csState h)
            else pure false : GoM Bool) = E at hit ⊢
      match E, hit with
      | .error e, ⟨s, hs1, hs2⟩ => exact ⟨s, runLoop_error hty hs1, hs2⟩
      | .ok true, ⟨C, hs⟩ => exact ⟨C, runLoop_ret hty hs⟩
      | .ok false, hs =>
        show LoopRes _ _ _ (scanDvs mask m1 cs h rest) _
        rw [runLoop_step hty hs hpost]
        exact ih (k + 1) n hrest (by omega) (by simp at hn; omega)
    · rw [decide_eq_false h0] at hty
      rw [scanDvs, if_neg h0]
      exact ⟨_, runLoop_end hty⟩

end

theorem dvs_eq {P : Program} (hP : HasUbc P) (N d : Nat) (m : Mem) {k : Nat} {v : Val}
    (hg : P.glob (name! "ubc") (name! "sha1_dvs") = some k) (h0 : 0 < m.next)
    (hv : load ⟨0, k, []⟩ m = .ok (v, m)) (hv' : ∀ t, ofTy (.slice t) v = v) :
    P.call N (d + 1) (name! "ubc") (name! "SHA1_dvs") [] m = .ok ([v], m) := by
  rw [call_of (by rfl) hP.dvs (show dvsFunc.body = some _ from rfl)]
  have hl : At m.next (m.enter []).old (m.next + 1) ⟨0, k, []⟩ v := at_enter (show m.Has ⟨0, k, []⟩ from h0) hv []
  refine (runFunc_of (s := .ret [v]) (rs := [v]) (m' := ⟨m.next, [], (m.enter []).old, m.next + 1⟩) rfl
    (by simp [dvsFunc]) (exec_block_ret (exec_seq_ret (exec_ret (evs_one (evs_glob hg (hl.load []))))))
    (by simp [results, dvsFunc, hv'])).trans ?_
  rw [show (Stmt.addrs _) = false from rfl, leave_enter]

/-- The memory after a call that left a frame with the slots `C`. -/
def Mem.plus (m : Mem) (C : List Val) : Mem :=
  { m with old := fun g => if g = m.next then C else m.old g, next := m.next + 1 }

theorem leave_plus (m : Mem) (hm : m.id < m.next) (as C : List Val) :
    m.leave ⟨m.next, C, (m.enter as).old, m.next + 1⟩ true = m.plus C := by
  cases m with
  | mk id cur old next =>
    simp only [Mem.leave, Mem.enter, Mem.plus, if_true, Mem.mk.injEq, true_and, true_or, and_true]
    funext g
    have : id ≠ next := Nat.ne_of_lt hm
    by_cases h : g = id <;> simp [h, this]

/-- `checkCollision`, sha1cdblock_generic.go:145-182, whatever the table holds. -/
theorem check_eq {P : Program} (hP : HasUbc P)
    (hf : findFunc (name! "sha1cd") (name! "checkCollision") P.funcs = some checkFunc)
    (hh : findFunc (name! "sha1cd") (name! "hasCollided") P.funcs = some hasFunc) {N : Nat} (d : Nat) (hN : 20 < N)
    (ds : List DvInfo) (hN' : ds.length < N) (hlen : ds.length < 2 ^ 62) {g : Nat} {lt : Loc}
    (m1 : Fin 80 → Word) (cs : Fin 3 → Regs) (h : Regs) (l0 l1 l2 : Loc) (m : Mem) (hm : m.id < m.next)
    (hg : P.glob (name! "ubc") (name! "sha1_dvs") = some g) (hv : load ⟨0, g, []⟩ m = .ok (.slice lt 0 ds.length ds.length, m))
    (bt : m.Has lt) (ht : load lt m = .ok (table ds, m))
    (b0 : m.Has l0) (h0 : load l0 m = .ok (words 80 m1, m)) (b1 : m.Has l1) (h1 : load l1 m = .ok (three cs, m))
    (b2 : m.Has l2) (h2 : load l2 m = .ok (five h, m)) :
    match checkCollision ds m1 cs h with
    | .ok b => ∃ C, P.call N (d + 3) (name! "sha1cd") (name! "checkCollision") [.ptr l0, .ptr l1, .ptr l2] m =
        .ok ([.bool b], m.plus C)
    | .error e => ∃ s, P.call N (d + 3) (name! "sha1cd") (name! "checkCollision") [.ptr l0, .ptr l1, .ptr l2] m =
        .error s ∧ Stands e s := by
  rw [call_of (by rfl) hf (congrArg Func.body checkFunc_eq)]
  generalize hold : (m.enter [.ptr l0, .ptr l1, .ptr l2]).old = old
  have a0 : At m.next old (m.next + 1) l0 (words 80 m1) := hold ▸ at_enter b0 h0 _
  have a1 : At m.next old (m.next + 1) l1 (three cs) := hold ▸ at_enter b1 h1 _
  have a2 : At m.next old (m.next + 1) l2 (five h) := hold ▸ at_enter b2 h2 _
  have at' : At m.next old (m.next + 1) lt (table ds) := hold ▸ at_enter bt ht _
  have ag : At m.next old (m.next + 1) ⟨0, g, []⟩ (.slice lt 0 ds.length ds.length) :=
    hold ▸ at_enter (show m.Has ⟨0, g, []⟩ from Nat.lt_of_le_of_lt (Nat.zero_le _) hm) hv _
  have hcall : ∀ C t ld lc dm st, At m.next old (m.next + 1) ld (words 80 dm) → At m.next old (m.next + 1) lc (five st) →
      (P.world N (d + 2)).call (name! "sha1cd") (name! "hasCollided") [.u32 t, .ptr l0, .ptr ld, .ptr lc, .ptr l2]
        ⟨m.next, C, old, m.next + 1⟩ = .ok ([.bool (hasCollided t m1 dm st h)], ⟨m.next, C, old, m.next + 1⟩) :=
    fun C t ld lc dm st q1 q2 => has_eq hh hN d t l0 ld lc l2 m1 dm st h ⟨m.next, C, old, m.next + 1⟩ a0.has q1.has q2.has
      a2.has (a0.load C) (q1.load C) (q2.load C) (a2.load C)
  have hspr : ∀ C t, (P.world N (d + 2)).call (name! "fmt") (name! "Sprintf") [.str badFormat, t]
      ⟨m.next, C, old, m.next + 1⟩ = .ok ([.str badFormat], ⟨m.next, C, old, m.next + 1⟩) := fun C t => rfl
  -- the mask
  have hmask := exec_define (N := N) (k := 1) (evs_one ((evs_call (X := P.world N (d + 2)) (p := name! "ubc")
    (n := name! "CalculateDvMask") (evs_one (evs_loc (X := P.world N (d + 2)) (k := 0)
      (m := ⟨m.next, [.ptr l0, .ptr l1, .ptr l2], old, m.next + 1⟩) rfl))).trans
    (mask_eq hP N d m1 l0 ⟨m.next, [.ptr l0, .ptr l1, .ptr l2], old, m.next + 1⟩ a0.has (a0.load _)))) rfl
  generalize hmk : Ubc.calculateDvMask (some m1) = mask at hmask
  have hne : ev (P.world N (d + 2)) (.bin .ne (.loc 3) (.num 0))
      ⟨m.next, [.ptr l0, .ptr l1, .ptr l2, .u32 mask], old, m.next + 1⟩ =
      .ok (.bool (decide (mask ≠ 0)), ⟨m.next, [.ptr l0, .ptr l1, .ptr l2, .u32 mask], old, m.next + 1⟩) :=
    ev_of (evs_bin (evs_loc rfl) evs_num rfl)
  have hpass : passed checkFunc.params [.ptr l0, .ptr l1, .ptr l2] ++ (if checkFunc.named then checkFunc.results.map zero else []) =
      [.ptr l0, .ptr l1, .ptr l2] := by rw [checkFunc_eq]; rfl
  have hent : m.enter [.ptr l0, .ptr l1, .ptr l2] = ⟨m.next, [.ptr l0, .ptr l1, .ptr l2], old, m.next + 1⟩ := by
    rw [← hold]; rfl
  have hlv : ∀ C, m.leave ⟨m.next, C, old, m.next + 1⟩ true = m.plus C := fun C => hold ▸ leave_plus m hm _ C
  -- from the body to the function
  have done : ∀ {C b}, exec (P.world N (d + 2)) N checkBody (m.enter [.ptr l0, .ptr l1, .ptr l2]) =
      .ok (.ret [.bool b], ⟨m.next, C, old, m.next + 1⟩) →
      runFunc (P.world N (d + 2)) N checkFunc [.ptr l0, .ptr l1, .ptr l2] m = .ok ([.bool b], m.plus C) := by
    intro C b he
    have he' : exec (P.world N (d + 2)) N checkBody (m.enter (passed checkFunc.params [.ptr l0, .ptr l1, .ptr l2] ++
        (if checkFunc.named then checkFunc.results.map zero else []))) =
        .ok (.ret [.bool b], ⟨m.next, C, old, m.next + 1⟩) := by rw [hpass]; exact he
    have hr : results checkFunc.results (.ret [.bool b]) = .ok [.bool b] := by rw [checkFunc_eq]; rfl
    rw [runFunc_of (congrArg Func.body checkFunc_eq) (by rw [checkFunc_eq]; exact Nat.lt_irrefl 3) he' hr,
      show checkBody.addrs = true by by_kernel, hlv]
  have ret : ∀ {C}, exec (P.world N (d + 2)) N (.seq (.ret (.cons (.bool false) .nil)) .skip) ⟨m.next, C, old, m.next + 1⟩ =
      .ok (.ret [.bool false], ⟨m.next, C, old, m.next + 1⟩) := rfl
  rw [checkCollision, hmk]
  by_cases hz : mask ≠ 0
  · rw [decide_eq_true hz] at hne
    simp only [if_pos hz]
    have hdvs := exec_define (N := N) (k := 1) (evs_one ((evs_call (X := P.world N (d + 2)) (p := name! "ubc")
      (n := name! "SHA1_dvs") (evs_nil (m := ⟨m.next, [.ptr l0, .ptr l1, .ptr l2, .u32 mask], old, m.next + 1⟩))).trans
      (dvs_eq hP N (d + 1) _ hg (Nat.succ_pos _) (ag.load _) (fun _ => rfl)))) rfl
    have hlp := checkLoop_ok (N := N) (mask := mask) a1 at' hcall hspr hlen ds 0 N rfl (Nat.zero_le _) hN'
    have hi0 := exec_define (X := P.world N (d + 2)) (N := N) (k := 1) (evs_one (evs_num (n := 0)
      (m := ⟨m.next, [.ptr l0, .ptr l1, .ptr l2, .u32 mask, .slice lt 0 ds.length ds.length], old, m.next + 1⟩))) rfl
    generalize hE : scanDvs mask m1 cs h ds = E at hlp ⊢
    match E, hlp with
    | .error e, ⟨s, hs1, hs2⟩ =>
      refine ⟨s, runFunc_error (congrArg Func.body checkFunc_eq) (by rw [checkFunc_eq]; exact Nat.lt_irrefl 3) ?_, hs2⟩
      rw [hpass, hent]
      exact exec_block_error (exec_seq_error (exec_block_error ((exec_seq hmask).trans ((exec_ite_true hne).trans
        (exec_block_error ((exec_seq hdvs).trans (exec_seq_error (exec_block_error ((exec_seq hi0).trans hs1)))))))))
    | .ok true, ⟨C, hs⟩ =>
      refine ⟨C, done ?_⟩
      rw [hent]
      exact exec_block_ret (exec_seq_ret (exec_block_ret ((exec_seq hmask).trans ((exec_ite_true hne).trans
        (exec_block_ret ((exec_seq hdvs).trans (exec_seq_ret (exec_block_ret ((exec_seq hi0).trans hs)))))))))
    | .ok false, ⟨C, hs⟩ =>
      have hs' : exec (P.world N (d + 2)) N checkLoop
        ⟨m.next, checkSlots l0 l1 l2 lt mask ds.length 0, old, m.next + 1⟩ = _ := hs
      exact ⟨_, done ((congrArg (exec _ _ checkBody) hent).trans (exec_block_ret ((exec_seq (exec_block ((exec_seq hmask).trans
        ((exec_ite_true hne).trans (exec_block ((exec_seq hdvs).trans (exec_last (exec_block
          ((exec_seq hi0).trans hs'))))))))).trans ret)))⟩
  · rw [decide_eq_false hz] at hne
    simp only [if_neg hz]
    exact ⟨_, done ((congrArg (exec _ _ checkBody) hent).trans (exec_block_ret ((exec_seq (exec_block
      ((exec_seq hmask).trans ((exec_ite_false hne).trans exec_skip)))).trans ret)))⟩

end Verif.Source.Go
