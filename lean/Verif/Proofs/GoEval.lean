import Verif.Proofs.GoUbc

/-!
Rules for running the programs of `Source/GoSyntax` step by step.
-/

namespace Verif.Source.Go

open Verif Verif.Source

section
variable {X : World} {N : Nat} {m m1 m2 m3 : Mem}

theorem evs_loc {k : Nat} {v : Val} (h : m.cur[k]? = some v) : evs X (.loc k) m = .ok ([v], m) := by
  simp only [evs, h]

theorem evs_cons {e es : Expr} {vs ws : List Val} (h : evs X e m = .ok (vs, m1)) (h' : evs X es m1 = .ok (ws, m2)) :
    evs X (.cons e es) m = .ok (vs ++ ws, m2) := by
  show (evs X e >>= _) m = _
  rw [bind_of h, bind_of h']
  rfl

theorem evs_nil : evs X .nil m = .ok ([], m) := rfl

theorem evs_num {n : Nat} : evs X (.num n) m = .ok ([.const n], m) := rfl

theorem evs_one {e : Expr} {v : Val} (h : evs X e m = .ok ([v], m1)) : evs X (.cons e .nil) m = .ok ([v], m1) :=
  evs_cons h evs_nil

theorem places_one {k : Nat} : places X (.cons (.loc k) .nil) m = .ok ([some ⟨m.id, k, []⟩], m) := rfl

theorem storeAll_one {l : Loc} {v : Val} {m' : Mem} (h : store l v m = .ok ((), m')) :
    storeAll [some l] [v] m = .ok ((), m') := by
  show (store l v >>= _) m = _
  rw [bind_of h]
  rfl

theorem exec_skip : exec X N .skip m = .ok (.normal, m) := rfl

theorem exec_last {a : Stmt} (h : exec X N a m = .ok (.normal, m1)) : exec X N (.seq a .skip) m = .ok (.normal, m1) :=
  exec_seq h

theorem evs_bin {o : BOp} {a b : Expr} {x y v : Val} (ha : evs X a m = .ok ([x], m1)) (hb : evs X b m1 = .ok ([y], m2))
    (hv : arith o x y = some v) : evs X (.bin o a b) m = .ok ([v], m2) := by
  show (evs X a >>= _) m = _
  rw [bind_of ha, bind_of (single_one _ _), bind_of hb, bind_of (single_one _ _), hv]
  rfl

theorem evs_conv32 {e : Expr} {x v : Val} (h : evs X e m = .ok ([x], m1)) (hv : convert .u32 x = some v) :
    evs X (.conv .u32 e) m = .ok ([v], m1) := by
  show (evs X e >>= _) m = _
  rw [bind_of h, bind_of (single_one _ _), hv]
  rfl

theorem evs_field {e : Expr} {f : Nat} {x v : Val} (h : evs X e m = .ok ([x], m1)) (hv : fieldOf x f m1 = .ok (v, m2)) :
    evs X (.field e f) m = .ok ([v], m2) := by
  show (evs X e >>= _) m = _
  rw [bind_of h, bind_of (single_one _ _), bind_of hv]
  rfl

theorem evs_index {e i : Expr} {x y v : Val} (h : evs X e m = .ok ([x], m1)) (hi : evs X i m1 = .ok ([y], m2))
    (hv : elemOf x y m2 = .ok (v, m3)) : evs X (.index e i) m = .ok ([v], m3) := by
  show (evs X e >>= _) m = _
  rw [bind_of h, bind_of (single_one _ _), bind_of hi, bind_of (single_one _ _), bind_of hv]
  rfl

theorem evs_index_error {e i : Expr} {x y : Val} {s : Stop} (h : evs X e m = .ok ([x], m1))
    (hi : evs X i m1 = .ok ([y], m2)) (hv : elemOf x y m2 = .error s) : evs X (.index e i) m = .error s := by
  show (evs X e >>= _) m = _
  rw [bind_of h, bind_of (single_one _ _), bind_of hi, bind_of (single_one _ _), bind_run, hv]

theorem evs_field_error {e : Expr} {f : Nat} {s : Stop} (h : evs X e m = .error s) : evs X (.field e f) m = .error s := by
  show (evs X e >>= _) m = _
  rw [bind_run, h]

theorem evs_bin_error {o : BOp} {a b : Expr} {s : Stop} (h : evs X a m = .error s) : evs X (.bin o a b) m = .error s := by
  show (evs X a >>= _) m = _
  rw [bind_run, h]

theorem ev_error {e : Expr} {s : Stop} (h : evs X e m = .error s) : ev X e m = .error s := by
  show (evs X e >>= _) m = _
  rw [bind_run, h]

theorem evs_addr {e : Expr} {l : Loc} (h : place X e m = .ok (l, m1)) : evs X (.addr e) m = .ok ([.ptr l], m1) := by
  show (place X e >>= _) m = _
  rw [bind_of h]
  rfl

theorem evs_call {p n : Nat} {e : Expr} {vs : List Val} (h : evs X e m = .ok (vs, m1)) :
    evs X (.call p n e) m = X.call p n vs m1 := by
  show (evs X e >>= _) m = _
  rw [bind_of h]

theorem evs_glob {p n k : Nat} {v : Val} (h : X.glob p n = some k) (hv : load ⟨0, k, []⟩ m = .ok (v, m)) :
    evs X (.glob p n) m = .ok ([v], m) := by
  show (need (X.glob p n) >>= _) m = _
  rw [h, bind_of (show need (some k) m = .ok (k, m) from rfl), bind_of hv]
  rfl

theorem place_index {e i : Expr} {l l' : Loc} {y : Val} (h : place X e m = .ok (l, m1)) (hi : evs X i m1 = .ok ([y], m2))
    (hl : elemPlace l y m2 = .ok (l', m3)) : place X (.index e i) m = .ok (l', m3) := by
  show (place X e >>= _) m = _
  rw [bind_of h, bind_of hi, bind_of (single_one _ _), hl]

theorem place_field {e : Expr} {f : Nat} {l l' : Loc} (h : place X e m = .ok (l, m1))
    (hl : through l m1 = .ok (l', m2)) : place X (.field e f) m = .ok (l'.sub f, m2) := by
  show (place X e >>= _) m = _
  rw [bind_of h, bind_of hl]
  rfl

theorem ev_of {e : Expr} {v : Val} (h : evs X e m = .ok ([v], m1)) : ev X e m = .ok (v, m1) := by
  show (evs X e >>= _) m = _
  rw [bind_of h]
  rfl

theorem exec_define {k : Nat} {e : Expr} {vs : List Val} (h : evs X e m = .ok (vs, m1)) (hk : vs.length = k) :
    exec X N (.define k e) m = .ok (.normal, { m1 with cur := m1.cur ++ vs.map fresh }) := by
  show (evs X e >>= _) m = _
  rw [bind_of h, if_pos hk]
  rfl

theorem exec_assign {ls rs : Expr} {ps : List (Option Loc)} {vs : List Val} (hl : places X ls m = .ok (ps, m1))
    (hr : evs X rs m1 = .ok (vs, m2)) (hs : storeAll ps vs m2 = .ok ((), m3)) :
    exec X N (.assign ls rs) m = .ok (.normal, m3) := by
  show (places X ls >>= _) m = _
  rw [bind_of hl, bind_of hr, bind_of hs]
  rfl

theorem exec_expr_error {e : Expr} {s : Stop} (h : evs X e m = .error s) : exec X N (.expr e) m = .error s := by
  show (evs X e >>= _) m = _
  rw [bind_run, h]

theorem exec_seq_error {a b : Stmt} {s : Stop} (h : exec X N a m = .error s) : exec X N (.seq a b) m = .error s := by
  show (exec X N a >>= _) m = _
  rw [bind_run, h]

theorem exec_block_error {n : Nat} {a : Stmt} {s : Stop} (h : exec X N a m = .error s) :
    exec X N (.block n a) m = .error s := by
  show (exec X N a >>= _) m = _
  rw [bind_run, h]

/-- The body of the loop returns. -/
theorem runLoop_ret {c : M Val} {body post : M Sig} {n : Nat} {vs : List Val}
    (hc : c m = .ok (.bool true, m1)) (hb : body m1 = .ok (.ret vs, m2)) :
    runLoop c body post (n + 1) m = .ok (.ret vs, m2) := by
  show (c >>= _) m = _
  rw [bind_of hc]
  show (body >>= _) m1 = _
  rw [bind_of hb]
  rfl

/-- The body of the loop ends the run. -/
theorem runLoop_error {c : M Val} {body post : M Sig} {n : Nat} {s : Stop}
    (hc : c m = .ok (.bool true, m1)) (hb : body m1 = .error s) :
    runLoop c body post (n + 1) m = .error s := by
  show (c >>= _) m = _
  rw [bind_of hc]
  show (body >>= _) m1 = _
  rw [bind_run, hb]

/-- The condition of the loop ends the run. -/
theorem runLoop_stop {c : M Val} {body post : M Sig} {n : Nat} {s : Stop} (hc : c m = .error s) :
    runLoop c body post (n + 1) m = .error s := by
  show (c >>= _) m = _
  rw [bind_run, hc]

theorem runFunc_error {f : Func} {vs : List Val} {b : Stmt} {s : Stop} (hb : f.body = some b)
    (hlen : ¬vs.length < f.params.length)
    (h : exec X N b (m.enter (passed f.params vs ++ (if f.named then f.results.map zero else []))) = .error s) :
    runFunc X N f vs m = .error s := by
  simp only [runFunc, hb, if_neg hlen, h]

end

theorem get_append (v w : Val) (p q : List Nat) (h : v.get p = .ok w) : v.get (p ++ q) = w.get q := by
  induction p generalizing v with
  | nil => simp only [Val.get, Except.ok.injEq] at h; subst h; rfl
  | cons i p ih =>
    cases v with
    | arr n f =>
      simp only [Val.get, List.cons_append] at h ⊢
      split at h
      · rename_i hi
        rw [if_pos hi]
        exact ih _ h
      · cases h
    | struct f => exact ih _ h
    | _ => simp only [Val.get] at h; cases h

/-- What is at a place of another frame, in frame `i` with the other frames `old`. -/
structure At (i : Nat) (old : Nat → List Val) (next : Nat) (l : Loc) (v : Val) : Prop where
  has : l.frame < next
  load : ∀ C, load l ⟨i, C, old, next⟩ = .ok (v, ⟨i, C, old, next⟩)

section
variable {i : Nat} {old : Nat → List Val} {next : Nat} {l : Loc}

theorem load_some {l : Loc} {m : Mem} {v w : Val} (h : (m.frame l.frame)[l.slot]? = some v) (hw : v.get l.path = .ok w) :
    load l m = .ok (w, m) := by
  simp only [load, h, hw]

theorem load_inv {l : Loc} {m m' : Mem} {w : Val} (h : load l m = .ok (w, m')) :
    ∃ v, (m.frame l.frame)[l.slot]? = some v ∧ v.get l.path = .ok w := by
  unfold load at h
  split at h
  · rename_i v hv
    split at h
    · rename_i u hu
      cases h
      exact ⟨v, hv, hu⟩
    · cases h
  · cases h

theorem load_sub {m : Mem} {v w : Val} {k : Nat} (h : load l m = .ok (v, m)) (hw : v.get [k] = .ok w) :
    load (l.sub k) m = .ok (w, m) := by
  obtain ⟨u, h1, h2⟩ := load_inv h
  exact load_some h1 ((get_append _ _ _ _ h2).trans hw)

theorem At.elem {n k : Nat} {f : Nat → Val} (h : At i old next l (.arr n f)) (hk : k < n) :
    At i old next (l.sub k) (f k) :=
  ⟨h.has, fun C => load_sub (h.load C) (by simp [Val.get, hk])⟩

theorem At.field {k : Nat} {f : Nat → Val} (h : At i old next l (.struct f)) : At i old next (l.sub k) (f k) :=
  ⟨h.has, fun C => load_sub (h.load C) (by simp [Val.get])⟩

/-- What is there when a function is called is there in the function. -/
theorem at_enter {m : Mem} {v : Val} (hl : m.Has l) (h : load l m = .ok (v, m)) (as : List Val) :
    At m.next (m.enter as).old (m.next + 1) l v := ⟨Nat.lt_succ_of_lt hl, fun C => load_enter hl h as C⟩

theorem elemOf_slice {lt : Loc} {n c k : Nat} {v : Val} (hk : k < n) {m : Mem} (h : load (lt.sub k) m = .ok (v, m)) :
    elemOf (.slice lt 0 n c) (.int k) m = .ok (v, m) := by
  have : indexIn (k : Int) n = .ok k := by simp [indexIn, hk]
  simp only [elemOf, bind_run, need, number, lift, this, Nat.zero_add, h]

theorem elemOf_slice_error {lt : Loc} {n c k : Nat} (hk : ¬k < n) {m : Mem} :
    elemOf (.slice lt 0 n c) (.int k) m = .error .index := by
  have : indexIn (k : Int) n = .error .index := by simp [indexIn]; omega
  simp only [elemOf, bind_run, need, number, lift, this]

end

end Verif.Source.Go
