import Verif.Proofs.GoNoasm

/-!
`rectifyCompressionState` as it is read from the text of sha1cdblock_generic.go is `Model.rectifyCompressionState`.
-/

namespace Verif.Source.Go

open Verif Verif.Source Verif.Model

/-- `func3`, sha1cdblock_generic.go:292-299. -/
def lit3 : Func := evaluated! getFunc progAmd64 1 0
/-- `func4`, sha1cdblock_generic.go:300-306. -/
def lit4 : Func := evaluated! getFunc progAmd64 1 1
/-- sha1cdblock_generic.go:284-311. -/
def rectFunc : Func := evaluated! getFunc progAmd64 (name! "sha1cd") (name! "rectifyCompressionState")

/-- The statements of sha1cdblock_generic.go:293-297. -/
def lit3Stmts : List Stmt := evaluated! (inside (lit3.body.getD .skip)).take 4
/-- The statements of sha1cdblock_generic.go:301-304. -/
def lit4Stmts : List Stmt := evaluated! (inside (lit4.body.getD .skip)).take 4

/-- `[shared.WordBuffers]uint32{a, b, c, d, e}`, the variables being in slot `k` and the next ones. -/
def litFrom (k : Nat) : Expr := .lit (.arr 5 .u32)
  (.cons (.loc k) (.cons (.loc (k + 1)) (.cons (.loc (k + 2)) (.cons (.loc (k + 3)) (.cons (.loc (k + 4)) .nil)))))

theorem lit3_def : lit3 = ⟨1, 0, [.arr 5 .u32, .int], [.arr 5 .u32], false,
    some (.block 4 (seqs (lit3Stmts ++ [.ret (.cons (litFrom 4) .nil)])))⟩ := by by_kernel

theorem lit4_def : lit4 = ⟨1, 1, [.arr 5 .u32, .int], [.arr 5 .u32], false,
    some (.block 5 (seqs (lit4Stmts ++ [.ret (.cons (litFrom 5) .nil)])))⟩ := by by_kernel

/-- What `func3` does. -/
def rect3 (m1 : Fin 80 → Word) (k : Fin 80) (s : Regs) : Regs :=
  ⟨rotateLeft32 s.a 5 + fMaj s.b s.c s.d + s.e + m1 k + K2, s.a, rotateLeft32 s.b 30, s.c, s.d⟩

/-- What `func4` does. -/
def rect4 (m1 : Fin 80 → Word) (k : Fin 80) (s : Regs) : Regs :=
  ⟨rotateLeft32 s.a 5 + fPar s.b s.c s.d + s.e + m1 k + K3, s.a, rotateLeft32 s.b 30, s.c, s.d⟩

/-- The slots of `func3` at its end. -/
def slots3 (lm : Loc) (v : Val) (m1 : Fin 80 → Word) (k : Fin 80) (s : Regs) : List Val :=
  [.ptr lm, v, five s, .int k.val, .u32 (rect3 m1 k s).a, .u32 (rect3 m1 k s).b, .u32 (rect3 m1 k s).c, .u32 (rect3 m1 k s).d,
    .u32 (rect3 m1 k s).e, .u32 (fMaj s.b s.c s.d), .u32 (rect3 m1 k s).a]

/-- The slots of `func4` at its end. -/
def slots4 (lm : Loc) (v w : Val) (m1 : Fin 80 → Word) (k : Fin 80) (s : Regs) : List Val :=
  [.ptr lm, v, w, five s, .int k.val, .u32 (rect4 m1 k s).a, .u32 (rect4 m1 k s).b, .u32 (rect4 m1 k s).c, .u32 (rect4 m1 k s).d,
    .u32 (rect4 m1 k s).e, .u32 (fPar s.b s.c s.d), .u32 (rect4 m1 k s).a]

theorem lit3_56 (lm : Loc) (v : Val) (m1 : Fin 80 → Word) (s : Regs) :
    pexec bitsPure [some (words 80 m1)] (seqs lit3Stmts) [.ptr lm, v, five s, .int 56] = some (slots3 lm v m1 56 s) := by by_kernel

theorem lit3_57 (lm : Loc) (v : Val) (m1 : Fin 80 → Word) (s : Regs) :
    pexec bitsPure [some (words 80 m1)] (seqs lit3Stmts) [.ptr lm, v, five s, .int 57] = some (slots3 lm v m1 57 s) := by by_kernel

theorem lit4_64 (lm : Loc) (v w : Val) (m1 : Fin 80 → Word) (s : Regs) :
    pexec bitsPure [some (words 80 m1)] (seqs lit4Stmts) [.ptr lm, v, w, five s, .int 64] = some (slots4 lm v w m1 64 s) := by by_kernel

theorem seen_ptr {m1 : Fin 80 → Word} {i : Nat} {old : Nat → List Val} {next : Nat} {lm : Loc} {C : List Val}
    (h : At i old next lm (words 80 m1)) : Seen [some (words 80 m1)] i old next (.ptr lm :: C) := by
  intro k v hv
  match k with
  | 0 =>
    simp only [view, List.getElem?_cons_zero, Option.some.injEq] at hv
    subst hv
    exact ⟨.ptr lm, rfl, h.load⟩
  | k + 1 => simp [view] at hv

section
variable {P : Program} {N d : Nat} {lm : Loc} {v w : Val} {m1 : Fin 80 → Word} {m : Mem}

theorem lit3_eq (hf : findFunc 1 0 P.funcs = some lit3) (k : Fin 80) (hk : k = 56 ∨ k = 57) (s : Regs) (hl : m.Has lm)
    (h : load lm m = .ok (words 80 m1, m)) :
    P.call N (d + 2) 1 0 [.ptr lm, v, five s, .const k.val] m = .ok ([five (rect3 m1 k s)], m) := by
  rw [call_of (by rfl) hf (congrArg Func.body lit3_def)]
  have hp : pexec bitsPure [some (words 80 m1)] (seqs lit3Stmts) [.ptr lm, v, five s, .int k.val] = some (slots3 lm v m1 k s) := by
    rcases hk with rfl | rfl
    · exact lit3_56 lm v m1 s
    · exact lit3_57 lm v m1 s
  have hpass : passed lit3.params [.ptr lm, v, five s, .const k.val] ++ (if lit3.named then lit3.results.map zero else []) =
      [.ptr lm, v, five s, .int k.val] := by rw [lit3_def]; rfl
  have ha := at_enter hl h (passed lit3.params [.ptr lm, v, five s, .const k.val] ++ (if lit3.named then lit3.results.map zero else []))
  have he := (exec_pexec (right_bits P N d [some (words 80 m1)] _ _ _) N _ _ _ hp (seen_ptr ha)).1
  have hx : exec (P.world N (d + 1)) N (.block 4 (seqs (lit3Stmts ++ [.ret (.cons (litFrom 4) .nil)])))
      (m.enter (passed lit3.params [.ptr lm, v, five s, .const k.val] ++ (if lit3.named then lit3.results.map zero else []))) =
      .ok (.ret [lit5 (rect3 m1 k s)], ⟨m.next, slots3 lm v m1 k s, (m.enter (passed lit3.params [.ptr lm, v, five s, .const k.val] ++
        (if lit3.named then lit3.results.map zero else []))).old, m.next + 1⟩) := by
    refine exec_block_ret ((exec_seqs_append (m' := ⟨m.next, slots3 lm v m1 k s, _, m.next + 1⟩) ?_).trans (exec_seq_ret rfl))
    rw [← he]
    simp only [Mem.enter, hpass]
  rw [runFunc_of (congrArg Func.body lit3_def) (by rw [lit3_def]; exact of_decide_eq_false rfl) hx
    (rs := [five (rect3 m1 k s)]) (by rw [lit3_def, ← lit5_eq]; rfl),
    show (Stmt.block 4 (seqs (lit3Stmts ++ [.ret (.cons (litFrom 4) .nil)]))).addrs = false by by_kernel, leave_enter]

theorem lit4_eq (hf : findFunc 1 1 P.funcs = some lit4) (s : Regs) (hl : m.Has lm) (h : load lm m = .ok (words 80 m1, m)) :
    P.call N (d + 2) 1 1 [.ptr lm, v, w, five s, .const 64] m = .ok ([five (rect4 m1 64 s)], m) := by
  rw [call_of (by rfl) hf (congrArg Func.body lit4_def)]
  have hpass : passed lit4.params [.ptr lm, v, w, five s, .const 64] ++ (if lit4.named then lit4.results.map zero else []) =
      [.ptr lm, v, w, five s, .int 64] := by rw [lit4_def]; rfl
  have ha := at_enter hl h (passed lit4.params [.ptr lm, v, w, five s, .const 64] ++ (if lit4.named then lit4.results.map zero else []))
  have he := (exec_pexec (right_bits P N d [some (words 80 m1)] _ _ _) N _ _ _ (lit4_64 lm v w m1 s) (seen_ptr ha)).1
  have hx : exec (P.world N (d + 1)) N (.block 5 (seqs (lit4Stmts ++ [.ret (.cons (litFrom 5) .nil)])))
      (m.enter (passed lit4.params [.ptr lm, v, w, five s, .const 64] ++ (if lit4.named then lit4.results.map zero else []))) =
      .ok (.ret [lit5 (rect4 m1 64 s)], ⟨m.next, slots4 lm v w m1 64 s, (m.enter (passed lit4.params [.ptr lm, v, w, five s, .const 64] ++
        (if lit4.named then lit4.results.map zero else []))).old, m.next + 1⟩) := by
    refine exec_block_ret ((exec_seqs_append (m' := ⟨m.next, slots4 lm v w m1 64 s, _, m.next + 1⟩) ?_).trans (exec_seq_ret rfl))
    rw [← he]
    simp only [Mem.enter, hpass]
  rw [runFunc_of (congrArg Func.body lit4_def) (by rw [lit4_def]; exact of_decide_eq_false rfl) hx
    (rs := [five (rect4 m1 64 s)]) (by rw [lit4_def, ← lit5_eq]; rfl),
    show (Stmt.block 5 (seqs (lit4Stmts ++ [.ret (.cons (litFrom 5) .nil)]))).addrs = false by by_kernel, leave_enter]

end

/-- `cs[k]`. -/
def csAt (k : Nat) : Expr := .index (.loc 1) (.num k)

/-- sha1cdblock_generic.go:288-290. -/
def rectNil : Stmt := .ite (.bin .eq (.loc 1) .null) (.block 2 (.seq (.ret .nil) .skip)) .skip

/-- The statements of sha1cdblock_generic.go:288-311. -/
def rectStmts : List Stmt :=
  [rectNil, .define 1 (.cons (.func 0 2) .nil), .define 1 (.cons (.func 1 3) .nil),
   .define 1 (.cons (.callVar 2 (.cons (csAt 1) (.cons (.num 56) .nil))) .nil),
   .assign (.cons (csAt 1) .nil) (.cons (.callVar 2 (.cons (.loc 4) (.cons (.num 57) .nil))) .nil),
   .assign (.cons (csAt 2) .nil) (.cons (.callVar 3 (.cons (csAt 2) (.cons (.num 64) .nil))) .nil)]

theorem rectFunc_eq : rectFunc = ⟨name! "sha1cd", name! "rectifyCompressionState", [.ptr (.arr 80 .u32), .ptr (.arr 3 (.arr 5 .u32))], [],
    false, some (.block 2 (seqs rectStmts))⟩ := by by_kernel

theorem rectify_three (m1 : Fin 80 → Word) (cs : Fin 3 → Regs) : rectifyCompressionState m1 cs =
    upd (upd cs 1 (rect3 m1 57 (rect3 m1 56 (cs 1)))) 2 (rect4 m1 64 (cs 2)) := by
  funext j
  match j with
  | 0 | 1 | 2 => rfl

theorem index_three (k : Fin 3) : indexIn (k.val : Int) 3 = .ok k.val := by
  match k with
  | 0 | 1 | 2 => rfl

theorem three_get (cs : Fin 3 → Regs) (k : Fin 3) : (three cs).get [k.val] = .ok (five (cs k)) := by
  simp [three, Val.get]

theorem three_set (cs : Fin 3 → Regs) (k : Fin 3) (r : Regs) : (three cs).set [k.val] (five r) = .ok (three (upd cs k r)) := by
  have := setCs_three cs k r
  rw [setCs, lit5_eq] at this
  obtain ⟨v, hv⟩ := set_of_get (u := five r) (three_get cs k)
  rw [hv] at this ⊢
  exact congrArg Except.ok this

section
variable {X : World} {i : Nat} {old : Nat → List Val} {next : Nat} {C : List Val} {lm lc : Loc} {cs : Fin 3 → Regs}

theorem evs_csAt (hi : lc.frame ≠ i) (h : look old lc = .ok (three cs)) (k : Fin 3) :
    evs X (csAt k.val) ⟨i, .ptr lm :: .ptr lc :: C, old, next⟩ = .ok ([five (cs k)], ⟨i, .ptr lm :: .ptr lc :: C, old, next⟩) := by
  refine evs_index (x := .ptr lc) (evs_loc rfl) evs_num ?_
  refine elemOf_ptr (j := k.val) rfl (load_look hi h _) ?_
  have : indexIn (k.val : Int) 3 = .ok k.val := index_three k
  simp only [pelem, three, this]
  simp

theorem place_csAt (hi : lc.frame ≠ i) (h : look old lc = .ok (three cs)) (k : Fin 3) :
    place X (csAt k.val) ⟨i, .ptr lm :: .ptr lc :: C, old, next⟩ =
      .ok (lc.sub k.val, ⟨i, .ptr lm :: .ptr lc :: C, old, next⟩) := by
  refine place_index (l := ⟨i, 1, []⟩) (m1 := ⟨i, .ptr lm :: .ptr lc :: C, old, next⟩) rfl evs_num ?_
  have hl : load ⟨i, 1, []⟩ ⟨i, .ptr lm :: .ptr lc :: C, old, next⟩ = .ok (.ptr lc, ⟨i, .ptr lm :: .ptr lc :: C, old, next⟩) :=
    load_pget rfl
  have hix : indexIn (k.val : Int) 3 = .ok k.val := index_three k
  simp only [elemPlace, bind_run, need, number, hl, load_look hi h, three, lift, hix, pure_run]

theorem store_csAt (hi : lc.frame ≠ i) (h : look old lc = .ok (three cs)) (k : Fin 3) (r : Regs) :
    store (lc.sub k.val) (five r) ⟨i, C, old, next⟩ = .ok ((), ⟨i, C, putAt old lc (three (upd cs k r)), next⟩) :=
  store_part (q := [k.val]) hi h (three_set cs k r) (fixed_arr _ _)

theorem evs_callVar {k i' : Nat} {caps vs : List Val} {args : Expr} {m m1 : Mem} (h : m.cur[k]? = some (.clo i' caps))
    (ha : evs X args m = .ok (vs, m1)) : evs X (.callVar k args) m = X.call 1 i' (caps ++ vs) m1 := by
  simp only [evs, h]
  rw [bind_of ha]

end

/-- The program has the functions of sha1cdblock_generic.go:284-311. -/
structure HasRectify (P : Program) : Prop where
  rect : findFunc (name! "sha1cd") (name! "rectifyCompressionState") P.funcs = some rectFunc
  func3 : findFunc 1 0 P.funcs = some lit3
  func4 : findFunc 1 1 P.funcs = some lit4

/-- `rectifyCompressionState`, sha1cdblock_generic.go:284-311. -/
theorem rect_eq {P : Program} (hP : HasRectify P) (N d : Nat) {m1 : Fin 80 → Word} {cs : Fin 3 → Regs} {lm lc : Loc} {m : Mem}
    (hlm : lm.frame < m.next) (hlc : lc.frame < m.next) (hap : Apart lc lm)
    (hm1 : look m.frame lm = .ok (words 80 m1)) (hcs : look m.frame lc = .ok (three cs)) :
    ∃ m', P.call N (d + 3) (name! "sha1cd") (name! "rectifyCompressionState") [.ptr lm, .ptr lc] m = .ok ([], m') ∧
      Became m (putAt m.frame lc (three (rectifyCompressionState m1 cs))) m' := by
  rw [call_of (by rfl) hP.rect (congrArg Func.body rectFunc_eq)]
  have hpass : passed rectFunc.params [.ptr lm, .ptr lc] ++ (if rectFunc.named then rectFunc.results.map zero else []) =
      [.ptr lm, .ptr lc] := by rw [rectFunc_eq]; rfl
  have hent : m.enter [.ptr lm, .ptr lc] = ⟨m.next, [.ptr lm, .ptr lc], m.frame, m.next + 1⟩ := rfl
  have hic : lc.frame ≠ m.next := Nat.ne_of_lt hlc
  have him : lm.frame ≠ m.next := Nat.ne_of_lt hlm
  -- the closures
  let f3 : Source.Go.Val := .clo 0 [.ptr lm, .ptr lc]
  let f4 : Source.Go.Val := .clo 1 [.ptr lm, .ptr lc, f3]
  have e0 : exec (P.world N (d + 2)) N rectNil ⟨m.next, [.ptr lm, .ptr lc], m.frame, m.next + 1⟩ =
      .ok (.normal, ⟨m.next, [.ptr lm, .ptr lc], m.frame, m.next + 1⟩) := (exec_ite_false rfl).trans exec_skip
  have e1 : exec (P.world N (d + 2)) N (.define 1 (.cons (.func 0 2) .nil)) ⟨m.next, [.ptr lm, .ptr lc], m.frame, m.next + 1⟩ =
      .ok (.normal, ⟨m.next, [.ptr lm, .ptr lc, f3], m.frame, m.next + 1⟩) := rfl
  have e2 : exec (P.world N (d + 2)) N (.define 1 (.cons (.func 1 3) .nil)) ⟨m.next, [.ptr lm, .ptr lc, f3], m.frame, m.next + 1⟩ =
      .ok (.normal, ⟨m.next, [.ptr lm, .ptr lc, f3, f4], m.frame, m.next + 1⟩) := rfl
  -- the first call
  have c3 : ∀ (old : Nat → List Source.Go.Val) (C : List Source.Go.Val) (k : Fin 80) (s : Regs), (k = 56 ∨ k = 57) →
      look old lm = .ok (words 80 m1) → (P.world N (d + 2)).call 1 0 [.ptr lm, .ptr lc, five s, .const k.val]
        ⟨m.next, C, old, m.next + 1⟩ = .ok ([five (rect3 m1 k s)], ⟨m.next, C, old, m.next + 1⟩) := fun old C k s hk hl =>
    lit3_eq hP.func3 k hk s (Nat.lt_succ_of_lt hlm) (load_look him hl C)
  have c4 : ∀ (old : Nat → List Source.Go.Val) (C : List Source.Go.Val) (s : Regs),
      look old lm = .ok (words 80 m1) → (P.world N (d + 2)).call 1 1 [.ptr lm, .ptr lc, f3, five s, .const 64]
        ⟨m.next, C, old, m.next + 1⟩ = .ok ([five (rect4 m1 64 s)], ⟨m.next, C, old, m.next + 1⟩) := fun old C s hl =>
    lit4_eq hP.func4 s (Nat.lt_succ_of_lt hlm) (load_look him hl C)
  have v3 := (evs_callVar (X := P.world N (d + 2)) (k := 2) (m := ⟨m.next, [.ptr lm, .ptr lc, f3, f4], m.frame, m.next + 1⟩) rfl
    (evs_cons (evs_csAt hic hcs 1) (evs_one (evs_num (n := 56))))).trans (c3 m.frame _ 56 (cs 1) (.inl rfl) hm1)
  have e3 : exec (P.world N (d + 2)) N (.define 1 (.cons (.callVar 2 (.cons (csAt 1) (.cons (.num 56) .nil))) .nil))
      ⟨m.next, [.ptr lm, .ptr lc, f3, f4], m.frame, m.next + 1⟩ =
      .ok (.normal, ⟨m.next, [.ptr lm, .ptr lc, f3, f4, five (rect3 m1 56 (cs 1))], m.frame, m.next + 1⟩) :=
    exec_define (evs_one v3) rfl
  -- the second call and the assignment
  have v4 := (evs_callVar (X := P.world N (d + 2)) (k := 2) (m := ⟨m.next, [.ptr lm, .ptr lc, f3, f4, five (rect3 m1 56 (cs 1))], m.frame,
    m.next + 1⟩) rfl (evs_cons (evs_loc (k := 4) rfl) (evs_one (evs_num (n := 57))))).trans (c3 m.frame _ 57 _ (.inr rfl) hm1)
  have p1 : places (P.world N (d + 2)) (.cons (csAt 1) .nil) ⟨m.next, [.ptr lm, .ptr lc, f3, f4, five (rect3 m1 56 (cs 1))], m.frame,
      m.next + 1⟩ = .ok ([some (lc.sub 1)], _) := places_cons (by simp [csAt]) (place_csAt hic hcs 1) rfl
  have e4 := exec_assign (N := N) p1 (evs_one v4) (storeAll_one (store_csAt hic hcs 1 _))
  have hcs' := look_putAt (fixed_arr _ _) hcs (w := three (upd cs 1 (rect3 m1 57 (rect3 m1 56 (cs 1)))))
  have hm1' : look (putAt m.frame lc (three (upd cs 1 (rect3 m1 57 (rect3 m1 56 (cs 1)))))) lm = .ok (words 80 m1) := by
    rw [look_other hap, hm1]
  -- the third
  have v5 := (evs_callVar (X := P.world N (d + 2)) (k := 3) (m := ⟨m.next, [.ptr lm, .ptr lc, f3, f4, five (rect3 m1 56 (cs 1))],
    putAt m.frame lc (three (upd cs 1 (rect3 m1 57 (rect3 m1 56 (cs 1))))), m.next + 1⟩) rfl
    (evs_cons (evs_csAt hic hcs' 2) (evs_one (evs_num (n := 64))))).trans (c4 _ _ _ hm1')
  have p2 : places (P.world N (d + 2)) (.cons (csAt 2) .nil) ⟨m.next, [.ptr lm, .ptr lc, f3, f4, five (rect3 m1 56 (cs 1))],
      putAt m.frame lc (three (upd cs 1 (rect3 m1 57 (rect3 m1 56 (cs 1))))), m.next + 1⟩ = .ok ([some (lc.sub 2)], _) :=
    places_cons (by simp [csAt]) (place_csAt hic hcs' 2) rfl
  have e5 := exec_assign (N := N) p2 (evs_one v5) (storeAll_one (store_csAt hic hcs' 2 _))
  have hpp : ∀ v, putAt (putAt m.frame lc (three (upd cs 1 (rect3 m1 57 (rect3 m1 56 (cs 1)))))) lc (three v) = putAt m.frame lc (three v) :=
    fun v => putAt_putAt (fixed_arr _ _) hcs
  rw [hpp, show upd cs 1 (rect3 m1 57 (rect3 m1 56 (cs 1))) 2 = cs 2 from rfl, ← rectify_three] at e5
  have hx : exec (P.world N (d + 2)) N (.block 2 (seqs rectStmts)) (m.enter (passed rectFunc.params [.ptr lm, .ptr lc] ++
      (if rectFunc.named then rectFunc.results.map zero else []))) = .ok (.normal, ⟨m.next, [.ptr lm, .ptr lc],
        putAt m.frame lc (three (rectifyCompressionState m1 cs)), m.next + 1⟩) := by
    rw [hpass, hent]
    exact exec_block ((exec_seq e0).trans ((exec_seq e1).trans ((exec_seq e2).trans ((exec_seq e3).trans ((exec_seq e4).trans
      (exec_last e5))))))
  refine ⟨_, runFunc_of (congrArg Func.body rectFunc_eq) (by rw [rectFunc_eq]; exact Nat.lt_irrefl 2) hx (by rw [rectFunc_eq]; rfl),
    leave_became ⟨Nat.lt_succ_self _, fun k _ => rfl⟩ _⟩

end Verif.Source.Go
