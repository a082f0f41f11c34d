import Verif.Proofs.CStep

/-!
`sha1_process` as it is read from the text of cgo/sha1.c is `Model.C.sha1_process`.
-/

namespace Verif.Source.C

open Verif Verif.Source Verif.Source.Go Verif.Model
open Verif.Model.C (Ctx)

/-- cgo/sha1.c:1950-2000. -/
def processFunc : Func := evaluated! funcOf funcs5U (name! "sha1_process")

/-- `ctx->f` (cgo/sha1.c:1950-2000). -/
def cF (f : Nat) : Expr := .field (.loc 0) f
/-- `sha1_dvs[i].f` (cgo/sha1.c:1973-1982). -/
def dvF (f : Nat) : Expr := .field (.index (.glob (name! "C") (name! "sha1_dvs")) (.loc 2)) f
/-- An array where a pointer is expected (cgo/sha1.c:1962-1991). -/
def whole' (e : Expr) : Expr := .slice e .omit .omit
/-- `l = r;` -/
def put1 (l r : Expr) : Stmt := .assign (.cons l .nil) (.cons r .nil)

/-- The statements of cgo/sha1.c:1952-1960. -/
def procInit : List Stmt := evaluated! (bodyOf processFunc).take 8
/-- cgo/sha1.c:1962. -/
def callStates : Stmt := .expr (.call (name! "C") (name! "sha1_compression_states") (.cons (whole' (cF (name! "ihv")))
  (.cons (.loc 1) (.cons (whole' (cF (name! "m1"))) (.cons (whole' (cF (name! "states"))) .nil)))))
/-- cgo/sha1.c:1966-1969. -/
def callUbc : Stmt := .expr (.call (name! "C") (name! "ubc_check") (.cons (whole' (cF (name! "m1")))
  (.cons (whole' (.loc 4)) .nil)))
/-- `ctx->m2[j] = ctx->m1[j] ^ sha1_dvs[i].dm[j];` (cgo/sha1.c:1978). -/
def mixOne : Stmt := put1 (.index (cF (name! "m2")) (.loc 3))
  (.bin .xor (.index (cF (name! "m1")) (.loc 3)) (.index (dvF (name! "dm")) (.loc 3)))
/-- `for (j = 0; j < 80; ++j)` (cgo/sha1.c:1977-1978). -/
def mixLoop : Stmt := .leave 0 (.loop (.bin .lt (.loc 3) (.num 80)) (.opAssign .add (.loc 3) (.num 1)) mixOne)
/-- cgo/sha1.c:1980. -/
def callStep : Stmt := .expr (.call (name! "C") (name! "sha1_recompression_step") (.cons (dvF (name! "testt"))
  (.cons (whole' (cF (name! "ihv2"))) (.cons (whole' (.loc 5)) (.cons (whole' (cF (name! "m2")))
    (.cons (whole' (.index (cF (name! "states")) (dvF (name! "testt")))) .nil))))))
/-- cgo/sha1.c:1990-1991. -/
def callW : Stmt := .expr (.call (name! "C") (name! "sha1_compression_W") (.cons (whole' (cF (name! "ihv")))
  (.cons (whole' (cF (name! "m1"))) .nil)))
/-- `0 == ((x[0] ^ y[0]) | …)` (cgo/sha1.c:1983-1984). -/
def same5 (x y : Expr) : Expr :=
  let d (k : Nat) : Expr := .bin .xor (.index x (.num k)) (.index y (.num k))
  .bin .eq (.num 0) (.bin .or (.bin .or (.bin .or (.bin .or (d 0) (d 1)) (d 2)) (d 3)) (d 4))
/-- cgo/sha1.c:1983-1984. -/
def collCond : Expr := .either (same5 (.loc 5) (cF (name! "ihv")))
  (.both (.bin .ne (cF (name! "reduced_round_coll")) (.num 0)) (same5 (cF (name! "ihv1")) (cF (name! "ihv2"))))
/-- cgo/sha1.c:1985-1995. -/
def onColl : Stmt := .block 6 (.seq (put1 (cF (name! "found_collision")) (.num 1))
  (.seq (.ite (.bin .ne (cF (name! "safe_hash")) (.num 0)) (.block 6 (.seq callW (.seq callW .skip))) .skip)
    (.seq (.goto 0) .skip)))
/-- cgo/sha1.c:1976-1996. -/
def tryDv : Stmt := .block 6 (.seq (.seq (put1 (.loc 3) (.num 0)) mixLoop)
  (.seq callStep (.seq (.ite collCond onColl .skip) .skip)))
/-- `ubc_dv_mask[0] & ((uint32_t)(1) << sha1_dvs[i].maskb)` (cgo/sha1.c:1975). -/
def dvCond : Expr := .bin .ne (.bin .and (.index (.loc 4) (.num 0))
  (.bin .shl (.conv .u32 (.num 1)) (dvF (name! "maskb")))) (.num 0)
/-- cgo/sha1.c:1974-1997. -/
def dvBody : Stmt := .block 6 (.seq (.ite dvCond tryDv .skip) .skip)
/-- cgo/sha1.c:1973-1997. -/
def dvLoopS : Stmt := .loop (.bin .ne (dvF (name! "dvType")) (.num 0)) (.opAssign .add (.loc 2) (.num 1)) dvBody
/-- cgo/sha1.c:1964-1999. -/
def whenDetect : Stmt := .block 6 (.seq (.ite (.bin .ne (cF (name! "ubc_check")) (.num 0))
    (.block 6 (.seq callUbc .skip)) .skip)
  (.seq (.ite (.bin .ne (.index (.loc 4) (.num 0)) (.num 0))
    (.block 6 (.seq (.seq (put1 (.loc 2) (.num 0)) (.leave 0 dvLoopS)) .skip)) .skip) .skip))

/-- The body of `sha1_process` (cgo/sha1.c:1951-2000). -/
def procBody : Stmt := .block 2 (seqs (procInit ++
  [callStates, .ite (.bin .ne (cF (name! "detect_coll")) (.num 0)) whenDetect .skip]))

theorem processFunc_body : processFunc.body = some procBody := by by_kernel

/-- An array of one word, `ubc_dv_mask` (cgo/sha1.c:1953). -/
def maskV (x : Word) : Val := .arr 1 fun j => if j = 0 then .u32 x else .u32 0

/-- The variables of `sha1_process` (cgo/sha1.c:1950-1954). -/
def procC (L : Loc) (x : Val) (k j : Nat) (mask : Word) (tmp : Regs) : List Val :=
  [.ptr L, x, .u32 (BitVec.ofNat 32 k), .u32 (BitVec.ofNat 32 j), maskV mask, quint tmp]

/-- What `sha1_process` finds in the frames of others. -/
structure Here (i next : Nat) (L : Loc) (cb : Val) (c : Ctx) (old : Nat → List Val) : Prop where
  ctx : look old L = .ok (ctxV cb c)
  dvs : look old ⟨0, 0, []⟩ = .ok dvsV
  lt : L.frame < i
  next : i < next
  pos : L.frame ≠ 0

section
variable {i next : Nat} {L : Loc} {cb : Val} {c : Ctx} {old : Nat → List Val} {C : List Val} {X : World} {N : Nat}

theorem Here.put (H : Here i next L cb c old) (c' : Ctx) : Here i next L cb c' (Go.putAt old L (ctxV cb c')) :=
  ⟨look_putAt (fixed_struct _) H.ctx, by rw [look_other (.inl H.pos), H.dvs], H.lt, H.next, H.pos⟩

theorem Here.again (H : Here i next L cb c old) (v : Val) (c' : Ctx) :
    Go.putAt (Go.putAt old L v) L (ctxV cb c') = Go.putAt old L (ctxV cb c') := putAt_putAt (fixed_struct _) H.ctx

/-- A field is replaced. -/
theorem put_ctx (h : look old L = .ok (ctxV cb c)) {f : Nat} {x : Val} (hx : Fixed x) {c' : Ctx}
    (hc : withField (ctxFn cb c) f x = ctxFn cb c') : Go.putAt old (L.sub f) x = Go.putAt old L (ctxV cb c') := by
  rw [putAt_field h hx, hc]
  rfl

theorem fixed_quint (r : Regs) : Fixed (quint r) := fixed_arr _ _
theorem fixed_words {n : Nat} (W : Fin n → Word) : Fixed (words n W) := fixed_arr _ _
theorem fixed_statesV (S : Fin 80 → Regs) : Fixed (statesV S) := fixed_arr _ _

theorem evs_omit {m : Mem} : evs X .omit m = .ok ([], m) := rfl

/-- A field that is an array, where a pointer is expected. -/
theorem evs_part (hi : L.frame ≠ i) (h : look old L = .ok (ctxV cb c)) {f n : Nat} {g : Nat → Val}
    (hf : ctxFn cb c f = .arr n g) :
    evs X (whole' (cF f)) ⟨i, .ptr L :: C, old, next⟩ = .ok ([whole (L.sub f) n], ⟨i, .ptr L :: C, old, next⟩) := by
  have hl : load (L.sub f) ⟨i, .ptr L :: C, old, next⟩ = .ok (.arr n g, ⟨i, .ptr L :: C, old, next⟩) :=
    load_look (l := L.sub f) hi (by rw [look_field h, hf]) _
  exact evs_slice (lo := .omit) (hi := .omit) place_dig evs_omit evs_omit
    (sliceOf_arr hl (x := 0) (y := n) bound_none bound_none (Nat.zero_le _) (Nat.le_refl _))

/-- A variable that is an array, where a pointer is expected. -/
theorem evs_own {k n : Nat} {g : Nat → Val} (hk : C[k]? = some (.arr n g)) :
    evs X (whole' (.loc k)) ⟨i, C, old, next⟩ = .ok ([whole ⟨i, k, []⟩ n], ⟨i, C, old, next⟩) := by
  have hl : load ⟨i, k, []⟩ ⟨i, C, old, next⟩ = .ok (.arr n g, ⟨i, C, old, next⟩) :=
    load_some (v := .arr n g) (by simpa [Mem.frame] using hk) rfl
  exact evs_slice (l := ⟨i, k, []⟩) (lo := .omit) (hi := .omit) (m1 := ⟨i, C, old, next⟩) rfl evs_omit evs_omit
    (sliceOf_arr hl (x := 0) (y := n) bound_none bound_none (Nat.zero_le _) (Nat.le_refl _))

/-- Statements that change only variables. -/
theorem exec_vars {s : Stmt} {C' : List Val} (h : rexec noPure s ([some (ctxV cb c)], C) = some ([some (ctxV cb c)], C'))
    (hC : C[0]? = some (.ptr L)) (hL : look old L = .ok (ctxV cb c)) (hi : L.frame ≠ i) :
    exec X N s ⟨i, C, old, next⟩ = .ok (.normal, ⟨i, C', old, next⟩) := by
  have := exec_ctx (X := X) (N := N) (next := next) h hC hL hi
  rwa [putAt_self hL] at this

theorem having_put {m : Mem} {fr : Nat → List Val} {l : Loc} {v : Val} :
    m.having (Go.putAt fr l v) = (m.having fr).having (Go.putAt (m.having fr).frame l v) := by
  rw [Mem.having_frame, Mem.having_having]

theorem apart_fields {l : Loc} {f g : Nat} (h : f ≠ g) : Apart (l.sub f) (l.sub g) := by
  refine .inr (.inr ?_)
  show Diverge (l.path ++ [f]) (l.path ++ [g])
  induction l.path with
  | nil => exact .here h
  | cons a p ih => exact .there ih

theorem apart_field_elem {l : Loc} {f g k : Nat} (h : f ≠ g) : Apart (l.sub f) ((l.sub g).sub k) := by
  refine .inr (.inr ?_)
  show Diverge (l.path ++ [f]) (l.path ++ [g] ++ [k])
  induction l.path with
  | nil => exact .here h
  | cons a p ih => exact .there ih

variable {P : Program} {be : Bool} {d : Nat}

/-- `sha1_compression_states(ctx->ihv, block, ctx->m1, ctx->states);` (cgo/sha1.c:1962). -/
theorem states_do (hP : HasC P be) (H : Here i next L cb c old) {cfg : Model.C.Plat} (hc : cfg.bigEndian = be) {B : List Byte}
    {b : Fin 16 → Word} (hB : Loads cfg B b) {l : Loc} (hb : look old l = .ok (words 16 b)) (hl : l.frame < i)
    (hne : l.frame ≠ L.frame) {r : Regs} {W : Fin 80 → Word} {S : Fin 80 → Regs}
    (h : Model.C.sha1_compression_states cfg c.ihv B c.m1 c.states = .ok (r, W, S)) :
    exec (P.world N (d + 1)) N callStates ⟨i, .ptr L :: whole l 16 :: C, old, next⟩ =
      .ok (.normal, ⟨i, .ptr L :: whole l 16 :: C,
        Go.putAt old L (ctxV cb { c with ihv := r, m1 := W, states := S }), next⟩) := by
  have hi : L.frame ≠ i := Nat.ne_of_lt H.lt
  have hli : l.frame ≠ i := Nat.ne_of_lt hl
  have hn : L.frame ≠ next := Nat.ne_of_lt (Nat.lt_trans H.lt H.next)
  have hln : l.frame ≠ next := Nat.ne_of_lt (Nat.lt_trans hl H.next)
  obtain ⟨items, h1, h2, h3⟩ := hP.states
  refine exec_expr (vs := []) ((evs_call (evs_cons (evs_part hi H.ctx (f := name! "ihv") (n := 5) rfl)
    (evs_cons (evs_loc (v := whole l 16) rfl) (evs_cons (evs_part hi H.ctx (f := name! "m1") (n := 80) rfl)
      (evs_cons (evs_part hi H.ctx (f := name! "states") (n := 80) rfl) evs_nil))))).trans ?_)
  refine (call_of rfl h3 rfl).trans ?_
  obtain ⟨r', W', S', h4, h5⟩ := states_run (X := P.world N d) (N := N) (m := ⟨i, .ptr L :: whole l 16 :: C, old, next⟩)
    (l0 := L.sub (name! "ihv")) (l1 := l) (l2 := L.sub (name! "m1")) (l3 := L.sub (name! "states"))
    rfl h1 h2 hc hB (r := c.ihv) (W := c.m1) (S := c.states)
    (by rw [look_old (l := L.sub _) hi, look_field H.ctx]; rfl) (by rw [look_old hli, hb])
    (by rw [look_old (l := L.sub _) hi, look_field H.ctx]; rfl) (by rw [look_old (l := L.sub _) hi, look_field H.ctx]; rfl)
    (.inl (Ne.symm hne)) (apart_fields (by decide)) (apart_fields (by decide)) (.inl hne) (.inl hne)
    (apart_fields (by decide)) hn hln hn hn
  rw [h] at h4
  cases h4
  refine h5.trans ?_
  rw [having_put (fr := Go.putAt (Go.putAt _ _ _) _ _), having_two, having_other (l := L.sub _) hi, having_other (l := L.sub _) hi, having_other (l := L.sub _) hi]
  have e1 := put_ctx H.ctx (fixed_quint _) (ctx_ihv (cb := cb) (c := c) r)
  have H1 := H.put { c with ihv := r }
  have e2 := put_ctx H1.ctx (fixed_words _) (ctx_m1 _ _ W)
  rw [H.again] at e2
  have H2 := H.put { c with ihv := r, m1 := W }
  have e3 := put_ctx H2.ctx (fixed_statesV _) (ctx_states _ _ S)
  rw [H.again] at e3
  have e : Go.putAt (Go.putAt (Go.putAt old (L.sub (name! "ihv")) (quint r)) (L.sub (name! "m1")) (words 80 W))
      (L.sub (name! "states")) (statesV S) = Go.putAt old L (ctxV cb { c with ihv := r, m1 := W, states := S }) :=
    (congrArg (fun o => Go.putAt (Go.putAt o (L.sub (name! "m1")) (words 80 W)) (L.sub (name! "states")) (statesV S))
      e1).trans ((congrArg (fun o => Go.putAt o (L.sub (name! "states")) (statesV S)) e2).trans e3)
  rw [e]

/-- `sha1_compression_W(ctx->ihv, ctx->m1);` (cgo/sha1.c:1990-1991). -/
theorem w_do (hP : HasC P be) (H : Here i next L cb c old) {r : Regs}
    (h : Model.C.sha1_compression_W c.ihv c.m1 = .ok r) :
    exec (P.world N (d + 1)) N callW ⟨i, .ptr L :: C, old, next⟩ =
      .ok (.normal, ⟨i, .ptr L :: C, Go.putAt old L (ctxV cb { c with ihv := r }), next⟩) := by
  have hi : L.frame ≠ i := Nat.ne_of_lt H.lt
  have hn : L.frame ≠ next := Nat.ne_of_lt (Nat.lt_trans H.lt H.next)
  refine exec_expr (vs := []) ((evs_call (evs_cons (evs_part hi H.ctx (f := name! "ihv") (n := 5) rfl)
    (evs_cons (evs_part hi H.ctx (f := name! "m1") (n := 80) rfl) evs_nil))).trans ?_)
  refine (call_of rfl hP.w (by rw [wFunc_eq])).trans ?_
  refine (w_run (m := ⟨i, .ptr L :: C, old, next⟩) (l := L.sub (name! "ihv")) (l' := L.sub (name! "m1")) h
    (by rw [look_old (l := L.sub _) hi, look_field H.ctx]; rfl) (by rw [look_old (l := L.sub _) hi, look_field H.ctx]; rfl)
    (apart_fields (by decide)) hn hn).trans ?_
  rw [having_other (l := L.sub _) hi, put_ctx H.ctx (fixed_quint _) (ctx_ihv (cb := cb) (c := c) r)]

/-- `ubc_check(ctx->m1, ubc_dv_mask);` (cgo/sha1.c:1968). -/
theorem ubc_do (hP : HasC P be) (H : Here i next L cb c old) {x : Val} {k j : Nat} {mask : Word} {tmp : Regs} :
    exec (P.world N (d + 1)) N callUbc ⟨i, procC L x k j mask tmp, old, next⟩ =
      .ok (.normal, ⟨i, procC L x k j (Model.C.Ubc.ubcCheck c.m1) tmp, old, next⟩) := by
  have hi : L.frame ≠ i := Nat.ne_of_lt H.lt
  have hn : L.frame ≠ next := Nat.ne_of_lt (Nat.lt_trans H.lt H.next)
  refine exec_expr (vs := []) ((evs_call (evs_cons (evs_part hi H.ctx (f := name! "m1") (n := 80) rfl)
    (evs_cons (evs_own (k := 4) (n := 1) rfl) evs_nil))).trans ?_)
  refine (call_of rfl hP.ubc (by rw [ubcFunc_eq])).trans ?_
  refine (ubc_run (m := ⟨i, procC L x k j mask tmp, old, next⟩) (B := spots [L.sub (name! "m1"), ⟨i, 4, []⟩]) (W := c.m1) (Nat.le_refl _) (Nat.le_refl _) (.inl hi) hn
    (Nat.ne_of_lt H.next) ?_ (look_own rfl)).trans ?_
  · show look _ (L.sub (name! "m1")) = _
    rw [look_old (l := L.sub _) hi, look_field H.ctx]; rfl
  · show Except.ok (([] : List Val), Mem.having _ (Go.putAt _ ⟨i, 4, []⟩ _)) = _
    rw [having_own (u := maskV mask) rfl (fixed_arr _ _)]
    have : (fun j => if j = 0 then Val.u32 (Model.C.Ubc.ubcCheck c.m1) else if j = 0 then Val.u32 mask else Val.u32 0) =
        fun j => if j = 0 then Val.u32 (Model.C.Ubc.ubcCheck c.m1) else Val.u32 0 := by
      funext j
      by_cases h : j = 0 <;> simp [h]
    rw [this]
    rfl

/-- Entry `k` of the table (cgo/ubc_check.h:40-48). -/
structure Row (k : Nat) (dv : Model.C.DvInfoT) (g h : Nat → Val) : Prop where
  lt : k < 33
  row : elems dvsV k = .struct g
  dvType : g (name! "dvType") = .u32 (BitVec.ofNat 32 dv.dvType)
  testt : g (name! "testt") = .u32 (BitVec.ofNat 32 dv.testt)
  maskb : g (name! "maskb") = .u32 (BitVec.ofNat 32 dv.maskb)
  arr : g (name! "dm") = .arr 80 h
  dm : ∀ j : Fin 80, h j.val = .u32 (dv.dm j)

theorem get_cons {v w : Val} {k : Nat} {p : List Nat} (h : v.get [k] = .ok w) : v.get (k :: p) = w.get p :=
  get_append v w [k] p h

theorem Entry.row {k : Nat} {dv : Model.C.DvInfoT} (E : Entry k dv) : ∃ g h, Row k dv g h := by
  obtain ⟨g, h, hg, hh⟩ := E.shape
  have hk : k < 33 ∧ elems dvsV k = .struct g := by
    rw [dvsV_eq] at hg
    simp only [Val.get] at hg
    split at hg
    · rename_i hlt
      exact ⟨hlt, Except.ok.inj hg⟩
    · cases hg
  have hf : ∀ f v, dvsV.get [k, f] = .ok v → g f = v := fun f v hv => by
    rw [get_cons hg] at hv
    simpa only [Val.get, Except.ok.injEq] using hv
  refine ⟨g, h, hk.1, hk.2, hf _ _ E.dvType, hf _ _ E.testt, hf _ _ E.maskb, hh, fun j => ?_⟩
  have hj := E.dm j
  rw [get_cons hg] at hj
  simp only [Val.get, hh, j.isLt, if_true] at hj
  exact Except.ok.inj hj

/-- `sha1_dvs[i]`. -/
theorem evs_row (hP : HasC P be) (H : Here i next L cb c old) {k : Nat} {dv : Model.C.DvInfoT} {g h : Nat → Val}
    (R : Row k dv g h) (hC : C[2]? = some (.u32 (BitVec.ofNat 32 k))) :
    evs (P.world N d) (.index (.glob (name! "C") (name! "sha1_dvs")) (.loc 2)) ⟨i, C, old, next⟩ =
      .ok ([.struct g], ⟨i, C, old, next⟩) := by
  have hi : 0 ≠ i := fun h => absurd H.lt (by rw [← h]; exact Nat.not_lt_zero _)
  have hl : load ⟨0, 0, []⟩ ⟨i, C, old, next⟩ = .ok (.arr 33 (elems dvsV), ⟨i, C, old, next⟩) := by
    rw [← dvsV_eq]
    exact load_look (l := ⟨0, 0, []⟩) hi H.dvs _
  refine evs_index (evs_glob hP.dvs hl) (evs_loc hC) ?_
  have hk : (BitVec.ofNat 32 k).toNat = k := by
    rw [BitVec.toNat_ofNat, Nat.mod_eq_of_lt (by have := R.lt; omega)]
  have hn : number (.u32 (BitVec.ofNat 32 k)) = some ((k : Nat) : Int) := by simp only [number, hk]
  have hx : indexIn (k : Int) 33 = .ok k := by
    have := R.lt
    rw [indexIn, if_pos ⟨by omega, by omega⟩]
    rfl
  simp only [elemOf, bind_run, Go.need, hn, lift, hx, pure_run, R.row]

/-- `sha1_dvs[i].f`. -/
theorem evs_dv (hP : HasC P be) (H : Here i next L cb c old) {k : Nat} {dv : Model.C.DvInfoT} {g h : Nat → Val}
    (R : Row k dv g h) (hC : C[2]? = some (.u32 (BitVec.ofNat 32 k))) {f : Nat} :
    evs (P.world N d) (dvF f) ⟨i, C, old, next⟩ = .ok ([g f], ⟨i, C, old, next⟩) :=
  evs_field (evs_row hP H R hC) rfl

theorem number_u32 {j : Nat} (hj : j < 4294967296) : number (.u32 (BitVec.ofNat 32 j)) = some ((j : Nat) : Int) := by
  simp only [number]
  rw [BitVec.toNat_ofNat, Nat.mod_eq_of_lt hj]

theorem indexIn_of {j n : Nat} (hj : j < n) : indexIn (j : Int) n = .ok j := by
  rw [indexIn, if_pos ⟨by omega, by omega⟩]
  rfl

theorem elemOf_arr {m : Mem} {j n : Nat} {f : Nat → Val} (hj : j < n) (h32 : j < 4294967296) :
    elemOf (.arr n f) (.u32 (BitVec.ofNat 32 j)) m = .ok (f j, m) := by
  simp only [elemOf, bind_run, Go.need, number_u32 h32, lift, indexIn_of hj, pure_run]

theorem elemPlace_arr {m : Mem} {l : Loc} {j n : Nat} {f : Nat → Val} (hl : load l m = .ok (.arr n f, m)) (hj : j < n)
    (h32 : j < 4294967296) : elemPlace l (.u32 (BitVec.ofNat 32 j)) m = .ok (l.sub j, m) := by
  simp only [elemPlace, bind_run, Go.need, number_u32 h32, hl, lift, indexIn_of hj, pure_run]

/-- `ctx->f`. -/
theorem evs_cF (hi : L.frame ≠ i) (h : look old L = .ok (ctxV cb c)) {f : Nat} :
    evs X (cF f) ⟨i, .ptr L :: C, old, next⟩ = .ok ([ctxFn cb c f], ⟨i, .ptr L :: C, old, next⟩) :=
  evs_field (evs_loc rfl) (load_look (l := L.sub f) hi (look_field h) _)

/-- One word of `ctx->m2` (cgo/sha1.c:1978). -/
theorem mix_one (hP : HasC P be) (H : Here i next L cb c old) {k : Nat} {dv : Model.C.DvInfoT} {g h : Nat → Val}
    (R : Row k dv g h) {x : Val} {j : Nat} {mask : Word} {tmp : Regs} (hj : j < 80) :
    exec (P.world N d) N mixOne ⟨i, procC L x k j mask tmp, old, next⟩ =
      .ok (.normal, ⟨i, procC L x k j mask tmp,
        Go.putAt old L (ctxV cb { c with m2 := upd c.m2 ⟨j, hj⟩ (c.m1 ⟨j, hj⟩ ^^^ dv.dm ⟨j, hj⟩) }), next⟩) := by
  have hi : L.frame ≠ i := Nat.ne_of_lt H.lt
  have h32 : j < 4294967296 := by omega
  have hl : load (L.sub (name! "m2")) ⟨i, procC L x k j mask tmp, old, next⟩ =
      .ok (words 80 c.m2, ⟨i, procC L x k j mask tmp, old, next⟩) :=
    load_look (l := L.sub (name! "m2")) hi (look_field H.ctx) _
  have hp : places (P.world N d) (.cons (.index (cF (name! "m2")) (.loc 3)) .nil) ⟨i, procC L x k j mask tmp, old, next⟩ =
      .ok ([some ((L.sub (name! "m2")).sub j)], ⟨i, procC L x k j mask tmp, old, next⟩) := by
    have : place (P.world N d) (.index (cF (name! "m2")) (.loc 3)) ⟨i, procC L x k j mask tmp, old, next⟩ =
        .ok ((L.sub (name! "m2")).sub j, ⟨i, procC L x k j mask tmp, old, next⟩) :=
      place_index (m1 := ⟨i, procC L x k j mask tmp, old, next⟩) place_dig (evs_loc rfl) (elemPlace_arr hl hj h32)
    simp only [places, bind_run, this, pure_run]
  have h1 : evs (P.world N d) (.index (cF (name! "m1")) (.loc 3)) ⟨i, procC L x k j mask tmp, old, next⟩ =
      .ok ([.u32 (c.m1 ⟨j, hj⟩)], ⟨i, procC L x k j mask tmp, old, next⟩) := by
    refine evs_index (m1 := ⟨i, procC L x k j mask tmp, old, next⟩) (evs_cF hi H.ctx) (evs_loc rfl)
      ((elemOf_arr (n := 80) hj h32).trans ?_)
    rw [dif_pos hj]
  have h2 : evs (P.world N d) (.index (dvF (name! "dm")) (.loc 3)) ⟨i, procC L x k j mask tmp, old, next⟩ =
      .ok ([.u32 (dv.dm ⟨j, hj⟩)], ⟨i, procC L x k j mask tmp, old, next⟩) := by
    refine evs_index (evs_dv hP H R rfl) (evs_loc rfl) ?_
    rw [R.arr, ← R.dm ⟨j, hj⟩]
    exact elemOf_arr hj h32
  refine exec_assign hp (evs_one (evs_bin h1 h2 rfl)) (storeAll_one ?_)
  have hs : (words 80 c.m2).set [j] (.u32 (c.m1 ⟨j, hj⟩ ^^^ dv.dm ⟨j, hj⟩)) =
      .ok (words 80 (upd c.m2 ⟨j, hj⟩ (c.m1 ⟨j, hj⟩ ^^^ dv.dm ⟨j, hj⟩))) := by
    rw [← words_upd hj]
    simp only [words, Val.set, if_pos hj]
    rfl
  have ho := store_part (C := procC L x k j mask tmp) (next := next) (l := L.sub (name! "m2")) hi (look_field H.ctx) hs
    (fixed_words _)
  rw [put_ctx H.ctx (fixed_words _) (ctx_m2 _ _ _)] at ho
  exact ho

/-- What `ctx->m2` is after the words from `j` on (cgo/sha1.c:1977-1978). -/
def mixedFrom (c : Ctx) (dv : Model.C.DvInfoT) (j : Nat) : Ctx :=
  { c with m2 := fun q => if q.val < j then c.m2 q else c.m1 q ^^^ dv.dm q }

theorem mixedFrom_step (c : Ctx) (dv : Model.C.DvInfoT) {j : Nat} (hj : j < 80) :
    mixedFrom { c with m2 := upd c.m2 ⟨j, hj⟩ (c.m1 ⟨j, hj⟩ ^^^ dv.dm ⟨j, hj⟩) } dv (j + 1) = mixedFrom c dv j := by
  unfold mixedFrom
  simp only [Ctx.mk.injEq, true_and, and_true]
  funext q
  by_cases h : q.val < j
  · have hq : q ≠ ⟨j, hj⟩ := fun e => by rw [e] at h; exact absurd h (Nat.lt_irrefl _)
    simp [upd, hq, h, Nat.lt_succ_of_lt h]
  · by_cases hq : q = ⟨j, hj⟩
    · subst hq
      simp [upd]
    · have : ¬q.val < j + 1 := fun h' => hq (Fin.ext (by simp; omega))
      simp [h, this]

/-- `++j` (cgo/sha1.c:1977). -/
theorem next_j (H : Here i next L cb c old) {x : Val} {k j : Nat} {mask : Word} {tmp : Regs} :
    exec X N (.opAssign .add (.loc 3) (.num 1)) ⟨i, procC L x k j mask tmp, old, next⟩ =
      .ok (.normal, ⟨i, procC L x k (j + 1) mask tmp, old, next⟩) := by
  have h : rexec noPure (.opAssign .add (.loc 3) (.num 1)) ([some (ctxV cb c)], procC L x k j mask tmp) =
      some ([some (ctxV cb c)], [.ptr L, x, .u32 (BitVec.ofNat 32 k), .u32 (BitVec.ofNat 32 j + BitVec.ofInt 32 1),
        maskV mask, quint tmp]) := by by_kernel
  have e : BitVec.ofNat 32 j + BitVec.ofInt 32 1 = BitVec.ofNat 32 (j + 1) := by
    rw [BitVec.ofNat_add]
    rfl
  rw [e] at h
  exact exec_vars h rfl H.ctx (Nat.ne_of_lt H.lt)

/-- `++i` (cgo/sha1.c:1973). -/
theorem next_i (H : Here i next L cb c old) {x : Val} {k j : Nat} {mask : Word} {tmp : Regs} :
    exec X N (.opAssign .add (.loc 2) (.num 1)) ⟨i, procC L x k j mask tmp, old, next⟩ =
      .ok (.normal, ⟨i, procC L x (k + 1) j mask tmp, old, next⟩) := by
  have h : rexec noPure (.opAssign .add (.loc 2) (.num 1)) ([some (ctxV cb c)], procC L x k j mask tmp) =
      some ([some (ctxV cb c)], [.ptr L, x, .u32 (BitVec.ofNat 32 k + BitVec.ofInt 32 1), .u32 (BitVec.ofNat 32 j),
        maskV mask, quint tmp]) := by by_kernel
  have e : BitVec.ofNat 32 k + BitVec.ofInt 32 1 = BitVec.ofNat 32 (k + 1) := by
    rw [BitVec.ofNat_add]
    rfl
  rw [e] at h
  exact exec_vars h rfl H.ctx (Nat.ne_of_lt H.lt)

/-- The loop over the words (cgo/sha1.c:1977-1978). -/
theorem mix_loop (hP : HasC P be) {k : Nat} {dv : Model.C.DvInfoT} {g h : Nat → Val}
    (R : Row k dv g h) {x : Val} {mask : Word} {tmp : Regs} : ∀ (n j M : Nat) (c : Ctx) (old : Nat → List Val), j + n = 80 →
    n < M → Here i next L cb c old →
    runLoop (ev (P.world N d) (.bin .lt (.loc 3) (.num 80))) (exec (P.world N d) N mixOne)
      (exec (P.world N d) N (.opAssign .add (.loc 3) (.num 1))) M ⟨i, procC L x k j mask tmp, old, next⟩ =
      .ok (.normal, ⟨i, procC L x k 80 mask tmp, Go.putAt old L (ctxV cb (mixedFrom c dv j)), next⟩) := by
  intro n
  have hc : ∀ (j : Nat) (old : Nat → List Val), j ≤ 80 → ev (P.world N d) (.bin .lt (.loc 3) (.num 80))
      ⟨i, procC L x k j mask tmp, old, next⟩ = .ok (.bool (decide (j < 80)), ⟨i, procC L x k j mask tmp, old, next⟩) := by
    intro j old hj
    refine ev_of (evs_bin (evs_loc (v := .u32 (BitVec.ofNat 32 j)) rfl) evs_num ?_)
    show some (Val.bool (decide ((BitVec.ofNat 32 j).toNat < 80))) = _
    rw [BitVec.toNat_ofNat, Nat.mod_eq_of_lt (by omega)]
  induction n with
  | zero =>
    intro j M c old hj hM H
    obtain ⟨M, rfl⟩ : ∃ M', M = M' + 1 := ⟨M - 1, by omega⟩
    have hj' : j = 80 := by omega
    subst hj'
    rw [runLoop_end (hc 80 old (by omega)), show mixedFrom c dv 80 = c from ?_, putAt_self H.ctx]
    unfold mixedFrom
    simp only [Fin.is_lt, if_true]
  | succ n ih =>
    intro j M c old hj hM H
    obtain ⟨M, rfl⟩ : ∃ M', M = M' + 1 := ⟨M - 1, by omega⟩
    have hlt : j < 80 := by omega
    have hcj := hc j old (by omega)
    rw [decide_eq_true hlt] at hcj
    have H1 := H.put { c with m2 := upd c.m2 ⟨j, hlt⟩ (c.m1 ⟨j, hlt⟩ ^^^ dv.dm ⟨j, hlt⟩) }
    rw [runLoop_step hcj (mix_one hP H R hlt) (next_j H1), ih (j + 1) M _ _ (by omega) (by omega) H1, H.again,
      mixedFrom_step]

/-- `sha1_recompression_step(sha1_dvs[i].testt, ctx->ihv2, ihvtmp, ctx->m2, ctx->states[sha1_dvs[i].testt]);`
(cgo/sha1.c:1980). -/
theorem step_do (hP : HasC P be) (H : Here i next L cb c old) {k : Nat} {dv : Model.C.DvInfoT} {g h : Nat → Val}
    (R : Row k dv g h) {x : Val} {j : Nat} {mask : Word} {tmp : Regs} (ht : dv.testt < 80) {r o : Regs}
    (hm : Model.C.sha1_recompression_step dv.testt c.m2 (c.states ⟨dv.testt, ht⟩) = .ok (r, o)) :
    exec (P.world N (d + 2)) N callStep ⟨i, procC L x k j mask tmp, old, next⟩ =
      .ok (.normal, ⟨i, procC L x k j mask o, Go.putAt old L (ctxV cb { c with ihv2 := r }), next⟩) := by
  have hi : L.frame ≠ i := Nat.ne_of_lt H.lt
  have hn : L.frame < next := Nat.lt_trans H.lt H.next
  have hs : look old ((L.sub (name! "states")).sub dv.testt) = .ok (quint (c.states ⟨dv.testt, ht⟩)) := by
    rw [look_sub (look_field H.ctx)]
    show Val.get (statesV c.states) [dv.testt] = _
    simp only [statesV, Val.get, if_pos ht, stateAt, dif_pos ht]
  have hst : load (L.sub (name! "states")) ⟨i, procC L x k j mask tmp, old, next⟩ =
      .ok (statesV c.states, ⟨i, procC L x k j mask tmp, old, next⟩) :=
    load_look (l := L.sub (name! "states")) hi (look_field H.ctx) _
  have hp : place (P.world N (d + 2)) (.index (cF (name! "states")) (dvF (name! "testt")))
      ⟨i, procC L x k j mask tmp, old, next⟩ =
      .ok ((L.sub (name! "states")).sub dv.testt, ⟨i, procC L x k j mask tmp, old, next⟩) := by
    refine place_index (m1 := ⟨i, procC L x k j mask tmp, old, next⟩) place_dig (evs_dv hP H R rfl) ?_
    rw [R.testt]
    exact elemPlace_arr hst ht (by omega)
  have h5 : evs (P.world N (d + 2)) (whole' (.index (cF (name! "states")) (dvF (name! "testt"))))
      ⟨i, procC L x k j mask tmp, old, next⟩ =
      .ok ([whole ((L.sub (name! "states")).sub dv.testt) 5], ⟨i, procC L x k j mask tmp, old, next⟩) :=
    evs_slice (lo := .omit) (hi := .omit) hp evs_omit evs_omit
      (sliceOf_arr (load_look (l := (L.sub (name! "states")).sub dv.testt) hi hs _) (x := 0) (y := 5) bound_none bound_none
        (Nat.zero_le _) (Nat.le_refl _))
  have h1 : evs (P.world N (d + 2)) (dvF (name! "testt")) ⟨i, procC L x k j mask tmp, old, next⟩ =
      .ok ([.u32 (BitVec.ofNat 32 dv.testt)], ⟨i, procC L x k j mask tmp, old, next⟩) := by
    rw [← R.testt]
    exact evs_dv hP H R rfl
  refine exec_expr (vs := []) ((evs_call (evs_cons h1 (evs_cons (evs_part hi H.ctx (f := name! "ihv2") (n := 5) rfl)
    (evs_cons (evs_own (k := 5) (n := 5) rfl) (evs_cons (evs_part hi H.ctx (f := name! "m2") (n := 80) rfl)
      (evs_cons h5 evs_nil)))))).trans ?_)
  refine (call_of rfl hP.step (by rw [stepFunc_eq])).trans ?_
  refine (step_run (m := ⟨i, procC L x k j mask tmp, old, next⟩) hP (l0 := L.sub (name! "ihv2")) (l1 := ⟨i, 5, []⟩)
    (l2 := L.sub (name! "m2")) (l3 := (L.sub (name! "states")).sub dv.testt) ht hm
    (by rw [look_old (l := L.sub _) hi, look_field H.ctx]; rfl) (look_own (v := quint tmp) rfl)
    (by rw [look_old (l := L.sub _) hi, look_field H.ctx]; rfl) (by rw [look_old (l := (L.sub _).sub _) hi, hs])
    (.inl hi) (apart_fields (by decide)) (apart_field_elem (by decide)) (.inl (Ne.symm hi)) (.inl (Ne.symm hi))
    (apart_field_elem (by decide)) hn H.next hn hn).trans ?_
  rw [having_two, having_other (l := L.sub _) hi, having_own (u := quint tmp) rfl (fixed_quint _),
    put_ctx H.ctx (fixed_quint _) (ctx_ihv2 _ _ r)]
  rfl

/-- `0 == ((x[0] ^ y[0]) | …)` (cgo/sha1.c:1983-1984). -/
theorem same5_of {D : List (Option Val)} {C : List Val} {x y : Expr} {r s : Regs} (hx : pvs noPure D C x = some [quint r])
    (hy : pvs noPure D C y = some [quint s]) :
    pvs noPure D C (same5 x y) = some [.bool (Model.C.sameIhv r s)] := by
  have h : pvs noPure D C (same5 x y) = some [.bool (decide (BitVec.ofInt 32 0 =
      (r.a ^^^ s.a) ||| (r.b ^^^ s.b) ||| (r.c ^^^ s.c) ||| (r.d ^^^ s.d) ||| (r.e ^^^ s.e)))] := by
    simp only [same5, pvs, hx, hy, one]
    rfl
  rw [h, Model.C.sameIhv]
  congr 3
  rw [Bool.eq_iff_iff, decide_eq_true_iff, beq_iff_eq]
  exact ⟨fun h => h.symm, fun h => h.symm⟩

/-- Whether there is a collision (cgo/sha1.c:1983-1984). -/
theorem coll_of {x : Val} {k j : Nat} {mask : Word} {tmp : Regs} :
    one (pvs noPure [some (ctxV cb c)] (procC L x k j mask tmp) collCond) =
      some (.bool (Model.C.sameIhv tmp c.ihv || (c.reduced_round_coll != 0 && Model.C.sameIhv c.ihv1 c.ihv2))) := by
  have h1 := same5_of (D := [some (ctxV cb c)]) (C := procC L x k j mask tmp) (x := .loc 5) (y := cF (name! "ihv"))
    (r := tmp) (s := c.ihv) (by by_kernel) (by by_kernel)
  have h2 := same5_of (D := [some (ctxV cb c)]) (C := procC L x k j mask tmp) (x := cF (name! "ihv1"))
    (y := cF (name! "ihv2")) (r := c.ihv1) (s := c.ihv2) (by by_kernel) (by by_kernel)
  have h3 : pvs noPure [some (ctxV cb c)] (procC L x k j mask tmp)
      (.bin .ne (cF (name! "reduced_round_coll")) (.num 0)) = some [.bool (decide (c.reduced_round_coll ≠ 0))] := by by_kernel
  have h4 : decide (c.reduced_round_coll ≠ 0) = (c.reduced_round_coll != 0) := by
    rw [Bool.eq_iff_iff, decide_eq_true_iff, bne_iff_ne]
  have h5 : ∀ {A B E : Expr} {a b e : Bool}, pvs noPure [some (ctxV cb c)] (procC L x k j mask tmp) A = some [.bool a] →
      pvs noPure [some (ctxV cb c)] (procC L x k j mask tmp) B = some [.bool b] →
      pvs noPure [some (ctxV cb c)] (procC L x k j mask tmp) E = some [.bool e] →
      one (pvs noPure [some (ctxV cb c)] (procC L x k j mask tmp) (.either A (.both B E))) = some (.bool (a || (b && e))) :=
    fun hA hB hE => by simp only [pvs, hA, hB, hE, one]
  rw [h4] at h3
  exact h5 h1 h3 h2

/-- A flag of the context. -/
theorem ev_flag (hi : L.frame ≠ i) (h : look old L = .ok (ctxV cb c)) {f : Nat} {x : Word} (hf : ctxFn cb c f = .u32 x) :
    ev X (.bin .ne (cF f) (.num 0)) ⟨i, .ptr L :: C, old, next⟩ =
      .ok (.bool (decide (x ≠ 0)), ⟨i, .ptr L :: C, old, next⟩) := by
  refine ev_of (evs_bin (evs_cF hi h) evs_num ?_)
  rw [hf]
  rfl

/-- What the model does with a collision (cgo/sha1.c:1985-1995). -/
theorem onColl_do (hP : HasC P be) (H : Here i next L cb c old) {x : Val} {k j : Nat} {mask : Word} {tmp : Regs} {c' : Ctx}
    (h : (if c.safe_hash ≠ 0 then do
        let ihv ← Model.C.sha1_compression_W c.ihv c.m1
        let ihv ← Model.C.sha1_compression_W ihv c.m1
        pure { { c with found_collision := 1 } with ihv := ihv }
      else pure { c with found_collision := 1 } : GoM Ctx) = .ok c') :
    exec (P.world N (d + 1)) N onColl ⟨i, procC L x k j mask tmp, old, next⟩ =
      .ok (.goto 0, ⟨i, procC L x k j mask tmp, Go.putAt old L (ctxV cb c'), next⟩) := by
  have hi : L.frame ≠ i := Nat.ne_of_lt H.lt
  have h1 : exec (P.world N (d + 1)) N (put1 (cF (name! "found_collision")) (.num 1)) ⟨i, procC L x k j mask tmp, old, next⟩ =
      .ok (.normal, ⟨i, procC L x k j mask tmp, Go.putAt old L (ctxV cb { c with found_collision := 1 }), next⟩) := by
    have := assign_field (cb := cb) (c := c) (l := L) (C := (procC L x k j mask tmp).tail) (f := name! "found_collision")
      (e := .cons (.num 1) .nil) (x := .const 1) (y := .u32 1) rfl rfl
    rw [ctx_found] at this
    exact exec_ctx this rfl H.ctx hi
  have H1 := H.put { c with found_collision := 1 }
  have hg : ∀ c'', exec (P.world N (d + 1)) N (.ite (.bin .ne (cF (name! "safe_hash")) (.num 0))
        (.block 6 (.seq callW (.seq callW .skip))) .skip)
        ⟨i, procC L x k j mask tmp, Go.putAt old L (ctxV cb { c with found_collision := 1 }), next⟩ =
        .ok (.normal, ⟨i, procC L x k j mask tmp, Go.putAt old L (ctxV cb c''), next⟩) →
      exec (P.world N (d + 1)) N onColl ⟨i, procC L x k j mask tmp, old, next⟩ =
      .ok (.goto 0, ⟨i, procC L x k j mask tmp, Go.putAt old L (ctxV cb c''), next⟩) := fun c'' hs =>
    exec_block_goto (n := 6) ((exec_seq h1).trans ((exec_seq hs).trans (exec_seq_goto (a := .goto 0) (b := .skip) (l := 0)
      (m' := ⟨i, procC L x k j mask tmp, Go.putAt old L (ctxV cb c''), next⟩) rfl)))
  have hf := ev_flag (X := P.world N (d + 1)) (next := next) (C := (procC L x k j mask tmp).tail) hi H1.ctx
    (f := name! "safe_hash") (x := c.safe_hash) rfl
  by_cases hs : c.safe_hash ≠ 0
  · rw [if_pos hs] at h
    rw [decide_eq_true hs] at hf
    cases hw : Model.C.sha1_compression_W c.ihv c.m1 with
    | error e => rw [hw] at h; cases h
    | ok r =>
      rw [hw] at h
      cases hw' : Model.C.sha1_compression_W r c.m1 with
      | error e => simp only [bind, Except.bind, hw'] at h; cases h
      | ok r' =>
        simp only [bind, Except.bind, hw'] at h
        cases h
        refine hg _ ((exec_ite_true hf).trans ?_)
        have e1 := w_do (N := N) (d := d) (C := (procC L x k j mask tmp).tail) hP H1 hw
        rw [H.again] at e1
        have e2 := w_do (N := N) (d := d) (C := (procC L x k j mask tmp).tail) hP
          (H.put { c with found_collision := 1, ihv := r }) hw'
        rw [H.again] at e2
        exact exec_block (n := 6) ((exec_seq e1).trans (exec_last e2))
  · rw [if_neg hs] at h
    cases h
    rw [decide_eq_false hs] at hf
    exact hg _ (exec_ite_false hf)

/-- The block for one entry of the table (cgo/sha1.c:1976-1996). -/
theorem try_do (hP : HasC P be) (hN : 80 < N) (H : Here i next L cb c old) {k : Nat} {dv : Model.C.DvInfoT} {g h : Nat → Val}
    (R : Row k dv g h) {x : Val} {j : Nat} {mask : Word} {tmp : Regs} (ht : dv.testt < 80) {r o : Regs}
    (hm : Model.C.sha1_recompression_step dv.testt (fun q => c.m1 q ^^^ dv.dm q) (c.states ⟨dv.testt, ht⟩) = .ok (r, o))
    {s : Sig} {c' : Ctx}
    (hs : exec (P.world N (d + 2)) N (.ite collCond onColl .skip) ⟨i, procC L x k 80 mask o,
      Go.putAt old L (ctxV cb { c with m2 := fun q => c.m1 q ^^^ dv.dm q, ihv2 := r }), next⟩ =
      .ok (s, ⟨i, procC L x k 80 mask o, Go.putAt old L (ctxV cb c'), next⟩)) (hsr : s = .normal ∨ s = .goto 0) :
    exec (P.world N (d + 2)) N tryDv ⟨i, procC L x k j mask tmp, old, next⟩ =
      .ok (s, ⟨i, procC L x k 80 mask o, Go.putAt old L (ctxV cb c'), next⟩) := by
  have h0 : exec (P.world N (d + 2)) N (put1 (.loc 3) (.num 0)) ⟨i, procC L x k j mask tmp, old, next⟩ =
      .ok (.normal, ⟨i, procC L x k 0 mask tmp, old, next⟩) :=
    exec_vars (cb := cb) (c := c) (by by_kernel) rfl H.ctx (Nat.ne_of_lt H.lt)
  have h1 := mix_loop (N := N) (d := d + 2) (i := i) (next := next) (L := L) (cb := cb) hP R (x := x) (mask := mask) (tmp := tmp)
    80 0 N c old rfl hN H
  have e0 : mixedFrom c dv 0 = { c with m2 := fun q => c.m1 q ^^^ dv.dm q } := by
    unfold mixedFrom
    simp only [Nat.not_lt_zero, if_false]
  rw [e0] at h1
  have h2 : exec (P.world N (d + 2)) N mixLoop ⟨i, procC L x k 0 mask tmp, old, next⟩ =
      .ok (.normal, ⟨i, procC L x k 80 mask tmp, Go.putAt old L (ctxV cb { c with m2 := fun q => c.m1 q ^^^ dv.dm q }),
        next⟩) := by
    show (runLoop _ _ _ N >>= _) _ = _
    rw [Go.bind_of h1]
    rfl
  have h3 := step_do (N := N) (d := d) (x := x) (j := 80) (mask := mask) (tmp := tmp) hP
    (H.put { c with m2 := fun q => c.m1 q ^^^ dv.dm q }) R ht hm
  rw [H.again] at h3
  have h4 : exec (P.world N (d + 2)) N (.seq (.ite collCond onColl .skip) .skip) ⟨i, procC L x k 80 mask o,
      Go.putAt old L (ctxV cb { c with m2 := fun q => c.m1 q ^^^ dv.dm q, ihv2 := r }), next⟩ =
      .ok (s, ⟨i, procC L x k 80 mask o, Go.putAt old L (ctxV cb c'), next⟩) := by
    rcases hsr with rfl | rfl
    · exact exec_last hs
    · exact exec_seq_goto hs
  have h5 := ((exec_seq (b := .seq callStep (.seq (.ite collCond onColl .skip) .skip)) ((exec_seq h0).trans h2)).trans
    ((exec_seq h3).trans h4))
  rcases hsr with rfl | rfl
  · exact exec_block (n := 6) h5
  · exact exec_block_goto (n := 6) h5

/-- Whether an entry of the table is to be tried (cgo/sha1.c:1975). -/
theorem dvCond_ev (hP : HasC P be) (H : Here i next L cb c old) {k : Nat} {dv : Model.C.DvInfoT} {g h : Nat → Val}
    (R : Row k dv g h) {x : Val} {j : Nat} {mask : Word} {tmp : Regs} (hb : dv.maskb < 32) :
    ev (P.world N d) dvCond ⟨i, procC L x k j mask tmp, old, next⟩ =
      .ok (.bool (decide (mask &&& (1#32 <<< dv.maskb) ≠ 0)), ⟨i, procC L x k j mask tmp, old, next⟩) := by
  have h1 : evs (P.world N d) (.index (.loc 4) (.num 0)) ⟨i, procC L x k j mask tmp, old, next⟩ =
      .ok ([.u32 mask], ⟨i, procC L x k j mask tmp, old, next⟩) :=
    evs_index (evs_loc rfl) evs_num (elemOf_arr (j := 0) (n := 1) (by decide) (by decide))
  have h2 : evs (P.world N d) (.bin .shl (.conv .u32 (.num 1)) (dvF (name! "maskb")))
      ⟨i, procC L x k j mask tmp, old, next⟩ =
      .ok ([.u32 (1#32 <<< dv.maskb)], ⟨i, procC L x k j mask tmp, old, next⟩) := by
    refine evs_bin (evs_conv32 evs_num rfl) (evs_dv hP H R rfl) ?_
    rw [R.maskb]
    show some (Val.u32 (BitVec.ofInt 32 1 <<< (BitVec.ofNat 32 dv.maskb).toNat)) = _
    rw [BitVec.toNat_ofNat, Nat.mod_eq_of_lt (by omega)]
    rfl
  exact ev_of (evs_bin (evs_bin h1 h2 rfl) evs_num rfl)

/-- The loop over the table (cgo/sha1.c:1973-1997). -/
theorem dv_loop (hP : HasC P be) (hN : 80 < N) {x : Val} {mask : Word} :
    ∀ (ds : List Model.C.DvInfoT) (k j M : Nat) (tmp : Regs) (c : Ctx) (old : Nat → List Val) (c' : Ctx),
    Model.C.sha1_dvs.drop k = ds → ds.length < M → Here i next L cb c old → Model.C.dvLoop mask ds c = .ok c' →
    ∃ s k' j' tmp', (s = .normal ∨ s = .goto 0) ∧
    runLoop (ev (P.world N (d + 2)) (.bin .ne (dvF (name! "dvType")) (.num 0))) (exec (P.world N (d + 2)) N dvBody)
      (exec (P.world N (d + 2)) N (.opAssign .add (.loc 2) (.num 1))) M ⟨i, procC L x k j mask tmp, old, next⟩ =
      .ok (s, ⟨i, procC L x k' j' mask tmp', Go.putAt old L (ctxV cb c'), next⟩) := by
  intro ds
  induction ds with
  | nil => intro k j M tmp c old c' _ _ _ h; cases h
  | cons dv ds ih =>
    intro k j M tmp c old c' hd hM H h
    obtain ⟨M, rfl⟩ : ∃ M', M = M' + 1 := ⟨M - 1, by omega⟩
    have hk : Model.C.sha1_dvs[k]? = some dv := by
      have : (Model.C.sha1_dvs.drop k)[0]? = some dv := by rw [hd]; rfl
      rwa [List.getElem?_drop, Nat.add_zero] at this
    have hd' : Model.C.sha1_dvs.drop (k + 1) = ds := by
      rw [← List.drop_drop, hd]
      rfl
    obtain ⟨g, hh, R⟩ := (dvs_entry hk).row
    have hM' : ds.length < M := by simpa using hM
    have hc : ev (P.world N (d + 2)) (.bin .ne (dvF (name! "dvType")) (.num 0)) ⟨i, procC L x k j mask tmp, old, next⟩ =
        .ok (.bool (decide (BitVec.ofNat 32 dv.dvType ≠ 0#32)), ⟨i, procC L x k j mask tmp, old, next⟩) := by
      refine ev_of (evs_bin (evs_dv hP H R rfl) evs_num ?_)
      rw [R.dvType]
      rfl
    have ht : dv.dvType < 4294967296 := by
      have : ∀ dv ∈ Model.C.sha1_dvs, dv.dvType < 4294967296 := by decide +kernel
      exact this dv (List.mem_of_getElem? hk)
    have hz : (BitVec.ofNat 32 dv.dvType ≠ 0#32) ↔ dv.dvType ≠ 0 := by
      refine not_congr ⟨fun e => ?_, fun e => by rw [e]⟩
      have := congrArg BitVec.toNat e
      rwa [BitVec.toNat_ofNat, Nat.mod_eq_of_lt ht] at this
    rw [Model.C.dvLoop] at h
    by_cases hty : dv.dvType ≠ 0
    · rw [if_pos hty] at h
      rw [decide_eq_true (hz.2 hty)] at hc
      by_cases hb : dv.maskb < 32
      · rw [if_pos hb] at h
        have hcond := dvCond_ev (N := N) (d := d + 2) (x := x) (j := j) (mask := mask) (tmp := tmp) hP H R hb
        by_cases hbit : mask &&& (1#32 <<< dv.maskb) ≠ 0
        · rw [if_pos hbit] at h
          rw [decide_eq_true hbit] at hcond
          by_cases htt : dv.testt < 80
          · simp only [dif_pos htt] at h
            cases hm : Model.C.sha1_recompression_step dv.testt (fun q => c.m1 q ^^^ dv.dm q) (c.states ⟨dv.testt, htt⟩) with
            | error e => rw [hm] at h; cases h
            | ok ro =>
              obtain ⟨r, o⟩ := ro
              rw [hm] at h
              simp only [bind, Except.bind] at h
              have H2 := H.put { c with m2 := fun q => c.m1 q ^^^ dv.dm q, ihv2 := r }
              have hcoll := ev_ctx (X := P.world N (d + 2)) (next := next)
                (coll_of (cb := cb) (c := { c with m2 := fun q => c.m1 q ^^^ dv.dm q, ihv2 := r }) (L := L) (x := x)
                  (k := k) (j := 80) (mask := mask) (tmp := o)) rfl H2.ctx (Nat.ne_of_lt H.lt)
              cases hcv : (Model.C.sameIhv o c.ihv || (c.reduced_round_coll != 0 && Model.C.sameIhv c.ihv1 r)) with
              | true =>
                simp only [hcv] at hcoll
                rw [if_pos hcv] at h
                have hon := onColl_do (N := N) (d := d + 1) (x := x) (k := k) (j := 80) (mask := mask) (tmp := o) hP H2 h
                rw [H.again] at hon
                have := try_do (j := j) (tmp := tmp) hP hN H R htt hm ((exec_ite_true hcoll).trans hon) (.inr rfl)
                refine ⟨.goto 0, k, 80, o, .inr rfl, ?_⟩
                have hbody : exec (P.world N (d + 2)) N dvBody ⟨i, procC L x k j mask tmp, old, next⟩ = .ok (.goto 0, _) :=
                  exec_block_goto (n := 6) (exec_seq_goto (b := .skip) ((exec_ite_true (b := .skip) hcond).trans this))
                show (ev _ _ >>= _) _ = _
                rw [Go.bind_of hc]
                show (exec _ _ _ >>= _) _ = _
                rw [Go.bind_of hbody]
                rfl
              | false =>
                simp only [hcv] at hcoll
                rw [if_neg (by rw [hcv]; decide)] at h
                have hsk : exec (P.world N (d + 2)) N (.ite collCond onColl .skip) ⟨i, procC L x k 80 mask o,
                    Go.putAt old L (ctxV cb { c with m2 := fun q => c.m1 q ^^^ dv.dm q, ihv2 := r }), next⟩ =
                    .ok (.normal, _) := exec_ite_false hcoll
                have := try_do (j := j) (tmp := tmp) hP hN H R htt hm hsk (.inl rfl)
                have hbody := exec_block (n := 6) (exec_last ((exec_ite_true (b := .skip) hcond).trans this))
                obtain ⟨s, k', j', tmp', hs, hr⟩ := ih (k + 1) 80 M o _ _ c' hd' hM' H2 h
                refine ⟨s, k', j', tmp', hs, ?_⟩
                rw [H.again] at hr
                exact (runLoop_step hc hbody (next_i H2)).trans hr
          · rw [dif_neg htt] at h
            cases h
        · rw [if_neg hbit] at h
          rw [decide_eq_false hbit] at hcond
          have hbody : exec (P.world N (d + 2)) N dvBody ⟨i, procC L x k j mask tmp, old, next⟩ = .ok (.normal, _) :=
            exec_block (n := 6) (exec_last (exec_ite_false (a := tryDv) (b := .skip) hcond))
          obtain ⟨s, k', j', tmp', hs, hr⟩ := ih (k + 1) j M tmp _ _ c' hd' hM' H h
          exact ⟨s, k', j', tmp', hs, (runLoop_step hc hbody (next_i H)).trans hr⟩
      · rw [if_neg hb] at h
        cases h
    · rw [if_neg hty] at h
      cases h
      rw [decide_eq_false (fun e => hty (hz.1 e))] at hc
      refine ⟨.normal, k, j, tmp, .inl rfl, (runLoop_end hc).trans ?_⟩
      rw [putAt_self H.ctx]

/-- What `sha1_process` does when collisions are to be detected (cgo/sha1.c:1964-1999). -/
theorem detect_do (hP : HasC P be) (hN : 80 < N) (H : Here i next L cb c old) {x : Val} {tmp : Regs} {c' : Ctx}
    (h : (let mask := if c.ubc_check ≠ 0 then Model.C.Ubc.ubcCheck c.m1 else 0xFFFFFFFF
      if mask ≠ 0 then Model.C.dvLoop mask Model.C.sha1_dvs c else pure c) = .ok c') :
    ∃ C', exec (P.world N (d + 2)) N whenDetect ⟨i, procC L x 0 0 0xFFFFFFFF tmp, old, next⟩ =
      .ok (.normal, ⟨i, C', Go.putAt old L (ctxV cb c'), next⟩) := by
  have hi : L.frame ≠ i := Nat.ne_of_lt H.lt
  have h1 : exec (P.world N (d + 2)) N (.ite (.bin .ne (cF (name! "ubc_check")) (.num 0)) (.block 6 (.seq callUbc .skip)) .skip)
      ⟨i, procC L x 0 0 0xFFFFFFFF tmp, old, next⟩ = .ok (.normal,
        ⟨i, procC L x 0 0 (if c.ubc_check ≠ 0 then Model.C.Ubc.ubcCheck c.m1 else 0xFFFFFFFF) tmp, old, next⟩) := by
    have hf := ev_flag (X := P.world N (d + 2)) (next := next) (C := (procC L x 0 0 0xFFFFFFFF tmp).tail) hi H.ctx
      (f := name! "ubc_check") (x := c.ubc_check) rfl
    by_cases hu : c.ubc_check ≠ 0
    · rw [decide_eq_true hu] at hf
      rw [if_pos hu]
      exact (exec_ite_true hf).trans (exec_block (n := 6) (exec_last (ubc_do hP H)))
    · rw [decide_eq_false hu] at hf
      rw [if_neg hu]
      exact exec_ite_false hf
  simp only at h
  generalize (if c.ubc_check ≠ 0 then Model.C.Ubc.ubcCheck c.m1 else 0xFFFFFFFF) = mask at h h1
  have h2 : ev (P.world N (d + 2)) (.bin .ne (.index (.loc 4) (.num 0)) (.num 0)) ⟨i, procC L x 0 0 mask tmp, old, next⟩ =
      .ok (.bool (decide (mask ≠ 0)), ⟨i, procC L x 0 0 mask tmp, old, next⟩) :=
    ev_of (evs_bin (evs_index (evs_loc rfl) evs_num (elemOf_arr (j := 0) (n := 1) (by decide) (by decide))) evs_num rfl)
  by_cases hm : mask ≠ 0
  · rw [if_pos hm] at h
    rw [decide_eq_true hm] at h2
    have h0 : exec (P.world N (d + 2)) N (put1 (.loc 2) (.num 0)) ⟨i, procC L x 0 0 mask tmp, old, next⟩ =
        .ok (.normal, ⟨i, procC L x 0 0 mask tmp, old, next⟩) :=
      exec_vars (cb := cb) (c := c) (by by_kernel) rfl H.ctx hi
    have hlen : Model.C.sha1_dvs.length < N := Nat.lt_trans (by decide) hN
    obtain ⟨s, k', j', tmp', hs, hr⟩ := dv_loop (d := d) (x := x) hP hN Model.C.sha1_dvs 0 0 N tmp c old c' rfl hlen H h
    have h3 : exec (P.world N (d + 2)) N (.leave 0 dvLoopS) ⟨i, procC L x 0 0 mask tmp, old, next⟩ =
        .ok (.normal, ⟨i, procC L x k' j' mask tmp', Go.putAt old L (ctxV cb c'), next⟩) := by
      show (runLoop _ _ _ N >>= _) _ = _
      rw [Go.bind_of hr]
      rcases hs with rfl | rfl <;> rfl
    exact ⟨_, exec_block (n := 6) ((exec_seq h1).trans (exec_last ((exec_ite_true h2).trans
      (exec_block (n := 6) (exec_last ((exec_seq h0).trans h3))))))⟩
  · rw [if_neg hm] at h
    cases h
    rw [decide_eq_false hm] at h2
    rw [putAt_self H.ctx]
    exact ⟨_, exec_block (n := 6) ((exec_seq h1).trans (exec_last (exec_ite_false (b := .skip) h2)))⟩

theorem no_words (tmp : Nat → Val) (h : tmp = fun _ => .u32 0) : Val.arr 5 tmp = quint noRegs := by
  subst h
  unfold quint words
  congr 1
  funext j
  match j with
  | 0 => rfl
  | 1 => rfl
  | 2 => rfl
  | 3 => rfl
  | 4 => rfl
  | j + 5 => simp [noRegs]

/-- The variables and the copy of `ctx->ihv` (cgo/sha1.c:1952-1960). -/
theorem init_do (H : Here i next L cb c old) {x : Val} :
    exec X N (seqs procInit) ⟨i, [.ptr L, x], old, next⟩ =
      .ok (.normal, ⟨i, procC L x 0 0 0xFFFFFFFF noRegs, Go.putAt old L (ctxV cb { c with ihv1 := c.ihv }), next⟩) := by
  have h : rexec noPure (seqs procInit) ([some (ctxV cb c)], [.ptr L, x]) =
      some ([some (.struct (fiveRaw (ctxFn cb c) c.ihv1 (name! "ihv1") c.ihv))],
        [.ptr L, x, .u32 0, .u32 0, .arr 1 (fromList .u32 [.const 4294967295]), .arr 5 fun _ => .u32 0]) := by by_kernel
  have e : (fromList .u32 [.const 4294967295]) = fun j => if j = 0 then Val.u32 0xFFFFFFFF else .u32 0 := by
    funext j
    match j with
    | 0 => rfl
    | j + 1 => rfl
  rw [fiveRaw_eq, ctx_ihv1, no_words _ rfl, e] at h
  exact exec_ctx h rfl H.ctx (Nat.ne_of_lt H.lt)

end

/-- A call of `sha1_process` (cgo/sha1.c:1950-2000). -/
theorem process_run {P : Program} {be : Bool} (hP : HasC P be) {N d : Nat} (hN : 80 < N) {m : Mem} {L l : Loc} {cb : Val}
    {c c' : Ctx} (hL : look m.frame L = .ok (ctxV cb c)) (hD : look m.frame ⟨0, 0, []⟩ = .ok dvsV) (hn : L.frame < m.next)
    (h0 : L.frame ≠ 0) {cfg : Model.C.Plat} (hc : cfg.bigEndian = be) {B : List Byte} {b : Fin 16 → Word}
    (hB : Loads cfg B b) (hb : look m.frame l = .ok (words 16 b)) (hl : l.frame < m.next) (hne : l.frame ≠ L.frame)
    (h : Model.C.sha1_process cfg c B = .ok c') :
    ∃ m', runFunc (P.world N (d + 2)) N processFunc [.ptr L, whole l 16] m = .ok ([], m') ∧
      Became m (Go.putAt m.frame L (ctxV cb c')) m' := by
  have H : Here m.next (m.next + 1) L cb c m.frame := ⟨hL, hD, hn, Nat.lt_succ_self _, h0⟩
  have H1 := H.put { c with ihv1 := c.ihv }
  unfold Model.C.sha1_process at h
  cases hs : Model.C.sha1_compression_states cfg c.ihv B c.m1 c.states with
  | error e => simp only [bind, Except.bind, hs] at h; cases h
  | ok t =>
    obtain ⟨r, W, S⟩ := t
    simp only [bind, Except.bind, hs] at h
    have hb1 : look (Go.putAt m.frame L (ctxV cb { c with ihv1 := c.ihv })) l = .ok (words 16 b) := by
      rw [look_other (.inl (Ne.symm hne)), hb]
    have h2 := states_do (N := N) (d := d + 1) (C := (procC L (whole l 16) 0 0 0xFFFFFFFF noRegs).drop 2) hP H1 hc hB hb1 hl
      hne hs
    rw [H.again] at h2
    have H2 := H.put { c with ihv1 := c.ihv, ihv := r, m1 := W, states := S }
    have hf := ev_flag (X := P.world N (d + 2)) (next := m.next + 1) (C := (procC L (whole l 16) 0 0 0xFFFFFFFF noRegs).tail)
      (Nat.ne_of_lt hn) H2.ctx (f := name! "detect_coll") (x := c.detect_coll) rfl
    obtain ⟨C', h3⟩ : ∃ C', exec (P.world N (d + 2)) N (.ite (.bin .ne (cF (name! "detect_coll")) (.num 0)) whenDetect .skip)
        ⟨m.next, procC L (whole l 16) 0 0 0xFFFFFFFF noRegs,
          Go.putAt m.frame L (ctxV cb { c with ihv1 := c.ihv, ihv := r, m1 := W, states := S }), m.next + 1⟩ =
        .ok (.normal, ⟨m.next, C', Go.putAt m.frame L (ctxV cb c'), m.next + 1⟩) := by
      by_cases hdc : c.detect_coll ≠ 0
      · rw [if_pos hdc] at h
        rw [decide_eq_true hdc] at hf
        obtain ⟨C', h4⟩ := detect_do (d := d) (x := whole l 16) (tmp := noRegs) hP hN H2 h
        rw [H.again] at h4
        exact ⟨C', (exec_ite_true hf).trans h4⟩
      · rw [if_neg hdc] at h
        cases h
        rw [decide_eq_false hdc] at hf
        exact ⟨_, exec_ite_false hf⟩
    have hx : exec (P.world N (d + 2)) N procBody ⟨m.next, [.ptr L, whole l 16], m.frame, m.next + 1⟩ = .ok (.normal, _) :=
      exec_block (n := 2) ((exec_seqs_append (init_do H)).trans ((exec_seqs_cons h2).trans (exec_last h3)))
    have he : m.enter [.ptr L, whole l 16] = ⟨m.next, [.ptr L, whole l 16], m.frame, m.next + 1⟩ := by
      rw [← Mem.enter_old m [.ptr L, whole l 16]]
      rfl
    rw [← he] at hx
    refine ⟨_, runFunc_of processFunc_body (Nat.lt_irrefl _) hx rfl, ?_⟩
    exact leave_became (ld := L) (v := ctxV cb c') ⟨Nat.lt_succ_self _, fun g _ => rfl⟩ _

end Verif.Source.C
