import Verif.Proofs.CCalls
import Verif.Proofs.CTable
import Verif.Proofs.GoWrite
import Verif.Model.CApi

/-!
A `SHA1_CTX` in the memory, and the functions of cgo/sha1.c that only set its fields.
-/

namespace Verif.Source.C

open Verif Verif.Source Verif.Source.Go Verif.Model
open Verif.Model.C (Ctx)

/-- An array of bytes. -/
def bytesV (n : Nat) (l : List Byte) : Val := .arr n fun j => .u8 (l.getD j 0)

/-- The fields of a context (cgo/sha1.h:41-59); `cb` is the callback, which nothing uses. -/
def ctxFn (cb : Val) (c : Ctx) (j : Nat) : Val :=
  if j = name! "total" then .u64 c.total
  else if j = name! "ihv" then quint c.ihv
  else if j = name! "buffer" then bytesV 64 c.buffer.1
  else if j = name! "found_collision" then .u32 c.found_collision
  else if j = name! "safe_hash" then .u32 c.safe_hash
  else if j = name! "detect_coll" then .u32 c.detect_coll
  else if j = name! "ubc_check" then .u32 c.ubc_check
  else if j = name! "reduced_round_coll" then .u32 c.reduced_round_coll
  else if j = name! "callback" then cb
  else if j = name! "ihv1" then quint c.ihv1
  else if j = name! "ihv2" then quint c.ihv2
  else if j = name! "m1" then words 80 c.m1
  else if j = name! "m2" then words 80 c.m2
  else if j = name! "states" then statesV c.states
  else .null

/-- A context. -/
def ctxV (cb : Val) (c : Ctx) : Val := .struct (ctxFn cb c)

/-- The fields with one replaced. -/
def withField (g : Nat → Val) (f : Nat) (x : Val) : Nat → Val := fun j => if j = f then x else g j

section
variable (cb : Val) (c : Ctx)

/-- Show that a struct with one field replaced is the context with that field replaced. -/
macro "ctx_field" f:term : tactic => `(tactic| (
  funext j
  unfold withField
  by_cases h : j = $f
  · subst h
    rw [if_pos rfl]
    by_kernel
  · rw [if_neg h]
    unfold ctxFn
    simp only [if_neg h]))

theorem ctx_total (x : Word64) : withField (ctxFn cb c) (name! "total") (.u64 x) =
    ctxFn cb { c with total := x } := by ctx_field (name! "total")
theorem ctx_ihv (x : Regs) : withField (ctxFn cb c) (name! "ihv") (quint x) =
    ctxFn cb { c with ihv := x } := by ctx_field (name! "ihv")
theorem ctx_buffer (x : Buf) : withField (ctxFn cb c) (name! "buffer") (bytesV 64 x.1) =
    ctxFn cb { c with buffer := x } := by ctx_field (name! "buffer")
theorem ctx_found (x : Word) : withField (ctxFn cb c) (name! "found_collision") (.u32 x) =
    ctxFn cb { c with found_collision := x } := by ctx_field (name! "found_collision")
theorem ctx_safe (x : Word) : withField (ctxFn cb c) (name! "safe_hash") (.u32 x) =
    ctxFn cb { c with safe_hash := x } := by ctx_field (name! "safe_hash")
theorem ctx_detect (x : Word) : withField (ctxFn cb c) (name! "detect_coll") (.u32 x) =
    ctxFn cb { c with detect_coll := x } := by ctx_field (name! "detect_coll")
theorem ctx_ubc (x : Word) : withField (ctxFn cb c) (name! "ubc_check") (.u32 x) =
    ctxFn cb { c with ubc_check := x } := by ctx_field (name! "ubc_check")
theorem ctx_reduced (x : Word) : withField (ctxFn cb c) (name! "reduced_round_coll") (.u32 x) =
    ctxFn cb { c with reduced_round_coll := x } := by ctx_field (name! "reduced_round_coll")
theorem ctx_callback (x : Val) : withField (ctxFn cb c) (name! "callback") x =
    ctxFn x c := by ctx_field (name! "callback")
theorem ctx_ihv1 (x : Regs) : withField (ctxFn cb c) (name! "ihv1") (quint x) =
    ctxFn cb { c with ihv1 := x } := by ctx_field (name! "ihv1")
theorem ctx_ihv2 (x : Regs) : withField (ctxFn cb c) (name! "ihv2") (quint x) =
    ctxFn cb { c with ihv2 := x } := by ctx_field (name! "ihv2")
theorem ctx_m1 (x : Fin 80 → Word) : withField (ctxFn cb c) (name! "m1") (words 80 x) =
    ctxFn cb { c with m1 := x } := by ctx_field (name! "m1")
theorem ctx_m2 (x : Fin 80 → Word) : withField (ctxFn cb c) (name! "m2") (words 80 x) =
    ctxFn cb { c with m2 := x } := by ctx_field (name! "m2")
theorem ctx_states (x : Fin 80 → Regs) : withField (ctxFn cb c) (name! "states") (statesV x) =
    ctxFn cb { c with states := x } := by ctx_field (name! "states")

end


theorem withField_again (g : Nat → Val) (f : Nat) (x y : Val) : withField (withField g f x) f y = withField g f y := by
  funext j
  unfold withField
  split <;> rfl

/-- Fields with an array of five words, after the words have been replaced one by one. -/
def fiveRaw (g : Nat → Val) (r : Regs) (f : Nat) (s : Regs) : Nat → Val :=
  let g1 := withField (quintFn r) 0 (.u32 s.a)
  let g2 := withField g1 1 (.u32 s.b)
  let g3 := withField g2 2 (.u32 s.c)
  let g4 := withField g3 3 (.u32 s.d)
  let g5 := withField g4 4 (.u32 s.e)
  withField (withField (withField (withField (withField g f (.arr 5 g1)) f (.arr 5 g2)) f (.arr 5 g3)) f (.arr 5 g4)) f
    (.arr 5 g5)

theorem fiveRaw_eq (g : Nat → Val) (r : Regs) (f : Nat) (s : Regs) : fiveRaw g r f s = withField g f (quint s) := by
  unfold fiveRaw
  simp only [withField_again]
  exact congrArg (withField g f) (quint_set r s.a s.b s.c s.d s.e)

attribute [irreducible] withField

/-- One statement and then others. -/
theorem rstep {s : Stmt} {ss : List Stmt} {S S' : RSt} (h : rexec noPure s S = some S') :
    rexec noPure (seqs (s :: ss)) S = rexec noPure (seqs ss) S' := by
  simp only [seqs, rexec, h]

section
variable {X : World} {N i next : Nat} {old : Nat → List Val} {L : Loc} {cb : Val} {c : Ctx} {C : List Val}

theorem stage_ctx (hC : C[0]? = some (.ptr L)) (hL : look old L = .ok (ctxV cb c)) (hi : L.frame ≠ i) :
    Stage (fun _ => L) old i ([some (ctxV cb c)], C) := by
  have hv : ∀ k v, view [some (ctxV cb c)] k = some v → k = 0 ∧ v = ctxV cb c := by
    intro k v h
    match k with
    | 0 => cases h; exact ⟨rfl, rfl⟩
    | k + 1 => simp [view] at h
  refine ⟨⟨fun k v h => ⟨_, hL⟩, fun k k' v v' h h' hne => ?_, fun k v h => ?_, fun k v h => hi⟩, fun k v h => ?_⟩
  · obtain ⟨rfl, rfl⟩ := hv k v h
    obtain ⟨rfl, rfl⟩ := hv k' v' h'
    exact absurd rfl hne
  · obtain ⟨rfl, rfl⟩ := hv k v h
    exact fixed_struct _
  · obtain ⟨rfl, rfl⟩ := hv k v h
    exact .inl hC

/-- Statements that change only the context that the first variable points to, and variables. -/
theorem exec_ctx {s : Stmt} {C' : List Val} {v : Val}
    (h : rexec noPure s ([some (ctxV cb c)], C) = some ([some v], C'))
    (hC : C[0]? = some (.ptr L)) (hL : look old L = .ok (ctxV cb c)) (hi : L.frame ≠ i) :
    exec X N s ⟨i, C, old, next⟩ = .ok (.normal, ⟨i, C', putAt old L v, next⟩) := by
  have := (exec_rexec (next := next) (rights_none X) N s _ _ h (stage_ctx hC hL hi)).1
  simp only [memOf, puts] at this
  rwa [putAt_self hL] at this

/-- Expressions about the context that the first variable points to. -/
theorem ev_ctx {e : Expr} {v : Val} (h : one (pvs noPure [some (ctxV cb c)] C e) = some v)
    (hC : C[0]? = some (.ptr L)) (hL : look old L = .ok (ctxV cb c)) (hi : L.frame ≠ i) :
    ev X e ⟨i, C, old, next⟩ = .ok (v, ⟨i, C, old, next⟩) := by
  have hs := (stage_ctx hC hL hi).seen (next := next)
  simp only [puts] at hs
  rw [putAt_self hL] at hs
  exact ev_pvs ((rights_none X).right _ _) hs h

/-- What a field is. -/
theorem look_field {f : Nat} (hL : look old L = .ok (ctxV cb c)) : look old (L.sub f) = .ok (ctxFn cb c f) := by
  rw [look_sub hL, ctxV]
  simp only [Val.get]

/-- Replacing a field. -/
theorem putAt_field {f : Nat} {g : Nat → Val} {x : Val} (hL : look old L = .ok (.struct g)) (hx : Fixed x) :
    putAt old (L.sub f) x = putAt old L (.struct (withField g f x)) := by
  obtain ⟨u, h1, h2⟩ := look_inv hL
  have hs : (Val.struct g).set [f] x = .ok (.struct (withField g f x)) := by
    simp only [Val.set, hx (g f)]
    unfold withField
    rfl
  funext k
  have e : Go.putAt old (L.sub f) x k =
      if k = L.frame then (old k).modify L.slot (fun v => v.put (L.path ++ [f]) x) else old k := rfl
  rw [e]
  unfold Go.putAt
  by_cases hk : k = L.frame
  · rw [if_pos hk, if_pos hk]
    apply List.ext_getElem?
    intro q
    rw [modify_get, modify_get]
    by_cases hq : L.slot = q
    · subst hq
      rw [if_pos rfl, if_pos rfl, hk, h1]
      simp only [Option.map_some, Option.some.injEq]
      unfold Val.put
      rw [set_append h2 hs (fixed_struct _)]
    · rw [if_neg hq, if_neg hq]
  · rw [if_neg hk, if_neg hk]

end

/-- cgo/sha1.c:2002-2016. -/
def initFunc : Func := evaluated! funcOf funcs5U (name! "SHA1DCInit")

theorem like_null (v : Val) : like v .null = .null := by cases v <;> rfl

/-- `ctx->f = e` (cgo/sha1.c:2003-2048). -/
theorem assign_field {cb : Val} {c : Ctx} {l : Loc} {C : List Val} {f : Nat} {e : Expr} {x y : Val}
    (he : one (pvs noPure [some (ctxV cb c)] (.ptr l :: C) e) = some x) (hx : like (ctxFn cb c f) x = y) :
    rexec noPure (.assign (.cons (.field (.loc 0) f) .nil) e) ([some (ctxV cb c)], .ptr l :: C) =
      some ([some (.struct (withField (ctxFn cb c) f y))], .ptr l :: C) := by
  have hs : (ctxV cb c).set [f] x = .ok (.struct (withField (ctxFn cb c) f y)) := by
    simp only [ctxV, Val.set, hx]
    unfold withField
    rfl
  have hr : rcont noPure [some (ctxV cb c)] (.ptr l :: C) (.field (.loc 0) f) = some (0, [f]) := by rfl
  have ht : rset [some (ctxV cb c)] 0 [f] x = some [some (.struct (withField (ctxFn cb c) f y))] := by
    have : view [some (ctxV cb c)] 0 = some (ctxV cb c) := rfl
    simp only [rset, this, hs]
    rfl
  simp only [rexec, hr, he, ht]

/-- The body of `SHA1DCInit` (cgo/sha1.c:2003-2016). -/
theorem init_body {cb : Val} {c : Ctx} {l : Loc} {b : Stmt} (hb : initFunc.body = some b) :
    rexec noPure b ([some (ctxV cb c)], [.ptr l]) = some ([some (ctxV .null (Model.C.SHA1DCInit c))], [.ptr l]) := by
  have hb' : initFunc.body = some (.block 1 (seqs ((bodyOf initFunc).take 11 ++
    [.assign (.cons (.field (.loc 0) (name! "callback")) .nil) (.cons .null .nil)]))) := by by_kernel
  rw [hb'] at hb
  cases hb
  have h1 : rexec noPure (seqs ((bodyOf initFunc).take 11)) ([some (ctxV cb c)], [.ptr l]) =
      some ([some (ctxV cb (Model.C.SHA1DCInit c))], [.ptr l]) := by
    refine Eq.trans (b := some ([some (.struct (withField (withField (withField (withField (withField (fiveRaw
      (withField (ctxFn cb c) (name! "total") (.u64 0)) c.ihv (name! "ihv")
        ⟨0x67452301, 0xEFCDAB89, 0x98BADCFE, 0x10325476, 0xC3D2E1F0⟩) (name! "found_collision") (.u32 0))
        (name! "safe_hash") (.u32 1)) (name! "ubc_check") (.u32 1)) (name! "detect_coll") (.u32 1))
        (name! "reduced_round_coll") (.u32 0)))], [.ptr l])) (by by_kernel) ?_
    rw [ctx_total, fiveRaw_eq, ctx_ihv, ctx_found, ctx_safe, ctx_ubc, ctx_detect, ctx_reduced]
    by_kernel
  have h2 := assign_field (cb := cb) (c := Model.C.SHA1DCInit c) (l := l) (C := []) (f := name! "callback")
    (e := .cons .null .nil) rfl (like_null _)
  rw [ctx_callback] at h2
  rw [rexec, rexec_seqs_append h1, rstep h2]
  rfl

/-- cgo/sha1.c:2018-2024. -/
def safeFunc : Func := evaluated! funcOf funcs5U (name! "SHA1DCSetSafeHash")
/-- cgo/sha1.c:2026-2032. -/
def useUbcFunc : Func := evaluated! funcOf funcs5U (name! "SHA1DCSetUseUBC")
/-- cgo/sha1.c:2034-2040. -/
def detectFunc : Func := evaluated! funcOf funcs5U (name! "SHA1DCSetUseDetectColl")
/-- cgo/sha1.c:2042-2048. -/
def reducedFunc : Func := evaluated! funcOf funcs5U (name! "SHA1DCSetDetectReducedRoundCollision")
/-- cgo/sha1.c:2050-2053. -/
def callbackFunc : Func := evaluated! funcOf funcs5U (name! "SHA1DCSetCallback")

/-- `if (x) ctx->f = 1; else ctx->f = 0;` (cgo/sha1.c:2018-2048). -/
def setBody (f : Nat) : Stmt :=
  .block 2 (.seq (.ite (.bin .ne (.loc 1) (.num 0)) (.assign (.cons (.field (.loc 0) f) .nil) (.cons (.num 1) .nil))
    (.assign (.cons (.field (.loc 0) f) .nil) (.cons (.num 0) .nil))) .skip)

theorem set_body {cb : Val} {c : Ctx} {l : Loc} {f : Nat} {v x : Word} (hf : ctxFn cb c f = .u32 x) :
    rexec noPure (setBody f) ([some (ctxV cb c)], [.ptr l, .u32 v]) =
      some ([some (.struct (withField (ctxFn cb c) f (.u32 (if v ≠ 0 then 1 else 0))))], [.ptr l, .u32 v]) := by
  have hc : one (pvs noPure [some (ctxV cb c)] [.ptr l, .u32 v] (.bin .ne (.loc 1) (.num 0))) =
      some (.bool (decide (v ≠ 0))) := by by_kernel
  have h1 : ∀ n : Nat, rexec noPure (.assign (.cons (.field (.loc 0) f) .nil) (.cons (.num n) .nil))
      ([some (ctxV cb c)], [.ptr l, .u32 v]) =
      some ([some (.struct (withField (ctxFn cb c) f (.u32 (BitVec.ofInt 32 n))))], [.ptr l, .u32 v]) :=
    fun n => assign_field rfl (by rw [hf]; rfl)
  have h2 : rexec noPure (.ite (.bin .ne (.loc 1) (.num 0)) (.assign (.cons (.field (.loc 0) f) .nil) (.cons (.num 1) .nil))
      (.assign (.cons (.field (.loc 0) f) .nil) (.cons (.num 0) .nil))) ([some (ctxV cb c)], [.ptr l, .u32 v]) =
      some ([some (.struct (withField (ctxFn cb c) f (.u32 (if v ≠ 0 then 1 else 0))))], [.ptr l, .u32 v]) := by
    rw [rexec, hc, h1 1, h1 0]
    by_cases hv : v = 0
    · subst hv; rfl
    · rw [if_pos hv, decide_eq_true hv]; rfl
  unfold setBody
  rw [rexec, rexec, h2]
  rfl

section
variable {X : World} {N : Nat} {m : Mem} {L : Loc} {cb : Val} {c : Ctx}

theorem meets_ctx {vs : List Val} (h : look m.frame L = .ok (ctxV cb c)) (hn : L.frame ≠ m.next) :
    Meets m [some (ctxV cb c)] (fun _ => L) (.ptr L :: vs) := by
  refine Meets.cons (B := fun _ => L) h (fixed_struct _) hn (.inl rfl) ?_ meets_nil
  intro k v hk
  simp [view] at hk

/-- A call of `SHA1DCInit` (cgo/sha1.c:2002-2016). -/
theorem init_run (h : look m.frame L = .ok (ctxV cb c)) (hn : L.frame ≠ m.next) :
    runFunc X N initFunc [.ptr L] m = .ok ([], m.having (Go.putAt m.frame L (ctxV .null (Model.C.SHA1DCInit c)))) :=
  run_leaf rfl (Nat.lt_irrefl _) rfl rfl rfl (by by_kernel) (init_body rfl) (meets_ctx h hn)

theorem set_run {f : Nat} {v x : Word} {n : Nat} {t : Ty} (hf : ctxFn cb c f = .u32 x)
    (h : look m.frame L = .ok (ctxV cb c)) (hn : L.frame ≠ m.next) :
    runFunc X N ⟨name! "C", n, [.ptr t, .u32], [], false, some (setBody f)⟩ [.ptr L, .u32 v] m =
      .ok ([], m.having (Go.putAt m.frame L (.struct (withField (ctxFn cb c) f (.u32 (if v ≠ 0 then 1 else 0)))))) :=
  run_leaf rfl (Nat.lt_irrefl _) rfl rfl rfl rfl (set_body hf) (meets_ctx h hn)

theorem safe_run {v : Word} (h : look m.frame L = .ok (ctxV cb c)) (hn : L.frame ≠ m.next) :
    runFunc X N safeFunc [.ptr L, .u32 v] m =
      .ok ([], m.having (Go.putAt m.frame L (ctxV cb (Model.C.SHA1DCSetSafeHash c v)))) := by
  refine (set_run (f := name! "safe_hash") (x := c.safe_hash) (by by_kernel) h hn).trans ?_
  rw [ctx_safe]
  unfold Model.C.SHA1DCSetSafeHash
  rcases Decidable.em (v ≠ 0) with hv | hv
  · simp only [if_pos hv]
    rfl
  · simp only [if_neg hv]
    rfl

theorem useUbc_run {v : Word} (h : look m.frame L = .ok (ctxV cb c)) (hn : L.frame ≠ m.next) :
    runFunc X N useUbcFunc [.ptr L, .u32 v] m =
      .ok ([], m.having (Go.putAt m.frame L (ctxV cb (Model.C.SHA1DCSetUseUBC c v)))) := by
  refine (set_run (f := name! "ubc_check") (x := c.ubc_check) (by by_kernel) h hn).trans ?_
  rw [ctx_ubc]
  unfold Model.C.SHA1DCSetUseUBC
  rcases Decidable.em (v ≠ 0) with hv | hv
  · simp only [if_pos hv]
    rfl
  · simp only [if_neg hv]
    rfl

theorem detect_run {v : Word} (h : look m.frame L = .ok (ctxV cb c)) (hn : L.frame ≠ m.next) :
    runFunc X N detectFunc [.ptr L, .u32 v] m =
      .ok ([], m.having (Go.putAt m.frame L (ctxV cb (Model.C.SHA1DCSetUseDetectColl c v)))) := by
  refine (set_run (f := name! "detect_coll") (x := c.detect_coll) (by by_kernel) h hn).trans ?_
  rw [ctx_detect]
  unfold Model.C.SHA1DCSetUseDetectColl
  rcases Decidable.em (v ≠ 0) with hv | hv
  · simp only [if_pos hv]
    rfl
  · simp only [if_neg hv]
    rfl

theorem reduced_run {v : Word} (h : look m.frame L = .ok (ctxV cb c)) (hn : L.frame ≠ m.next) :
    runFunc X N reducedFunc [.ptr L, .u32 v] m =
      .ok ([], m.having (Go.putAt m.frame L (ctxV cb (Model.C.SHA1DCSetDetectReducedRoundCollision c v)))) := by
  refine (set_run (f := name! "reduced_round_coll") (x := c.reduced_round_coll) (by by_kernel) h hn).trans ?_
  rw [ctx_reduced]
  unfold Model.C.SHA1DCSetDetectReducedRoundCollision
  rcases Decidable.em (v ≠ 0) with hv | hv
  · simp only [if_pos hv]
    rfl
  · simp only [if_neg hv]
    rfl

end

end Verif.Source.C
