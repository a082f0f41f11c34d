import Verif.Proofs.GoRectify
import Verif.Source.GoAsm
import Verif.Proofs.Simd

/-!
`block` of the builds with assembly, as it is read from the text of sha1cdblock_amd64.go and sha1cdblock_arm64.go.
-/

namespace Verif.Source.Go

open Verif Verif.Source Verif.Model

/-! ### The call of the function in assembly -/

theorem regsIn_five {h : Regs} {f : Nat → Val} (hf : five h = .arr 5 f) : regsIn f 0 = h := by
  cases hf
  rfl

theorem splice_words {n : Nat} (W : Nat → Val) (V : Fin n → Word) {g : Nat → Val} (hW : ∀ j, ¬j < n → W j = .u32 0)
    (hg : ∀ j (hj : j < n), g j = .u32 (V ⟨j, hj⟩)) : Val.arr n (splice W g 0 n) = words n V := by
  refine congrArg (Val.arr n) (funext fun j => ?_)
  unfold splice
  by_cases hj : j < n
  · rw [if_pos ⟨Nat.zero_le _, by omega⟩, Nat.sub_zero, hg j hj, dif_pos hj]
  · rw [if_neg (by omega), hW j hj, dif_neg hj]

theorem regVals_five (r : Regs) : Val.arr 5 (regVals r) = five r := by
  refine congrArg (Val.arr 5) (funext fun j => ?_)
  match j with
  | 0 | 1 | 2 | 3 | 4 => rfl
  | j + 5 => simp [regVals, show ¬(j + 5 < 5) by omega]

theorem storeMany_ok {l : Loc} {n off k : Nat} {f g : Nat → Val} {v : Val} {m : Mem} (hl : load l m = .ok (.arr n f, m)) (hk : off + k ≤ n)
    (hv : Val.arr n (splice f g off k) = v) : storeMany l off k g m = store l v m := by
  rw [storeMany, bind_of hl]
  show (if off + k ≤ n then _ else _ : M Unit) m = _
  rw [if_pos hk, hv]

theorem arrayAt_ok {l : Loc} {n : Nat} {f : Nat → Val} {m : Mem} (hl : load l m = .ok (.arr n f, m)) : arrayAt l m = .ok (f, m) := by
  rw [arrayAt, bind_of hl]
  rfl

theorem bytesAt_ok {m : Mem} {lp : Loc} : ∀ {off : Nat} {bs : List Byte},
    (∀ q (hq : q < bs.length), load (lp.sub (off + q)) m = .ok (.u8 bs[q], m)) → bytesAt lp off bs.length m = .ok (bs, m)
  | off, [], _ => rfl
  | off, b :: bs, h => by
    have h0 : load (lp.sub off) m = .ok (.u8 b, m) := h 0 (Nat.succ_pos _)
    have h1 := bytesAt_ok (m := m) (lp := lp) (off := off + 1) (bs := bs) fun q hq => by
      have := h (q + 1) (Nat.succ_lt_succ hq)
      rw [show off + 1 + q = off + (q + 1) by omega]
      exact this
    simp only [List.length_cons, bytesAt, bind_run, h0, h1, pure_run]

/-- What the function in assembly does when it runs to its end. -/
abbrev AsmFun := Regs → List Byte → (Fin 80 → Word) → (Fin 3 → Regs) → AsmOut

section
variable {run : List Val → Mem → Regs → List Byte → (Fin 80 → Word) → (Fin 3 → Regs) → GoM AsmOut} {F : AsmFun}
  {i : Nat} {dg ps : Val} {R : List Val} {old : Nat → List Val} {next : Nat} {ld lp : Loc} {rest : Nat → Val} {h : Regs} {c : Bool}
  {m1 : Fin 80 → Word} {cs : Fin 3 → Regs} {off cap : Nat} {bs : List Byte}

/-- The slices that are passed. -/
def asmArgs (i : Nat) (ld lp : Loc) (off cap : Nat) : List Val :=
  [.slice (ld.sub (name! "h")) 0 5 5, .slice lp off 64 cap, .slice ⟨i, 2, []⟩ 0 80 80, .slice ⟨i, 3, []⟩ 0 3 3]

theorem dig_set_h {r : Regs} : (digVal rest h c).set [name! "h"] (five r) = .ok (digVal rest r c) := by
  simp only [digVal, Val.set, Except.ok.injEq, Val.struct.injEq, like]
  funext f
  by_cases hf : f = name! "h"
  · subst hf
    rfl
  · simp [hf]

theorem asmCall_ok (hrun : ∀ vs m h p m1 cs, p.length = 64 → run vs m h p m1 cs = .ok (F h p m1 cs)) (hi : ld.frame ≠ i)
    (hd : look old ld = .ok (digVal rest h c)) (hlp : lp.frame ≠ i)
    (hb : ∀ q (hq : q < bs.length), look old (lp.sub (off + q)) = .ok (.u8 bs[q])) (h64 : bs.length = 64) :
    asmCall run (asmArgs i ld lp off cap) ⟨i, dg :: ps :: words 80 m1 :: three cs :: R, old, next⟩ =
      .ok ([], ⟨i, dg :: ps :: words 80 (F h bs m1 cs).m1 :: three (F h bs m1 cs).cs :: R,
        putAt old ld (digVal rest (F h bs m1 cs).h c), next⟩) := by
  have l1 : load (ld.sub (name! "h")) ⟨i, dg :: ps :: words 80 m1 :: three cs :: R, old, next⟩ = .ok (five h, _) :=
    load_look (l := ld.sub (name! "h")) hi ((look_sub hd).trans (dig_get _ _ _)) _
  have l2 : bytesAt lp off 64 ⟨i, dg :: ps :: words 80 m1 :: three cs :: R, old, next⟩ =
      .ok (bs, ⟨i, dg :: ps :: words 80 m1 :: three cs :: R, old, next⟩) := by
    rw [← h64]
    exact bytesAt_ok fun q hq => load_look (l := lp.sub (off + q)) hlp (hb q hq) _
  have l3 : load ⟨i, 2, []⟩ ⟨i, dg :: ps :: words 80 m1 :: three cs :: R, old, next⟩ = .ok (words 80 m1, _) := load_pget rfl
  have l4 : load ⟨i, 3, []⟩ ⟨i, dg :: ps :: words 80 m1 :: three cs :: R, old, next⟩ = .ok (three cs, _) := load_pget rfl
  have r2 : (fun k : Fin 80 => wordOf ((fun j => Val.u32 (if h : j < 80 then m1 ⟨j, h⟩ else 0)) (0 + k.val))) = m1 := by
    funext k
    simp [wordOf]
  have r3 : (fun j : Fin 3 => csRow ((fun j => five (if h : j < 3 then cs ⟨j, h⟩ else ⟨0, 0, 0, 0, 0⟩)) (0 + j.val))) = cs := by
    funext k
    match k with
    | 0 | 1 | 2 => rfl
  generalize ho : F h bs m1 cs = o
  have s1 : storeMany (ld.sub (name! "h")) 0 5 (regVals o.h) ⟨i, dg :: ps :: words 80 m1 :: three cs :: R, old, next⟩ =
      .ok ((), ⟨i, dg :: ps :: words 80 m1 :: three cs :: R, putAt old ld (digVal rest o.h c), next⟩) := by
    rw [storeMany_ok (v := five o.h) l1 (by omega) (splice_words _ _ (fun j hj => by rw [dif_neg hj]) (fun j hj => by
        match j, hj with
        | 0, _ | 1, _ | 2, _ | 3, _ | 4, _ => rfl))]
    exact store_part (q := [name! "h"]) hi hd dig_set_h (fixed_dig _ _ _)
  have s2 : storeMany ⟨i, 2, []⟩ 0 80 (fun k => if hk : k < 80 then .u32 (o.m1 ⟨k, hk⟩) else .u32 0)
      ⟨i, dg :: ps :: words 80 m1 :: three cs :: R, putAt old ld (digVal rest o.h c), next⟩ =
      .ok ((), ⟨i, dg :: ps :: words 80 o.m1 :: three cs :: R, putAt old ld (digVal rest o.h c), next⟩) := by
    have l : load ⟨i, 2, []⟩ ⟨i, dg :: ps :: words 80 m1 :: three cs :: R, putAt old ld (digVal rest o.h c), next⟩ =
      .ok (words 80 m1, ⟨i, dg :: ps :: words 80 m1 :: three cs :: R, putAt old ld (digVal rest o.h c), next⟩) := load_pget rfl
    rw [storeMany_ok (v := words 80 o.m1) l (by omega) (splice_words _ _ (fun j hj => by rw [dif_neg hj]) (fun j hj => by rw [dif_pos hj]))]
    simp [store, Mem.frame, Mem.setFrame, Val.set, like, words]
  have s3 : storeMany ⟨i, 3, []⟩ 0 3 (fun j => if hj : j < 3 then .arr 5 (regVals (o.cs ⟨j, hj⟩)) else .null)
      ⟨i, dg :: ps :: words 80 o.m1 :: three cs :: R, putAt old ld (digVal rest o.h c), next⟩ =
      .ok ((), ⟨i, dg :: ps :: words 80 o.m1 :: three o.cs :: R, putAt old ld (digVal rest o.h c), next⟩) := by
    have l : load ⟨i, 3, []⟩ ⟨i, dg :: ps :: words 80 o.m1 :: three cs :: R, putAt old ld (digVal rest o.h c), next⟩ =
      .ok (three cs, ⟨i, dg :: ps :: words 80 o.m1 :: three cs :: R, putAt old ld (digVal rest o.h c), next⟩) := load_pget rfl
    have hs : Val.arr 3 (splice (fun j => five (if h : j < 3 then cs ⟨j, h⟩ else ⟨0, 0, 0, 0, 0⟩))
        (fun j => if hj : j < 3 then .arr 5 (regVals (o.cs ⟨j, hj⟩)) else .null) 0 3) = three o.cs := by
      refine congrArg (Val.arr 3) (funext fun j => ?_)
      unfold splice
      by_cases hj : j < 3
      · rw [if_pos ⟨Nat.zero_le _, by omega⟩, Nat.sub_zero, dif_pos hj]
        show (if hj : j < 3 then Val.arr 5 (regVals (o.cs ⟨j, hj⟩)) else .null) = _
        rw [dif_pos hj, regVals_five]
      · rw [if_neg (by omega), dif_neg hj]
        show five (if h : j < 3 then cs ⟨j, h⟩ else ⟨0, 0, 0, 0, 0⟩) = _
        rw [dif_neg hj]
    rw [storeMany_ok (v := three o.cs) l (by omega) hs]
    simp [store, Mem.frame, Mem.setFrame, Val.set, like, three]
  show (arrayAt (ld.sub (name! "h")) >>= _) _ = _
  rw [bind_of (arrayAt_ok l1), bind_of l2, bind_of (arrayAt_ok l3), bind_of (arrayAt_ok l4), bind_of (show memory _ = .ok (_, _) from rfl), r2, r3, regsIn_five rfl,
    hrun _ _ _ _ _ _ h64, ho]
  show (storeMany (ld.sub (name! "h")) 0 5 (regVals o.h) >>= _) _ = _
  rw [bind_of s1, bind_of s2, bind_of s3]
  rfl

end

/-! ### The loop over the chunks -/

/-- The call of the function in assembly, sha1cdblock_amd64.go:39,46,47 and sha1cdblock_arm64.go:35,42,43. -/
def asmExpr (n : Nat) : Expr := .call (name! "sha1cd") n
  (.cons (.slice (.field (.loc 0) (name! "h")) .omit .omit) (.cons (.loc 4) (.cons (.slice (.loc 2) .omit .omit)
    (.cons (.slice (.loc 3) .omit .omit) .nil))))

/-- `rectifyCompressionState(&m1, &cs)`, sha1cdblock_amd64.go:40, sha1cdblock_arm64.go:37. -/
def rectExpr : Expr := .call (name! "sha1cd") (name! "rectifyCompressionState") (.cons (.addr (.loc 2)) (.cons (.addr (.loc 3)) .nil))

/-- `checkCollision(&m1, &cs, &dig.h)`, sha1cdblock_amd64.go:42, sha1cdblock_arm64.go:38. -/
def checkExpr : Expr := .call (name! "sha1cd") (name! "checkCollision")
  (.cons (.addr (.loc 2)) (.cons (.addr (.loc 3)) (.cons (.addr (.field (.loc 0) (name! "h"))) .nil)))

/-- `dig.col = true`. -/
def setCol : Stmt := .assign (.cons (.field (.loc 0) (name! "col")) .nil) (.cons (.bool true) .nil)

/-- The body of the loop, sha1cdblock_amd64.go:35-50, sha1cdblock_arm64.go:31-46. -/
def simdChunk (n : Nat) : Stmt := .block 4 (seqs [.define 1 (.cons (.slice (.loc 1) .omit (.num 64)) .nil), .expr (asmExpr n),
  .expr rectExpr, .define 1 (.cons checkExpr .nil),
  .ite (.loc 5) (.block 6 (seqs [setCol, .expr (asmExpr n), .expr (asmExpr n)])) .skip, nextChunk])

/-- The function in assembly that is called `n` does what `F` says. -/
structure HasAsm (P : Program) (n : Nat) (F : AsmFun) : Prop where
  func : ∃ f, findFunc (name! "sha1cd") n P.funcs = some f ∧ f.body = none ∧
    f.params = [.slice .u32, .slice .u8, .slice .u32, .slice (.arr 5 .u32)]
  ext : ∀ vs, extern (name! "sha1cd") n vs = none
  run : ∃ run, (∀ vs, P.asm n vs = asmCall run vs) ∧ ∀ vs m h p m1 cs, p.length = 64 → run vs m h p m1 cs = .ok (F h p m1 cs)

/-- What is in the frames below `i`. -/
structure SimdMem (G : List Val) (fr : Nat → List Val) (i : Nat) (ld lp : Loc) (rest : Nat → Val) (off : Nat) (bs : List Byte) : Prop where
  boot : Boot G fr
  table : HasTable G
  ld_ge : 2 ≤ ld.frame
  ld_lt : ld.frame < i
  lp_lt : lp.frame < i
  dig : ∃ v, look fr ld = .ok v
  bytes : ∀ h c q (hq : q < bs.length), look (withDig fr ld rest h c) (lp.sub (off + q)) = .ok (.u8 bs[q])

section
variable {P : Program} {N d n : Nat} {F : AsmFun} {G : List Val} {fr : Nat → List Val} {i : Nat} {ld lp : Loc} {rest : Nat → Val}
  {h : Regs} {c : Bool} {m1 : Fin 80 → Word} {cs : Fin 3 → Regs} {off cap len : Nat} {bs : List Byte} {old : Nat → List Val} {next : Nat}
  {R : List Val}

theorem SimdMem.drop (H : SimdMem G fr i ld lp rest off bs) : SimdMem G fr i ld lp rest (off + 64) (bs.drop 64) := by
  refine { H with bytes := ?_ }
  intro h c q hq
  have hq' : 64 + q < bs.length := by simp at hq; omega
  have := H.bytes h c (64 + q) hq'
  rw [List.getElem_drop, Nat.add_assoc]
  exact this

theorem SimdMem.look (H : SimdMem G fr i ld lp rest off bs) (K : Keeps fr i ld (digVal rest h c) old next) :
    look old ld = .ok (digVal rest h c) := by
  obtain ⟨v, hv⟩ := H.dig
  exact K.look H.ld_lt hv (fixed_dig _ _ _)

theorem SimdMem.put (H : SimdMem G fr i ld lp rest off bs) (K : Keeps fr i ld (digVal rest h c) old next) (h' : Regs) (c' : Bool) :
    Keeps fr i ld (digVal rest h' c') (putAt old ld (digVal rest h' c')) next := by
  obtain ⟨v, hv⟩ := H.dig
  exact K.put hv (fixed_dig _ _ _)

/-- The slots of `block` when the loop is at its head. -/
def vSlots (ld lp : Loc) (off len cap : Nat) (m1 : Fin 80 → Word) (cs : Fin 3 → Regs) (R : List Val) : List Val :=
  .ptr ld :: .slice lp off len cap :: words 80 m1 :: three cs :: R

/-- The call of the function in assembly. -/
theorem asmExpr_ok (A : HasAsm P n F) (H : SimdMem G fr i ld lp rest off bs) (hp : 64 ≤ bs.length)
    (K : Keeps fr i ld (digVal rest h c) old next) :
    exec (P.world N (d + 1)) N (.expr (asmExpr n)) ⟨i, vSlots ld lp off len cap m1 cs (.slice lp off 64 cap :: R), old, next⟩ =
      .ok (.normal, ⟨i, vSlots ld lp off len cap (F h (bs.take 64) m1 cs).m1 (F h (bs.take 64) m1 cs).cs (.slice lp off 64 cap :: R),
        putAt old ld (digVal rest (F h (bs.take 64) m1 cs).h c), next⟩) := by
  have hd := H.look K
  have hi : ld.frame ≠ i := Nat.ne_of_lt H.ld_lt
  have v1 : evs (P.world N (d + 1)) (.slice (.field (.loc 0) (name! "h")) .omit .omit)
      ⟨i, vSlots ld lp off len cap m1 cs (.slice lp off 64 cap :: R), old, next⟩ =
      .ok ([.slice (ld.sub (name! "h")) 0 5 5], ⟨i, vSlots ld lp off len cap m1 cs (.slice lp off 64 cap :: R), old, next⟩) :=
    evs_slice place_dig rfl rfl (sliceOf_arr (x := 0) (y := 5) (load_look (l := ld.sub (name! "h")) hi ((look_sub hd).trans (dig_get _ _ _)) _)
      rfl rfl (Nat.zero_le _) (Nat.le_refl _))
  have v3 : evs (P.world N (d + 1)) (.slice (.loc 2) .omit .omit)
      ⟨i, vSlots ld lp off len cap m1 cs (.slice lp off 64 cap :: R), old, next⟩ =
      .ok ([.slice ⟨i, 2, []⟩ 0 80 80], ⟨i, vSlots ld lp off len cap m1 cs (.slice lp off 64 cap :: R), old, next⟩) :=
    evs_slice (l := ⟨i, 2, []⟩) rfl rfl rfl (sliceOf_arr (x := 0) (y := 80) (load_pget rfl) rfl rfl (Nat.zero_le _) (Nat.le_refl _))
  have v4 : evs (P.world N (d + 1)) (.slice (.loc 3) .omit .omit)
      ⟨i, vSlots ld lp off len cap m1 cs (.slice lp off 64 cap :: R), old, next⟩ =
      .ok ([.slice ⟨i, 3, []⟩ 0 3 3], ⟨i, vSlots ld lp off len cap m1 cs (.slice lp off 64 cap :: R), old, next⟩) :=
    evs_slice (l := ⟨i, 3, []⟩) rfl rfl rfl (sliceOf_arr (x := 0) (y := 3) (load_pget rfl) rfl rfl (Nat.zero_le _) (Nat.le_refl _))
  have va := evs_call (p := name! "sha1cd") (n := n) (evs_cons v1 (evs_cons (evs_loc (k := 4) rfl) (evs_cons v3 (evs_one v4))))
  obtain ⟨f, f1, f2, f3⟩ := A.func
  obtain ⟨run, r1, r2⟩ := A.run
  have hcall : (P.world N (d + 1)).call (name! "sha1cd") n (asmArgs i ld lp off cap)
      ⟨i, vSlots ld lp off len cap m1 cs (.slice lp off 64 cap :: R), old, next⟩ =
      asmCall run (asmArgs i ld lp off cap) ⟨i, vSlots ld lp off len cap m1 cs (.slice lp off 64 cap :: R), old, next⟩ := by
    show P.call N (d + 1) (name! "sha1cd") n _ _ = _
    simp only [Program.call, A.ext, f1, f2, f3, r1]
    rfl
  refine exec_expr (va.trans (hcall.trans (asmCall_ok r2 hi hd (Nat.ne_of_lt H.lp_lt) (fun q hq => ?_) (by simp; omega))))
  have hq' : q < bs.length := by simp at hq; omega
  rw [List.getElem_take, ← H.bytes h c q hq']
  exact look_congr (l := lp.sub (off + q)) (K.eq _ H.lp_lt)

/-- What a call that writes to a variable of its caller leaves behind. -/
theorem became_own {C C' : List Val} {l : Loc} {v w : Val} {m' : Mem} (K : Keeps fr i ld v old next) (hl : l.frame = i)
    (hC : putAt (Mem.frame ⟨i, C, old, next⟩) l w i = C') (B : Became ⟨i, C, old, next⟩ (putAt (Mem.frame ⟨i, C, old, next⟩) l w) m') :
    ∃ old' next', m' = ⟨i, C', old', next'⟩ ∧ Keeps fr i ld v old' next' := by
  have hcur : m'.cur = C' := by
    have := B.frame i K.lt
    simp only [Mem.frame, B.id, if_true] at this
    rw [this, ← hC]
  have hlt := K.lt
  refine ⟨m'.old, m'.next, ?_, Nat.lt_of_lt_of_le K.lt B.next, fun k hk => ?_⟩
  · have := B.id
    cases m'
    simp only at hcur this
    subst hcur
    subst this
    rfl
  · have h1 := B.frame k (show k < next by omega)
    have hid : m'.id = i := B.id
    rw [putAt_of_ne (by omega)] at h1
    simp only [Mem.frame, hid, if_neg (Nat.ne_of_lt hk)] at h1
    rw [h1]
    exact K.eq k hk

theorem Keeps.plus {v : Val} (K : Keeps fr i ld v old next) (C : List Val) :
    Keeps fr i ld v (fun k => if k = next then C else old k) (next + 1) := by
  refine ⟨Nat.lt_succ_of_lt K.lt, fun k hk => ?_⟩
  show (if k = next then C else old k) = _
  rw [if_neg (by have := K.lt; omega)]
  exact K.eq k hk

/-- The call of `rectifyCompressionState`. -/
theorem rectExpr_ok (hR : HasRectify P) (K : Keeps fr i ld (digVal rest h c) old next) :
    ∃ old' next', exec (P.world N (d + 3)) N (.expr rectExpr) ⟨i, vSlots ld lp off len cap m1 cs R, old, next⟩ =
      .ok (.normal, ⟨i, vSlots ld lp off len cap m1 (rectifyCompressionState m1 cs) R, old', next'⟩) ∧
      Keeps fr i ld (digVal rest h c) old' next' := by
  obtain ⟨m', e, B⟩ := rect_eq hR N d (m1 := m1) (cs := cs) (lm := ⟨i, 2, []⟩) (lc := ⟨i, 3, []⟩)
    (m := ⟨i, vSlots ld lp off len cap m1 cs R, old, next⟩) K.lt K.lt (.inr (.inl (show (3 : Nat) ≠ 2 by decide)))
    (by simp [look, Mem.frame, vSlots, Val.get]) (by simp [look, Mem.frame, vSlots, Val.get])
  obtain ⟨old', next', hm, K'⟩ := became_own (C' := vSlots ld lp off len cap m1 (rectifyCompressionState m1 cs) R) K rfl
    (by simp [putAt, Mem.frame, vSlots, Val.put, Val.set, like, three]) B
  subst hm
  exact ⟨old', next', exec_expr ((evs_call (e := .cons (.addr (.loc 2)) (.cons (.addr (.loc 3)) .nil))
    (vs := [.ptr ⟨i, 2, []⟩, .ptr ⟨i, 3, []⟩]) rfl).trans e), K'⟩

/-- What the body of the loop does with the chaining value and the two arrays: `o` is what the first call leaves, `b` whether a collision is found. -/
def simdOut (F : AsmFun) (chunk : List Byte) (o : AsmOut) : Bool → AsmOut
  | false => ⟨o.h, o.m1, rectifyCompressionState o.m1 o.cs⟩
  | true =>
    let o2 := F o.h chunk o.m1 (rectifyCompressionState o.m1 o.cs)
    F o2.h chunk o2.m1 o2.cs

/-- One iteration. -/
theorem simdChunk_ok (E : BlockEnv P N sha1Dvs 0) (hR : HasRectify P) (A : HasAsm P n F) (H : SimdMem G fr i ld lp rest off bs)
    (hp : 64 ≤ bs.length) (hcap : bs.length ≤ cap) (K : Keeps fr i ld (digVal rest h c) old next) {o : AsmOut} (ho : F h (bs.take 64) m1 cs = o) :
    match checkCollision sha1Dvs o.m1 (rectifyCompressionState o.m1 o.cs) o.h with
    | .ok b => ∃ old' next', exec (P.world N (d + 3)) N (simdChunk n) ⟨i, vSlots ld lp off bs.length cap m1 cs [], old, next⟩ =
        .ok (.normal, ⟨i, vSlots ld lp (off + 64) (bs.length - 64) (cap - 64) (simdOut F (bs.take 64) o b).m1
          (simdOut F (bs.take 64) o b).cs [], old', next'⟩) ∧
        Keeps fr i ld (digVal rest (simdOut F (bs.take 64) o b).h (c || b)) old' next'
    | .error e => ∃ s, exec (P.world N (d + 3)) N (simdChunk n) ⟨i, vSlots ld lp off bs.length cap m1 cs [], old, next⟩ = .error s ∧
        Stands e s := by
  have hi : ld.frame ≠ i := Nat.ne_of_lt H.ld_lt
  have v0 : evs (P.world N (d + 3)) (.slice (.loc 1) .omit (.num 64)) ⟨i, vSlots ld lp off bs.length cap m1 cs [], old, next⟩ =
      .ok ([.slice lp off 64 cap], ⟨i, vSlots ld lp off bs.length cap m1 cs [], old, next⟩) :=
    evs_slice (l := ⟨i, 1, []⟩) rfl rfl rfl (sliceOf_slice (off := off) (x := 0) (y := 64) (load_pget rfl) rfl rfl
      (Nat.zero_le _) (Nat.le_trans hp hcap))
  have e0 : exec (P.world N (d + 3)) N (.define 1 (.cons (.slice (.loc 1) .omit (.num 64)) .nil))
      ⟨i, vSlots ld lp off bs.length cap m1 cs [], old, next⟩ =
      .ok (.normal, ⟨i, vSlots ld lp off bs.length cap m1 cs [.slice lp off 64 cap], old, next⟩) :=
    exec_define (evs_one v0) rfl
  have e1 := asmExpr_ok (N := N) (d := d + 2) (len := bs.length) (cap := cap) (m1 := m1) (cs := cs) (R := []) A H hp K
  rw [ho] at e1
  have K1 := H.put K o.h c
  obtain ⟨old2, next2, e2, K2⟩ := rectExpr_ok (N := N) (d := d) (lp := lp) (off := off) (len := bs.length) (cap := cap) (m1 := o.m1) (cs := o.cs)
    (R := [.slice lp off 64 cap]) hR K1
  have d2 := H.look K2
  generalize hcs : rectifyCompressionState o.m1 o.cs = cs1 at e2
  -- the memory when `checkCollision` is called
  have t1 : At i old2 next2 ⟨0, 0, []⟩ (.slice ⟨1, 0, []⟩ 0 33 33) := by
    refine at_look (show (0 : Nat) ≠ i by have := H.ld_lt; omega) (show 0 < next2 by have := K2.lt; omega) ?_
    have h0 : old2 0 = G := (K2.frame (by have := H.ld_lt; omega) (by have := H.ld_ge; omega)).trans H.boot.vars
    have hT : G[0]? = some (.slice ⟨1, 0, []⟩ 0 33 33) := H.table
    simp only [look, h0, hT]
    rfl
  have t2 : At i old2 next2 ⟨1, 0, []⟩ (table sha1Dvs) := by
    refine at_look (show (1 : Nat) ≠ i by have := H.ld_lt; have := H.ld_ge; omega) (show 1 < next2 by have := K2.lt; have := H.ld_lt; have := H.ld_ge; omega) ?_
    have h0 : old2 1 = [table sha1Dvs] := (K2.frame (by have := H.ld_lt; have := H.ld_ge; omega) (by have := H.ld_ge; omega)).trans H.boot.table
    simp only [look, h0]
    rfl
  have hck := check_eq E.ubc E.check E.has d E.fuel sha1Dvs E.fuel' E.len o.m1 cs1 o.h ⟨i, 2, []⟩ ⟨i, 3, []⟩ (ld.sub (name! "h"))
    ⟨i, vSlots ld lp off bs.length cap o.m1 cs1 [.slice lp off 64 cap], old2, next2⟩ K2.lt E.glob
    (by rw [dvs_length]; exact t1.load _) t2.has (t2.load _) K2.lt (load_pget rfl) K2.lt (load_pget rfl)
    (Nat.lt_trans H.ld_lt K2.lt) (load_look (l := ld.sub (name! "h")) hi ((look_sub d2).trans (dig_get _ _ _)) _)
  have hcl : evs (P.world N (d + 3)) checkExpr ⟨i, vSlots ld lp off bs.length cap o.m1 cs1 [.slice lp off 64 cap], old2, next2⟩ =
      P.call N (d + 3) (name! "sha1cd") (name! "checkCollision") [.ptr ⟨i, 2, []⟩, .ptr ⟨i, 3, []⟩, .ptr (ld.sub (name! "h"))]
        ⟨i, vSlots ld lp off bs.length cap o.m1 cs1 [.slice lp off 64 cap], old2, next2⟩ :=
    evs_call (evs_cons (vs := [_]) (evs_addr (l := ⟨i, 2, []⟩) rfl) (evs_cons (vs := [_]) (evs_addr (l := ⟨i, 3, []⟩) rfl)
      (evs_one (evs_addr place_dig))))
  have pre : exec (P.world N (d + 3)) N (seqs [.define 1 (.cons (.slice (.loc 1) .omit (.num 64)) .nil), .expr (asmExpr n),
      .expr rectExpr, .define 1 (.cons checkExpr .nil),
      .ite (.loc 5) (.block 6 (seqs [setCol, .expr (asmExpr n), .expr (asmExpr n)])) .skip, nextChunk])
      ⟨i, vSlots ld lp off bs.length cap m1 cs [], old, next⟩ =
      exec (P.world N (d + 3)) N (seqs [.define 1 (.cons checkExpr .nil),
      .ite (.loc 5) (.block 6 (seqs [setCol, .expr (asmExpr n), .expr (asmExpr n)])) .skip, nextChunk])
      ⟨i, vSlots ld lp off bs.length cap o.m1 cs1 [.slice lp off 64 cap], old2, next2⟩ :=
    (exec_seq e0).trans ((exec_seq e1).trans (exec_seq e2))
  cases hres : checkCollision sha1Dvs o.m1 cs1 o.h with
  | error e =>
    rw [hres] at hck
    obtain ⟨s, hs1, hs2⟩ := hck
    exact ⟨s, exec_block_error (pre.trans (exec_seq_error (exec_define_error (evs_cons_error (hcl.trans hs1))))), hs2⟩
  | ok b =>
    rw [hres] at hck
    obtain ⟨C', hs1⟩ := hck
    have hdf : exec (P.world N (d + 3)) N (.define 1 (.cons checkExpr .nil))
      ⟨i, vSlots ld lp off bs.length cap o.m1 cs1 [.slice lp off 64 cap], old2, next2⟩ =
      .ok (.normal, ⟨i, vSlots ld lp off bs.length cap o.m1 cs1 [.slice lp off 64 cap, .bool b], _, _⟩) :=
      exec_define (evs_one (hcl.trans hs1)) rfl
    have K3 := K2.plus C'
    cases b with
    | false =>
      have hout : simdOut F (bs.take 64) o false = ⟨o.h, o.m1, cs1⟩ := by rw [simdOut, hcs]
      simp only [hout, Bool.or_false]
      exact ⟨_, _, exec_block (pre.trans ((exec_seq hdf).trans ((exec_seq ((exec_ite_false (ev_of (evs_loc rfl))).trans exec_skip)).trans
        (exec_last (next_ok hp hcap))))), K3⟩
    | true =>
      have d3 := H.look K3
      have hcol : exec (P.world N (d + 3)) N setCol ⟨i, vSlots ld lp off bs.length cap o.m1 cs1 [.slice lp off 64 cap, .bool true],
          fun k => if k = next2 then C' else old2 k, next2 + 1⟩ =
          .ok (.normal, ⟨i, vSlots ld lp off bs.length cap o.m1 cs1 [.slice lp off 64 cap, .bool true],
            putAt (fun k => if k = next2 then C' else old2 k) ld (digVal rest o.h true), next2 + 1⟩) := by
        refine exec_assign (places_cons (by simp) place_dig rfl) (evs_one rfl) (storeAll_one (store_part hi d3 ?_ (fixed_dig _ _ _)))
        simp only [digVal, Val.set, Except.ok.injEq, Val.struct.injEq, like]
        funext f
        by_cases hf : f = name! "col"
        · subst hf
          rfl
        · simp [hf]
      have K4 := H.put K3 o.h true
      have e5 := asmExpr_ok (N := N) (d := d + 2) (len := bs.length) (cap := cap) (m1 := o.m1) (cs := cs1) (R := [.bool true]) A H hp K4
      generalize ho2 : F o.h (bs.take 64) o.m1 cs1 = o2 at e5
      have K5 := H.put K4 o2.h true
      have e6 := asmExpr_ok (N := N) (d := d + 2) (len := bs.length) (cap := cap) (m1 := o2.m1) (cs := o2.cs) (R := [.bool true]) A H hp K5
      generalize ho3 : F o2.h (bs.take 64) o2.m1 o2.cs = o3 at e6
      have K6 := H.put K5 o3.h true
      have hout : simdOut F (bs.take 64) o true = o3 := by
        rw [simdOut, hcs, ho2, ho3]
      simp only [hout, Bool.or_true]
      have hb : exec (P.world N (d + 3)) N (.block 6 (seqs [setCol, .expr (asmExpr n), .expr (asmExpr n)]))
          ⟨i, vSlots ld lp off bs.length cap o.m1 cs1 [.slice lp off 64 cap, .bool true], fun k => if k = next2 then C' else old2 k, next2 + 1⟩ = _ :=
        exec_block ((exec_seq hcol).trans ((exec_seq e5).trans (exec_last e6)))
      exact ⟨_, _, exec_block (pre.trans ((exec_seq hdf).trans ((exec_seq ((exec_ite_true (ev_of (evs_loc rfl))).trans hb)).trans
        (exec_last (next_ok hp hcap))))), K6⟩

theorem moreV_ok {X : World} {len : Nat} :
    ev X (.bin .ge (.len (.loc 1)) (.num 64)) ⟨i, vSlots ld lp off len cap m1 cs R, old, next⟩ =
      .ok (.bool (decide ((len : Int) ≥ 64)), ⟨i, vSlots ld lp off len cap m1 cs R, old, next⟩) := by
  refine ev_of (evs_bin (x := .int len) (m1 := ⟨i, vSlots ld lp off len cap m1 cs R, old, next⟩) ?_ evs_num rfl)
  rfl

/-- The function in assembly as the model's loop takes it. -/
def AsmFun.go (F : AsmFun) : Nat → Regs → List Byte → (Fin 80 → Word) → (Fin 3 → Regs) → GoM AsmOut := fun _ h p m1 cs => .ok (F h p m1 cs)

/-- One iteration of the model's loop. -/
theorem simdLoop_step (F : AsmFun) (ds : List DvInfo) (k : Nat) (m1 : Fin 80 → Word) (cs : Fin 3 → Regs) (h : Regs) (c : Bool) (bs : List Byte)
    (hp : 64 ≤ bs.length) {o : AsmOut} (ho : F h (bs.take 64) m1 cs = o) : ∃ k' : Bool → Nat, simdLoop F.go ds k m1 cs ⟨h, c⟩ bs =
      match checkCollision ds o.m1 (rectifyCompressionState o.m1 o.cs) o.h with
      | .ok b => simdLoop F.go ds (k' b) (simdOut F (bs.take 64) o b).m1 (simdOut F (bs.take 64) o b).cs
          ⟨(simdOut F (bs.take 64) o b).h, c || b⟩ (bs.drop 64)
      | .error e => .error e := by
  refine ⟨fun b => if b then k + 3 else k + 1, ?_⟩
  rw [simdLoop, if_pos hp]
  simp only [AsmFun.go, ho, bind, Except.bind]
  cases checkCollision ds o.m1 (rectifyCompressionState o.m1 o.cs) o.h with
  | error e => rfl
  | ok b =>
    cases b with
    | true => simp only [if_true, simdOut, Bool.or_true]
    | false => simp only [Bool.false_eq_true, if_false, simdOut, Bool.or_false]

/-- The loop, sha1cdblock_amd64.go:34-51, sha1cdblock_arm64.go:30-47. -/
theorem simdChunks_ok (E : BlockEnv P N sha1Dvs 0) (hR : HasRectify P) (A : HasAsm P n F) : ∀ (f k off cap : Nat) (bs : List Byte)
    (m1 : Fin 80 → Word) (cs : Fin 3 → Regs) (h : Regs) (c : Bool) (old : Nat → List Val) (next : Nat),
    SimdMem G fr i ld lp rest off bs → bs.length ≤ cap → bs.length / 64 < f → Keeps fr i ld (digVal rest h c) old next →
    match simdLoop F.go sha1Dvs k m1 cs ⟨h, c⟩ bs with
    | .ok r => ∃ off' len' cap' m1' cs' old' next', runLoop (ev (P.world N (d + 3)) (.bin .ge (.len (.loc 1)) (.num 64)))
        (exec (P.world N (d + 3)) N (simdChunk n)) (exec (P.world N (d + 3)) N .skip) f
        ⟨i, vSlots ld lp off bs.length cap m1 cs [], old, next⟩ =
        .ok (.normal, ⟨i, vSlots ld lp off' len' cap' m1' cs' [], old', next'⟩) ∧ Keeps fr i ld (digVal rest r.h r.col) old' next'
    | .error e => ∃ s, runLoop (ev (P.world N (d + 3)) (.bin .ge (.len (.loc 1)) (.num 64)))
        (exec (P.world N (d + 3)) N (simdChunk n)) (exec (P.world N (d + 3)) N .skip) f
        ⟨i, vSlots ld lp off bs.length cap m1 cs [], old, next⟩ = .error s ∧ Stands e s := by
  intro f
  induction f with
  | zero => intro k off cap bs m1 cs h c old next H hcap hn; omega
  | succ f ih =>
    intro k off cap bs m1 cs h c old next H hcap hn K
    have hc := moreV_ok (X := P.world N (d + 3)) (i := i) (ld := ld) (lp := lp) (off := off) (cap := cap) (m1 := m1) (cs := cs) (R := [])
      (len := bs.length) (old := old) (next := next)
    by_cases hp : 64 ≤ bs.length
    · rw [decide_eq_true (by omega)] at hc
      obtain ⟨k', hst⟩ := simdLoop_step F sha1Dvs k m1 cs h c bs hp rfl
      rw [hst]
      have hb := simdChunk_ok (d := d) (m1 := m1) (cs := cs) E hR A H hp hcap K rfl
      generalize checkCollision sha1Dvs _ _ _ = R at hb
      match R, hb with
      | .ok b, ⟨old', next', hb1, hb2⟩ =>
        have := ih (k' b) (off + 64) (cap - 64) (bs.drop 64)
          (simdOut F (bs.take 64) (F h (bs.take 64) m1 cs) b).m1 (simdOut F (bs.take 64) (F h (bs.take 64) m1 cs) b).cs _ _ old' next' H.drop (by simp; omega) (by simp; omega) hb2
        rw [runLoop_step hc hb1 exec_skip]
        rw [List.length_drop] at this
        exact this
      | .error e, ⟨s, hb1, hb2⟩ => exact ⟨s, runLoop_error hc hb1, hb2⟩
    · rw [decide_eq_false (by omega)] at hc
      rw [simdLoop, if_neg hp]
      exact ⟨off, bs.length, cap, m1, cs, old, next, runLoop_end hc, K⟩

end

/-! ### `block` -/

/-- `if forceGeneric || !hasSHANI { blockGeneric(dig, p); return }`, sha1cdblock_amd64.go:26-29, sha1cdblock_arm64.go:22-25. -/
def simdIf (flag : Nat) : Stmt := .ite (.either (.glob (name! "sha1cd") (name! "forceGeneric")) (.un .not (.glob (name! "sha1cd") flag)))
  (.block 2 (seqs [.expr (.call (name! "sha1cd") (name! "blockGeneric") (.cons (.loc 0) (.cons (.loc 1) .nil))), .ret .nil])) .skip

/-- The body of `block`, sha1cdblock_amd64.go:26-51, sha1cdblock_arm64.go:22-47. -/
def simdBody (flag n : Nat) : Stmt := .block 2 (seqs [simdIf flag, .define 1 (.cons (.lit (.arr 80 .u32) .nil) .nil),
  .define 1 (.cons (.lit (.arr 3 (.arr 5 .u32)) .nil) .nil), .loop (.bin .ge (.len (.loc 1)) (.num 64)) .skip (simdChunk n)])

/-- `block`. -/
def simdFunc (flag n : Nat) : Func := ⟨name! "sha1cd", name! "block", [.ptr digTy, .slice .u8], [], false, some (simdBody flag n)⟩

/-- The program has `block` with the given flag and the given function in assembly. -/
structure HasSimd (P : Program) (flag n : Nat) (F : AsmFun) : Prop extends HasGeneric P, HasRectify P, HasAsm P n F where
  block : findFunc (name! "sha1cd") (name! "block") P.funcs = some (simdFunc flag n)
  force : P.glob (name! "sha1cd") (name! "forceGeneric") = some 1
  flag : P.glob (name! "sha1cd") flag = some 2

section
variable {P : Program} {N d n flag : Nat} {F : AsmFun} {G : List Val} {fg fl : Bool}

theorem ifCond_ok {X : World} {i : Nat} {C : List Val} {old : Nat → List Val} {next : Nat} (hi : 0 ≠ i)
    (h1 : X.glob (name! "sha1cd") (name! "forceGeneric") = some 1) (h2 : X.glob (name! "sha1cd") flag = some 2)
    (g0 : old 0 = G) (g1 : G[1]? = some (.bool fg)) (g2 : G[2]? = some (.bool fl)) :
    ev X (.either (.glob (name! "sha1cd") (name! "forceGeneric")) (.un .not (.glob (name! "sha1cd") flag))) ⟨i, C, old, next⟩ =
      .ok (.bool (fg || !fl), ⟨i, C, old, next⟩) := by
  have l1 : evs X (.glob (name! "sha1cd") (name! "forceGeneric")) ⟨i, C, old, next⟩ = .ok ([.bool fg], ⟨i, C, old, next⟩) :=
    evs_glob h1 (load_look hi (by simp only [look, g0, g1]; rfl) _)
  have l2 : evs X (.glob (name! "sha1cd") flag) ⟨i, C, old, next⟩ = .ok ([.bool fl], ⟨i, C, old, next⟩) :=
    evs_glob h2 (load_look hi (by simp only [look, g0, g2]; rfl) _)
  have l3 : evs X (.un .not (.glob (name! "sha1cd") flag)) ⟨i, C, old, next⟩ = .ok ([.bool !fl], ⟨i, C, old, next⟩) := by
    show (evs X (.glob (name! "sha1cd") flag) >>= _) _ = _
    rw [bind_of l2, bind_of (single_one _ _)]
    rfl
  refine ev_of ?_
  show (evs X (.glob (name! "sha1cd") (name! "forceGeneric")) >>= _) _ = _
  rw [bind_of l1, bind_of (single_one _ _)]
  cases fg with
  | true => rfl
  | false => exact l3

/-- `block` of a build with assembly: with the instructions it is the loop around the function in assembly, without them it is `blockGeneric`. -/
theorem simd_block (S : HasSimd P flag n F) (hN33 : 33 < N) (hT : HasTable G) (g1 : G[1]? = some (.bool fg)) (g2 : G[2]? = some (.bool fl)) :
    CallsBlock P N (d + 5) G (if fg || !fl then blockGeneric sha1Dvs else simdBlock F.go sha1Dvs) := by
  intro ld lp rest h c off cap bs m hN hm hG h2 hl hp hd hbs hc
  have E := S.toHasGeneric.env hN33
  rw [call_of (by rfl) S.block rfl]
  have hnp : ¬[Val.ptr ld, .slice lp off bs.length cap].length < (simdFunc flag n).params.length := Nat.lt_irrefl 2
  have hpass : passed (simdFunc flag n).params [.ptr ld, .slice lp off bs.length cap] ++
      (if (simdFunc flag n).named then (simdFunc flag n).results.map zero else []) = [.ptr ld, .slice lp off bs.length cap] := rfl
  have hent : m.enter [.ptr ld, .slice lp off bs.length cap] =
      ⟨m.next, [.ptr ld, .slice lp off bs.length cap], m.frame, m.next + 1⟩ := rfl
  have hne : ld.frame ≠ m.next := Nat.ne_of_lt hl
  have hcond := ifCond_ok (X := P.world N (d + 4)) (i := m.next) (C := [.ptr ld, .slice lp off bs.length cap]) (old := m.frame)
    (next := m.next + 1) (by omega) S.force S.flag hG.vars g1 g2
  by_cases hb : (fg || !fl) = true
  · rw [if_pos hb]
    rw [hb] at hcond
    have hfr : ∀ k, k < m.next → Mem.frame ⟨m.next, [.ptr ld, .slice lp off bs.length cap], m.frame, m.next + 1⟩ k = m.frame k :=
      fun k hk => frame_old (by omega)
    have B := block_eq E S.generic d hN (blockArgs (m := ⟨m.next, [.ptr ld, .slice lp off bs.length cap], m.frame, m.next + 1⟩) hT
      (Nat.lt_succ_self _) ⟨by rw [hfr _ (by omega), hG.vars], by rw [hfr _ (by omega), hG.table]⟩ h2 (Nat.lt_succ_of_lt hl)
      (Nat.lt_succ_of_lt hp) ((look_congr (hfr _ hl)).trans hd)
      (fun c' q hq => (look_congr (by simp only [withDig, putAt]; rw [show (lp.sub (off + q)).frame = lp.frame from rfl, hfr _ hp])).trans
        (hbs h c' q hq)) hc)
    have hcall : evs (P.world N (d + 4)) (.call (name! "sha1cd") (name! "blockGeneric") (.cons (.loc 0) (.cons (.loc 1) .nil)))
        ⟨m.next, [.ptr ld, .slice lp off bs.length cap], m.frame, m.next + 1⟩ =
        P.call N (d + 4) (name! "sha1cd") (name! "blockGeneric") [.ptr ld, .slice lp off bs.length cap]
        ⟨m.next, [.ptr ld, .slice lp off bs.length cap], m.frame, m.next + 1⟩ :=
      evs_call (evs_cons (evs_loc rfl) (evs_one (evs_loc rfl)))
    generalize hr : blockGeneric sha1Dvs ⟨h, c⟩ bs = R at B
    match R, B with
    | .error e, ⟨s, w1, w2⟩ =>
      refine ⟨s, runFunc_error rfl hnp ?_, w2⟩
      rw [hpass, hent]
      exact exec_block_error (exec_seq_error ((exec_ite_true hcond).trans (exec_block_error (exec_seq_error (exec_expr_error (hcall.trans w1))))))
    | .ok r, ⟨m1, w1, w2⟩ =>
      obtain ⟨old1, next1, k1, K1⟩ := became_keeps (w := digVal rest r.h r.col) (C := [.ptr ld, .slice lp off bs.length cap]) (keeps_self hd) hl hd
        (fixed_struct _) w2
      subst k1
      have hx : exec (P.world N (d + 4)) N (simdBody flag n) ⟨m.next, [.ptr ld, .slice lp off bs.length cap], m.frame, m.next + 1⟩ =
          .ok (.ret [], ⟨m.next, [.ptr ld, .slice lp off bs.length cap], old1, next1⟩) :=
        exec_block_ret (exec_seq_ret ((exec_ite_true hcond).trans (exec_block_ret ((exec_seq (exec_expr (hcall.trans w1))).trans
          (exec_seq_ret rfl)))))
      exact ⟨_, runFunc_of (m' := ⟨m.next, [.ptr ld, .slice lp off bs.length cap], old1, next1⟩) rfl hnp (by rw [hpass, hent]; exact hx) rfl,
        leave_became K1 _⟩
  · rw [if_neg hb]
    rw [Bool.eq_false_iff.mpr hb] at hcond
    have H : SimdMem G m.frame m.next ld lp rest off bs := ⟨hG, hT, h2, hl, hp, ⟨_, hd⟩, hbs⟩
    have e0 : exec (P.world N (d + 4)) N (simdIf flag) ⟨m.next, [.ptr ld, .slice lp off bs.length cap], m.frame, m.next + 1⟩ =
        .ok (.normal, ⟨m.next, [.ptr ld, .slice lp off bs.length cap], m.frame, m.next + 1⟩) := (exec_ite_false hcond).trans exec_skip
    have e1 : exec (P.world N (d + 4)) N (.define 1 (.cons (.lit (.arr 80 .u32) .nil) .nil))
        ⟨m.next, [.ptr ld, .slice lp off bs.length cap], m.frame, m.next + 1⟩ =
        .ok (.normal, ⟨m.next, [.ptr ld, .slice lp off bs.length cap, words 80 fun _ => 0], m.frame, m.next + 1⟩) := by
      rw [← zeros_words]; rfl
    have e2 : exec (P.world N (d + 4)) N (.define 1 (.cons (.lit (.arr 3 (.arr 5 .u32)) .nil) .nil))
        ⟨m.next, [.ptr ld, .slice lp off bs.length cap, words 80 fun _ => 0], m.frame, m.next + 1⟩ =
        .ok (.normal, ⟨m.next, vSlots ld lp off bs.length cap (fun _ => 0) (fun _ => ⟨0, 0, 0, 0, 0⟩) [], m.frame, m.next + 1⟩) := by
      rw [vSlots, ← zeros_three]; rfl
    have hL := simdChunks_ok (d := d + 1) (N := N) E S.toHasRectify S.toHasAsm N 0 off cap bs (fun _ => 0) (fun _ => ⟨0, 0, 0, 0, 0⟩) h c m.frame
      (m.next + 1) H hc hN (keeps_self hd)
    rw [simdBlock]
    generalize hr : simdLoop F.go sha1Dvs 0 (fun _ => 0) (fun _ => ⟨0, 0, 0, 0, 0⟩) ⟨h, c⟩ bs = R at hL
    match R, hL with
    | .error e, ⟨s, w1, w2⟩ =>
      have w3 : exec (P.world N (d + 4)) N (.loop (.bin .ge (.len (.loc 1)) (.num 64)) .skip (simdChunk n))
        ⟨m.next, vSlots ld lp off bs.length cap (fun _ => 0) (fun _ => ⟨0, 0, 0, 0, 0⟩) [], m.frame, m.next + 1⟩ = _ := w1
      refine ⟨s, runFunc_error rfl hnp ?_, w2⟩
      rw [hpass, hent]
      exact exec_block_error ((exec_seq e0).trans ((exec_seq e1).trans ((exec_seq e2).trans (exec_seq_error w3))))
    | .ok r, ⟨off', len', cap', m1', cs', old', next', w1, K'⟩ =>
      have w3 : exec (P.world N (d + 4)) N (.loop (.bin .ge (.len (.loc 1)) (.num 64)) .skip (simdChunk n))
        ⟨m.next, vSlots ld lp off bs.length cap (fun _ => 0) (fun _ => ⟨0, 0, 0, 0, 0⟩) [], m.frame, m.next + 1⟩ = _ := w1
      have hx : exec (P.world N (d + 4)) N (simdBody flag n) ⟨m.next, [.ptr ld, .slice lp off bs.length cap], m.frame, m.next + 1⟩ =
          .ok (.normal, ⟨m.next, [.ptr ld, .slice lp off' len' cap'], old', next'⟩) :=
        exec_block ((exec_seq e0).trans ((exec_seq e1).trans ((exec_seq e2).trans (exec_last w3))))
      exact ⟨_, runFunc_of (m' := ⟨m.next, [.ptr ld, .slice lp off' len' cap'], old', next'⟩) rfl hnp (by rw [hpass, hent]; exact hx) rfl,
        leave_became K' _⟩

end

/-- What a function in assembly does that computes the compression function. -/
def rightAsm : AsmFun := fun H p _ _ => ⟨Spec.compress H (Spec.toBlock p), fun i => Spec.sched (Spec.toBlock p) i, rawCs H (Spec.toBlock p)⟩

/-- `block` is `blockGeneric` on every machine. -/
theorem simd_calls {P : Program} {N d n flag : Nat} {G : List Val} {fg fl : Bool} (S : HasSimd P flag n rightAsm) (hN : 33 < N)
    (hT : HasTable G) (g1 : G[1]? = some (.bool fg)) (g2 : G[2]? = some (.bool fl)) : CallsBlock P N (d + 5) G (blockGeneric sha1Dvs) := by
  have h : simdBlock rightAsm.go sha1Dvs = blockGeneric sha1Dvs := by
    funext c p
    rw [simdBlock_table sha1Dvs_impl rightAsm.go (fun _ _ _ _ _ _ => rfl) c p]
    exact (blockNoasm_impl c p).symm
  have this : CallsBlock P N (d + 5) G (if fg || !fl then blockGeneric sha1Dvs else simdBlock rightAsm.go sha1Dvs) :=
    simd_block S hN hT g1 g2
  rw [h, ite_self] at this
  exact @this

end Verif.Source.Go
