import Verif.Proofs.CProc

/-!
`SHA1DCUpdate` as it is read from the text of cgo/sha1.c is the model's.
-/

namespace Verif.Source.C

open Verif Verif.Source Verif.Source.Go Verif.Model
open Verif.Model.C (Ctx Cfg)

/-- `sha1_process(x, (uint32_t*)e)` where the pointer `x` is in slot `q` (cgo/sha1.c:2069,2079,2082,2118). -/
def callProc (q : Nat) (e : Expr) : Stmt :=
  .expr (.call (name! "C") (name! "sha1_process") (.cons (.loc q) (.cons (.call (name! "C") (name! "words") (.cons e .nil)) .nil)))

/-- `memcpy(ctx->buffer + a, buf, b)` (cgo/sha1.c:2068,2081,2090). -/
def copyIn (a b : Expr) (k : Expr) : Stmt :=
  .expr (.copy (.slice (cF (name! "buffer")) a b) (.slice (.loc 1) (.num 0) k))

/-- `buf += a` (cgo/sha1.c:2070,2084). -/
def skipBuf (a : Expr) : Stmt := put1 (.loc 1) (.slice (.loc 1) a .omit)

/-- cgo/sha1.c:2057. -/
def updInit : Stmt := .seq (.var .u32) (.var .u32)
/-- cgo/sha1.c:2059-2060. -/
def updEmpty : Stmt := .ite (.bin .eq (.loc 2) (.num 0)) (.ret .nil) .skip
/-- cgo/sha1.c:2062. -/
def updLeft : Stmt := put1 (.loc 3) (.conv .u32 (.bin .and (cF (name! "total")) (.num 63)))
/-- cgo/sha1.c:2063. -/
def updRest : Stmt := put1 (.loc 4) (.bin .sub (.num 64) (.loc 3))
/-- cgo/sha1.c:2067-2072. -/
def fillBody : List Stmt := [.opAssign .add (cF (name! "total")) (.conv .u64 (.loc 4)),
  copyIn (.loc 3) (.bin .add (.conv .u64 (.loc 3)) (.conv .u64 (.loc 4))) (.bin .add (.num 0) (.conv .u64 (.loc 4))),
  callProc 0 (whole' (cF (name! "buffer"))), skipBuf (.loc 4), .opAssign .sub (.loc 2) (.conv .u64 (.loc 4)),
  put1 (.loc 3) (.num 0)]
/-- cgo/sha1.c:2065-2073. -/
def updFillS : Stmt := .ite (.both (.bin .ne (.loc 3) (.num 0)) (.bin .ge (.loc 2) (.conv .u64 (.loc 4))))
  (.block 5 (seqs fillBody)) .skip
/-- cgo/sha1.c:2076-2085. -/
def bulkDo : Bool → List Stmt
  | true => [callProc 0 (.loc 1)]
  | false => [copyIn (.num 0) (.num 64) (.num 64), callProc 0 (whole' (cF (name! "buffer")))]
/-- cgo/sha1.c:2074-2086. -/
def bulkBody (u : Bool) : Stmt := .block 5 (seqs (.opAssign .add (cF (name! "total")) (.num 64) :: (bulkDo u ++
  [skipBuf (.num 64), .opAssign .sub (.loc 2) (.num 64)])))
/-- cgo/sha1.c:2074-2086. -/
def updBulkS (u : Bool) : Stmt := .leave 0 (.loop (.bin .ge (.loc 2) (.num 64)) .skip (bulkBody u))
/-- cgo/sha1.c:2087-2091. -/
def updTailS : Stmt := .ite (.bin .gt (.loc 2) (.num 0)) (.block 5 (seqs [.opAssign .add (cF (name! "total")) (.loc 2),
  copyIn (.loc 3) (.bin .add (.conv .u64 (.loc 3)) (.loc 2)) (.bin .add (.num 0) (.loc 2))])) .skip

/-- cgo/sha1.c:2055-2092. -/
def updBody (u : Bool) : Stmt :=
  .block 3 (seqs [updInit, updEmpty, updLeft, updRest, updFillS, updBulkS u, updTailS])

/-- cgo/sha1.c:2055-2092. -/
def updFuncU : Func := evaluated! funcOf funcs5U (name! "SHA1DCUpdate")
/-- cgo/sha1.c:2055-2092. -/
def updFuncA : Func := evaluated! funcOf funcs5A (name! "SHA1DCUpdate")

theorem updFuncU_body : updFuncU.body = some (updBody true) := by by_kernel
theorem updFuncA_body : updFuncA.body = some (updBody false) := by by_kernel

/-- Words made of four bytes each, in the byte order of the processor (cgo/sha1.c:146-157). -/
def blockOf (be : Bool) (bs : List Byte) (t : Fin 16) : Word :=
  bif be then bs.getD (4 * t.val) 0 ++ bs.getD (4 * t.val + 1) 0 ++ bs.getD (4 * t.val + 2) 0 ++ bs.getD (4 * t.val + 3) 0
  else bs.getD (4 * t.val + 3) 0 ++ bs.getD (4 * t.val + 2) 0 ++ bs.getD (4 * t.val + 1) 0 ++ bs.getD (4 * t.val) 0

theorem loads_blockOf {cfg : Model.C.Plat} {bs : List Byte} (h : 64 ≤ bs.length) : Loads cfg bs (blockOf cfg.machineBE bs) := by
  intro t ht
  have hd : bs.drop (4 * t) = bs.getD (4 * t) 0 :: bs.getD (4 * t + 1) 0 :: bs.getD (4 * t + 2) 0 :: bs.getD (4 * t + 3) 0 ::
      bs.drop (4 * t + 4) := by
    rw [List.drop_eq_getElem_cons (by omega), List.drop_eq_getElem_cons (by omega), List.drop_eq_getElem_cons (by omega),
      List.drop_eq_getElem_cons (by omega)]
    simp only [List.getD_eq_getElem?_getD]
    rw [List.getElem?_eq_getElem (by omega), List.getElem?_eq_getElem (by omega), List.getElem?_eq_getElem (by omega),
      List.getElem?_eq_getElem (by omega)]
    rfl
  unfold Model.C.load32 blockOf
  rw [hd]
  cases cfg.machineBE <;> rfl

theorem words_block {be : Bool} {bs : List Byte} {f : Nat → Val} {off : Nat} (hf : ∀ q, q < 64 → f (off + q) = .u8 (bs.getD q 0)) :
    (Val.arr 16 fun k => bif Nat.blt k 16 then wordAt be f (off + 4 * k) else .u32 0) = words 16 (blockOf be bs) := by
  unfold words
  congr 1
  funext k
  by_cases h : k < 16
  · rw [dif_pos h, show Nat.blt k 16 = true by simpa [Nat.blt_eq] using h]
    unfold wordAt blockOf
    rw [hf _ (by omega), Nat.add_assoc, hf _ (by omega), Nat.add_assoc, hf _ (by omega), Nat.add_assoc, hf _ (by omega)]
    rfl
  · rw [dif_neg h, show Nat.blt k 16 = false from Bool.eq_false_iff.2 (by simpa [Nat.blt_eq] using h)]
    rfl

/-- The function that the interpreter has for pointer conversions (cgo/sha1.c:2069,2079,2082,2118). -/
structure HasWords (P : Program) (be : Bool) : Prop where
  words : findFunc (name! "C") (name! "words") P.funcs =
    some ⟨name! "C", name! "words", [.slice .u8], [.slice .u32], false, none⟩
  asm : P.asm = wordsFn be
  process : findFunc (name! "C") (name! "sha1_process") P.funcs = some processFunc

section
variable {P : Program} {be : Bool} {N d i next : Nat} {old fr : Nat → List Val} {C : List Val} {L lp lq : Loc} {cb : Val}
  {c c' c0 : Ctx} {X : World}

theorem words_call (hW : HasWords P be) {e : Expr} {off n cap nn : Nat} {f : Nat → Val} {bs : List Byte}
    (he : evs (P.world N (d + 1)) e ⟨i, C, old, next⟩ = .ok ([.slice lq off n cap], ⟨i, C, old, next⟩)) (hn : 64 ≤ n)
    (hi : lq.frame ≠ i) (hl : look old lq = .ok (.arr nn f)) (hf : ∀ q, q < 64 → f (off + q) = .u8 (bs.getD q 0)) :
    evs (P.world N (d + 1)) (.call (name! "C") (name! "words") (.cons e .nil)) ⟨i, C, old, next⟩ =
      .ok ([whole ⟨next, 0, []⟩ 16], ⟨i, C, fun k => if k = next then [words 16 (blockOf be bs)] else old k, next + 1⟩) := by
  refine (evs_call (evs_one he)).trans ?_
  have hx : extern (name! "C") (name! "words") [.slice lq off n cap] = none := rfl
  simp only [Program.world, Program.call, hx, hW.words, hW.asm, List.zipWith, ofTy]
  have hld := load_look (next := next) hi hl C
  unfold wordsFn
  rw [if_pos rfl]
  simp only [bind_run, Go.need, parts, if_pos hn, arrayAt, hld, pure_run, Go.alloc]
  rw [words_block hf]

/-- What a function that hashes finds: the context, and the bytes, in frames below its own (cgo/sha1.c:2055-2139). -/
structure Found (fr : Nat → List Val) (i : Nat) (L : Loc) (cb : Val) (c : Ctx) : Prop where
  ctx : look fr L = .ok (ctxV cb c)
  dvs : look fr ⟨0, 0, []⟩ = .ok dvsV
  lt : L.frame < i
  pos : L.frame ≠ 0

theorem Found.now (F : Found fr i L cb c0) (K : Keeps fr i L (ctxV cb c) old next) : look old L = .ok (ctxV cb c) :=
  K.look F.lt F.ctx (fixed_struct _)

/-- `sha1_process(ctx, (uint32_t*)e)` (cgo/sha1.c:2069,2079,2082,2118). -/
theorem proc_do (hP : HasC P be) (hW : HasWords P be) (hN : 80 < N) (F : Found fr i L cb c0)
    (K : Keeps fr i L (ctxV cb c) old next) {q : Nat} (hC : C[q]? = some (.ptr L)) {e : Expr} {off n cap nn : Nat} {f : Nat → Val}
    {bs : List Byte}
    (he : evs (P.world N (d + 3)) e ⟨i, C, old, next⟩ = .ok ([.slice lq off n cap], ⟨i, C, old, next⟩)) (hn : 64 ≤ n)
    (hi : lq.frame ≠ i) (hl : look old lq = .ok (.arr nn f)) (hf : ∀ q, q < 64 → f (off + q) = .u8 (bs.getD q 0))
    (hb : 64 ≤ bs.length) {u : Bool} (h : Model.C.sha1_process ⟨be, be, u⟩ c bs = .ok c') :
    ∃ old' next', exec (P.world N (d + 3)) N (callProc q e) ⟨i, C, old, next⟩ = .ok (.normal, ⟨i, C, old', next'⟩) ∧
      Keeps fr i L (ctxV cb c') old' next' := by
  have hlt := K.lt
  have hLi := F.lt
  have hp := F.pos
  have K1 : Keeps fr i L (ctxV cb c) (fun k => if k = next then [words 16 (blockOf be bs)] else old k) (next + 1) := by
    refine ⟨by omega, fun k hk => ?_⟩
    show (if k = next then _ else old k) = _
    rw [if_neg (by omega), K.eq k hk]
  have hev := evs_call (p := name! "C") (n := name! "sha1_process") (evs_cons (evs_loc (m := ⟨i, C, old, next⟩) hC)
    (evs_one (words_call hW he hn hi hl hf)))
  obtain ⟨m', h1, h2⟩ := process_run (d := d) hP hN (L := L) (l := ⟨next, 0, []⟩)
    (m := ⟨i, C, fun k => if k = next then [words 16 (blockOf be bs)] else old k, next + 1⟩) (cb := cb) (c := c)
    (by rw [look_old (Nat.ne_of_lt F.lt)]; exact F.now K1)
    (by
      rw [look_old (show (0 : Nat) ≠ i by omega), K1.other (l := ⟨0, 0, []⟩) (show 0 < i by omega) (Ne.symm hp), F.dvs])
    (show L.frame < next + 1 by omega) hp (cfg := ⟨be, be, u⟩) rfl (loads_blockOf (cfg := ⟨be, be, u⟩) hb)
    (by
      rw [look_old (show next ≠ i by omega)]
      unfold look
      simp only [if_true]
      rfl)
    (show next < next + 1 by omega) (show next ≠ L.frame by omega) h
  obtain ⟨old', next', k1, k2⟩ := became_keeps K1 F.lt F.ctx (fixed_struct _) h2
  subst k1
  exact ⟨old', next', exec_expr (hev.trans ((call_of rfl hW.process processFunc_body).trans h1)), k2⟩

/-- The variables of `SHA1DCUpdate` (cgo/sha1.c:2055-2057). -/
def updC (L lp : Loc) (off n cap : Nat) (w : Word64) (l f : Word) : List Val :=
  [.ptr L, .slice lp off n cap, .u64 w, .u32 l, .u32 f]

/-- `memcpy` into the buffer of a context (cgo/sha1.c:2068,2081,2090). -/
theorem copy_ctx (hi : L.frame ≠ i) (hL : look old L = .ok (ctxV cb c)) {lo off cap cap' : Nat} {bs : List Byte}
    (hl : lp.frame ≠ i) (hb : Bytes old lp off cap bs) (h0 : 0 < bs.length) {b : Buf}
    (h : Model.C.memcpyBuf c.buffer lo bs = .ok b) :
    copySlice (.slice (L.sub (name! "buffer")) lo bs.length cap') (.slice lp off bs.length cap) ⟨i, C, old, next⟩ =
      .ok (.int bs.length, ⟨i, C, Go.putAt old L (ctxV cb { c with buffer := b }), next⟩) := by
  obtain ⟨g, g1, g2⟩ := sliceElems_bytes (C := C) (next := next) hl hb
  unfold Model.C.memcpyBuf at h
  split at h
  · rename_i h64
    have hb' := Except.ok.inj h
    have hsp := splice_bytes (x := c.buffer.1) (p := bs) (n := 64) (off := lo) (k := bs.length) c.buffer.2 h64
      (Nat.le_refl _) g2
    rw [List.take_length] at hsp
    have hbv : b.1 = c.buffer.1.take lo ++ bs ++ c.buffer.1.drop (lo + bs.length) := by rw [← hb']
    have hld : load (L.sub (name! "buffer")) ⟨i, C, old, next⟩ = .ok (.arr 64 (byteArr c.buffer.1), ⟨i, C, old, next⟩) :=
      load_look (l := L.sub (name! "buffer")) hi (look_field hL) C
    simp only [copySlice, bind_run, Go.need, parts, g1, Nat.min_self]
    rw [if_neg (by omega)]
    simp only [bind_run, storeMany, hld]
    rw [if_pos h64, hsp, ← hbv]
    have hs : (ctxV cb c).set [name! "buffer"] (.arr 64 (byteArr b.1)) = .ok (ctxV cb { c with buffer := b }) := by
      have e : ctxV cb { c with buffer := b } = .struct (withField (ctxFn cb c) (name! "buffer") (.arr 64 (byteArr b.1))) :=
        congrArg Val.struct (ctx_buffer cb c b).symm
      rw [e, ctxV]
      unfold withField
      rfl
    have hst : store (L.sub (name! "buffer")) (.arr 64 (byteArr b.1)) ⟨i, C, old, next⟩ = .ok ((), _) :=
      store_part (q := [name! "buffer"]) hi hL hs (fixed_struct _)
    rw [hst]
    rfl
  · cases h

theorem copyIn_do (hi : L.frame ≠ i) (hL : look old L = .ok (ctxV cb c)) {lo k off n cap : Nat} {bs : List Byte}
    (hl : lp.frame ≠ i) (hb : Bytes old lp off cap bs) (hk0 : 0 < k) (hk : k ≤ bs.length) (hn : bs.length ≤ n) (hcap : n ≤ cap)
    {a b e : Expr} {va vb ve : Val} {Y : List Val}
    (ha : evs X a ⟨i, .ptr L :: .slice lp off n cap :: Y, old, next⟩ =
      .ok ([va], ⟨i, .ptr L :: .slice lp off n cap :: Y, old, next⟩)) (hva : number va = some (lo : Int))
    (hb2 : evs X b ⟨i, .ptr L :: .slice lp off n cap :: Y, old, next⟩ =
      .ok ([vb], ⟨i, .ptr L :: .slice lp off n cap :: Y, old, next⟩)) (hvb : number vb = some ((lo + k : Nat) : Int))
    (he : evs X e ⟨i, .ptr L :: .slice lp off n cap :: Y, old, next⟩ =
      .ok ([ve], ⟨i, .ptr L :: .slice lp off n cap :: Y, old, next⟩)) (hve : number ve = some (k : Int)) {B : Buf}
    (h : Model.C.memcpyBuf c.buffer lo (bs.take k) = .ok B) :
    exec X N (copyIn a b e) ⟨i, .ptr L :: .slice lp off n cap :: Y, old, next⟩ =
      .ok (.normal, ⟨i, .ptr L :: .slice lp off n cap :: Y, Go.putAt old L (ctxV cb { c with buffer := B }), next⟩) := by
  have htk : (bs.take k).length = k := by simp; omega
  have h64 : lo + k ≤ 64 := by
    unfold Model.C.memcpyBuf at h
    split at h
    · rename_i h64; rwa [htk] at h64
    · cases h
  have hld : load (L.sub (name! "buffer")) ⟨i, .ptr L :: .slice lp off n cap :: Y, old, next⟩ =
      .ok (.arr 64 (byteArr c.buffer.1), ⟨i, .ptr L :: .slice lp off n cap :: Y, old, next⟩) :=
    load_look (l := L.sub (name! "buffer")) hi (look_field hL) _
  have e1 := evs_slice (X := X) (e := cF (name! "buffer")) (lo := a) (hi := b) place_dig ha hb2
    (sliceOf_arr (x := lo) (y := lo + k) hld (bound_some hva) (bound_some hvb) (by omega) h64)
  have e2 := evs_slice (X := X) (e := .loc 1) (l := ⟨i, 1, []⟩) (lo := .num 0) (hi := e)
    (m := ⟨i, .ptr L :: .slice lp off n cap :: Y, old, next⟩) rfl evs_num he
    (sliceOf_slice (x := 0) (y := k) (load_pget rfl) (bound_some rfl) (bound_some hve) (by omega) (by omega))
  have e3 := copy_ctx (next := next) (C := .ptr L :: .slice lp off n cap :: Y) (cap' := 64 - lo) hi hL hl (hb.take hk) (by omega) h
  rw [htk] at e3
  rw [show lo + k - lo = k by omega] at e1
  exact exec_expr (evs_copy e1 e2 e3)

theorem skip_do {k off n cap : Nat} (hk : k ≤ n) (hcap : n ≤ cap) {a : Expr} {va x0 : Val} {Y : List Val}
    (ha : evs X a ⟨i, x0 :: .slice lp off n cap :: Y, old, next⟩ = .ok ([va], ⟨i, x0 :: .slice lp off n cap :: Y, old, next⟩))
    (hva : number va = some (k : Int)) :
    exec X N (skipBuf a) ⟨i, x0 :: .slice lp off n cap :: Y, old, next⟩ =
      .ok (.normal, ⟨i, x0 :: .slice lp (off + k) (n - k) (cap - k) :: Y, old, next⟩) := by
  refine exec_assign places_one (evs_one (evs_slice (l := ⟨i, 1, []⟩) (lo := a) (hi := .omit) rfl ha rfl
    (sliceOf_slice (x := k) (y := n) (load_pget rfl) (bound_some hva) bound_none hk hcap))) (storeAll_one ?_)
  simp [store, Mem.frame, Val.set, Mem.setFrame, like]

/-- The bytes that remain (cgo/sha1.c:2055). -/
structure Src (fr : Nat → List Val) (lp : Loc) (off n cap : Nat) (w : Word64) (bs : List Byte) : Prop where
  bytes : Bytes fr lp off cap bs
  le : bs.length ≤ n
  cap : n ≤ cap
  len : w.toNat = bs.length

theorem Src.drop {off n cap : Nat} {w w' : Word64} {bs : List Byte} (S : Src fr lp off n cap w bs) {k : Nat} (hk : k ≤ bs.length)
    (hw : w'.toNat = bs.length - k) : Src fr lp (off + k) (n - k) (cap - k) w' (bs.drop k) := by
  have h1 := S.le
  have h2 := S.cap
  exact ⟨S.bytes.drop hk, by simp; omega, by omega, by simp [hw]⟩

/-- `ctx->total += e` (cgo/sha1.c:2067,2076,2089). -/
theorem total_do (hi : L.frame ≠ i) (hL : look old L = .ok (ctxV cb c)) {e : Expr} {Y : List Val} {x : Word64}
    (h : rexec noPure (.opAssign .add (cF (name! "total")) e) ([some (ctxV cb c)], .ptr L :: Y) =
      some ([some (.struct (withField (ctxFn cb c) (name! "total") (.u64 (c.total + x))))], .ptr L :: Y)) :
    exec X N (.opAssign .add (cF (name! "total")) e) ⟨i, .ptr L :: Y, old, next⟩ =
      .ok (.normal, ⟨i, .ptr L :: Y, Go.putAt old L (ctxV cb { c with total := c.total + x }), next⟩) := by
  rw [ctx_total] at h
  exact exec_ctx h rfl hL hi

theorem evs_ctx {e : Expr} {vs : List Val} (h : pvs noPure [some (ctxV cb c)] C e = some vs)
    (hC : C[0]? = some (.ptr L)) (hL : look old L = .ok (ctxV cb c)) (hi : L.frame ≠ i) :
    evs X e ⟨i, C, old, next⟩ = .ok (vs, ⟨i, C, old, next⟩) := by
  have hs := (stage_ctx hC hL hi).seen (next := next)
  simp only [puts] at hs
  rw [putAt_self hL] at hs
  exact evs_pvs ((rights_none X).right _ _) hs _ _ h

/-- The call with the buffer of the context (cgo/sha1.c:2069,2082,2118). -/
theorem procBuf_do (hP : HasC P be) (hW : HasWords P be) (hN : 80 < N) (F : Found fr i L cb c0)
    (K : Keeps fr i L (ctxV cb c) old next) {q : Nat} (hC : C[q]? = some (.ptr L)) {u : Bool}
    (h : Model.C.sha1_process ⟨be, be, u⟩ c c.buffer.1 = .ok c') :
    ∃ old' next', exec (P.world N (d + 3)) N (callProc q (whole' (.field (.loc q) (name! "buffer")))) ⟨i, C, old, next⟩ =
        .ok (.normal, ⟨i, C, old', next'⟩) ∧ Keeps fr i L (ctxV cb c') old' next' := by
  have hi : L.frame ≠ i := Nat.ne_of_lt F.lt
  have hL := F.now K
  have hld : load (L.sub (name! "buffer")) ⟨i, C, old, next⟩ = .ok (.arr 64 (byteArr c.buffer.1), ⟨i, C, old, next⟩) :=
    load_look (l := L.sub (name! "buffer")) hi (look_field hL) _
  have hpl : place (P.world N (d + 3)) (.field (.loc q) (name! "buffer")) ⟨i, C, old, next⟩ =
      .ok (L.sub (name! "buffer"), ⟨i, C, old, next⟩) := by
    refine place_field (l := ⟨i, q, []⟩) (m1 := ⟨i, C, old, next⟩) rfl ?_
    have hl : load ⟨i, q, []⟩ ⟨i, C, old, next⟩ = .ok (.ptr L, ⟨i, C, old, next⟩) :=
      load_some (v := .ptr L) (by simpa [Mem.frame] using hC) rfl
    simp only [through, bind_run, hl, pure_run]
  have he := evs_slice (lo := .omit) (hi := .omit) hpl evs_omit evs_omit
    (sliceOf_arr hld (x := 0) (y := 64) bound_none bound_none (Nat.zero_le _) (Nat.le_refl _))
  exact proc_do hP hW hN F K hC he (Nat.le_refl _) (lq := L.sub _) hi (look_field hL) (bs := c.buffer.1)
    (fun q _ => by rw [Nat.zero_add]) (Nat.le_of_eq c.buffer.2.symm) h

theorem kept {off cap : Nat} {bs : List Byte} (K : Keeps fr i L (ctxV cb c) old next) (hl : lp.frame < i)
    (hne : lp.frame ≠ L.frame) (h : Bytes fr lp off cap bs) : Bytes old lp off cap bs := h.congr (K.other hl hne)

theorem evs_both {m : Mem} {a b : Expr} {x y : Bool} (ha : evs X a m = .ok ([.bool x], m)) (hb : evs X b m = .ok ([.bool y], m)) :
    evs X (.both a b) m = .ok ([.bool (x && y)], m) := by
  have h1 : ev X a m = .ok (.bool x, m) := ev_of ha
  cases x <;> simp only [evs, bind_run, ha, hb, single_one, pure_run] <;> rfl

theorem setWidth64 {f : Word} {k : Nat} (h : f.toNat = k) : f.setWidth 64 = BitVec.ofNat 64 k := by
  apply BitVec.eq_of_toNat_eq
  have := f.isLt
  simp [h]

/-- cgo/sha1.c:2065-2073. -/
theorem fill_do (hP : HasC P be) (hW : HasWords P be) (hN : 80 < N) (F : Found fr i L cb c0)
    (K : Keeps fr i L (ctxV cb c) old next) (hl : lp.frame < i) (hne : lp.frame ≠ L.frame) {off n cap : Nat} {w : Word64}
    {l f : Word} {bs bs' : List Byte} (S : Src fr lp off n cap w bs) (hleft : l.toNat = (c.total &&& 63).toNat)
    (hfill : f.toNat = 64 - l.toNat) {u : Bool} {left' : Nat}
    (h : Model.C.updFill ⟨be, be, u⟩ c bs = .ok (c', bs', left')) :
    ∃ old' next' off' n' cap' w' l', exec (P.world N (d + 3)) N updFillS ⟨i, updC L lp off n cap w l f, old, next⟩ =
        .ok (.normal, ⟨i, updC L lp off' n' cap' w' l' f, old', next'⟩) ∧ Keeps fr i L (ctxV cb c') old' next' ∧
      Src fr lp off' n' cap' w' bs' ∧ l'.toNat = left' ∧ bs'.length ≤ bs.length := by
  have hi : L.frame ≠ i := Nat.ne_of_lt F.lt
  have hL := F.now K
  have hlt : l.toNat < 64 := by
    rw [hleft, BitVec.toNat_and]
    exact Nat.lt_of_le_of_lt Nat.and_le_right (by decide)
  have hSl := S.len
  have hle := S.le
  have hca := S.cap
  have hf64 : f.setWidth 64 = BitVec.ofNat 64 (64 - l.toNat) := setWidth64 hfill
  have hf64n : (f.setWidth 64).toNat = 64 - l.toNat := by rw [hf64, BitVec.toNat_ofNat]; omega
  have hl64n : (l.setWidth 64).toNat = l.toNat := by simp; omega
  have hc1 : evs (P.world N (d + 3)) (.bin .ne (.loc 3) (.num 0)) ⟨i, updC L lp off n cap w l f, old, next⟩ =
      .ok ([.bool (decide (l ≠ 0#32))], ⟨i, updC L lp off n cap w l f, old, next⟩) := evs_bin (evs_loc rfl) evs_num rfl
  have hcv : ∀ (old : Nat → List Val) (next : Nat), look old L = .ok (ctxV cb c) →
      evs (P.world N (d + 3)) (.conv .u64 (.loc 4)) ⟨i, updC L lp off n cap w l f, old, next⟩ =
      .ok ([.u64 (f.setWidth 64)], ⟨i, updC L lp off n cap w l f, old, next⟩) := fun _ _ h => evs_ctx rfl rfl h hi
  have hc2 : evs (P.world N (d + 3)) (.bin .ge (.loc 2) (.conv .u64 (.loc 4))) ⟨i, updC L lp off n cap w l f, old, next⟩ =
      .ok ([.bool (decide (w.toNat ≥ (f.setWidth 64).toNat))], ⟨i, updC L lp off n cap w l f, old, next⟩) :=
    evs_bin (evs_loc rfl) (hcv _ _ hL) rfl
  have hc : ev (P.world N (d + 3)) (.both (.bin .ne (.loc 3) (.num 0)) (.bin .ge (.loc 2) (.conv .u64 (.loc 4))))
      ⟨i, updC L lp off n cap w l f, old, next⟩ =
      .ok (.bool (decide (l ≠ 0#32) && decide (w.toNat ≥ (f.setWidth 64).toNat)), ⟨i, updC L lp off n cap w l f, old, next⟩) := by
    exact ev_of (evs_both hc1 hc2)
  have hz : l ≠ 0#32 ↔ l.toNat ≠ 0 := by
    refine not_congr ⟨fun e => by rw [e]; rfl, fun e => BitVec.eq_of_toNat_eq (by rw [e]; rfl)⟩
  unfold Model.C.updFill at h
  simp only [← hleft] at h
  by_cases hif : l.toNat ≠ 0 ∧ bs.length ≥ 64 - l.toNat
  · rw [if_pos hif] at h
    rw [decide_eq_true (hz.2 hif.1), decide_eq_true (by omega)] at hc
    cases hm : Model.C.memcpyBuf c.buffer l.toNat (bs.take (64 - l.toNat)) with
    | error e => simp only [hm, bind, Except.bind] at h; cases h
    | ok B =>
      cases hp : Model.C.sha1_process ⟨be, be, u⟩ { c with total := c.total + BitVec.ofNat 64 (64 - l.toNat), buffer := B } B.1 with
      | error e => simp only [hm, hp, bind, Except.bind] at h; cases h
      | ok c1 =>
        simp only [hm, hp, bind, Except.bind, pure, Except.pure, Except.ok.injEq, Prod.mk.injEq] at h
        obtain ⟨rfl, rfl, rfl⟩ := h
        have s1 := total_do (X := P.world N (d + 3)) (N := N) (next := next) hi hL (e := .conv .u64 (.loc 4))
          (Y := (updC L lp off n cap w l f).tail) (x := f.setWidth 64) (by by_kernel)
        rw [hf64] at s1
        have K1 := K.put (w := ctxV cb { c with total := c.total + BitVec.ofNat 64 (64 - l.toNat) }) F.ctx (fixed_struct _)
        have hL1 := F.now K1
        have s2 := copyIn_do (X := P.world N (d + 3)) (N := N) (next := next) hi hL1 (Nat.ne_of_lt hl) (kept K1 hl hne S.bytes)
          (lo := l.toNat) (k := 64 - l.toNat) (by omega) hif.2 S.le S.cap (a := .loc 3)
          (b := .bin .add (.conv .u64 (.loc 3)) (.conv .u64 (.loc 4))) (e := .bin .add (.num 0) (.conv .u64 (.loc 4)))
          (va := .u32 l) (vb := .u64 (l.setWidth 64 + f.setWidth 64)) (ve := .u64 (0 + f.setWidth 64))
          (Y := [.u64 w, .u32 l, .u32 f]) (evs_loc rfl) rfl (evs_ctx rfl rfl hL1 hi)
          (by simp only [number]; congr 2; rw [BitVec.toNat_add, hl64n, hf64n]; omega) (evs_ctx rfl rfl hL1 hi)
          (by simp only [number]; congr 2; rw [BitVec.toNat_add, hf64n]; simp; omega) hm
        have K2 := K1.put (w := ctxV cb { c with total := c.total + BitVec.ofNat 64 (64 - l.toNat), buffer := B }) F.ctx
          (fixed_struct _)
        obtain ⟨old', next', s3, K3⟩ := procBuf_do (d := d) (C := updC L lp off n cap w l f) (q := 0) hP hW hN F K2 rfl hp
        have hL3 := F.now K3
        have s4 := skip_do (X := P.world N (d + 3)) (N := N) (i := i) (lp := lp) (off := off) (n := n) (cap := cap) (k := 64 - l.toNat)
          (by omega) S.cap (a := .loc 4) (va := .u32 f) (x0 := .ptr L) (Y := [.u64 w, .u32 l, .u32 f]) (old := old')
          (next := next') (evs_loc rfl) (by simp only [number, hfill])
        have s5 : exec (P.world N (d + 3)) N (.opAssign .sub (.loc 2) (.conv .u64 (.loc 4)))
            ⟨i, updC L lp (off + (64 - l.toNat)) (n - (64 - l.toNat)) (cap - (64 - l.toNat)) w l f, old', next'⟩ = .ok (.normal,
            ⟨i, updC L lp (off + (64 - l.toNat)) (n - (64 - l.toNat)) (cap - (64 - l.toNat)) (w - f.setWidth 64) l f, old', next'⟩) :=
          exec_vars (by by_kernel) rfl hL3 hi
        have s6 : exec (P.world N (d + 3)) N (put1 (.loc 3) (.num 0))
            ⟨i, updC L lp (off + (64 - l.toNat)) (n - (64 - l.toNat)) (cap - (64 - l.toNat)) (w - f.setWidth 64) l f, old', next'⟩ =
            .ok (.normal, ⟨i, updC L lp (off + (64 - l.toNat)) (n - (64 - l.toNat)) (cap - (64 - l.toNat)) (w - f.setWidth 64) 0 f,
              old', next'⟩) :=
          exec_vars (by by_kernel) rfl hL3 hi
        refine ⟨old', next', off + (64 - l.toNat), n - (64 - l.toNat), cap - (64 - l.toNat), w - f.setWidth 64, 0, ?_, K3,
          S.drop hif.2 ?_, rfl, by simp⟩
        · exact (exec_ite_true hc).trans (exec_block (n := 5) ((exec_seqs_cons s1).trans ((exec_seqs_cons s2).trans
            ((exec_seqs_cons s3).trans ((exec_seqs_cons s4).trans ((exec_seqs_cons s5).trans (exec_seqs_cons (ss := []) s6)))))))
        · rw [BitVec.toNat_sub, hf64n, hSl]
          have := w.isLt
          omega
  · rw [if_neg hif] at h
    cases h
    have : (decide (l ≠ 0#32) && decide (w.toNat ≥ (f.setWidth 64).toNat)) = false := by
      rw [Bool.eq_false_iff]
      intro e
      rw [Bool.and_eq_true, decide_eq_true_iff, decide_eq_true_iff] at e
      exact hif ⟨hz.1 e.1, by omega⟩
    rw [this] at hc
    exact ⟨old, next, off, n, cap, w, l, exec_ite_false hc, K, S, rfl, Nat.le_refl _⟩

/-- One block (cgo/sha1.c:2076-2085). -/
theorem bulkBody_do (hP : HasC P be) (hW : HasWords P be) (hN : 80 < N) (F : Found fr i L cb c0)
    (K : Keeps fr i L (ctxV cb c) old next) (hl : lp.frame < i) (hne : lp.frame ≠ L.frame) {off n cap : Nat} {w : Word64}
    {l f : Word} {bs : List Byte} (S : Src fr lp off n cap w bs) (h64 : 64 ≤ bs.length) {u : Bool}
    (h : (if u then Model.C.sha1_process ⟨be, be, u⟩ { c with total := c.total + 64 } bs
      else do
        let b ← Model.C.memcpyBuf c.buffer 0 (bs.take 64)
        Model.C.sha1_process ⟨be, be, u⟩ { c with total := c.total + 64, buffer := b } b.1) = .ok c') :
    ∃ old' next' w', exec (P.world N (d + 3)) N (bulkBody u) ⟨i, updC L lp off n cap w l f, old, next⟩ =
        .ok (.normal, ⟨i, updC L lp (off + 64) (n - 64) (cap - 64) w' l f, old', next'⟩) ∧ Keeps fr i L (ctxV cb c') old' next' ∧
      Src fr lp (off + 64) (n - 64) (cap - 64) w' (bs.drop 64) := by
  have hi : L.frame ≠ i := Nat.ne_of_lt F.lt
  have hL := F.now K
  have hSl := S.len
  have hle := S.le
  have hca := S.cap
  have s1 := total_do (X := P.world N (d + 3)) (N := N) (next := next) hi hL (e := .num 64)
    (Y := (updC L lp off n cap w l f).tail) (x := 64) (by by_kernel)
  have K1 := K.put (w := ctxV cb { c with total := c.total + 64 }) F.ctx (fixed_struct _)
  have hL1 := F.now K1
  have s2 : ∃ old' next', (∀ ss, exec (P.world N (d + 3)) N (seqs (bulkDo u ++ ss)) ⟨i, updC L lp off n cap w l f,
      Go.putAt old L (ctxV cb { c with total := c.total + 64 }), next⟩ =
        exec (P.world N (d + 3)) N (seqs ss) ⟨i, updC L lp off n cap w l f, old', next'⟩) ∧ Keeps fr i L (ctxV cb c') old' next' := by
    cases u with
    | true =>
      obtain ⟨nn, g, b1, b2, b3, b4⟩ := kept K1 hl hne S.bytes
      obtain ⟨old', next', s3, K3⟩ := proc_do (d := d) (C := updC L lp off n cap w l f) (q := 0) (e := .loc 1) hP hW hN F K1 rfl
        (lq := lp) (off := off) (n := n) (cap := cap) (evs_loc rfl) (by omega) (Nat.ne_of_lt hl) b1 (bs := bs)
        (fun q hq => by
          rw [b4 q (by omega), List.getD_eq_getElem?_getD, List.getElem?_eq_getElem (by omega)]
          rfl) h64 h
      exact ⟨old', next', fun ss => exec_seqs_cons s3, K3⟩
    | false =>
      cases hm : Model.C.memcpyBuf c.buffer 0 (bs.take 64) with
      | error e => simp [hm, bind, Except.bind] at h
      | ok B =>
        simp only [hm, bind, Except.bind, Bool.false_eq_true, if_false] at h
        have s2 := copyIn_do (X := P.world N (d + 3)) (N := N) (next := next) hi hL1 (Nat.ne_of_lt hl) (kept K1 hl hne S.bytes)
          (lo := 0) (k := 64) (by omega) h64 S.le S.cap (a := .num 0) (b := .num 64) (e := .num 64)
          (va := .const 0) (vb := .const 64) (ve := .const 64)
          (Y := [.u64 w, .u32 l, .u32 f]) evs_num rfl evs_num rfl evs_num rfl hm
        have K2 := K1.put (w := ctxV cb { c with total := c.total + 64, buffer := B }) F.ctx (fixed_struct _)
        obtain ⟨old', next', s3, K3⟩ := procBuf_do (d := d) (C := updC L lp off n cap w l f) (q := 0) hP hW hN F K2 rfl h
        exact ⟨old', next', fun ss => (exec_seqs_cons s2).trans (exec_seqs_cons s3), K3⟩
  obtain ⟨old', next', s2, K3⟩ := s2
  have hL3 := F.now K3
  have s4 := skip_do (X := P.world N (d + 3)) (N := N) (i := i) (lp := lp) (off := off) (n := n) (cap := cap) (k := 64)
    (by omega) S.cap (a := .num 64) (va := .const 64) (x0 := .ptr L) (Y := [.u64 w, .u32 l, .u32 f]) (old := old')
    (next := next') evs_num rfl
  have s5 : exec (P.world N (d + 3)) N (.opAssign .sub (.loc 2) (.num 64))
      ⟨i, updC L lp (off + 64) (n - 64) (cap - 64) w l f, old', next'⟩ = .ok (.normal,
      ⟨i, updC L lp (off + 64) (n - 64) (cap - 64) (w - 64) l f, old', next'⟩) :=
    exec_vars (by by_kernel) rfl hL3 hi
  refine ⟨old', next', w - 64, exec_block (n := 5) ((exec_seqs_cons s1).trans ((s2 _).trans ((exec_seqs_cons s4).trans
    (exec_seqs_cons (ss := []) s5)))), K3, S.drop h64 ?_⟩
  rw [BitVec.toNat_sub, hSl]
  have := w.isLt
  simp
  omega

theorem updBulk_step {cfg : Model.C.Plat} {bs : List Byte} (h : 64 ≤ bs.length) : Model.C.updBulk cfg c bs =
    (if cfg.unaligned then Model.C.sha1_process cfg { c with total := c.total + 64 } bs
      else do
        let b ← Model.C.memcpyBuf c.buffer 0 (bs.take 64)
        Model.C.sha1_process cfg { c with total := c.total + 64, buffer := b } b.1) >>= fun c =>
      Model.C.updBulk cfg c (bs.drop 64) := by
  rw [Model.C.updBulk, if_pos h]
  by_cases hu : cfg.unaligned = true
  · simp only [if_pos hu]
  · simp only [if_neg hu, bind, Except.bind]
    cases Model.C.memcpyBuf c.buffer 0 (bs.take 64) <;> rfl

/-- The loop over complete blocks (cgo/sha1.c:2074-2086). -/
theorem bulk_do (hP : HasC P be) (hW : HasWords P be) (hN : 80 < N) (F : Found fr i L cb c0) (hl : lp.frame < i)
    (hne : lp.frame ≠ L.frame) {l f : Word} {u : Bool} : ∀ (M : Nat) {c c' : Ctx} {old : Nat → List Val} {next off n cap : Nat}
    {w : Word64} {bs bs' : List Byte}, bs.length / 64 < M → Keeps fr i L (ctxV cb c) old next → Src fr lp off n cap w bs →
    Model.C.updBulk ⟨be, be, u⟩ c bs = .ok (c', bs') →
    ∃ old' next' off' n' cap' w', runLoop (ev (P.world N (d + 3)) (.bin .ge (.loc 2) (.num 64)))
        (exec (P.world N (d + 3)) N (bulkBody u)) (exec (P.world N (d + 3)) N .skip) M
        ⟨i, updC L lp off n cap w l f, old, next⟩ =
        .ok (.normal, ⟨i, updC L lp off' n' cap' w' l f, old', next'⟩) ∧ Keeps fr i L (ctxV cb c') old' next' ∧
      Src fr lp off' n' cap' w' bs' := by
  intro M
  induction M with
  | zero => intro _ _ _ _ _ _ _ _ _ _ hM; omega
  | succ M ih =>
    intro c c' old next off n cap w bs bs' hM K S h
    have hc : ev (P.world N (d + 3)) (.bin .ge (.loc 2) (.num 64)) ⟨i, updC L lp off n cap w l f, old, next⟩ =
        .ok (.bool (decide (w.toNat ≥ (64#64).toNat)), ⟨i, updC L lp off n cap w l f, old, next⟩) :=
      ev_of (evs_bin (evs_loc rfl) evs_num rfl)
    rw [S.len, show (64#64).toNat = 64 from rfl] at hc
    by_cases h64 : 64 ≤ bs.length
    · rw [updBulk_step h64] at h
      rw [decide_eq_true h64] at hc
      cases hq : (if u then Model.C.sha1_process ⟨be, be, u⟩ { c with total := c.total + 64 } bs
        else do
          let b ← Model.C.memcpyBuf c.buffer 0 (bs.take 64)
          Model.C.sha1_process ⟨be, be, u⟩ { c with total := c.total + 64, buffer := b } b.1) with
      | error e => rw [hq] at h; cases h
      | ok c1 =>
        rw [hq] at h
        have h' : Model.C.updBulk ⟨be, be, u⟩ c1 (bs.drop 64) = .ok (c', bs') := h
        obtain ⟨old1, next1, w1, s1, K1, S1⟩ := bulkBody_do (d := d) (l := l) (f := f) hP hW hN F K hl hne S h64 hq
        obtain ⟨old2, next2, off2, n2, cap2, w2, s2, K2, S2⟩ := ih (by simp; omega) K1 S1 h'
        exact ⟨old2, next2, off2, n2, cap2, w2, (runLoop_step hc s1 exec_skip).trans s2, K2, S2⟩
    · rw [Model.C.updBulk, if_neg h64] at h
      cases h
      rw [decide_eq_false h64] at hc
      exact ⟨old, next, off, n, cap, w, runLoop_end hc, K, S⟩

/-- cgo/sha1.c:2087-2091. -/
theorem tail_do (F : Found fr i L cb c0) (K : Keeps fr i L (ctxV cb c) old next) (hl : lp.frame < i) (hne : lp.frame ≠ L.frame)
    {off n cap : Nat} {w : Word64} {l f : Word} {bs : List Byte} (S : Src fr lp off n cap w bs)
    (h : Model.C.updTail c bs l.toNat = .ok c') :
    ∃ old', exec X N updTailS ⟨i, updC L lp off n cap w l f, old, next⟩ =
        .ok (.normal, ⟨i, updC L lp off n cap w l f, old', next⟩) ∧ Keeps fr i L (ctxV cb c') old' next := by
  have hi : L.frame ≠ i := Nat.ne_of_lt F.lt
  have hL := F.now K
  have hSl := S.len
  have hle := S.le
  have hc : ev X (.bin .gt (.loc 2) (.num 0)) ⟨i, updC L lp off n cap w l f, old, next⟩ =
      .ok (.bool (decide (w.toNat > (0#64).toNat)), ⟨i, updC L lp off n cap w l f, old, next⟩) :=
    ev_of (evs_bin (evs_loc rfl) evs_num rfl)
  rw [S.len, show (0#64).toNat = 0 from rfl] at hc
  unfold Model.C.updTail at h
  by_cases h0 : bs.length > 0
  · rw [if_pos h0] at h
    rw [decide_eq_true h0] at hc
    have hw : w = BitVec.ofNat 64 bs.length := BitVec.eq_of_toNat_eq (by rw [hSl, BitVec.toNat_ofNat]; have := w.isLt; omega)
    cases hm : Model.C.memcpyBuf c.buffer l.toNat bs with
    | error e => simp only [hm, bind, Except.bind] at h; cases h
    | ok B =>
      simp only [hm, bind, Except.bind, ← hw] at h
      cases h
      have h64 : l.toNat + bs.length ≤ 64 := by
        unfold Model.C.memcpyBuf at hm
        split at hm
        · assumption
        · cases hm
      have s1 := total_do (X := X) (N := N) (next := next) hi hL (e := .loc 2)
        (Y := (updC L lp off n cap w l f).tail) (x := w) (by by_kernel)
      have K1 := K.put (w := ctxV cb { c with total := c.total + w }) F.ctx (fixed_struct _)
      have hL1 := F.now K1
      have s2 := copyIn_do (X := X) (N := N) (next := next) hi hL1 (Nat.ne_of_lt hl) (kept K1 hl hne S.bytes)
        (lo := l.toNat) (k := bs.length) h0 (Nat.le_refl _) S.le S.cap (a := .loc 3)
        (b := .bin .add (.conv .u64 (.loc 3)) (.loc 2)) (e := .bin .add (.num 0) (.loc 2))
        (va := .u32 l) (vb := .u64 (l.setWidth 64 + w)) (ve := .u64 (0 + w))
        (Y := [.u64 w, .u32 l, .u32 f]) (evs_loc rfl) rfl (evs_ctx rfl rfl hL1 hi)
        (by simp only [number]; congr 2; rw [BitVec.toNat_add, hSl]; simp; omega) (evs_ctx rfl rfl hL1 hi)
        (by simp only [number]; congr 2; simp [hSl]) (by rw [List.take_length]; exact hm)
      exact ⟨_, (exec_ite_true hc).trans (exec_block (n := 5) ((exec_seqs_cons s1).trans (exec_seqs_cons (ss := []) s2))),
        K1.put F.ctx (fixed_struct _)⟩
  · rw [if_neg h0] at h
    cases h
    rw [decide_eq_false h0] at hc
    exact ⟨old, exec_ite_false hc, K⟩

/-- The body of `SHA1DCUpdate` (cgo/sha1.c:2055-2092). -/
theorem updBody_do (hP : HasC P be) (hW : HasWords P be) (F : Found fr i L cb c0)
    (K : Keeps fr i L (ctxV cb c) old next) (hl : lp.frame < i) (hne : lp.frame ≠ L.frame) {off n cap : Nat} {w : Word64}
    {bs : List Byte} (S : Src fr lp off n cap w bs) {u : Bool} (hN : 80 < N) (hN' : bs.length / 64 < N)
    (h : Model.C.SHA1DCUpdate ⟨be, be, u⟩ c bs = .ok c') :
    ∃ s C' old' next', exec (P.world N (d + 3)) N (updBody u) ⟨i, [.ptr L, .slice lp off n cap, .u64 w], old, next⟩ =
        .ok (s, ⟨i, C', old', next'⟩) ∧ results [] s = .ok [] ∧ Keeps fr i L (ctxV cb c') old' next' := by
  have hi : L.frame ≠ i := Nat.ne_of_lt F.lt
  have hL := F.now K
  have hSl := S.len
  have s1 : exec (P.world N (d + 3)) N updInit ⟨i, [.ptr L, .slice lp off n cap, .u64 w], old, next⟩ =
      .ok (.normal, ⟨i, updC L lp off n cap w 0 0, old, next⟩) := rfl
  have hc : ev (P.world N (d + 3)) (.bin .eq (.loc 2) (.num 0)) ⟨i, updC L lp off n cap w 0 0, old, next⟩ =
      .ok (.bool (decide (w = 0#64)), ⟨i, updC L lp off n cap w 0 0, old, next⟩) :=
    ev_of (evs_bin (evs_loc rfl) evs_num rfl)
  have hz : w = 0#64 ↔ bs.length = 0 := by
    rw [← hSl]
    exact ⟨fun e => by rw [e]; rfl, fun e => BitVec.eq_of_toNat_eq (by rw [e]; rfl)⟩
  unfold Model.C.SHA1DCUpdate at h
  by_cases h0 : bs.length = 0
  · rw [if_pos h0] at h
    cases h
    rw [decide_eq_true (hz.2 h0)] at hc
    have s2 : exec (P.world N (d + 3)) N updEmpty ⟨i, updC L lp off n cap w 0 0, old, next⟩ = .ok (.ret [], _) :=
      (exec_ite_true hc).trans (exec_ret rfl)
    exact ⟨.ret [], _, old, next, exec_block_ret (n := 3) ((exec_seqs_cons s1).trans (exec_seq_ret s2)), rfl, K⟩
  · rw [if_neg h0] at h
    rw [decide_eq_false (fun e => h0 (hz.1 e))] at hc
    have s2 : exec (P.world N (d + 3)) N updEmpty ⟨i, updC L lp off n cap w 0 0, old, next⟩ = .ok (.normal, _) :=
      exec_ite_false hc
    have s3 : exec (P.world N (d + 3)) N updLeft ⟨i, updC L lp off n cap w 0 0, old, next⟩ =
        .ok (.normal, ⟨i, updC L lp off n cap w ((c.total &&& 63).setWidth 32) 0, old, next⟩) :=
      exec_vars (by by_kernel) rfl hL hi
    have s4 : ∀ l, exec (P.world N (d + 3)) N updRest ⟨i, updC L lp off n cap w l 0, old, next⟩ =
        .ok (.normal, ⟨i, updC L lp off n cap w l (64 - l), old, next⟩) := fun l =>
      exec_vars (by by_kernel) rfl hL hi
    have hlt : (c.total &&& 63).toNat < 64 := by
      rw [BitVec.toNat_and]
      exact Nat.lt_of_le_of_lt Nat.and_le_right (by decide)
    have hl1 : ((c.total &&& 63).setWidth 32 : Word).toNat = (c.total &&& 63).toNat := by
      rw [BitVec.toNat_setWidth]
      omega
    have s4 := s4 ((c.total &&& 63).setWidth 32)
    generalize ((c.total &&& 63).setWidth 32 : Word) = l at s3 s4 hl1
    have hl2 : (64 - l : Word).toNat = 64 - l.toNat := by
      rw [BitVec.toNat_sub]
      simp
      omega
    cases hf : Model.C.updFill ⟨be, be, u⟩ c bs with
    | error e => simp only [hf, bind, Except.bind] at h; cases h
    | ok t =>
      obtain ⟨c1, bs1, left1⟩ := t
      simp only [hf, bind, Except.bind] at h
      cases hb : Model.C.updBulk ⟨be, be, u⟩ c1 bs1 with
      | error e => simp only [hb] at h; cases h
      | ok t =>
        obtain ⟨c2, bs2⟩ := t
        simp only [hb] at h
        obtain ⟨old1, next1, off1, n1, cap1, w1, l1, s5, K1, S1, hl3, hle⟩ :=
          fill_do (d := d) hP hW hN F K hl hne S hl1 hl2 hf
        obtain ⟨old2, next2, off2, n2, cap2, w2, s6, K2, S2⟩ := bulk_do (d := d) (l := l1) (f := 64 - l) hP hW hN F hl hne N
          (Nat.lt_of_le_of_lt (Nat.div_le_div_right hle) hN') K1 S1 hb
        rw [← hl3] at h
        obtain ⟨old3, s7, K3⟩ := tail_do (X := P.world N (d + 3)) (N := N) (f := 64 - l) F K2 hl hne S2 h
        have s6' : exec (P.world N (d + 3)) N (updBulkS u) ⟨i, updC L lp off1 n1 cap1 w1 l1 (64 - l), old1, next1⟩ =
            .ok (.normal, ⟨i, updC L lp off2 n2 cap2 w2 l1 (64 - l), old2, next2⟩) := by
          show (runLoop _ _ _ N >>= _) _ = _
          rw [Go.bind_of s6]
          rfl
        exact ⟨.normal, _, old3, next2, exec_block (n := 3) ((exec_seqs_cons s1).trans ((exec_seqs_cons s2).trans
          ((exec_seqs_cons s3).trans ((exec_seqs_cons s4).trans ((exec_seqs_cons s5).trans ((exec_seqs_cons s6').trans
            (exec_seqs_cons (ss := []) s7))))))), rfl, K3⟩

end

/-- `SHA1DCUpdate`, with and without unaligned access (cgo/sha1.c:2055-2092). -/
def updFunc : Bool → Func
  | true => updFuncU
  | false => updFuncA

/-- A call of `SHA1DCUpdate` (cgo/sha1.c:2055-2092). -/
theorem update_run {P : Program} {be u : Bool} (hP : HasC P be) (hW : HasWords P be) {N d : Nat} (hN : 80 < N) {m : Mem}
    {L lp : Loc} {cb : Val} {c c' : Ctx} (F : Found m.frame m.next L cb c) (hl : lp.frame < m.next) (hne : lp.frame ≠ L.frame)
    {off n cap : Nat} {w : Word64} {bs : List Byte} (S : Src m.frame lp off n cap w bs) (hN' : bs.length / 64 < N)
    (h : Model.C.SHA1DCUpdate ⟨be, be, u⟩ c bs = .ok c') :
    ∃ m', runFunc (P.world N (d + 3)) N (updFunc u) [.ptr L, .slice lp off n cap, .u64 w] m = .ok ([], m') ∧
      Became m (Go.putAt m.frame L (ctxV cb c')) m' := by
  obtain ⟨s, C', old', next', h1, h2, h3⟩ := updBody_do (d := d) hP hW F (keeps_self F.ctx) hl hne S hN hN' h
  have he : m.enter [.ptr L, .slice lp off n cap, .u64 w] =
      ⟨m.next, [.ptr L, .slice lp off n cap, .u64 w], m.frame, m.next + 1⟩ := by
    rw [← Mem.enter_old m [.ptr L, .slice lp off n cap, .u64 w]]
    rfl
  rw [← he] at h1
  cases u with
  | true => exact ⟨_, runFunc_of updFuncU_body (Nat.lt_irrefl _) h1 h2, leave_became h3 _⟩
  | false => exact ⟨_, runFunc_of updFuncA_body (Nat.lt_irrefl _) h1 h2, leave_became h3 _⟩

end Verif.Source.C
