import Verif.Proofs.CUpdate

/-!
`SHA1DCFinal` as it is read from the text of cgo/sha1.c is the model's.
-/

namespace Verif.Source.C

open Verif Verif.Source Verif.Source.Go Verif.Model
open Verif.Model.C (Ctx Cfg)

/-- cgo/sha1.c:2101-2139. -/
def finalFunc : Func := evaluated! funcOf funcs5U (name! "SHA1DCFinal")

/-- cgo/sha1.c:2103. -/
def finLast : Stmt := .define 1 (.cons (.conv .u32 (.bin .and (.field (.loc 1) (name! "total")) (.num 63))) .nil)
/-- cgo/sha1.c:2104. -/
def finPadn : Stmt := .seq (.var .u32) (.ite (.bin .lt (.loc 2) (.num 56)) (put1 (.loc 3) (.bin .sub (.num 56) (.loc 2)))
  (put1 (.loc 3) (.bin .sub (.num 120) (.loc 2))))
/-- cgo/sha1.c:2106. -/
def finUpd : Stmt := .expr (.call (name! "C") (name! "SHA1DCUpdate") (.cons (.loc 1)
  (.cons (whole' (.glob (name! "C") (name! "sha1_padding"))) (.cons (.conv .u64 (.loc 3)) .nil))))
/-- cgo/sha1.c:2108. -/
def finTotal : Stmt := put1 (.loc 4) (.bin .sub (.field (.loc 1) (name! "total")) (.conv .u64 (.loc 3)))
/-- cgo/sha1.c:2109. -/
def finBits : Stmt := .opAssign .shl (.loc 4) (.num 3)
/-- cgo/sha1.c:2110-2117. -/
def finLen : List Stmt := evaluated! ((bodyOf finalFunc).drop 6).take 8
/-- cgo/sha1.c:2119-2138. -/
def finOut : List Stmt := evaluated! ((bodyOf finalFunc).drop 15).take 20
/-- cgo/sha1.c:2139. -/
def finRet : Stmt := .ret (.cons (.field (.loc 1) (name! "found_collision")) .nil)

/-- cgo/sha1.c:2102-2140. -/
def finBody : Stmt := .block 2 (seqs ([finLast, finPadn, .var .u64, finUpd, finTotal, finBits] ++ (finLen ++
  (callProc 1 (whole' (.field (.loc 1) (name! "buffer"))) :: (finOut ++ [finRet])))))

theorem finalFunc_body : finalFunc.body = some finBody := by by_kernel

/-- Elements replaced one by one. -/
def putFrom (g : Nat → Val) (k : Nat) : List Byte → Nat → Val
  | [] => g
  | b :: bs => putFrom (withField g k (.u8 b)) (k + 1) bs

theorem putFrom_get : ∀ (bs : List Byte) (g : Nat → Val) (k j : Nat),
    putFrom g k bs j = if k ≤ j ∧ j < k + bs.length then .u8 (bs.getD (j - k) 0) else g j
  | [], g, k, j => by rw [putFrom, if_neg (by simp)]
  | b :: bs, g, k, j => by
    rw [putFrom, putFrom_get bs]
    unfold withField
    by_cases h : j = k
    · subst h
      rw [if_neg (by omega), if_pos rfl, if_pos (by simp)]
      simp
    · rw [if_neg h]
      by_cases h' : k + 1 ≤ j ∧ j < k + 1 + bs.length
      · rw [if_pos h', if_pos (by simp; omega)]
        obtain ⟨q, rfl⟩ : ∃ q, j = k + 1 + q := ⟨j - (k + 1), by omega⟩
        rw [show k + 1 + q - k = q + 1 by omega, show k + 1 + q - (k + 1) = q by omega]
        rfl
      · rw [if_neg h', if_neg (by simp; omega)]

/-- The elements of a field that is an array replaced one by one. -/
def putField (G : Nat → Val) (f n : Nat) (g : Nat → Val) (k : Nat) : List Byte → Nat → Val
  | [] => G
  | b :: bs => putField (withField G f (.arr n (withField g k (.u8 b)))) f n (withField g k (.u8 b)) (k + 1) bs

theorem putField_eq : ∀ (bs : List Byte) (G : Nat → Val) (f n : Nat) (g : Nat → Val) (k : Nat), bs ≠ [] →
    putField G f n g k bs = withField G f (.arr n (putFrom g k bs))
  | [], _, _, _, _, _, h => absurd rfl h
  | [b], _, _, _, _, _, _ => rfl
  | b :: b' :: bs, G, f, n, g, k, _ => by
    rw [putField, putField_eq (b' :: bs) _ _ _ _ _ (by simp), withField_again]
    rfl

theorem bytes_from {l bs : List Byte} {n k : Nat} (hl : l.length = n) (hk : k + bs.length ≤ n) :
    Val.arr n (putFrom (fun j => .u8 (l.getD j 0)) k bs) = bytesV n (l.take k ++ bs ++ l.drop (k + bs.length)) := by
  unfold bytesV
  congr 1
  funext j
  rw [putFrom_get]
  simp only [List.getD_eq_getElem?_getD]
  have e1 : (l.take k).length = k := by simp; omega
  by_cases h : k ≤ j ∧ j < k + bs.length
  · rw [if_pos h, List.getElem?_append_left (by simp; omega), List.getElem?_append_right (by omega), e1]
  · rw [if_neg h]
    by_cases h2 : j < k
    · rw [List.append_assoc, List.getElem?_append_left (by omega), List.getElem?_take_of_lt h2]
    · rw [List.getElem?_append_right (by simp; omega), List.getElem?_drop]
      congr 3
      simp only [List.length_append, e1]
      omega

section
variable {X : World} {N i next : Nat} {old fr : Nat → List Val} {L lo : Loc} {cb : Val} {c c' c0 : Ctx} {C C' : List Val}
  {v v' w w' : Val}

theorem stage_two (h0 : C[0]? = some (whole lo 20)) (h1 : C[1]? = some (.ptr L)) {o : Nat → Val} (hv : v = .arr 20 o)
    (hlo : look old lo = .ok v) (hL : look old L = .ok w) (hw : Fixed w) (hne : lo.frame ≠ L.frame) (hi0 : lo.frame ≠ i)
    (hi1 : L.frame ≠ i) : Stage (spots [lo, L]) old i ([some v, some w], C) := by
  have hview : ∀ k x, view [some v, some w] k = some x → (k = 0 ∧ x = v) ∨ (k = 1 ∧ x = w) := by
    intro k x h
    match k with
    | 0 => cases h; exact .inl ⟨rfl, rfl⟩
    | 1 => cases h; exact .inr ⟨rfl, rfl⟩
    | k + 2 => simp [view] at h
  refine ⟨⟨fun k x h => ?_, fun k k' x x' h h' hkk => ?_, fun k x h => ?_, fun k x h => ?_⟩, fun k x h => ?_⟩
  · rcases hview k x h with ⟨rfl, rfl⟩ | ⟨rfl, rfl⟩
    · exact ⟨_, hlo⟩
    · exact ⟨_, hL⟩
  · rcases hview k x h with ⟨rfl, rfl⟩ | ⟨rfl, rfl⟩ <;> rcases hview k' x' h' with ⟨rfl, rfl⟩ | ⟨rfl, rfl⟩
    · exact absurd rfl hkk
    · exact .inl hne
    · exact .inl (Ne.symm hne)
    · exact absurd rfl hkk
  · rcases hview k x h with ⟨rfl, rfl⟩ | ⟨rfl, rfl⟩
    · rw [hv]; exact fixed_arr _ _
    · exact hw
  · rcases hview k x h with ⟨rfl, rfl⟩ | ⟨rfl, rfl⟩
    · exact hi0
    · exact hi1
  · rcases hview k x h with ⟨rfl, rfl⟩ | ⟨rfl, rfl⟩
    · exact .inr ⟨20, o, 20, 20, hv, Nat.le_refl _, h0⟩
    · exact .inl h1

/-- What `SHA1DCFinal` knows of the frames of others. -/
structure Both (i : Nat) (lo L : Loc) (o : List Byte) (cb : Val) (c : Ctx) (old : Nat → List Val) : Prop where
  out : look old lo = .ok (bytesV 20 o)
  ctx : look old L = .ok (ctxV cb c)
  ne : lo.frame ≠ L.frame
  lo : lo.frame ≠ i
  hi : L.frame ≠ i

theorem exec_two {o : List Byte} (H : Both i lo L o cb c old) {s : Stmt}
    (h : rexec noPure s ([some (bytesV 20 o), some (ctxV cb c)], C) = some ([some v', some w'], C'))
    (h0 : C[0]? = some (whole lo 20)) (h1 : C[1]? = some (.ptr L)) :
    exec X N s ⟨i, C, old, next⟩ = .ok (.normal, ⟨i, C', Go.putAt (Go.putAt old lo v') L w', next⟩) := by
  have := (exec_rexec (next := next) (rights_none X) N s _ _ h
    (stage_two h0 h1 rfl H.out H.ctx (fixed_struct _) H.ne H.lo H.hi)).1
  simp only [memOf, puts] at this
  have e0 : spots [lo, L] 0 = lo := rfl
  have e1 : spots [lo, L] (0 + 1) = L := rfl
  rw [e0, e1, putAt_self H.out, putAt_self H.ctx] at this
  exact this

/-- Statements that do not change `output`. -/
theorem exec_two_ctx {o : List Byte} (H : Both i lo L o cb c old) {s : Stmt}
    (h : rexec noPure s ([some (bytesV 20 o), some (ctxV cb c)], C) = some ([some (bytesV 20 o), some w'], C'))
    (h0 : C[0]? = some (whole lo 20)) (h1 : C[1]? = some (.ptr L)) :
    exec X N s ⟨i, C, old, next⟩ = .ok (.normal, ⟨i, C', Go.putAt old L w', next⟩) := by
  rw [exec_two H h h0 h1, putAt_self H.out]

/-- Statements that change only variables. -/
theorem exec_two_vars {o : List Byte} (H : Both i lo L o cb c old) {s : Stmt}
    (h : rexec noPure s ([some (bytesV 20 o), some (ctxV cb c)], C) = some ([some (bytesV 20 o), some (ctxV cb c)], C'))
    (h0 : C[0]? = some (whole lo 20)) (h1 : C[1]? = some (.ptr L)) :
    exec X N s ⟨i, C, old, next⟩ = .ok (.normal, ⟨i, C', old, next⟩) := by
  rw [exec_two_ctx H h h0 h1, putAt_self H.ctx]

theorem evs_two {o : List Byte} (H : Both i lo L o cb c old) {e : Expr} {vs : List Val}
    (h : pvs noPure [some (bytesV 20 o), some (ctxV cb c)] C e = some vs)
    (h0 : C[0]? = some (whole lo 20)) (h1 : C[1]? = some (.ptr L)) :
    evs X e ⟨i, C, old, next⟩ = .ok (vs, ⟨i, C, old, next⟩) := by
  have hs := (stage_two (v := bytesV 20 o) h0 h1 rfl H.out H.ctx (fixed_struct _) H.ne H.lo H.hi).seen (next := next)
  simp only [puts] at hs
  have e0 : spots [lo, L] 0 = lo := rfl
  have e1 : spots [lo, L] (0 + 1) = L := rfl
  rw [e0, e1, putAt_self H.out, putAt_self H.ctx] at hs
  exact evs_pvs ((rights_none X).right _ _) hs _ _ h

/-- The variables of `SHA1DCFinal` (cgo/sha1.c:2101-2105). -/
def finC (lo L : Loc) (last padn : Word) (total : Word64) : List Val :=
  [whole lo 20, .ptr L, .u32 last, .u32 padn, .u64 total]

/-- The bytes of a length (cgo/sha1.c:2110-2117). -/
def lenBytes (total : Word64) : List Byte :=
  [(total >>> 56).setWidth 8, (total >>> 48).setWidth 8, (total >>> 40).setWidth 8, (total >>> 32).setWidth 8,
    (total >>> 24).setWidth 8, (total >>> 16).setWidth 8, (total >>> 8).setWidth 8, total.setWidth 8]

/-- cgo/sha1.c:2110-2117. -/
theorem finLen_do {o : List Byte} (H : Both i lo L o cb c old) {last padn : Word} {total : Word64} {B : Buf}
    (h : Model.C.memcpyBuf c.buffer 56 (lenBytes total) = .ok B) :
    exec X N (seqs finLen) ⟨i, finC lo L last padn total, old, next⟩ =
      .ok (.normal, ⟨i, finC lo L last padn total, Go.putAt old L (ctxV cb { c with buffer := B }), next⟩) := by
  have hr : rexec noPure (seqs finLen) ([some (bytesV 20 o), some (ctxV cb c)], finC lo L last padn total) =
      some ([some (bytesV 20 o), some (.struct (putField (ctxFn cb c) (name! "buffer") 64 (fun j => .u8 (c.buffer.1.getD j 0)) 56
        (lenBytes total)))], finC lo L last padn total) := by by_kernel
  unfold Model.C.memcpyBuf at h
  split at h
  · have hb := Except.ok.inj h
    rw [putField_eq _ _ _ _ _ _ (by simp [lenBytes]), bytes_from c.buffer.2 (by assumption)] at hr
    have := exec_two_ctx (X := X) (N := N) (next := next) H hr rfl rfl
    rw [this, ctxV, ← ctx_buffer cb c B, ← hb]
  · cases h

/-- The bytes of a digest (cgo/sha1.c:2119-2138). -/
def outBytes (r : Regs) : List Byte :=
  Model.C.out32 r.a ++ Model.C.out32 r.b ++ Model.C.out32 r.c ++ Model.C.out32 r.d ++ Model.C.out32 r.e

/-- cgo/sha1.c:2119-2138. -/
theorem finOut_do {o : List Byte} (ho : o.length = 20) (H : Both i lo L o cb c old) {last padn : Word} {total : Word64} :
    exec X N (seqs finOut) ⟨i, finC lo L last padn total, old, next⟩ =
      .ok (.normal, ⟨i, finC lo L last padn total, Go.putAt old lo (bytesV 20 (outBytes c.ihv)), next⟩) := by
  have hr : rexec noPure (seqs finOut) ([some (bytesV 20 o), some (ctxV cb c)], finC lo L last padn total) =
      some ([some (.arr 20 (putFrom (fun j => .u8 (o.getD j 0)) 0 (outBytes c.ihv))), some (ctxV cb c)],
        finC lo L last padn total) := by by_kernel
  rw [bytes_from ho (by simp [outBytes, Model.C.out32]), List.take_zero, List.drop_of_length_le (by
    simp [outBytes, Model.C.out32, ho]), List.append_nil, List.nil_append] at hr
  rw [exec_two H hr rfl rfl, putAt_self]
  rw [look_other (.inl H.ne), H.ctx]

theorem Both.put {o : List Byte} (H : Both i lo L o cb c0 old) : Both i lo L o cb c (Go.putAt old L (ctxV cb c)) :=
  ⟨by rw [look_other (.inl (Ne.symm H.ne)), H.out], look_putAt (fixed_struct _) H.ctx, H.ne, H.lo, H.hi⟩

/-- `last` (cgo/sha1.c:2103). -/
def finRest (c : Ctx) : Word := (c.total &&& 63).setWidth 32

/-- `padn` (cgo/sha1.c:2104). -/
def finPad (c : Ctx) : Word :=
  if (c.total &&& 63).setWidth 32 < (56 : Word) then 56 - (c.total &&& 63).setWidth 32 else 120 - (c.total &&& 63).setWidth 32

/-- cgo/sha1.c:2103-2105. -/
theorem finPadn_do {o : List Byte} (H : Both i lo L o cb c old) :
    exec X N (seqs [finLast, finPadn, .var .u64]) ⟨i, [whole lo 20, .ptr L], old, next⟩ =
      .ok (.normal, ⟨i, finC lo L (finRest c) (finPad c) 0, old, next⟩) := by
  have s1 : exec X N finLast ⟨i, [whole lo 20, .ptr L], old, next⟩ =
      .ok (.normal, ⟨i, [whole lo 20, .ptr L, .u32 ((c.total &&& 63).setWidth 32)], old, next⟩) :=
    exec_two_vars H (by by_kernel) rfl rfl
  refine (exec_seqs_cons s1).trans ?_
  unfold finRest finPad
  generalize (c.total &&& 63).setWidth 32 = last
  have hc : ev X (.bin .lt (.loc 2) (.num 56)) ⟨i, [whole lo 20, .ptr L, .u32 last, .u32 0], old, next⟩ =
      .ok (.bool (decide (last < (56 : Word))), ⟨i, [whole lo 20, .ptr L, .u32 last, .u32 0], old, next⟩) :=
    ev_of (evs_bin (evs_loc rfl) evs_num rfl)
  have s2 : exec X N finPadn ⟨i, [whole lo 20, .ptr L, .u32 last], old, next⟩ =
      .ok (.normal, ⟨i, [whole lo 20, .ptr L, .u32 last, .u32 (if last < (56 : Word) then 56 - last else 120 - last)],
        old, next⟩) := by
    refine (exec_seq (m' := ⟨i, [whole lo 20, .ptr L, .u32 last, .u32 0], old, next⟩) rfl).trans ?_
    by_cases h : last < (56 : Word)
    · rw [decide_eq_true h] at hc
      rw [if_pos h]
      exact (exec_ite_true hc).trans (exec_two_vars H (by by_kernel) rfl rfl)
    · rw [decide_eq_false h] at hc
      rw [if_neg h]
      exact (exec_ite_false hc).trans (exec_two_vars H (by by_kernel) rfl rfl)
  exact (exec_seqs_cons s2).trans rfl

theorem updFunc_some (u : Bool) : ∃ b, (updFunc u).body = some b := by
  cases u
  · exact ⟨_, updFuncA_body⟩
  · exact ⟨_, updFuncU_body⟩

end

/-- What a function that hashes finds, with the frames of others as they are now. -/
theorem Found.both {fr old : Nat → List Val} {i next : Nat} {L lo : Loc} {cb : Val} {c c0 : Ctx} {o : List Byte}
    (F : Found fr i L cb c0) (K : Keeps fr i L (ctxV cb c) old next) (ho : look fr lo = .ok (bytesV 20 o)) (hlo : lo.frame < i)
    (hne : lo.frame ≠ L.frame) : Both i lo L o cb c old :=
  ⟨by rw [K.other hlo hne, ho], F.now K, hne, Nat.ne_of_lt hlo, Nat.ne_of_lt F.lt⟩

theorem goInv {α β : Type} {x : GoM α} {f : α → GoM β} {r : β} (h : (x >>= f) = .ok r) : ∃ a, x = .ok a ∧ f a = .ok r := by
  cases x with
  | error e => cases h
  | ok a => exact ⟨a, rfl, h⟩

section
variable {P : Program} {be u : Bool} {N d i next : Nat} {old fr : Nat → List Val} {L lo : Loc} {cb : Val} {c c' c0 : Ctx}

theorem pad_src (h : look fr ⟨0, 1, []⟩ = .ok padV) {n : Word} (hn : n.toNat ≤ 64) :
    Src fr ⟨0, 1, []⟩ 0 64 64 (n.setWidth 64) (Model.C.sha1_padding.take n.toNat) := by
  have hl : (Model.C.sha1_padding.take n.toNat).length = n.toNat := by
    rw [List.length_take, show Model.C.sha1_padding.length = 64 from rfl]; omega
  refine ⟨⟨64, elems padV, by rw [h]; exact congrArg _ padV_eq.1, Nat.le_refl _, by omega, fun q hq => ?_⟩, by omega, Nat.le_refl _, ?_⟩
  · rw [Nat.zero_add, padV_eq.2, List.getElem_take]
    cases q with
    | zero => rfl
    | succ q =>
      rw [if_neg (by omega)]
      exact congrArg Val.u8 (List.getElem_replicate ..).symm
  · rw [hl, BitVec.toNat_setWidth]
    omega

/-- `SHA1DCUpdate(ctx, sha1_padding, padn)` (cgo/sha1.c:2106). -/
theorem finUpd_do (hP : HasC P be) (hW : HasWords P be) (hU : findFunc (name! "C") (name! "SHA1DCUpdate") P.funcs = some (updFunc u))
    (hN : 80 < N) (F : Found fr i L cb c0) (K : Keeps fr i L (ctxV cb c) old next) (hp : look fr ⟨0, 1, []⟩ = .ok padV)
    {last padn : Word} {total : Word64} (hn : padn.toNat ≤ 64)
    (h : Model.C.SHA1DCUpdate ⟨be, be, u⟩ c (Model.C.sha1_padding.take padn.toNat) = .ok c') :
    ∃ old' next', exec (P.world N (d + 4)) N finUpd ⟨i, finC lo L last padn total, old, next⟩ =
      .ok (.normal, ⟨i, finC lo L last padn total, old', next'⟩) ∧ Keeps fr i L (ctxV cb c') old' next' := by
  have hi : (0 : Nat) ≠ i := by have := F.lt; omega
  have h0 : (0 : Nat) < i := by omega
  have hlt := K.lt
  have hL0 : (0 : Nat) ≠ L.frame := Ne.symm F.pos
  have hpo : look old ⟨0, 1, []⟩ = .ok padV := by rw [K.other (l := ⟨0, 1, []⟩) h0 hL0, hp]
  have hld : load ⟨0, 1, []⟩ ⟨i, finC lo L last padn total, old, next⟩ =
      .ok (.arr 64 (elems padV), ⟨i, finC lo L last padn total, old, next⟩) :=
    load_look (l := ⟨0, 1, []⟩) hi (hpo.trans (congrArg _ padV_eq.1)) _
  have hpl : place (P.world N (d + 4)) (.glob (name! "C") (name! "sha1_padding")) ⟨i, finC lo L last padn total, old, next⟩ =
      .ok (⟨0, 1, []⟩, ⟨i, finC lo L last padn total, old, next⟩) := by
    show (Go.need (P.glob (name! "C") (name! "sha1_padding")) >>= _) _ = _
    rw [hP.pad]
    rfl
  have he := evs_slice (lo := .omit) (hi := .omit) hpl evs_omit evs_omit
    (sliceOf_arr hld (x := 0) (y := 64) bound_none bound_none (Nat.zero_le _) (Nat.le_refl _))
  have hv : evs (P.world N (d + 4)) (.conv .u64 (.loc 3)) ⟨i, finC lo L last padn total, old, next⟩ =
      .ok ([.u64 (padn.setWidth 64)], ⟨i, finC lo L last padn total, old, next⟩) := rfl
  have hev := evs_call (p := name! "C") (n := name! "SHA1DCUpdate") (evs_cons (evs_loc (m := ⟨i, finC lo L last padn total, old, next⟩)
    (k := 1) (v := .ptr L) rfl) (evs_cons he (evs_one hv)))
  obtain ⟨m', h1, h2⟩ := update_run (d := d) (u := u) hP hW hN (m := ⟨i, finC lo L last padn total, old, next⟩) (L := L) (lp := ⟨0, 1, []⟩)
    (cb := cb) (c := c)
    ⟨by rw [look_old (Nat.ne_of_lt F.lt)]; exact F.now K,
      by rw [look_old (l := ⟨0, 0, []⟩) hi, K.other (l := ⟨0, 0, []⟩) h0 hL0, F.dvs], Nat.lt_trans F.lt hlt, F.pos⟩
    (show 0 < next by omega) hL0 (pad_src (by rw [look_old (l := ⟨0, 1, []⟩) hi]; exact hpo) hn)
    (by
      have : (Model.C.sha1_padding.take padn.toNat).length ≤ 64 := by rw [List.length_take]; omega
      omega) h
  obtain ⟨old', next', k1, k2⟩ := became_keeps K F.lt F.ctx (fixed_struct _) h2
  subst k1
  obtain ⟨b, hb⟩ := updFunc_some u
  exact ⟨old', next', exec_expr (hev.trans ((call_of rfl hU hb).trans h1)), k2⟩

/-- cgo/sha1.c:2108-2109. -/
theorem finTotal_do {X : World} {o : List Byte} (H : Both i lo L o cb c old) {last padn : Word} {total : Word64} :
    exec X N (seqs [finTotal, finBits]) ⟨i, finC lo L last padn total, old, next⟩ =
      .ok (.normal, ⟨i, finC lo L last padn ((c.total - padn.setWidth 64) <<< 3), old, next⟩) :=
  exec_two_vars H (by by_kernel) rfl rfl

/-- `SHA1DCFinal` as it is read from the text of cgo/sha1.c:2101-2140 is the model's. -/
theorem final_run (hP : HasC P be) (hW : HasWords P be) (hU : findFunc (name! "C") (name! "SHA1DCUpdate") P.funcs = some (updFunc u))
    (hN : 80 < N) {m : Mem} (F : Found m.frame m.next L cb c) (hp : look m.frame ⟨0, 1, []⟩ = .ok padV) {o D : List Byte}
    (ho : look m.frame lo = .ok (bytesV 20 o)) (hol : o.length = 20) (hlo : lo.frame < m.next) (hne : lo.frame ≠ L.frame) {v : Word}
    (h : Model.C.SHA1DCFinal ⟨be, be, u⟩ c = .ok (c', D, v)) :
    ∃ m', runFunc (P.world N (d + 4)) N finalFunc [whole lo 20, .ptr L] m = .ok ([.u32 v], m') ∧
      Became m (Go.putAt (Go.putAt m.frame L (ctxV cb c')) lo (bytesV 20 D)) m' := by
  unfold Model.C.SHA1DCFinal at h
  have hn : (finPad c).toNat ≤ 64 := by
    by_cases hn : (finPad c).toNat ≤ 64
    · exact hn
    · exact absurd (show (Except.error Panic.fault : GoM _) = _ from (if_neg hn).symm.trans h) (by simp)
  replace h := (if_pos hn).symm.trans h
  obtain ⟨c1, u1, h⟩ := goInv h
  obtain ⟨B, u2, h⟩ := goInv h
  obtain ⟨c2, u3, h⟩ := goInv h
  have hr := Except.ok.inj h
  simp only [Prod.mk.injEq] at hr
  obtain ⟨hr1, hr2, hr3⟩ := hr
  subst hr1
  subst hr3
  have K0 : Keeps m.frame m.next L (ctxV cb c) m.frame (m.next + 1) := keeps_self F.ctx
  have s1 := finPadn_do (X := P.world N (d + 4)) (N := N) (next := m.next + 1) (F.both K0 ho hlo hne)
  obtain ⟨old1, n1, s2, K1⟩ := finUpd_do (d := d) (lo := lo) (total := 0) (last := finRest c) hP hW hU hN F K0 hp hn u1
  have s3 := finTotal_do (X := P.world N (d + 4)) (N := N) (next := n1) (F.both K1 ho hlo hne)
    (last := finRest c) (padn := finPad c) (total := 0)
  have s4 := finLen_do (X := P.world N (d + 4)) (N := N) (next := n1) (F.both K1 ho hlo hne)
    (last := finRest c) (padn := finPad c) (total := (c1.total - (finPad c).setWidth 64) <<< 3) u2
  have K2 := K1.put (w := ctxV cb { c1 with buffer := B }) F.ctx (fixed_struct _)
  obtain ⟨old3, n3, s5, K3⟩ := procBuf_do (d := d + 1) (q := 1) (u := u) hP hW hN F K2
    (C := finC lo L (finRest c) (finPad c) ((c1.total - (finPad c).setWidth 64) <<< 3)) rfl u3
  have s6 := finOut_do (X := P.world N (d + 4)) (N := N) (next := n3) hol (F.both K3 ho hlo hne)
    (last := finRest c) (padn := finPad c) (total := (c1.total - (finPad c).setWidth 64) <<< 3)
  have H4 : Both m.next lo L (outBytes c2.ihv) cb c2 (Go.putAt old3 lo (bytesV 20 (outBytes c2.ihv))) := by
    have H3 := F.both K3 ho hlo hne
    exact ⟨look_putAt (fixed_arr _ _) H3.out, by rw [look_other (.inl hne), H3.ctx], hne, H3.lo, H3.hi⟩
  have s7 : exec (P.world N (d + 4)) N finBody ⟨m.next, [whole lo 20, .ptr L], m.frame, m.next + 1⟩ =
      .ok (.ret [.u32 c2.found_collision], ⟨m.next, finC lo L (finRest c) (finPad c) ((c1.total - (finPad c).setWidth 64) <<< 3),
        Go.putAt old3 lo (bytesV 20 (outBytes c2.ihv)), n3⟩) := by
    refine exec_block_ret ?_
    refine (exec_seqs_append (ss := [finLast, finPadn, .var .u64]) s1).trans ?_
    refine (exec_seqs_cons s2).trans ?_
    refine (exec_seqs_append (ss := [finTotal, finBits]) s3).trans ?_
    refine (exec_seqs_append s4).trans ?_
    refine (exec_seqs_cons s5).trans ?_
    refine (exec_seqs_append s6).trans ?_
    exact exec_seq_ret (exec_ret (evs_two H4 (by by_kernel) rfl rfl))
  have he : m.enter [whole lo 20, .ptr L] = ⟨m.next, [whole lo 20, .ptr L], m.frame, m.next + 1⟩ := by
    rw [← Mem.enter_old m [whole lo 20, .ptr L]]
    rfl
  rw [← he] at s7
  refine ⟨_, runFunc_of finalFunc_body (Nat.lt_irrefl _) s7 rfl, rfl, ?_, fun k hk => ?_⟩
  · have := K3.lt
    simp only [Mem.leave]
    split <;> omega
  · have hf : (m.leave ⟨m.next, finC lo L (finRest c) (finPad c) ((c1.total - (finPad c).setWidth 64) <<< 3),
        Go.putAt old3 lo (bytesV 20 (outBytes c2.ihv)), n3⟩ finBody.addrs).frame k = Go.putAt old3 lo (bytesV 20 (outBytes c2.ihv)) k := by
      simp only [Mem.leave, Mem.frame]
      by_cases hid : k = m.id
      · rw [if_pos hid, hid]
      · rw [if_neg hid, if_neg hid, if_neg (by omega)]
    rw [hf, ← hr2]
    by_cases hk' : k = lo.frame
    · subst hk'
      simp only [Go.putAt, if_true]
      rw [K3.eq _ hk]
      rfl
    · rw [putAt_of_ne hk', putAt_of_ne hk', K3.eq _ hk]

end

end Verif.Source.C
