import Verif.Proofs.GoMarshal

/-!
`UnmarshalBinary` as it is read from the text of sha1cd.go.
-/

namespace Verif.Source.Go

open Verif Verif.Source Verif.Model

/-- `consumeUint32`, sha1cd.go:101-105. -/
def con32Func : Func := evaluated! getFunc progSha1cd (name! "sha1cd") (name! "consumeUint32")

/-- `consumeUint64`, sha1cd.go:94-99. -/
def con64Func : Func := evaluated! getFunc progSha1cd (name! "sha1cd") (name! "consumeUint64")

/-- `UnmarshalBinary`, sha1cd.go:75-92. -/
def unmarshalFunc : Func := evaluated! getFunc progSha1cd 0 (name! "UnmarshalBinary")

/-- `uint32(b[k])` or `uint64(b[k])`, sha1cd.go:96,103. -/
def castAt (t : Ty) (k : Nat) : Expr := .conv t (.index (.loc 0) (.num k))

/-- The same, shifted. -/
def castShl (t : Ty) (k s : Nat) : Expr := .bin .shl (castAt t k) (.num s)

/-- The word that `consumeUint32` reads, sha1cd.go:103. -/
def read32 : Expr := .bin .or (.bin .or (.bin .or (castAt .u32 3) (castShl .u32 2 8)) (castShl .u32 1 16)) (castShl .u32 0 24)

/-- The word that `consumeUint64` reads, sha1cd.go:96-97. -/
def read64 : Expr := .bin .or (.bin .or (.bin .or (.bin .or (.bin .or (.bin .or (.bin .or (castAt .u64 7) (castShl .u64 6 8))
  (castShl .u64 5 16)) (castShl .u64 4 24)) (castShl .u64 3 32)) (castShl .u64 2 40)) (castShl .u64 1 48)) (castShl .u64 0 56)

/-- The body of `consumeUint32`, sha1cd.go:102-104. -/
def con32Body : Stmt := .block 1 (seqs [.assign (.cons .blank .nil) (.cons (.index (.loc 0) (.num 3)) .nil),
  .define 1 (.cons read32 .nil), .ret (.cons (.slice (.loc 0) (.num 4) .omit) (.cons (.loc 1) .nil))])

/-- The body of `consumeUint64`, sha1cd.go:95-98. -/
def con64Body : Stmt := .block 1 (seqs [.assign (.cons .blank .nil) (.cons (.index (.loc 0) (.num 7)) .nil),
  .define 1 (.cons read64 .nil), .ret (.cons (.slice (.loc 0) (.num 8) .omit) (.cons (.loc 1) .nil))])

theorem con32Func_eq : con32Func = ⟨name! "sha1cd", name! "consumeUint32", [.slice .u8], [.slice .u8, .u32], false, some con32Body⟩ := by by_kernel
theorem con64Func_eq : con64Func = ⟨name! "sha1cd", name! "consumeUint64", [.slice .u8], [.slice .u8, .u64], false, some con64Body⟩ := by by_kernel

/-- `shared.Magic`, internal/const.go:26. -/
def magicStr : Expr := .str (chars! "shacd\x01")

/-- `return errors.New(s)`. -/
def retErr (s : List Nat) : Stmt := .block 2 (seqs [.ret (.cons (.call (name! "errors") (name! "New") (.cons (.str s) .nil)) .nil)])

/-- The condition of sha1cd.go:76. -/
def badMagic : Expr := .either (.bin .lt (.len (.loc 1)) (.len magicStr))
  (.bin .ne (.conv .str (.slice (.loc 1) .omit (.len magicStr))) magicStr)

/-- `b, d.h[k] = consumeUint32(b)`, sha1cd.go:83-87. -/
def conH (k : Nat) : Stmt := .assign (.cons (.loc 1) (.cons (digH k) .nil))
  (.cons (.call (name! "sha1cd") (name! "consumeUint32") (.cons (.loc 1) .nil)) .nil)

/-- `b = b[copy(d.x[:], b):]`, sha1cd.go:88. -/
def conX : Stmt := .assign (.cons (.loc 1) .nil) (.cons (.slice (.loc 1) (.copy (digX .omit .omit) (.loc 1)) .omit) .nil)

/-- `b, d.len = consumeUint64(b)`, sha1cd.go:89. -/
def conLen : Stmt := .assign (.cons (.loc 1) (.cons (.field (.loc 0) (name! "len")) .nil))
  (.cons (.call (name! "sha1cd") (name! "consumeUint64") (.cons (.loc 1) .nil)) .nil)

/-- `d.nx = int(d.len % shared.Chunk)`, sha1cd.go:90. -/
def conNx : Stmt := .assign (.cons (.field (.loc 0) (name! "nx")) .nil)
  (.cons (.conv .int (.bin .rem (.field (.loc 0) (name! "len")) (.num 64))) .nil)

/-- `b = b[len(shared.Magic):]`, sha1cd.go:82. -/
def conMagic : Stmt := .assign (.cons (.loc 1) .nil) (.cons (.slice (.loc 1) (.len magicStr) .omit) .nil)

/-- The body of `UnmarshalBinary`, sha1cd.go:76-91. -/
def unmarshalBody : Stmt := .block 2 (seqs [.ite badMagic (retErr (chars! "crypto/sha1: invalid hash state identifier")) .skip,
  .ite (.bin .ne (.len (.loc 1)) (.num 98)) (retErr (chars! "crypto/sha1: invalid hash state size")) .skip,
  conMagic, conH 0, conH 1, conH 2, conH 3, conH 4, conX, conLen, conNx, .ret (.cons .null .nil)])

theorem unmarshalFunc_eq : unmarshalFunc = ⟨0, name! "UnmarshalBinary", [.ptr digTy, .slice .u8], [.any], false, some unmarshalBody⟩ := by by_kernel

/-- The program has the functions of sha1cd.go that read a checkpoint. -/
structure HasUnmarshal (P : Program) : Prop where
  con32 : findFunc (name! "sha1cd") (name! "consumeUint32") P.funcs = some con32Func
  con64 : findFunc (name! "sha1cd") (name! "consumeUint64") P.funcs = some con64Func
  unmarshal : findFunc 0 (name! "UnmarshalBinary") P.funcs = some unmarshalFunc

/-- What `UnmarshalBinary` returns, sha1cd.go:77,80,91. -/
def errVal : Option Err → Val
  | none => .null
  | some .badIdentifier => .err (chars! "crypto/sha1: invalid hash state identifier")
  | some .badSize => .err (chars! "crypto/sha1: invalid hash state size")

/-- The word at the beginning of `b`, big-endian. -/
def word32 (b : List Byte) : Word := (b.getD 3 0).setWidth 32 ||| ((b.getD 2 0).setWidth 32 <<< 8) ||| ((b.getD 1 0).setWidth 32 <<< 16) |||
  ((b.getD 0 0).setWidth 32 <<< 24)

/-- The same for 64 bits. -/
def word64 (b : List Byte) : Word64 := (b.getD 7 0).setWidth 64 ||| ((b.getD 6 0).setWidth 64 <<< 8) ||| ((b.getD 5 0).setWidth 64 <<< 16) |||
  ((b.getD 4 0).setWidth 64 <<< 24) ||| ((b.getD 3 0).setWidth 64 <<< 32) ||| ((b.getD 2 0).setWidth 64 <<< 40) |||
  ((b.getD 1 0).setWidth 64 <<< 48) ||| ((b.getD 0 0).setWidth 64 <<< 56)

theorem consume32_ok : ∀ {b : List Byte}, 4 ≤ b.length → consumeUint32 b = .ok (b.drop 4, word32 b)
  | _ :: _ :: _ :: _ :: _, _ => rfl

theorem consume64_ok : ∀ {b : List Byte}, 8 ≤ b.length → consumeUint64 b = .ok (b.drop 8, word64 b)
  | _ :: _ :: _ :: _ :: _ :: _ :: _ :: _ :: _, _ => rfl

section
variable {P : Program} {N d : Nat} {m : Mem} {lp : Loc} {off cap : Nat} {bs : List Byte} {X : World} {i : Nat} {C : List Val}
  {old : Nat → List Val} {next : Nat}

theorem elemOf_bytes (hi : lp.frame ≠ i) (hb : Bytes old lp off cap bs) {k : Nat} (hk : k < bs.length) :
    elemOf (.slice lp off bs.length cap) (.const k) ⟨i, C, old, next⟩ = .ok (.u8 (bs.getD k 0), ⟨i, C, old, next⟩) := by
  have h1 : indexIn (k : Int) bs.length = .ok k := by simp [indexIn, hk]
  have h2 := load_look (l := lp.sub (off + k)) (next := next) hi (hb.look hk) C
  simp only [elemOf, bind_run, need, number, lift, h1, h2]
  rw [List.getD_eq_getElem?_getD, List.getElem?_eq_getElem hk]
  rfl

theorem castAt_ok {t : Ty} {v : Byte → Val} (ht : t ≠ .str) (hv : ∀ x, convert t (.u8 x) = some (v x)) (hi : lp.frame ≠ i)
    (hb : Bytes old lp off cap bs) (h0 : C[0]? = some (.slice lp off bs.length cap)) {k : Nat} (hk : k < bs.length) :
    evs X (castAt t k) ⟨i, C, old, next⟩ = .ok ([v (bs.getD k 0)], ⟨i, C, old, next⟩) := by
  have h1 : evs X (.index (.loc 0) (.num k)) ⟨i, C, old, next⟩ = .ok ([.u8 (bs.getD k 0)], ⟨i, C, old, next⟩) :=
    evs_index (evs_loc h0) evs_num (elemOf_bytes hi hb hk)
  show (evs X (.index (.loc 0) (.num k)) >>= _) _ = _
  rw [bind_of h1, bind_of (single_one _ _)]
  cases t <;> first | exact absurd rfl ht | (simp only [hv]; rfl)

theorem read32_ok (hi : lp.frame ≠ i) (hb : Bytes old lp off cap bs) (h0 : C[0]? = some (.slice lp off bs.length cap)) (h4 : 4 ≤ bs.length) :
    evs X read32 ⟨i, C, old, next⟩ = .ok ([.u32 (word32 bs)], ⟨i, C, old, next⟩) := by
  have hc : ∀ k, k < 4 → evs X (castAt .u32 k) ⟨i, C, old, next⟩ = .ok ([.u32 ((bs.getD k 0).setWidth 32)], ⟨i, C, old, next⟩) := fun k hk =>
    castAt_ok (v := fun x => .u32 (x.setWidth 32)) (by simp) (fun _ => rfl) hi hb h0 (by omega)
  exact evs_bin (evs_bin (evs_bin (hc 3 (by omega)) (evs_bin (hc 2 (by omega)) evs_num rfl) rfl) (evs_bin (hc 1 (by omega)) evs_num rfl) rfl)
    (evs_bin (hc 0 (by omega)) evs_num rfl) rfl

theorem read64_ok (hi : lp.frame ≠ i) (hb : Bytes old lp off cap bs) (h0 : C[0]? = some (.slice lp off bs.length cap)) (h8 : 8 ≤ bs.length) :
    evs X read64 ⟨i, C, old, next⟩ = .ok ([.u64 (word64 bs)], ⟨i, C, old, next⟩) := by
  have hc : ∀ k, k < 8 → evs X (castAt .u64 k) ⟨i, C, old, next⟩ = .ok ([.u64 ((bs.getD k 0).setWidth 64)], ⟨i, C, old, next⟩) := fun k hk =>
    castAt_ok (v := fun x => .u64 (x.setWidth 64)) (by simp) (fun _ => rfl) hi hb h0 (by omega)
  have hs : ∀ k s, k < 8 → evs X (castShl .u64 k s) ⟨i, C, old, next⟩ = .ok ([.u64 ((bs.getD k 0).setWidth 64 <<< s)], ⟨i, C, old, next⟩) :=
    fun k s hk => evs_bin (hc k hk) evs_num rfl
  exact evs_bin (evs_bin (evs_bin (evs_bin (evs_bin (evs_bin (evs_bin (hc 7 (by omega)) (hs 6 8 (by omega)) rfl) (hs 5 16 (by omega)) rfl)
    (hs 4 24 (by omega)) rfl) (hs 3 32 (by omega)) rfl) (hs 2 40 (by omega)) rfl) (hs 1 48 (by omega)) rfl) (hs 0 56 (by omega)) rfl

theorem leave_same {C : List Val} (keep : Bool) : Became m m.frame (m.leave ⟨m.next, C, m.frame, m.next + 1⟩ keep) := by
  refine ⟨rfl, ?_, fun k hk => ?_⟩
  · simp only [Mem.leave]
    split <;> omega
  · simp only [Mem.leave, Mem.frame]
    by_cases hid : k = m.id
    · subst hid; simp
    · rw [if_neg hid, if_neg hid, if_neg (by omega)]

theorem con32_eq (hP : HasUnmarshal P) (hl : lp.frame < m.next) (hb : Bytes m.frame lp off cap bs) (h4 : 4 ≤ bs.length) :
    ∃ m', P.call N (d + 1) (name! "sha1cd") (name! "consumeUint32") [.slice lp off bs.length cap] m =
      .ok ([.slice lp (off + 4) (bs.drop 4).length (cap - 4), .u32 (word32 bs)], m') ∧ Became m m.frame m' := by
  rw [call_of (by rfl) hP.con32 (congrArg Func.body con32Func_eq)]
  have hnp : ¬[Val.slice lp off bs.length cap].length < con32Func.params.length := by rw [con32Func_eq]; exact Nat.lt_irrefl 1
  have hi := Nat.ne_of_lt hl
  have hcap : bs.length ≤ cap := by obtain ⟨_, _, _, _, h, _⟩ := hb; exact h
  have e1 : exec (P.world N d) N (.assign (.cons .blank .nil) (.cons (.index (.loc 0) (.num 3)) .nil))
      ⟨m.next, [.slice lp off bs.length cap], m.frame, m.next + 1⟩ = .ok (.normal, ⟨m.next, [.slice lp off bs.length cap], m.frame, m.next + 1⟩) :=
    exec_assign (ps := [none]) rfl (evs_one (evs_index (evs_loc rfl) evs_num (elemOf_bytes hi hb (by omega)))) rfl
  have e2 : exec (P.world N d) N (.define 1 (.cons read32 .nil)) ⟨m.next, [.slice lp off bs.length cap], m.frame, m.next + 1⟩ =
      .ok (.normal, ⟨m.next, [.slice lp off bs.length cap, .u32 (word32 bs)], m.frame, m.next + 1⟩) :=
    exec_define (evs_one (read32_ok hi hb rfl h4)) rfl
  have hld : load ⟨m.next, 0, []⟩ ⟨m.next, [.slice lp off bs.length cap, .u32 (word32 bs)], m.frame, m.next + 1⟩ =
      .ok (.slice lp off bs.length cap, ⟨m.next, [.slice lp off bs.length cap, .u32 (word32 bs)], m.frame, m.next + 1⟩) :=
    load_some (show (Mem.frame _ _)[0]? = some (.slice lp off bs.length cap) by simp [Mem.frame]) rfl
  have e3 : evs (P.world N d) (.slice (.loc 0) (.num 4) .omit) ⟨m.next, [.slice lp off bs.length cap, .u32 (word32 bs)], m.frame, m.next + 1⟩ =
      .ok ([.slice lp (off + 4) (bs.length - 4) (cap - 4)], ⟨m.next, [.slice lp off bs.length cap, .u32 (word32 bs)], m.frame, m.next + 1⟩) :=
    evs_slice (l := ⟨m.next, 0, []⟩) (a := [.const 4]) (b := []) rfl evs_num rfl
      (sliceOf_slice (x := 4) (y := bs.length) hld rfl rfl h4 hcap)
  refine ⟨_, runFunc_of (m' := ⟨m.next, [.slice lp off bs.length cap, .u32 (word32 bs)], m.frame, m.next + 1⟩)
    (s := .ret [.slice lp (off + 4) (bs.drop 4).length (cap - 4), .u32 (word32 bs)])
    (congrArg Func.body con32Func_eq) hnp ?_ (by rw [con32Func_eq]; rfl), leave_same _⟩
  rw [show passed con32Func.params [.slice lp off bs.length cap] ++ (if con32Func.named then con32Func.results.map zero else []) =
    [.slice lp off bs.length cap] by rw [con32Func_eq]; rfl, List.length_drop]
  exact exec_block_ret ((exec_seqs_cons e1).trans ((exec_seqs_cons e2).trans (exec_seq_ret (exec_ret (evs_cons e3 (evs_one (evs_loc rfl)))))))

theorem con64_eq (hP : HasUnmarshal P) (hl : lp.frame < m.next) (hb : Bytes m.frame lp off cap bs) (h8 : 8 ≤ bs.length) :
    ∃ m', P.call N (d + 1) (name! "sha1cd") (name! "consumeUint64") [.slice lp off bs.length cap] m =
      .ok ([.slice lp (off + 8) (bs.drop 8).length (cap - 8), .u64 (word64 bs)], m') ∧ Became m m.frame m' := by
  rw [call_of (by rfl) hP.con64 (congrArg Func.body con64Func_eq)]
  have hnp : ¬[Val.slice lp off bs.length cap].length < con64Func.params.length := by rw [con64Func_eq]; exact Nat.lt_irrefl 1
  have hi := Nat.ne_of_lt hl
  have hcap : bs.length ≤ cap := by obtain ⟨_, _, _, _, h, _⟩ := hb; exact h
  have e1 : exec (P.world N d) N (.assign (.cons .blank .nil) (.cons (.index (.loc 0) (.num 7)) .nil))
      ⟨m.next, [.slice lp off bs.length cap], m.frame, m.next + 1⟩ = .ok (.normal, ⟨m.next, [.slice lp off bs.length cap], m.frame, m.next + 1⟩) :=
    exec_assign (ps := [none]) rfl (evs_one (evs_index (evs_loc rfl) evs_num (elemOf_bytes hi hb (by omega)))) rfl
  have e2 : exec (P.world N d) N (.define 1 (.cons read64 .nil)) ⟨m.next, [.slice lp off bs.length cap], m.frame, m.next + 1⟩ =
      .ok (.normal, ⟨m.next, [.slice lp off bs.length cap, .u64 (word64 bs)], m.frame, m.next + 1⟩) :=
    exec_define (evs_one (read64_ok hi hb rfl h8)) rfl
  have hld : load ⟨m.next, 0, []⟩ ⟨m.next, [.slice lp off bs.length cap, .u64 (word64 bs)], m.frame, m.next + 1⟩ =
      .ok (.slice lp off bs.length cap, ⟨m.next, [.slice lp off bs.length cap, .u64 (word64 bs)], m.frame, m.next + 1⟩) :=
    load_some (show (Mem.frame _ _)[0]? = some (.slice lp off bs.length cap) by simp [Mem.frame]) rfl
  have e3 : evs (P.world N d) (.slice (.loc 0) (.num 8) .omit) ⟨m.next, [.slice lp off bs.length cap, .u64 (word64 bs)], m.frame, m.next + 1⟩ =
      .ok ([.slice lp (off + 8) (bs.length - 8) (cap - 8)], ⟨m.next, [.slice lp off bs.length cap, .u64 (word64 bs)], m.frame, m.next + 1⟩) :=
    evs_slice (l := ⟨m.next, 0, []⟩) (a := [.const 8]) (b := []) rfl evs_num rfl
      (sliceOf_slice (x := 8) (y := bs.length) hld rfl rfl h8 hcap)
  refine ⟨_, runFunc_of (m' := ⟨m.next, [.slice lp off bs.length cap, .u64 (word64 bs)], m.frame, m.next + 1⟩)
    (s := .ret [.slice lp (off + 8) (bs.drop 8).length (cap - 8), .u64 (word64 bs)])
    (congrArg Func.body con64Func_eq) hnp ?_ (by rw [con64Func_eq]; rfl), leave_same _⟩
  rw [show passed con64Func.params [.slice lp off bs.length cap] ++ (if con64Func.named then con64Func.results.map zero else []) =
    [.slice lp off bs.length cap] by rw [con64Func_eq]; rfl, List.length_drop]
  exact exec_block_ret ((exec_seqs_cons e1).trans ((exec_seqs_cons e2).trans (exec_seq_ret (exec_ret (evs_cons e3 (evs_one (evs_loc rfl)))))))

end

/-- The frame of `UnmarshalBinary`. -/
def uSlots (ld lp : Loc) (off len cap : Nat) : List Val := [.ptr ld, .slice lp off len cap]

/-- What `UnmarshalBinary` relies on about where things are. -/
structure ReadCtx (fr : Nat → List Val) (i : Nat) (ld : Loc) (D0 : Digest) (lp : Loc) : Prop where
  ld_lt : ld.frame < i
  lp_lt : lp.frame < i
  ne : lp.frame ≠ ld.frame
  dig : look fr ld = .ok (digV D0)

section
variable {P : Program} {N d : Nat} {fr : Nat → List Val} {lp ld : Loc} {off cap off' len' cap' : Nat} {bs : List Byte} {X : World} {i : Nat}
  {old : Nat → List Val} {next : Nat} {D D0 : Digest}

theorem ReadCtx.bytes (W : ReadCtx fr i ld D0 lp) (K : Keeps fr i ld (digV D) old next) (hb : Bytes fr lp off cap bs) : Bytes old lp off cap bs :=
  hb.congr (K.other W.lp_lt W.ne)

/-- A call that changes nothing. -/
theorem ReadCtx.call (W : ReadCtx fr i ld D0 lp) (K : Keeps fr i ld (digV D) old next) {C : List Val} {m' : Mem}
    (B : Became ⟨i, C, old, next⟩ (Mem.frame ⟨i, C, old, next⟩) m') :
    ∃ old' next', m' = ⟨i, C, old', next'⟩ ∧ Keeps fr i ld (digV D) old' next' := by
  refine became_keeps K W.ld_lt W.dig (fixed_digV _) ?_
  rw [putAt_self ((look_congr (frame_old (Nat.ne_of_lt W.ld_lt))).trans (K.look W.ld_lt W.dig (fixed_digV _)))]
  exact B

/-- Storing into slot 1. -/
theorem store_b {len : Nat} : store ⟨i, 1, []⟩ (.slice lp off' len' cap') ⟨i, uSlots ld lp off len cap, old, next⟩ =
    .ok ((), ⟨i, uSlots ld lp off' len' cap', old, next⟩) := by
  simp [store, Mem.frame, Val.set, Mem.setFrame, uSlots, like]

theorem load_b {len : Nat} : load ⟨i, 1, []⟩ ⟨i, uSlots ld lp off len cap, old, next⟩ =
    .ok (.slice lp off len cap, ⟨i, uSlots ld lp off len cap, old, next⟩) :=
  load_some (show (Mem.frame _ _)[1]? = some (.slice lp off len cap) by simp [Mem.frame, uSlots]) rfl

theorem conH_ok (hP : HasUnmarshal P) (W : ReadCtx fr i ld D0 lp) (K : Keeps fr i ld (digV D) old next) (hb : Bytes fr lp off cap bs)
    (h4 : 4 ≤ bs.length) {k : Nat} (hk : k < 5) :
    ∃ old' next', exec (P.world N (d + 1)) N (conH k) ⟨i, uSlots ld lp off bs.length cap, old, next⟩ =
      .ok (.normal, ⟨i, uSlots ld lp (off + 4) (bs.drop 4).length (cap - 4), old', next'⟩) ∧
      Keeps fr i ld (digV { D with h := setH D.h k (word32 bs) }) old' next' := by
  have hi : ld.frame ≠ i := Nat.ne_of_lt W.ld_lt
  have hli : lp.frame ≠ i := Nat.ne_of_lt W.lp_lt
  obtain ⟨m1, w1, w2⟩ := con32_eq (N := N) (d := d) (m := ⟨i, uSlots ld lp off bs.length cap, old, next⟩) hP (Nat.lt_trans W.lp_lt K.lt)
    ((W.bytes K hb).congr (look_congr (frame_old hli))) h4
  obtain ⟨old1, next1, p1, K1⟩ := W.call K w2
  subst p1
  have hd1 := K1.look W.ld_lt W.dig (fixed_digV _)
  refine ⟨_, _, ?_, K1.put W.dig (fixed_digV _)⟩
  have he : evs (P.world N (d + 1)) (.cons (.call (name! "sha1cd") (name! "consumeUint32") (.cons (.loc 1) .nil)) .nil)
      ⟨i, uSlots ld lp off bs.length cap, old, next⟩ = .ok ([.slice lp (off + 4) (bs.drop 4).length (cap - 4), .u32 (word32 bs)],
        ⟨i, uSlots ld lp off bs.length cap, old1, next1⟩) :=
    evs_cons (vs := [.slice lp (off + 4) (bs.drop 4).length (cap - 4), .u32 (word32 bs)]) (ws := [])
      ((evs_call (m1 := ⟨i, uSlots ld lp off bs.length cap, old, next⟩) (evs_one (evs_loc rfl))).trans w1) rfl
  refine exec_assign (ps := [some ⟨i, 1, []⟩, some ((ld.sub (name! "h")).sub k)]) ?_ he
    ((storeAll_cons store_b).trans (storeAll_one (digH_store hi hd1 hk _)))
  exact places_cons (by simp) rfl (places_cons (by simp [digH]) (digH_place hi (K.look W.ld_lt W.dig (fixed_digV _)) hk) rfl)

theorem conLen_ok (hP : HasUnmarshal P) (W : ReadCtx fr i ld D0 lp) (K : Keeps fr i ld (digV D) old next) (hb : Bytes fr lp off cap bs)
    (h8 : 8 ≤ bs.length) :
    ∃ old' next', exec (P.world N (d + 1)) N conLen ⟨i, uSlots ld lp off bs.length cap, old, next⟩ =
      .ok (.normal, ⟨i, uSlots ld lp (off + 8) (bs.drop 8).length (cap - 8), old', next'⟩) ∧
      Keeps fr i ld (digV { D with len := word64 bs }) old' next' := by
  have hi : ld.frame ≠ i := Nat.ne_of_lt W.ld_lt
  have hli : lp.frame ≠ i := Nat.ne_of_lt W.lp_lt
  obtain ⟨m1, w1, w2⟩ := con64_eq (N := N) (d := d) (m := ⟨i, uSlots ld lp off bs.length cap, old, next⟩) hP (Nat.lt_trans W.lp_lt K.lt)
    ((W.bytes K hb).congr (look_congr (frame_old hli))) h8
  obtain ⟨old1, next1, p1, K1⟩ := W.call K w2
  subst p1
  have hd1 := K1.look W.ld_lt W.dig (fixed_digV _)
  refine ⟨_, _, ?_, K1.put W.dig (fixed_digV _)⟩
  have he : evs (P.world N (d + 1)) (.cons (.call (name! "sha1cd") (name! "consumeUint64") (.cons (.loc 1) .nil)) .nil)
      ⟨i, uSlots ld lp off bs.length cap, old, next⟩ = .ok ([.slice lp (off + 8) (bs.drop 8).length (cap - 8), .u64 (word64 bs)],
        ⟨i, uSlots ld lp off bs.length cap, old1, next1⟩) :=
    evs_cons (vs := [.slice lp (off + 8) (bs.drop 8).length (cap - 8), .u64 (word64 bs)]) (ws := [])
      ((evs_call (m1 := ⟨i, uSlots ld lp off bs.length cap, old, next⟩) (evs_one (evs_loc rfl))).trans w1) rfl
  refine exec_assign (ps := [some ⟨i, 1, []⟩, some (ld.sub (name! "len"))]) ?_ he
    ((storeAll_cons store_b).trans (storeAll_one (store_dig hi hd1 (digV_set_len D _))))
  exact places_cons (by simp) rfl (places_cons (by simp) place_dig rfl)

theorem conX_ok (W : ReadCtx fr i ld D0 lp) (K : Keeps fr i ld (digV D) old next) (hb : Bytes fr lp off cap bs) :
    ∃ old', exec X N conX ⟨i, uSlots ld lp off bs.length cap, old, next⟩ =
      .ok (.normal, ⟨i, uSlots ld lp (off + min 64 bs.length) (bs.drop (min 64 bs.length)).length (cap - min 64 bs.length), old', next⟩) ∧
      Keeps fr i ld (digV { D with x := copyAt D.x 0 (Nat.zero_le _) bs }) old' next := by
  have hi : ld.frame ≠ i := Nat.ne_of_lt W.ld_lt
  have hli : lp.frame ≠ i := Nat.ne_of_lt W.lp_lt
  have hcap : bs.length ≤ cap := by obtain ⟨_, _, _, _, h, _⟩ := hb; exact h
  have hd := K.look W.ld_lt W.dig (fixed_digV _)
  refine ⟨_, ?_, K.put W.dig (fixed_digV _)⟩
  refine exec_assign places_one (evs_one (evs_slice (l := ⟨i, 1, []⟩) (a := [.int (min (64 - 0) bs.length : Nat)]) (b := []) rfl
    (evs_copy (evs_digX hi hd) (evs_loc rfl) (copy_dig (off := 0) (Nat.zero_le _) hi hd hli (W.bytes K hb))) rfl
    (sliceOf_slice (x := min 64 bs.length) (y := bs.length) load_b rfl rfl (by omega) hcap))) (storeAll_one ?_)
  rw [List.length_drop]
  exact store_b

theorem conNx_ok (W : ReadCtx fr i ld D0 lp) (K : Keeps fr i ld (digV D) old next) {C : List Val} :
    ∃ old', exec X N conNx ⟨i, .ptr ld :: C, old, next⟩ = .ok (.normal, ⟨i, .ptr ld :: C, old', next⟩) ∧
      Keeps fr i ld (digV { D with nx := (D.len % 64).toNat }) old' next := by
  have hi : ld.frame ≠ i := Nat.ne_of_lt W.ld_lt
  have hd := K.look W.ld_lt W.dig (fixed_digV _)
  have hv : (D.len % 64).toInt = (((D.len % 64).toNat : Nat) : Int) := by
    have hr : (D.len % 64).toNat = D.len.toNat % 64 := by simp [BitVec.toNat_umod]
    exact BitVec.toInt_eq_toNat_of_lt (by rw [hr]; omega)
  have e1 : evs X (.bin .rem (.field (.loc 0) (name! "len")) (.num 64)) ⟨i, .ptr ld :: C, old, next⟩ =
      .ok ([.u64 (D.len % 64)], ⟨i, .ptr ld :: C, old, next⟩) := evs_bin (evs_dig hi hd (digV_get_len D)) evs_num rfl
  have e2 : evs X (.conv .int (.bin .rem (.field (.loc 0) (name! "len")) (.num 64))) ⟨i, .ptr ld :: C, old, next⟩ =
      .ok ([.int ((D.len % 64).toNat : Nat)], ⟨i, .ptr ld :: C, old, next⟩) := by
    show (evs X (.bin .rem (.field (.loc 0) (name! "len")) (.num 64)) >>= _) _ = _
    rw [bind_of e1, bind_of (single_one _ _), ← hv]
    rfl
  exact ⟨_, exec_dig hi e2 hd (digV_set_nx D _), K.put W.dig (fixed_digV _)⟩

theorem conMagic_ok {len : Nat} (h6 : 6 ≤ len) (hcap : len ≤ cap) :
    exec X N conMagic ⟨i, uSlots ld lp off len cap, old, next⟩ = .ok (.normal, ⟨i, uSlots ld lp (off + 6) (len - 6) (cap - 6), old, next⟩) :=
  exec_assign places_one (evs_one (evs_slice (l := ⟨i, 1, []⟩) (a := [.const 6]) (b := []) rfl rfl rfl
    (sliceOf_slice (x := 6) (y := len) load_b rfl rfl h6 hcap))) (storeAll_one store_b)

theorem codes_bytes {g : Nat → Val} {l : List Byte} (hg : ∀ q (hq : q < l.length), g q = .u8 l[q]) : codes g l.length = l.map BitVec.toNat := by
  refine List.ext_getElem (by simp [codes]) fun q h1 h2 => ?_
  simp only [codes, List.getElem_map, List.getElem_range, hg q (by simpa using h2)]

theorem map_toNat_inj {a b : List Byte} (h : a.map BitVec.toNat = b.map BitVec.toNat) : a = b :=
  (List.map_inj_right fun _ _ => BitVec.eq_of_toNat_eq).mp h

theorem badMagic_ok (hli : lp.frame ≠ i) (hb : Bytes old lp off cap bs) :
    ev X badMagic ⟨i, uSlots ld lp off bs.length cap, old, next⟩ =
      .ok (.bool (decide (bs.length < Magic.length ∨ bs.take Magic.length ≠ Magic)), ⟨i, uSlots ld lp off bs.length cap, old, next⟩) := by
  have hcap : bs.length ≤ cap := by obtain ⟨_, _, _, _, h, _⟩ := hb; exact h
  have h1 : evs X (.bin .lt (.len (.loc 1)) (.len magicStr)) ⟨i, uSlots ld lp off bs.length cap, old, next⟩ =
      .ok ([.bool (decide ((bs.length : Int) < 6))], ⟨i, uSlots ld lp off bs.length cap, old, next⟩) :=
    evs_bin (evs_lenSlice (evs_loc rfl)) (y := .const 6) rfl rfl
  have h6 : Magic.length = 6 := rfl
  refine ev_of ?_
  show (evs X (.bin .lt (.len (.loc 1)) (.len magicStr)) >>= _) _ = _
  rw [bind_of h1, bind_of (single_one _ _), h6]
  by_cases hl : bs.length < 6
  · rw [decide_eq_true (show (bs.length : Int) < 6 by omega), decide_eq_true (Or.inl hl)]
    rfl
  · rw [decide_eq_false (show ¬(bs.length : Int) < 6 by omega)]
    have hlen : (bs.take 6).length = 6 := by simp; omega
    have e1 : evs X (.slice (.loc 1) .omit (.len magicStr)) ⟨i, uSlots ld lp off bs.length cap, old, next⟩ =
        .ok ([.slice lp off 6 cap], ⟨i, uSlots ld lp off bs.length cap, old, next⟩) :=
      evs_slice (l := ⟨i, 1, []⟩) (a := []) (b := [.const 6]) rfl rfl rfl
        (sliceOf_slice (x := 0) (y := 6) load_b rfl rfl (by omega) (by omega))
    obtain ⟨g, g1, g2⟩ := sliceElems_bytes (C := uSlots ld lp off bs.length cap) (next := next) hli (hb.take (k := 6) (by omega))
    rw [hlen] at g1
    have e2 : evs X (.conv .str (.slice (.loc 1) .omit (.len magicStr))) ⟨i, uSlots ld lp off bs.length cap, old, next⟩ =
        .ok ([.str ((bs.take 6).map BitVec.toNat)], ⟨i, uSlots ld lp off bs.length cap, old, next⟩) := by
      show (evs X (.slice (.loc 1) .omit (.len magicStr)) >>= _) _ = _
      rw [bind_of e1, bind_of (single_one _ _)]
      show (sliceElems _ >>= _) _ = _
      rw [bind_of g1, ← codes_bytes g2, hlen]
      rfl
    have e3 : evs X (.bin .ne (.conv .str (.slice (.loc 1) .omit (.len magicStr))) magicStr) ⟨i, uSlots ld lp off bs.length cap, old, next⟩ =
        .ok ([.bool (decide ((bs.take 6).map BitVec.toNat ≠ chars! "shacd\x01"))], ⟨i, uSlots ld lp off bs.length cap, old, next⟩) :=
      evs_bin e2 (y := .str (chars! "shacd\x01")) rfl rfl
    refine e3.trans ?_
    have hm : (chars! "shacd\x01" : List Nat) = Magic.map BitVec.toNat := by decide
    have hiff : ((bs.take 6).map BitVec.toNat ≠ chars! "shacd\x01") ↔ (bs.length < 6 ∨ bs.take 6 ≠ Magic) := by
      rw [hm]
      exact ⟨fun h => .inr fun h' => h (congrArg _ h'), fun h h' => h.elim hl fun h => h (map_toNat_inj h')⟩
    rw [decide_eq_decide.mpr hiff]

end

theorem unmarshal_bad {D : Digest} {bs : List Byte} (h : bs.length < Magic.length ∨ bs.take Magic.length ≠ Magic) :
    D.unmarshalBinary bs = .ok (D, some .badIdentifier) := by
  simp only [Digest.unmarshalBinary, if_pos h]
  rfl

theorem unmarshal_size {D : Digest} {bs : List Byte} (h : ¬(bs.length < Magic.length ∨ bs.take Magic.length ≠ Magic)) (h' : bs.length ≠ 98) :
    D.unmarshalBinary bs = .ok (D, some .badSize) := by
  simp only [Digest.unmarshalBinary, if_neg h]
  rw [if_pos (show bs.length ≠ MarshaledSize from h')]
  rfl

/-- The digest that is read. -/
def readDigest (D : Digest) (bs : List Byte) : Digest :=
  { D with h := ⟨word32 (bs.drop 6), word32 (bs.drop 10), word32 (bs.drop 14), word32 (bs.drop 18), word32 (bs.drop 22)⟩,
           x := copyAt D.x 0 (Nat.zero_le _) (bs.drop 26), len := word64 (bs.drop 90), nx := (word64 (bs.drop 90) % 64).toNat }

theorem unmarshal_read {D : Digest} {bs : List Byte} (h : ¬(bs.length < Magic.length ∨ bs.take Magic.length ≠ Magic)) (h' : bs.length = 98) :
    D.unmarshalBinary bs = .ok (readDigest D bs, none) := by
  simp only [Digest.unmarshalBinary, if_neg h]
  rw [if_neg (show ¬bs.length ≠ MarshaledSize from fun hne => hne h')]
  have hl : ∀ k, (bs.drop k).length = 98 - k := fun k => by rw [List.length_drop, h']
  rw [show Magic.length = 6 from rfl]
  simp only [consume32_ok (show 4 ≤ (bs.drop 6).length by rw [hl]; omega), bind, Except.bind, List.drop_drop,
    consume32_ok (show 4 ≤ (bs.drop 10).length by rw [hl]; omega), consume32_ok (show 4 ≤ (bs.drop 14).length by rw [hl]; omega),
    consume32_ok (show 4 ≤ (bs.drop 18).length by rw [hl]; omega), consume32_ok (show 4 ≤ (bs.drop 22).length by rw [hl]; omega),
    hl, consume64_ok (show 8 ≤ (bs.drop 90).length by rw [hl]; omega), Nat.reduceAdd, Nat.reduceSub, show min 64 72 = 64 from rfl]
  rfl

section
variable {P : Program} {N d : Nat} {m : Mem} {ld : Loc} {D : Digest} {v : Val} {bs : List Byte}

/-- `UnmarshalBinary`. -/
theorem unmarshal_eq (hP : HasUnmarshal P) (hl : ld.frame < m.next) (hd : look m.frame ld = .ok (digV D))
    (hv : IsBytes m.frame m.next ld.frame v bs) :
    ∃ D' e m', D.unmarshalBinary bs = .ok (D', e) ∧ P.call N (d + 2) 0 (name! "UnmarshalBinary") [.ptr ld, v] m = .ok ([errVal e], m') ∧
      Became m (putAt m.frame ld (digV D')) m' := by
  rw [call_of (by rfl) hP.unmarshal (congrArg Func.body unmarshalFunc_eq)]
  have hnp : ¬[Val.ptr ld, v].length < unmarshalFunc.params.length := by rw [unmarshalFunc_eq]; exact Nat.lt_irrefl 2
  have hpass : passed unmarshalFunc.params [.ptr ld, v] ++ (if unmarshalFunc.named then unmarshalFunc.results.map zero else []) = [.ptr ld, v] := by
    cases hv <;> (rw [unmarshalFunc_eq]; rfl)
  have K0 := keeps_self hd
  cases hv with
  | null =>
    refine ⟨D, some .badIdentifier, _, unmarshal_bad (.inl (by decide)), runFunc_of (m' := ⟨m.next, [.ptr ld, .null], m.frame, m.next + 1⟩)
      (s := .ret [errVal (some .badIdentifier)])
      (congrArg Func.body unmarshalFunc_eq) hnp ?_ (by rw [unmarshalFunc_eq]; rfl), leave_became K0 _⟩
    rw [hpass]
    rfl
  | slice h1 h3 hb =>
    rename_i lp off cap
    have hcap : bs.length ≤ cap := by obtain ⟨_, _, _, _, h, _⟩ := hb; exact h
    have W : ReadCtx m.frame m.next ld D lp := ⟨hl, h1, h3, hd⟩
    have hent : m.enter [.ptr ld, .slice lp off bs.length cap] = ⟨m.next, uSlots ld lp off bs.length cap, m.frame, m.next + 1⟩ := rfl
    have c1 := badMagic_ok (X := P.world N (d + 1)) (ld := ld) (next := m.next + 1) (Nat.ne_of_lt h1) hb
    by_cases hm : bs.length < Magic.length ∨ bs.take Magic.length ≠ Magic
    · rw [decide_eq_true hm] at c1
      refine ⟨D, some .badIdentifier, _, unmarshal_bad hm, runFunc_of (m' := ⟨m.next, uSlots ld lp off bs.length cap, m.frame, m.next + 1⟩)
        (s := .ret [errVal (some .badIdentifier)])
        (congrArg Func.body unmarshalFunc_eq) hnp ?_ (by rw [unmarshalFunc_eq]; rfl), leave_became K0 _⟩
      rw [hpass, hent]
      exact exec_block_ret (exec_seq_ret ((exec_ite_true c1).trans rfl))
    · rw [decide_eq_false hm] at c1
      have c2 : ev (P.world N (d + 1)) (.bin .ne (.len (.loc 1)) (.num 98)) ⟨m.next, uSlots ld lp off bs.length cap, m.frame, m.next + 1⟩ =
          .ok (.bool (decide ((bs.length : Int) ≠ 98)), ⟨m.next, uSlots ld lp off bs.length cap, m.frame, m.next + 1⟩) :=
        ev_of (evs_bin (evs_lenSlice (evs_loc rfl)) evs_num rfl)
      by_cases hz : bs.length = 98
      · rw [decide_eq_false (by omega)] at c2
        have hx : ∀ k, (bs.drop k).length = 98 - k := fun k => by rw [List.length_drop, hz]
        have e0 : exec (P.world N (d + 1)) N conMagic ⟨m.next, uSlots ld lp off bs.length cap, m.frame, m.next + 1⟩ =
            .ok (.normal, ⟨m.next, uSlots ld lp (off + 6) (bs.drop 6).length (cap - 6), m.frame, m.next + 1⟩) := by
          rw [List.length_drop]
          exact conMagic_ok (by omega) hcap
        have b0 := hb.drop (k := 6) (by omega)
        have st : ∀ {k : Nat} {o c : Nat}, k ≤ 94 → Bytes m.frame lp o c (bs.drop k) → Bytes m.frame lp (o + 4) (c - 4) (bs.drop (k + 4)) := fun hk h => by
          have := h.drop (k := 4) (by rw [hx]; omega)
          rwa [List.drop_drop] at this
        have b1 := st (by omega) b0
        have b2 := st (by omega) b1
        have b3 := st (by omega) b2
        have b4 := st (by omega) b3
        have b5 := st (by omega) b4
        obtain ⟨old1, next1, e1, K1⟩ := conH_ok (N := N) (d := d) hP W K0 b0 (by rw [hx]; omega) (k := 0) (by omega)
        rw [List.drop_drop] at e1
        obtain ⟨old2, next2, e2, K2⟩ := conH_ok (N := N) (d := d) hP W K1 b1 (by rw [hx]; omega) (k := 1) (by omega)
        rw [List.drop_drop] at e2
        obtain ⟨old3, next3, e3, K3⟩ := conH_ok (N := N) (d := d) hP W K2 b2 (by rw [hx]; omega) (k := 2) (by omega)
        rw [List.drop_drop] at e3
        obtain ⟨old4, next4, e4, K4⟩ := conH_ok (N := N) (d := d) hP W K3 b3 (by rw [hx]; omega) (k := 3) (by omega)
        rw [List.drop_drop] at e4
        obtain ⟨old5, next5, e5, K5⟩ := conH_ok (N := N) (d := d) hP W K4 b4 (by rw [hx]; omega) (k := 4) (by omega)
        rw [List.drop_drop] at e5
        obtain ⟨old6, e6, K6⟩ := conX_ok (X := P.world N (d + 1)) (N := N) W K5 b5
        have b6 := b5.drop (k := 64) (by rw [hx]; omega)
        rw [show min 64 (bs.drop (6 + 4 + 4 + 4 + 4 + 4)).length = 64 by rw [hx]; rfl] at e6
        rw [List.drop_drop] at e6 b6
        obtain ⟨old7, next7, e7, K7⟩ := conLen_ok (N := N) (d := d) hP W K6 b6 (by rw [hx]; omega)
        obtain ⟨old8, e8, K8⟩ := conNx_ok (X := P.world N (d + 1)) (N := N) W K7 (C := [.slice lp _ _ _])
        refine ⟨readDigest D bs, none, _, unmarshal_read hm hz, runFunc_of
          (m' := ⟨m.next, uSlots ld lp (off + 6 + 4 + 4 + 4 + 4 + 4 + 64 + 8) (List.drop 8 (List.drop (6 + 4 + 4 + 4 + 4 + 4 + 64) bs)).length
            (cap - 6 - 4 - 4 - 4 - 4 - 4 - 64 - 8), old8, next7⟩) (s := .ret [errVal none])
          (congrArg Func.body unmarshalFunc_eq) hnp ?_ (by rw [unmarshalFunc_eq]; rfl), leave_became (v := digV (readDigest D bs)) K8 _⟩
        rw [hpass, hent]
        exact exec_block_ret ((exec_seqs_cons (exec_ite_false c1)).trans ((exec_seqs_cons (exec_ite_false c2)).trans ((exec_seqs_cons e0).trans
          ((exec_seqs_cons e1).trans ((exec_seqs_cons e2).trans ((exec_seqs_cons e3).trans ((exec_seqs_cons e4).trans ((exec_seqs_cons e5).trans
          ((exec_seqs_cons e6).trans ((exec_seqs_cons e7).trans ((exec_seqs_cons e8).trans rfl)))))))))))
      · rw [decide_eq_true (by omega)] at c2
        refine ⟨D, some .badSize, _, unmarshal_size hm hz, runFunc_of (m' := ⟨m.next, uSlots ld lp off bs.length cap, m.frame, m.next + 1⟩)
          (s := .ret [errVal (some .badSize)])
          (congrArg Func.body unmarshalFunc_eq) hnp ?_ (by rw [unmarshalFunc_eq]; rfl), leave_became K0 _⟩
        rw [hpass, hent]
        exact exec_block_ret ((exec_seqs_cons (exec_ite_false c1)).trans (exec_seq_ret ((exec_ite_true c2).trans rfl)))

end

end Verif.Source.Go
