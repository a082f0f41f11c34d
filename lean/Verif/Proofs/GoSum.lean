import Verif.Proofs.GoWrite
import Verif.Proofs.Final

/-!
`checkSum`, `Sum`, `CollisionResistantSum` and the function `Sum` as they are read from the text of sha1cd.go.
-/

namespace Verif.Source.Go

open Verif Verif.Source Verif.Model

/-- `checkSum`, sha1cd.go:166-197. -/
def checkSumFunc : Func := evaluated! getFunc progSha1cd 0 (name! "checkSum")

/-- `len%64`, `len` being in slot 1. -/
def lenMod : Expr := .bin .rem (.loc 1) (.num 64)

/-- `binary.BigEndian.PutUint32(digest[4*k:], d.h[k])`, sha1cd.go:190-194. -/
def putH (k : Nat) : Stmt := .expr (.call (name! "BigEndian") (name! "PutUint32")
  (.cons (.slice (.loc 5) (.num (4 * k)) .omit) (.cons (digH k) .nil)))

/-- `if len%64 < 56 { t = 56 - len%64 } else { t = 64 + 56 - len%64 }`, sha1cd.go:172-176. -/
def padStmt : Stmt := .ite (.bin .lt lenMod (.num 56))
  (.block 4 (seqs [.assign (.cons (.loc 3) .nil) (.cons (.bin .sub (.num 56) lenMod) .nil)]))
  (.block 4 (seqs [.assign (.cons (.loc 3) .nil) (.cons (.bin .sub (.bin .add (.num 64) (.num 56)) lenMod) .nil)]))

/-- `if d.nx != 0 { panic("d.nx != 0") }`, sha1cd.go:184-186. -/
def nxStmt : Stmt := .ite (.bin .ne (.field (.loc 0) (name! "nx")) (.num 0))
  (.block 5 (seqs [.expr (.panic (.str (chars! "d.nx != 0")))])) .skip

/-- The body of `checkSum`, sha1cd.go:167-196. -/
def checkSumBody : Stmt := .block 1 (seqs [.define 1 (.cons (.field (.loc 0) (name! "len")) .nil), .var (.arr 72 .u8),
  .assign (.cons (.index (.loc 2) (.num 0)) .nil) (.cons (.num 128) .nil), .var .u64, padStmt,
  .opAssign .shl (.loc 1) (.num 3),
  .define 1 (.cons (.slice (.loc 2) .omit (.bin .add (.loc 3) (.num 8))) .nil),
  .expr (.call (name! "BigEndian") (name! "PutUint64") (.cons (.slice (.loc 2) (.loc 3) .omit) (.cons (.loc 1) .nil))),
  .expr (.method (name! "Write") (.loc 0) (.cons (.loc 4) .nil)), nxStmt, .var (.arr 20 .u8),
  putH 0, putH 1, putH 2, putH 3, putH 4, .ret (.cons (.loc 5) .nil)])

theorem checkSumFunc_eq : checkSumFunc = ⟨0, name! "checkSum", [.ptr digTy], [.arr 20 .u8], false, some checkSumBody⟩ := by by_kernel

theorem bigEndian_32 (x : Word) (q : Nat) (hq : q < (bytes32 x).length) : bigEndian 4 x.toNat q = .u8 (bytes32 x)[q] := by
  have h4 : q < 4 := hq
  have key : ∀ k, BitVec.ofNat 8 (x.toNat >>> k) = (x >>> k).setWidth 8 := fun k => by
    apply BitVec.eq_of_toNat_eq
    simp [BitVec.toNat_ushiftRight]
  have k0 := key 0
  simp only [BitVec.ushiftRight_zero] at k0
  match q, h4 with
  | 0, _ => exact congrArg Val.u8 (key 24)
  | 1, _ => exact congrArg Val.u8 (key 16)
  | 2, _ => exact congrArg Val.u8 (key 8)
  | 3, _ => exact congrArg Val.u8 k0

theorem bigEndian_64 (x : Word64) (q : Nat) (hq : q < (bytes64 x).length) : bigEndian 8 x.toNat q = .u8 (bytes64 x)[q] := by
  have h4 : q < 8 := hq
  have key : ∀ k, BitVec.ofNat 8 (x.toNat >>> k) = (x >>> k).setWidth 8 := fun k => by
    apply BitVec.eq_of_toNat_eq
    simp [BitVec.toNat_ushiftRight]
  have k0 := key 0
  simp only [BitVec.ushiftRight_zero] at k0
  match q, h4 with
  | 0, _ => exact congrArg Val.u8 (key 56)
  | 1, _ => exact congrArg Val.u8 (key 48)
  | 2, _ => exact congrArg Val.u8 (key 40)
  | 3, _ => exact congrArg Val.u8 (key 32)
  | 4, _ => exact congrArg Val.u8 (key 24)
  | 5, _ => exact congrArg Val.u8 (key 16)
  | 6, _ => exact congrArg Val.u8 (key 8)
  | 7, _ => exact congrArg Val.u8 k0

theorem evs_method {X : World} {m m1 m2 m3 : Mem} {f : Nat} {e es : Expr} {l l' : Loc} {vs : List Val} (hp : place X e m = .ok (l, m1))
    (ht : through l m1 = .ok (l', m2)) (hv : evs X es m2 = .ok (vs, m3)) :
    evs X (.method f e es) m = X.call 0 f (.ptr l' :: vs) m3 := by
  show (place X e >>= _) m = _
  rw [bind_of hp, bind_of ht, bind_of hv]

section
variable {X : World} {N i : Nat} {C : List Val} {old : Nat → List Val} {next : Nat}

/-- Storing into an array of the running function. -/
theorem storeMany_cur {s n off k : Nat} {f g : Nat → Val} (h : C[s]? = some (.arr n f)) (hk : off + k ≤ n) :
    storeMany ⟨i, s, []⟩ off k g ⟨i, C, old, next⟩ = .ok ((), ⟨i, C.set s (.arr n (splice f g off k)), old, next⟩) := by
  have hl : load ⟨i, s, []⟩ ⟨i, C, old, next⟩ = .ok (.arr n f, ⟨i, C, old, next⟩) :=
    load_some (by simpa [Mem.frame] using h) rfl
  simp only [storeMany, bind_run, hl]
  rw [if_pos hk]
  simp [store, Mem.frame, h, Val.set, Mem.setFrame, like]

/-- `PutUint32(a[off:], x)` and `PutUint64(a[off:], x)`, the array `a` being in a slot. -/
theorem putUint_cur {s n off k len cap w : Nat} {l bs : List Byte} (h : C[s]? = some (.arr n (byteArr l))) (hl : l.length = n)
    (hk : off + k ≤ n) (hlen : k ≤ len) (hbs : bs.length = k) (hg : ∀ q (hq : q < bs.length), bigEndian k w q = .u8 bs[q]) :
    putUint k (.slice ⟨i, s, []⟩ off len cap) w ⟨i, C, old, next⟩ =
      .ok ([], ⟨i, C.set s (.arr n (byteArr (l.take off ++ bs ++ l.drop (off + k)))), old, next⟩) := by
  simp only [putUint, bind_run, need, parts]
  rw [if_pos hlen, bind_of (storeMany_cur h hk), splice_bytes hl hk (Nat.le_of_eq hbs.symm) hg]
  rw [List.take_of_length_le (Nat.le_of_eq hbs)]
  rfl

theorem evs_sliceCur {s n : Nat} {f : Nat → Val} {lo hi : Expr} {a b : List Val} {x y : Nat} (h : C[s]? = some (.arr n f))
    (hlo : evs X lo ⟨i, C, old, next⟩ = .ok (a, ⟨i, C, old, next⟩)) (hhi : evs X hi ⟨i, C, old, next⟩ = .ok (b, ⟨i, C, old, next⟩))
    (ha : bound a.head? 0 ⟨i, C, old, next⟩ = .ok ((x : Int), ⟨i, C, old, next⟩))
    (hb : bound b.head? n ⟨i, C, old, next⟩ = .ok ((y : Int), ⟨i, C, old, next⟩)) (hxy : x ≤ y) (hy : y ≤ n) :
    evs X (.slice (.loc s) lo hi) ⟨i, C, old, next⟩ = .ok ([.slice ⟨i, s, []⟩ x (y - x) (n - x)], ⟨i, C, old, next⟩) :=
  evs_slice (l := ⟨i, s, []⟩) rfl hlo hhi (sliceOf_arr (load_some (by simpa [Mem.frame] using h) rfl) ha hb hxy hy)

end

/-- The number of padding bytes before the length, sha1cd.go:171-176. -/
def padT (len : Word64) : Word64 := if len % 64 < 56 then 56 - len % 64 else 64 + 56 - len % 64

theorem padT_le (len : Word64) : (padT len).toNat ≤ 64 := by
  unfold padT
  have hr : (len % 64).toNat = len.toNat % 64 := by simp [BitVec.toNat_umod]
  split
  · rename_i h
    have h' : len.toNat % 64 < 56 := by
      have := BitVec.lt_def.mp h
      rw [hr] at this
      simpa using this
    rw [BitVec.toNat_sub, hr]
    have : (56 : Word64).toNat = 56 := rfl
    rw [this]
    omega
  · rename_i h
    have h' : ¬ len.toNat % 64 < 56 := by
      intro h2; apply h
      rw [BitVec.lt_def, hr]
      simpa using h2
    rw [BitVec.toNat_sub, hr]
    have : (64 + 56 : Word64).toNat = 120 := rfl
    rw [this]
    omega

/-- The array `tmp` when the padding is complete. -/
def padTmp (len : Word64) : List Byte :=
  (0x80 :: List.replicate 71 0 : List Byte).take (padT len).toNat ++ bytes64 (len <<< 3) ++
    (0x80 :: List.replicate 71 0 : List Byte).drop ((padT len).toNat + 8)

theorem padTmp_length (len : Word64) : (padTmp len).length = 72 := by
  have := padT_le len
  have h8 : (bytes64 (len <<< 3)).length = 8 := rfl
  simp only [padTmp, List.length_append, List.length_take, List.length_drop, List.length_cons, List.length_replicate, h8]
  omega

theorem padding_tmp (len : Word64) : padding len = .ok ((padTmp len).take ((padT len).toNat + 8)) := by
  have h := padT_le len
  have h8 : (padT len + 8).toNat = (padT len).toNat + 8 := by
    rw [BitVec.toNat_add]
    have : (8 : Word64).toNat = 8 := rfl
    rw [this]
    omega
  have hl : (bytes64 (len <<< 3)).length = 8 := rfl
  unfold padding
  simp only [Model.putAt]
  rw [← padT, if_pos (by rw [hl]; simp; omega)]
  simp only [bind, Except.bind, pure, Except.pure]
  rw [h8, if_pos (by omega)]
  rfl

/-- The slots of `checkSum` after sha1cd.go:171. -/
def sSlots (ld : Loc) (len : Word64) (tmp : List Byte) (t : Word64) (more : List Val) : List Val :=
  .ptr ld :: .u64 len :: .arr 72 (byteArr tmp) :: .u64 t :: more

/-- The functions that hash are among the functions of the program. -/
structure HasSum (P : Program) : Prop extends HasDigest P where
  checkSum : findFunc 0 (name! "checkSum") P.funcs = some checkSumFunc

theorem zero_bytes (n : Nat) : zero (.arr n .u8) = .arr n (byteArr (List.replicate n 0)) := by
  refine congrArg (Val.arr n) (funext fun j => ?_)
  show Val.u8 0 = Val.u8 _
  rw [List.getElem?_replicate]
  split <;> rfl

section
variable {X : World} {N i : Nat} {old : Nat → List Val} {next : Nat} {ld : Loc} {len t : Word64} {tmp : List Byte} {more : List Val}

theorem lenMod_ok : evs X lenMod ⟨i, sSlots ld len tmp t more, old, next⟩ =
    .ok ([.u64 (len % 64)], ⟨i, sSlots ld len tmp t more, old, next⟩) := by
  refine evs_bin (evs_loc rfl) evs_num ?_
  rfl

theorem set_t {e : Expr} (v : Word64) (he : evs X e ⟨i, sSlots ld len tmp t [], old, next⟩ =
    .ok ([.u64 v], ⟨i, sSlots ld len tmp t [], old, next⟩)) :
    exec X N (.block 4 (seqs [.assign (.cons (.loc 3) .nil) (.cons e .nil)])) ⟨i, sSlots ld len tmp t [], old, next⟩ =
      .ok (.normal, ⟨i, sSlots ld len tmp v [], old, next⟩) := by
  refine exec_block (m' := ⟨i, sSlots ld len tmp v [], old, next⟩) (exec_seqs_cons (ss := []) ?_)
  refine exec_assign places_one (evs_one he) (storeAll_one ?_)
  simp [store, Mem.frame, Val.set, Mem.setFrame, sSlots, like]

/-- sha1cd.go:172-176. -/
theorem pad_ok : exec X N padStmt ⟨i, sSlots ld len tmp t [], old, next⟩ =
    .ok (.normal, ⟨i, sSlots ld len tmp (padT len) [], old, next⟩) := by
  have hc : ev X (.bin .lt lenMod (.num 56)) ⟨i, sSlots ld len tmp t [], old, next⟩ =
      .ok (.bool (decide ((len % 64).toNat < (56 : Word64).toNat)), ⟨i, sSlots ld len tmp t [], old, next⟩) :=
    ev_of (evs_bin lenMod_ok evs_num rfl)
  unfold padT
  by_cases h : len % 64 < 56
  · rw [decide_eq_true (BitVec.lt_def.mp h)] at hc
    rw [padStmt, exec_ite_true hc, if_pos h]
    exact set_t _ (evs_bin evs_num lenMod_ok rfl)
  · rw [decide_eq_false (fun h' => h (BitVec.lt_def.mpr h'))] at hc
    rw [padStmt, exec_ite_false hc, if_neg h]
    exact set_t _ (evs_bin (evs_bin evs_num evs_num rfl) lenMod_ok rfl)

/-- `len <<= 3`. -/
theorem shl_ok : exec X N (.opAssign .shl (.loc 1) (.num 3)) ⟨i, sSlots ld len tmp t [], old, next⟩ =
    .ok (.normal, ⟨i, sSlots ld (len <<< 3) tmp t [], old, next⟩) := by
  have hl : load ⟨i, 1, []⟩ ⟨i, sSlots ld len tmp t [], old, next⟩ = .ok (.u64 len, ⟨i, sSlots ld len tmp t [], old, next⟩) := load_pget rfl
  show (place X (.loc 1) >>= _) _ = _
  rw [bind_of (show place X (.loc 1) ⟨i, sSlots ld len tmp t [], old, next⟩ = .ok (⟨i, 1, []⟩, _) from rfl), bind_of hl,
    bind_of (ev_of (evs_num (n := 3))), show arith .shl (.u64 len) (.const ((3 : Nat) : Int)) = some (.u64 (len <<< 3)) from rfl,
    bind_of (show need (some (Val.u64 (len <<< 3))) ⟨i, sSlots ld len tmp t [], old, next⟩ = .ok (.u64 (len <<< 3), _) from rfl)]
  rw [bind_of (m' := ⟨i, sSlots ld (len <<< 3) tmp t [], old, next⟩) (a := ()) (by
    simp [store, Mem.frame, Val.set, Mem.setFrame, sSlots, like])]
  rfl

/-- sha1cd.go:168-170: `var tmp [64 + 8]byte; tmp[0] = 0x80`. -/
theorem tmp_ok : exec X N (.assign (.cons (.index (.loc 2) (.num 0)) .nil) (.cons (.num 128) .nil))
    ⟨i, [.ptr ld, .u64 len, .arr 72 (byteArr (List.replicate 72 0))], old, next⟩ =
    .ok (.normal, ⟨i, [.ptr ld, .u64 len, .arr 72 (byteArr (0x80 :: List.replicate 71 0))], old, next⟩) := by
  have hl : load ⟨i, 2, []⟩ ⟨i, [.ptr ld, .u64 len, .arr 72 (byteArr (List.replicate 72 0))], old, next⟩ =
    .ok (.arr 72 (byteArr (List.replicate 72 0)), _) := load_pget rfl
  have hp : place X (.index (.loc 2) (.num 0)) ⟨i, [.ptr ld, .u64 len, .arr 72 (byteArr (List.replicate 72 0))], old, next⟩ =
      .ok (⟨i, 2, [0]⟩, ⟨i, [.ptr ld, .u64 len, .arr 72 (byteArr (List.replicate 72 0))], old, next⟩) := by
    refine place_index (l := ⟨i, 2, []⟩) rfl evs_num ?_
    simp only [elemPlace, bind_run, need, number, hl]
    rfl
  refine exec_assign (places_cons (by simp) hp rfl) (evs_one evs_num) (storeAll_one ?_)
  have hf : (fun j => if j = 0 then Val.u8 128 else byteArr (List.replicate 72 0) j) = byteArr (0x80 :: List.replicate 71 0) := by
    funext j
    match j with
    | 0 => rfl
    | j + 1 => rfl
  simp only [store, Mem.frame, if_true, List.getElem?_cons_succ, List.getElem?_cons_zero, Val.set, byteArr, like, Mem.setFrame]
  rw [if_pos (by omega)]
  exact congrArg (fun f => Except.ok ((), (⟨i, [.ptr ld, .u64 len, .arr 72 f], old, next⟩ : Mem))) hf

end

section
variable {P : Program} {N d : Nat} {G : List Val} {block : BlockFn} {ld : Loc} {D : Digest} {m : Mem} {v : Val} {bs : List Byte}
  {i : Nat} {C : List Val} {old : Nat → List Val} {next : Nat}

/-- `PutUint32(digest[4*k:], d.h[k])`, sha1cd.go:190-194. -/
theorem putH_ok (hi : ld.frame ≠ i) (hd : look old ld = .ok (digV D)) {a b c e : Val} {l : List Byte} (hl : l.length = 20) {k : Nat}
    (hk : k < 5) :
    exec (P.world N (d + 1)) N (putH k) ⟨i, [.ptr ld, a, b, c, e, .arr 20 (byteArr l)], old, next⟩ =
      .ok (.normal, ⟨i, [.ptr ld, a, b, c, e, .arr 20 (byteArr (l.take (4 * k) ++ bytes32 (getH D.h k) ++ l.drop (4 * k + 4)))], old, next⟩) := by
  have e1 := evs_sliceCur (X := P.world N (d + 1)) (i := i) (C := [.ptr ld, a, b, c, e, .arr 20 (byteArr l)]) (old := old) (next := next)
    (s := 5) (lo := .num (4 * k)) (hi := .omit) (a := [.const (4 * k : Nat)]) (b := []) (x := 4 * k) (y := 20) rfl evs_num rfl (bound_some rfl)
    bound_none (by omega) (by omega)
  have e2 := digH_ok (X := P.world N (d + 1)) (C := [a, b, c, e, .arr 20 (byteArr l)]) (next := next) hi hd hk
  refine exec_expr (vs := []) ((evs_call (evs_cons e1 (evs_one e2))).trans ?_)
  show putUint 4 _ _ _ = _
  rw [putUint_cur (k := 4) (l := l) (bs := bytes32 (getH D.h k)) rfl hl (by omega) (by omega) rfl (bigEndian_32 _)]
  rfl

/-- `checkSum`, sha1cd.go:166-197. -/
theorem checkSum_eq (hP : HasSum P) (hB : CallsBlock P N d G block) (hN : 2 < N)
    (hG : Boot G m.frame) (h2 : 2 ≤ ld.frame) (hl : ld.frame < m.next) (hd : look m.frame ld = .ok (digV D)) :
    match D.checkSum block with
    | .ok (D', hash) => ∃ m', P.call N (d + 2) 0 (name! "checkSum") [.ptr ld] m = .ok ([.arr 20 (byteArr hash)], m') ∧
        Became m (putAt m.frame ld (digV D')) m'
    | .error e => ∃ s, P.call N (d + 2) 0 (name! "checkSum") [.ptr ld] m = .error s ∧ Stands e s := by
  have hne : ld.frame ≠ m.next := Nat.ne_of_lt hl
  rw [call_of (by rfl) hP.checkSum (congrArg Func.body checkSumFunc_eq)]
  have hnp : ¬[Val.ptr ld].length < checkSumFunc.params.length := by rw [checkSumFunc_eq]; exact Nat.lt_irrefl 1
  have hpass : passed checkSumFunc.params [.ptr ld] ++ (if checkSumFunc.named then checkSumFunc.results.map zero else []) = [.ptr ld] := by
    rw [checkSumFunc_eq]; rfl
  have hent : m.enter [.ptr ld] = ⟨m.next, [.ptr ld], m.frame, m.next + 1⟩ := rfl
  have K0 := keeps_self hd
  have e1 := exec_define (N := N) (k := 1) (evs_one (evs_dig (X := P.world N (d + 1)) (C := []) (next := m.next + 1) hne hd (digV_get_len D))) rfl
  have e2 : exec (P.world N (d + 1)) N (.var (.arr 72 .u8)) ⟨m.next, [.ptr ld, .u64 D.len], m.frame, m.next + 1⟩ =
      .ok (.normal, ⟨m.next, [.ptr ld, .u64 D.len, .arr 72 (byteArr (List.replicate 72 0))], m.frame, m.next + 1⟩) := by
    rw [← zero_bytes]; rfl
  have e3 := tmp_ok (X := P.world N (d + 1)) (N := N) (i := m.next) (old := m.frame) (next := m.next + 1) (ld := ld) (len := D.len)
  have e4 : exec (P.world N (d + 1)) N (.var .u64) ⟨m.next, [.ptr ld, .u64 D.len, .arr 72 (byteArr (0x80 :: List.replicate 71 0))], m.frame,
      m.next + 1⟩ = .ok (.normal, ⟨m.next, sSlots ld D.len (0x80 :: List.replicate 71 0) 0 [], m.frame, m.next + 1⟩) := rfl
  have e5 := pad_ok (X := P.world N (d + 1)) (N := N) (i := m.next) (old := m.frame) (next := m.next + 1) (ld := ld) (len := D.len)
    (tmp := 0x80 :: List.replicate 71 0) (t := 0)
  have e6 := shl_ok (X := P.world N (d + 1)) (N := N) (i := m.next) (old := m.frame) (next := m.next + 1) (ld := ld) (len := D.len)
    (tmp := 0x80 :: List.replicate 71 0) (t := padT D.len)
  have ht := padT_le D.len
  have h8 : (padT D.len + 8).toNat = (padT D.len).toNat + 8 := by
    rw [BitVec.toNat_add]
    have : (8 : Word64).toNat = 8 := rfl
    rw [this]
    omega
  have hs7 := evs_sliceCur (X := P.world N (d + 1)) (i := m.next) (C := sSlots ld (D.len <<< 3) (0x80 :: List.replicate 71 0) (padT D.len) [])
    (old := m.frame) (next := m.next + 1) (s := 2) (lo := .omit) (hi := .bin .add (.loc 3) (.num 8)) (a := []) (b := [.u64 (padT D.len + 8)])
    (x := 0) (y := (padT D.len).toNat + 8) rfl rfl (evs_bin (evs_loc rfl) evs_num rfl) bound_none
    (bound_some (by rw [← h8]; rfl)) (by omega) (by omega)
  have e7 := exec_define (N := N) (k := 1) (evs_one hs7) rfl
  have hs8 := evs_sliceCur (X := P.world N (d + 1)) (i := m.next) (C := sSlots ld (D.len <<< 3) (0x80 :: List.replicate 71 0) (padT D.len)
    [.slice ⟨m.next, 2, []⟩ 0 ((padT D.len).toNat + 8) 72])
    (old := m.frame) (next := m.next + 1) (s := 2) (lo := .loc 3) (hi := .omit) (a := [.u64 (padT D.len)]) (b := [])
    (x := (padT D.len).toNat) (y := 72) rfl (evs_loc rfl) rfl (bound_some rfl) bound_none (by omega) (by omega)
  have e8 : exec (P.world N (d + 1)) N (.expr (.call (name! "BigEndian") (name! "PutUint64")
      (.cons (.slice (.loc 2) (.loc 3) .omit) (.cons (.loc 1) .nil))))
      ⟨m.next, sSlots ld (D.len <<< 3) (0x80 :: List.replicate 71 0) (padT D.len) [.slice ⟨m.next, 2, []⟩ 0 ((padT D.len).toNat + 8) 72],
        m.frame, m.next + 1⟩ = .ok (.normal, ⟨m.next, sSlots ld (D.len <<< 3) (padTmp D.len) (padT D.len)
          [.slice ⟨m.next, 2, []⟩ 0 ((padT D.len).toNat + 8) 72], m.frame, m.next + 1⟩) := by
    refine exec_expr (vs := []) ((evs_call (evs_cons hs8 (evs_one (evs_loc rfl)))).trans ?_)
    show putUint 8 _ _ _ = _
    rw [putUint_cur (n := 72) (k := 8) (l := 0x80 :: List.replicate 71 0) (bs := bytes64 (D.len <<< 3)) rfl rfl (by omega) (by omega) rfl (bigEndian_64 _)]
    rfl
  have hpl := padTmp_length D.len
  have hW := write_eq (N := N) (d := d) (D := D) (ld := ld) (v := .slice ⟨m.next, 2, []⟩ 0 ((padT D.len).toNat + 8) 72)
    (bs := (padTmp D.len).take ((padT D.len).toNat + 8))
    (m := ⟨m.next, sSlots ld (D.len <<< 3) (padTmp D.len) (padT D.len)
          [.slice ⟨m.next, 2, []⟩ 0 ((padT D.len).toNat + 8) 72], m.frame, m.next + 1⟩) hP.toHasDigest hB (by omega)
    (by simp [hpl]; omega) ⟨by rw [frame_old (by omega), hG.vars], by rw [frame_old (by omega), hG.table]⟩ h2 (Nat.lt_succ_of_lt hl)
    ((look_congr (frame_old hne)).trans hd) (by
      have hlen : ((padTmp D.len).take ((padT D.len).toNat + 8)).length = (padT D.len).toNat + 8 := by simp [hpl]; omega
      rw [show Val.slice ⟨m.next, 2, []⟩ 0 ((padT D.len).toNat + 8) 72 = .slice ⟨m.next, 2, []⟩ 0
        ((padTmp D.len).take ((padT D.len).toNat + 8)).length 72 by rw [hlen]]
      refine .slice (Nat.lt_succ_self _) (Ne.symm hne) ⟨72, byteArr (padTmp D.len), ?_, by omega, by rw [hlen]; omega, fun q hq => ?_⟩
      · simp [look, Mem.frame, sSlots, Val.get]
      · rw [List.getElem_take, byteArr, Nat.zero_add, List.getElem?_eq_getElem (by simp at hq; omega)]
        rfl) (by simp [hpl]; omega)
  have hth := through_dig (i := m.next) (ld := ld) (old := m.frame) (next := m.next + 1)
    (C := .u64 (D.len <<< 3) :: .arr 72 (byteArr (padTmp D.len)) :: .u64 (padT D.len) :: [.slice ⟨m.next, 2, []⟩ 0 ((padT D.len).toNat + 8) 72])
  have hmeth : evs (P.world N (d + 1)) (.method (name! "Write") (.loc 0) (.cons (.loc 4) .nil))
      ⟨m.next, sSlots ld (D.len <<< 3) (padTmp D.len) (padT D.len) [.slice ⟨m.next, 2, []⟩ 0 ((padT D.len).toNat + 8) 72], m.frame, m.next + 1⟩ =
      P.call N (d + 1) 0 (name! "Write") [.ptr ld, .slice ⟨m.next, 2, []⟩ 0 ((padT D.len).toNat + 8) 72] ⟨m.next, sSlots ld (D.len <<< 3)
        (padTmp D.len) (padT D.len) [.slice ⟨m.next, 2, []⟩ 0 ((padT D.len).toNat + 8) 72], m.frame, m.next + 1⟩ :=
    evs_method (l := ⟨m.next, 0, []⟩) rfl hth (evs_one (evs_loc rfl))
  have pre : ∀ ss R, exec (P.world N (d + 1)) N (seqs ss) ⟨m.next, sSlots ld (D.len <<< 3) (padTmp D.len) (padT D.len)
      [.slice ⟨m.next, 2, []⟩ 0 ((padT D.len).toNat + 8) 72], m.frame, m.next + 1⟩ = R →
      exec (P.world N (d + 1)) N (seqs (.define 1 (.cons (.field (.loc 0) (name! "len")) .nil) :: .var (.arr 72 .u8) ::
        .assign (.cons (.index (.loc 2) (.num 0)) .nil) (.cons (.num 128) .nil) :: .var .u64 :: padStmt ::
        .opAssign .shl (.loc 1) (.num 3) :: .define 1 (.cons (.slice (.loc 2) .omit (.bin .add (.loc 3) (.num 8))) .nil) ::
        .expr (.call (name! "BigEndian") (name! "PutUint64") (.cons (.slice (.loc 2) (.loc 3) .omit) (.cons (.loc 1) .nil))) :: ss))
        ⟨m.next, [.ptr ld], m.frame, m.next + 1⟩ = R := fun ss R h =>
    (exec_seqs_cons e1).trans ((exec_seqs_cons e2).trans ((exec_seqs_cons e3).trans ((exec_seqs_cons e4).trans
      ((exec_seqs_cons e5).trans ((exec_seqs_cons e6).trans ((exec_seqs_cons e7).trans ((exec_seqs_cons e8).trans h)))))))
  simp only [Digest.checkSum, padding_tmp, bind, Except.bind]
  generalize hr : D.write block ((padTmp D.len).take ((padT D.len).toNat + 8)) = R at hW
  match R, hW with
  | .error e, ⟨s, w1, w2⟩ =>
    refine ⟨s, runFunc_error (congrArg Func.body checkSumFunc_eq) hnp ?_, w2⟩
    rw [hpass, hent]
    exact exec_block_error (pre _ _ (exec_seqs_error (exec_expr_error (hmeth.trans w1))))
  | .ok (D1, n, er), ⟨_, m1, w1, w2⟩ =>
    obtain ⟨old1, next1, k1, K1⟩ := became_keeps (w := digV D1)
      (C := sSlots ld (D.len <<< 3) (padTmp D.len) (padT D.len) [.slice ⟨m.next, 2, []⟩ 0 ((padT D.len).toNat + 8) 72]) K0 hl hd (fixed_digV _) w2
    subst k1
    have e9 := exec_expr (N := N) (hmeth.trans w1)
    have hd1 := K1.look hl hd (fixed_digV _)
    have hc : ev (P.world N (d + 1)) (.bin .ne (.field (.loc 0) (name! "nx")) (.num 0)) ⟨m.next, sSlots ld (D.len <<< 3) (padTmp D.len)
        (padT D.len) [.slice ⟨m.next, 2, []⟩ 0 ((padT D.len).toNat + 8) 72], old1, next1⟩ = .ok (.bool (decide ((D1.nx : Int) ≠ 0)), _) :=
      ev_of (evs_bin (evs_dig hne hd1 (digV_get_nx D1)) evs_num rfl)
    by_cases hn : D1.nx ≠ 0
    · rw [decide_eq_true (by omega)] at hc
      simp only [if_pos hn]
      refine ⟨.panic (.str (chars! "d.nx != 0")), runFunc_error (congrArg Func.body checkSumFunc_eq) hnp ?_, rfl⟩
      rw [hpass, hent]
      refine exec_block_error (pre _ _ ((exec_seqs_cons e9).trans (exec_seqs_error ?_)))
      rw [nxStmt, exec_ite_true hc]
      rfl
    · rw [decide_eq_false (by omega)] at hc
      simp only [if_neg hn]
      have e10 : exec (P.world N (d + 1)) N nxStmt ⟨m.next, sSlots ld (D.len <<< 3) (padTmp D.len)
        (padT D.len) [.slice ⟨m.next, 2, []⟩ 0 ((padT D.len).toNat + 8) 72], old1, next1⟩ = _ := exec_ite_false hc
      have e11 : exec (P.world N (d + 1)) N (.var (.arr 20 .u8)) ⟨m.next, sSlots ld (D.len <<< 3) (padTmp D.len)
        (padT D.len) [.slice ⟨m.next, 2, []⟩ 0 ((padT D.len).toNat + 8) 72], old1, next1⟩ = .ok (.normal, ⟨m.next, sSlots ld (D.len <<< 3)
          (padTmp D.len) (padT D.len) [.slice ⟨m.next, 2, []⟩ 0 ((padT D.len).toNat + 8) 72, .arr 20 (byteArr (List.replicate 20 0))],
          old1, next1⟩) := by
        rw [← zero_bytes]; rfl
      have put := fun (l : List Byte) (hl : l.length = 20) (k : Nat) (hk : k < 5) =>
        putH_ok (P := P) (N := N) (d := d) (next := next1) hne hd1 (a := .u64 (D.len <<< 3)) (b := .arr 72 (byteArr (padTmp D.len)))
          (c := .u64 (padT D.len)) (e := .slice ⟨m.next, 2, []⟩ 0 ((padT D.len).toNat + 8) 72) hl hk
      refine ⟨_, runFunc_of (m' := ⟨m.next, sSlots ld (D.len <<< 3) (padTmp D.len) (padT D.len)
        [.slice ⟨m.next, 2, []⟩ 0 ((padT D.len).toNat + 8) 72, .arr 20 (byteArr
        (bytes32 D1.h.a ++ bytes32 D1.h.b ++ bytes32 D1.h.c ++ bytes32 D1.h.d ++ bytes32 D1.h.e))], old1, next1⟩)
        (congrArg Func.body checkSumFunc_eq) hnp (s := .ret [.arr 20 (byteArr
        (bytes32 D1.h.a ++ bytes32 D1.h.b ++ bytes32 D1.h.c ++ bytes32 D1.h.d ++ bytes32 D1.h.e))]) ?_ (by rw [checkSumFunc_eq]; rfl), leave_became K1 _⟩
      rw [hpass, hent]
      exact exec_block_ret (pre _ _ ((exec_seqs_cons e9).trans ((exec_seqs_cons e10).trans ((exec_seqs_cons e11).trans
        ((exec_seqs_cons (put _ rfl 0 (by omega))).trans ((exec_seqs_cons (put _ rfl 1 (by omega))).trans
        ((exec_seqs_cons (put _ rfl 2 (by omega))).trans ((exec_seqs_cons (put _ rfl 3 (by omega))).trans
        ((exec_seqs_cons (put _ rfl 4 (by omega))).trans rfl)))))))))

end

end Verif.Source.Go
