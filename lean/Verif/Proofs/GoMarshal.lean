import Verif.Proofs.GoNoasm
import Verif.Proofs.Codec

/-!
`MarshalBinary` as it is read from the text of sha1cd.go.
-/

namespace Verif.Source.Go

open Verif Verif.Source Verif.Model

/-- `appendUint32`, sha1cd.go:53-60. -/
def app32Func : Func := evaluated! getFunc progSha1cd (name! "sha1cd") (name! "appendUint32")

/-- `appendUint64`, sha1cd.go:62-73. -/
def app64Func : Func := evaluated! getFunc progSha1cd (name! "sha1cd") (name! "appendUint64")

/-- `MarshalBinary`, sha1cd.go:39-51. -/
def marshalFunc : Func := evaluated! getFunc progSha1cd 0 (name! "MarshalBinary")

/-- `byte(v>>k)`, sha1cd.go:55,64, `v` being in slot 1. -/
def byteAt (k : Nat) : Expr := .conv .u8 (.bin .shr (.loc 1) (.num k))

/-- The body of `appendUint32`, sha1cd.go:54-59. -/
def app32Body : Stmt := .block 2 (seqs [.ret (.cons (.append (.loc 0) (.cons (byteAt 24) (.cons (byteAt 16) (.cons (byteAt 8)
  (.cons (.conv .u8 (.loc 1)) .nil))))) .nil)])

/-- The body of `appendUint64`, sha1cd.go:63-72. -/
def app64Body : Stmt := .block 2 (seqs [.ret (.cons (.append (.loc 0) (.cons (byteAt 56) (.cons (byteAt 48) (.cons (byteAt 40)
  (.cons (byteAt 32) (.cons (byteAt 24) (.cons (byteAt 16) (.cons (byteAt 8)
  (.cons (.conv .u8 (.loc 1)) .nil))))))))) .nil)])

theorem app32Func_eq : app32Func = ⟨name! "sha1cd", name! "appendUint32", [.slice .u8, .u32], [.slice .u8], false, some app32Body⟩ := by by_kernel
theorem app64Func_eq : app64Func = ⟨name! "sha1cd", name! "appendUint64", [.slice .u8, .u64], [.slice .u8], false, some app64Body⟩ := by by_kernel

/-- `b = appendUint32(b, d.h[k])`, sha1cd.go:42-46. -/
def appH (k : Nat) : Stmt := .assign (.cons (.loc 1) .nil)
  (.cons (.call (name! "sha1cd") (name! "appendUint32") (.cons (.loc 1) (.cons (digH k) .nil))) .nil)

/-- `b = appendUint64(b, d.len)`, sha1cd.go:49. -/
def appLen : Stmt := .assign (.cons (.loc 1) .nil) (.cons (.call (name! "sha1cd") (name! "appendUint64") (.cons (.loc 1) (.cons (.field (.loc 0) (name! "len")) .nil))) .nil)

/-- The body of `MarshalBinary`, sha1cd.go:40-50. -/
def marshalBody : Stmt := .block 1 (seqs [.define 1 (.cons (.make (.slice .u8) (.num 0) (.num 98)) .nil),
  .assign (.cons (.loc 1) .nil) (.cons (.appendAll (.loc 1) (.str (chars! "shacd\x01"))) .nil),
  appH 0, appH 1, appH 2, appH 3, appH 4,
  .assign (.cons (.loc 1) .nil) (.cons (.appendAll (.loc 1) (.slice (.field (.loc 0) (name! "x")) .omit (.field (.loc 0) (name! "nx")))) .nil),
  .assign (.cons (.loc 1) .nil) (.cons (.slice (.loc 1) .omit (.bin .sub (.bin .add (.len (.loc 1)) (.len (.field (.loc 0) (name! "x"))))
    (.field (.loc 0) (name! "nx")))) .nil),
  appLen,
  .ret (.cons (.loc 1) (.cons .null .nil))])

theorem marshalFunc_eq : marshalFunc = ⟨0, name! "MarshalBinary", [.ptr digTy], [.slice .u8, .any], false, some marshalBody⟩ := by by_kernel

/-- The program has the functions of sha1cd.go that write a checkpoint. -/
structure HasMarshal (P : Program) : Prop where
  app32 : findFunc (name! "sha1cd") (name! "appendUint32") P.funcs = some app32Func
  app64 : findFunc (name! "sha1cd") (name! "appendUint64") P.funcs = some app64Func
  marshal : findFunc 0 (name! "MarshalBinary") P.funcs = some marshalFunc

/-- The values are bytes. -/
theorem u8s_getD (bs : List Byte) (q : Nat) (hq : q < bs.length) : (((bs.map Val.u8)[q]?).getD .null) = .u8 bs[q] := by
  rw [List.getElem?_map, List.getElem?_eq_getElem hq]; rfl

section
variable {P : Program} {N d : Nat} {m : Mem} {lp : Loc} {off len cap n : Nat} {f : Nat → Val}

/-- What is left behind by a function that has stored in one array of its caller. -/
theorem leave_put {C : List Val} {w : Val} (keep : Bool) : Became m (putAt m.frame lp w)
    (m.leave ⟨m.next, C, putAt m.frame lp w, m.next + 1⟩ keep) := by
  refine ⟨rfl, ?_, fun k hk => ?_⟩
  · simp only [Mem.leave]
    split <;> omega
  · simp only [Mem.leave, Mem.frame]
    by_cases hid : k = m.id
    · rw [if_pos hid, hid]
    · rw [if_neg hid, if_neg hid, if_neg (by omega)]

/-- `appendUint32` where there is room. -/
theorem app32_eq (hP : HasMarshal P) (hl : lp.frame < m.next) (h : look m.frame lp = .ok (.arr n f)) (hn : off + cap ≤ n)
    (hfit : len + 4 ≤ cap) (x : Word) :
    ∃ m', P.call N (d + 1) (name! "sha1cd") (name! "appendUint32") [.slice lp off len cap, .u32 x] m = .ok ([.slice lp off (len + 4) cap], m') ∧
      Became m (putAt m.frame lp (.arr n (splice f (fun q => (((bytes32 x).map Val.u8)[q]?).getD .null) (off + len) 4))) m' := by
  rw [call_of (by rfl) hP.app32 (congrArg Func.body app32Func_eq)]
  have hnp : ¬[Val.slice lp off len cap, .u32 x].length < app32Func.params.length := by rw [app32Func_eq]; exact Nat.lt_irrefl 2
  have hap := append_fits (room := (P.world N d).room) (C := [.slice lp off len cap, .u32 x]) (next := m.next + 1)
    (g := fun q => (((bytes32 x).map Val.u8)[q]?).getD .null) (Nat.ne_of_lt hl) h hn (k := 4) (by omega) hfit
  have hev : evs (P.world N d) (.append (.loc 0) (.cons (byteAt 24) (.cons (byteAt 16) (.cons (byteAt 8)
      (.cons (.conv .u8 (.loc 1)) .nil))))) ⟨m.next, [.slice lp off len cap, .u32 x], m.frame, m.next + 1⟩ =
      .ok ([.slice lp off (len + 4) cap], ⟨m.next, [.slice lp off len cap, .u32 x], putAt m.frame lp (.arr n (splice f
        (fun q => (((bytes32 x).map Val.u8)[q]?).getD .null) (off + len) 4)), m.next + 1⟩) := by
    show (appendSlice (P.world N d).room (.slice lp off len cap) (fun q => (((bytes32 x).map Val.u8)[q]?).getD .null) 4 >>= _) _ = _
    rw [bind_of hap]
    rfl
  refine ⟨_, runFunc_of (m' := ⟨m.next, [.slice lp off len cap, .u32 x], putAt m.frame lp (.arr n (splice f
        (fun q => (((bytes32 x).map Val.u8)[q]?).getD .null) (off + len) 4)), m.next + 1⟩) (s := .ret [.slice lp off (len + 4) cap])
    (congrArg Func.body app32Func_eq) hnp ?_ (by rw [app32Func_eq]; rfl), leave_put _⟩
  rw [show passed app32Func.params [.slice lp off len cap, .u32 x] ++ (if app32Func.named then app32Func.results.map zero else []) =
    [.slice lp off len cap, .u32 x] by rw [app32Func_eq]; rfl]
  exact exec_block_ret (exec_seq_ret (exec_ret (evs_one hev)))

/-- `appendUint64` where there is room. -/
theorem app64_eq (hP : HasMarshal P) (hl : lp.frame < m.next) (h : look m.frame lp = .ok (.arr n f)) (hn : off + cap ≤ n)
    (hfit : len + 8 ≤ cap) (x : Word64) :
    ∃ m', P.call N (d + 1) (name! "sha1cd") (name! "appendUint64") [.slice lp off len cap, .u64 x] m = .ok ([.slice lp off (len + 8) cap], m') ∧
      Became m (putAt m.frame lp (.arr n (splice f (fun q => (((bytes64 x).map Val.u8)[q]?).getD .null) (off + len) 8))) m' := by
  rw [call_of (by rfl) hP.app64 (congrArg Func.body app64Func_eq)]
  have hnp : ¬[Val.slice lp off len cap, .u64 x].length < app64Func.params.length := by rw [app64Func_eq]; exact Nat.lt_irrefl 2
  have hap := append_fits (room := (P.world N d).room) (C := [.slice lp off len cap, .u64 x]) (next := m.next + 1)
    (g := fun q => (((bytes64 x).map Val.u8)[q]?).getD .null) (Nat.ne_of_lt hl) h hn (k := 8) (by omega) hfit
  have hev : evs (P.world N d) (.append (.loc 0) (.cons (byteAt 56) (.cons (byteAt 48) (.cons (byteAt 40) (.cons (byteAt 32)
      (.cons (byteAt 24) (.cons (byteAt 16) (.cons (byteAt 8)
      (.cons (.conv .u8 (.loc 1)) .nil))))))))) ⟨m.next, [.slice lp off len cap, .u64 x], m.frame, m.next + 1⟩ =
      .ok ([.slice lp off (len + 8) cap], ⟨m.next, [.slice lp off len cap, .u64 x], putAt m.frame lp (.arr n (splice f
        (fun q => (((bytes64 x).map Val.u8)[q]?).getD .null) (off + len) 8)), m.next + 1⟩) := by
    show (appendSlice (P.world N d).room (.slice lp off len cap) (fun q => (((bytes64 x).map Val.u8)[q]?).getD .null) 8 >>= _) _ = _
    rw [bind_of hap]
    rfl
  refine ⟨_, runFunc_of (m' := ⟨m.next, [.slice lp off len cap, .u64 x], putAt m.frame lp (.arr n (splice f
        (fun q => (((bytes64 x).map Val.u8)[q]?).getD .null) (off + len) 8)), m.next + 1⟩) (s := .ret [.slice lp off (len + 8) cap])
    (congrArg Func.body app64Func_eq) hnp ?_ (by rw [app64Func_eq]; rfl), leave_put _⟩
  rw [show passed app64Func.params [.slice lp off len cap, .u64 x] ++ (if app64Func.named then app64Func.results.map zero else []) =
    [.slice lp off len cap, .u64 x] by rw [app64Func_eq]; rfl]
  exact exec_block_ret (exec_seq_ret (exec_ret (evs_one hev)))

end

/-- The array of 98 bytes that `MarshalBinary` makes, filled with `data` so far. -/
def filled (data : List Byte) : Val := .arr 98 (byteArr (data ++ List.replicate (98 - data.length) 0))

theorem filled_splice {data add : List Byte} {g : Nat → Val} {k : Nat} (hk : add.length = k) (h : data.length + k ≤ 98)
    (hg : ∀ q (hq : q < add.length), g q = .u8 add[q]) :
    Val.arr 98 (splice (byteArr (data ++ List.replicate (98 - data.length) 0)) g (0 + data.length) k) = filled (data ++ add) := by
  subst hk
  unfold filled
  congr 1
  rw [splice_bytes (n := 98) (p := add) (by simp; omega) (by omega) (Nat.le_refl _) hg]
  congr 1
  rw [Nat.zero_add, List.take_left, List.take_length, List.drop_append, List.drop_replicate, List.drop_of_length_le (by omega)]
  simp
  omega

/-- Bytes that are zero already. -/
theorem filled_zero {data : List Byte} {k : Nat} (h : data.length + k ≤ 98) : filled (data ++ List.replicate k 0) = filled data := by
  unfold filled
  congr 2
  rw [List.append_assoc, List.replicate_append_replicate]
  simp
  omega

/-- `MarshalBinary` in the middle: the array of frame `k` holds `data`, the frames of the callers are unchanged. -/
structure Filling (m : Mem) (k : Nat) (data : List Byte) (old : Nat → List Val) (next : Nat) : Prop where
  lt : m.next < k
  lt' : k < next
  arr : old k = [filled data]
  old : ∀ j, j < m.next → old j = m.frame j

section
variable {P : Program} {N d : Nat} {m : Mem} {ld : Loc} {D : Digest} {k : Nat} {data : List Byte} {old : Nat → List Val} {next : Nat}

/-- The frame of `MarshalBinary`. -/
def mSlots (ld : Loc) (k len : Nat) : List Val := [.ptr ld, .slice ⟨k, 0, []⟩ 0 len 98]

theorem Filling.put (F : Filling m k data old next) {add : List Byte} {C : List Val} {m' : Mem}
    (B : Became ⟨m.next, C, old, next⟩ (putAt (Mem.frame ⟨m.next, C, old, next⟩) ⟨k, 0, []⟩ (filled (data ++ add))) m') :
    ∃ old' next', m' = ⟨m.next, C, old', next'⟩ ∧ Filling m k (data ++ add) old' next' := by
  have hlt := F.lt
  have hlt' := F.lt'
  have hid : m'.id = m.next := B.id
  have hnx : next ≤ m'.next := B.next
  have hfr : ∀ j, j < next → j ≠ m.next → m'.old j = putAt old ⟨k, 0, []⟩ (filled (data ++ add)) j := fun j hj hne => by
    have := B.frame j hj
    simp only [Mem.frame, hid, if_neg hne, putAt] at this
    exact this
  refine ⟨m'.old, m'.next, ?_, hlt, by omega, ?_, fun j hj => ?_⟩
  · have hc : m'.cur = C := by
      have := B.frame m.next (show m.next < next by omega)
      rw [putAt_of_ne (show m.next ≠ k by omega)] at this
      simp only [Mem.frame, hid, if_true] at this
      exact this
    cases m'
    simp only at hid hc
    subst hid hc
    rfl
  · rw [hfr k hlt' (by omega)]
    simp only [putAt, if_true, F.arr]
    simp [Val.put, Val.set, show ∀ u, like u (filled (data ++ add)) = filled (data ++ add) from fixed_arr _ _]
  · rw [hfr j (by omega) (by omega), putAt_of_ne (show j ≠ k by omega), F.old j hj]

theorem Filling.look (F : Filling m k data old next) : look old ⟨k, 0, []⟩ = .ok (filled data) := by
  simp [Go.look, F.arr, Val.get]

theorem Filling.dig (F : Filling m k data old next) (hl : ld.frame < m.next) (hd : Go.look m.frame ld = .ok (digV D)) :
    Go.look old ld = .ok (digV D) := (look_congr (F.old _ hl)).trans hd

/-- `b = e`, `b` being in slot 1. -/
theorem setB {X : World} {e : Expr} {i len len' : Nat} {old' : Nat → List Val} {next' : Nat}
    (h : evs X e ⟨i, mSlots ld k len, old, next⟩ = .ok ([.slice ⟨k, 0, []⟩ 0 len' 98], ⟨i, mSlots ld k len, old', next'⟩)) :
    exec X N (.assign (.cons (.loc 1) .nil) (.cons e .nil)) ⟨i, mSlots ld k len, old, next⟩ =
      .ok (.normal, ⟨i, mSlots ld k len', old', next'⟩) :=
  exec_assign (ps := [some ⟨i, 1, []⟩]) rfl (evs_one h) (storeAll_one (by
    simp [store, Mem.frame, Val.set, Mem.setFrame, mSlots, like]))

/-- `b = appendUint32(b, d.h[j])`. -/
theorem appH_ok (hP : HasMarshal P) (hl : ld.frame < m.next) (hd : look m.frame ld = .ok (digV D)) (F : Filling m k data old next) {j : Nat}
    (hj : j < 5) (h98 : data.length + 4 ≤ 98) :
    ∃ old' next', exec (P.world N (d + 1)) N (appH j) ⟨m.next, mSlots ld k data.length, old, next⟩ =
      .ok (.normal, ⟨m.next, mSlots ld k (data ++ bytes32 (getH D.h j)).length, old', next'⟩) ∧
      Filling m k (data ++ bytes32 (getH D.h j)) old' next' := by
  have hne : ld.frame ≠ m.next := Nat.ne_of_lt hl
  have e1 := digH_ok (X := P.world N (d + 1)) (C := [.slice ⟨k, 0, []⟩ 0 data.length 98]) (next := next) hne (F.dig hl hd) hj
  have hlt := F.lt
  obtain ⟨m1, w1, w2⟩ := app32_eq (N := N) (d := d) (m := ⟨m.next, mSlots ld k data.length, old, next⟩) (lp := ⟨k, 0, []⟩) (off := 0)
    (len := data.length) (cap := 98) hP F.lt' ((look_congr (frame_old (show k ≠ m.next by omega))).trans F.look) (by omega) h98 (getH D.h j)
  rw [filled_splice (k := 4) (add := bytes32 (getH D.h j)) rfl h98 (u8s_getD _)] at w2
  obtain ⟨old', next', p1, F'⟩ := F.put w2
  subst p1
  refine ⟨old', next', ?_, F'⟩
  rw [show (data ++ bytes32 (getH D.h j)).length = data.length + 4 by simp [bytes32]]
  exact setB ((evs_call (evs_cons (evs_loc rfl) (evs_one e1))).trans w1)

/-- `b = appendUint64(b, d.len)`. -/
theorem appLen_ok (hP : HasMarshal P) (hl : ld.frame < m.next) (hd : look m.frame ld = .ok (digV D)) (F : Filling m k data old next)
    (h98 : data.length + 8 ≤ 98) :
    ∃ old' next', exec (P.world N (d + 1)) N appLen ⟨m.next, mSlots ld k data.length, old, next⟩ =
      .ok (.normal, ⟨m.next, mSlots ld k (data ++ bytes64 D.len).length, old', next'⟩) ∧
      Filling m k (data ++ bytes64 D.len) old' next' := by
  have hne : ld.frame ≠ m.next := Nat.ne_of_lt hl
  have e1 := evs_dig (X := P.world N (d + 1)) (C := [.slice ⟨k, 0, []⟩ 0 data.length 98]) (next := next) hne (F.dig hl hd) (digV_get_len D)
  have hlt := F.lt
  obtain ⟨m1, w1, w2⟩ := app64_eq (N := N) (d := d) (m := ⟨m.next, mSlots ld k data.length, old, next⟩) (lp := ⟨k, 0, []⟩) (off := 0)
    (len := data.length) (cap := 98) hP F.lt' ((look_congr (frame_old (show k ≠ m.next by omega))).trans F.look) (by omega) h98 D.len
  rw [filled_splice (k := 8) (add := bytes64 D.len) rfl h98 (u8s_getD _)] at w2
  obtain ⟨old', next', p1, F'⟩ := F.put w2
  subst p1
  refine ⟨old', next', ?_, F'⟩
  rw [show (data ++ bytes64 D.len).length = data.length + 8 by simp [bytes64]]
  exact setB ((evs_call (evs_cons (evs_loc rfl) (evs_one e1))).trans w1)

/-- `b := make([]byte, 0, shared.MarshaledSize)`. -/
theorem make_ok {X : World} : exec X N (.define 1 (.cons (.make (.slice .u8) (.num 0) (.num 98)) .nil))
      ⟨m.next, [.ptr ld], m.frame, m.next + 1⟩ = .ok (.normal, ⟨m.next, mSlots ld (m.next + 1) 0,
        fun j => if j = m.next + 1 then [filled []] else m.frame j, m.next + 2⟩) ∧
    Filling m (m.next + 1) [] (fun j => if j = m.next + 1 then [filled []] else m.frame j) (m.next + 2) := by
  refine ⟨?_, Nat.lt_succ_self _, Nat.lt_succ_self _, by simp, fun j hj => by rw [if_neg (by omega)]⟩
  have : (Val.arr 98 fun _ => .u8 0) = filled [] := by
    unfold filled
    congr 1
    funext j
    simp only [byteArr, List.nil_append, List.length_nil, Nat.sub_zero, List.getElem?_replicate]
    split <;> rfl
  rw [← this]
  rfl

/-- `b = append(b, shared.Magic...)`. -/
theorem magic_ok {X : World} (F : Filling m k [] old next) :
    ∃ old', exec X N (.assign (.cons (.loc 1) .nil) (.cons (.appendAll (.loc 1) (.str (chars! "shacd\x01"))) .nil))
      ⟨m.next, mSlots ld k 0, old, next⟩ = .ok (.normal, ⟨m.next, mSlots ld k Magic.length, old', next⟩) ∧ Filling m k Magic old' next := by
  have hlt := F.lt
  have hap := append_fits (room := X.room) (i := m.next) (C := mSlots ld k 0) (old := old) (next := next) (lp := ⟨k, 0, []⟩) (off := 0) (cap := 98)
    (n := 98) (len := 0) (k := 6) (g := fun q => .u8 (BitVec.ofNat 8 (((chars! "shacd\x01" : List Nat)[q]?).getD 0)))
    (show k ≠ m.next by omega) F.look (by omega) (by omega) (by omega)
  have hs : Val.arr 98 (splice (byteArr ([] ++ List.replicate (98 - ([] : List Byte).length) 0))
      (fun q => .u8 (BitVec.ofNat 8 (((chars! "shacd\x01" : List Nat)[q]?).getD 0))) (0 + 0) 6) = filled ([] ++ Magic) :=
    filled_splice (data := []) (add := Magic) (k := 6) (g := fun q => .u8 (BitVec.ofNat 8 (((chars! "shacd\x01" : List Nat)[q]?).getD 0))) rfl
    (by decide) (fun q hq => by
      have : q < 6 := hq
      match q, this with
      | 0, _ | 1, _ | 2, _ | 3, _ | 4, _ | 5, _ => rfl)
  rw [hs] at hap
  refine ⟨_, setB (old' := putAt old ⟨k, 0, []⟩ (filled ([] ++ Magic))) (next' := next) ?_, hlt, F.lt', ?_, fun j hj => ?_⟩
  · show (appendSlice X.room (.slice ⟨k, 0, []⟩ 0 0 98) (fun q => .u8 (BitVec.ofNat 8 (((chars! "shacd\x01" : List Nat)[q]?).getD 0))) 6 >>= _) _ = _
    rw [bind_of hap]
    rfl
  · simp [putAt, F.arr, Val.put, Val.set, show ∀ u, like u (filled Magic) = filled Magic from fixed_arr _ _]
  · rw [putAt_of_ne (show j ≠ k by omega), F.old j hj]

theorem append_none {room : Nat → Nat} {lp : Loc} {off len cap : Nat} {g : Nat → Val} (h : len ≤ cap) :
    appendSlice room (.slice lp off len cap) g 0 m = .ok (.slice lp off len cap, m) := by
  simp only [appendSlice, bind_run, need, parts]
  rw [if_pos (by omega)]
  rfl

/-- `d.x[:d.nx]`, sha1cd.go:47. -/
def xPart : Expr := .slice (.field (.loc 0) (name! "x")) .omit (.field (.loc 0) (name! "nx"))

theorem xPart_ok {X : World} {i : Nat} {C : List Val} (hi : ld.frame ≠ i) (hd : look old ld = .ok (digV D)) (hn : D.nx ≤ 64) :
    evs X xPart ⟨i, .ptr ld :: C, old, next⟩ = .ok ([.slice (ld.sub (name! "x")) 0 D.nx 64], ⟨i, .ptr ld :: C, old, next⟩) := by
  have h := evs_slice (X := X) (e := .field (.loc 0) (name! "x")) (a := []) (b := [.int D.nx]) (m := ⟨i, .ptr ld :: C, old, next⟩) (lo := .omit)
    (hi := .field (.loc 0) (name! "nx")) place_dig rfl (evs_dig hi hd (digV_get_nx D)) (sliceOf_arr (n := 64) (x := 0) (y := D.nx)
    (load_look (l := ld.sub (name! "x")) hi ((look_sub hd).trans (digV_get_x D)) _) bound_none (bound_some rfl) (by omega) hn)
  exact h

theorem xPart_error {X : World} {i : Nat} {C : List Val} (hi : ld.frame ≠ i) (hd : look old ld = .ok (digV D)) (hn : ¬D.nx ≤ 64) :
    evs X xPart ⟨i, .ptr ld :: C, old, next⟩ = .error .bounds :=
  evs_slice_error (X := X) (e := .field (.loc 0) (name! "x")) (a := []) (b := [.int D.nx]) (m := ⟨i, .ptr ld :: C, old, next⟩) (lo := .omit)
    (hi := .field (.loc 0) (name! "nx")) place_dig rfl (evs_dig hi hd (digV_get_nx D)) (sliceOf_arr_error (n := 64) (x := 0) (y := D.nx)
    (load_look (l := ld.sub (name! "x")) hi ((look_sub hd).trans (digV_get_x D)) _) bound_none (bound_some rfl) (by omega))

/-- `b = append(b, d.x[:d.nx]...)`. -/
theorem appX_ok {X : World} (hl : ld.frame < m.next) (hd : look m.frame ld = .ok (digV D)) (F : Filling m k data old next) (hn : D.nx ≤ 64)
    (h98 : data.length + D.nx ≤ 98) :
    ∃ old', exec X N (.assign (.cons (.loc 1) .nil) (.cons (.appendAll (.loc 1) xPart) .nil))
      ⟨m.next, mSlots ld k data.length, old, next⟩ = .ok (.normal, ⟨m.next, mSlots ld k (data ++ D.x.1.take D.nx).length, old', next⟩) ∧
      Filling m k (data ++ D.x.1.take D.nx) old' next := by
  have hlt := F.lt
  have hx : D.x.1.length = 64 := D.x.2
  have htl : (D.x.1.take D.nx).length = D.nx := by simp; omega
  have hne : ld.frame ≠ m.next := Nat.ne_of_lt hl
  have e1 : evs X xPart ⟨m.next, mSlots ld k data.length, old, next⟩ =
      .ok ([.slice (ld.sub (name! "x")) 0 D.nx 64], ⟨m.next, mSlots ld k data.length, old, next⟩) := xPart_ok (X := X) (C := [.slice ⟨k, 0, []⟩ 0 data.length 98]) (next := next) hne (F.dig hl hd) hn
  have hlx := (look_sub (F.dig hl hd)).trans (digV_get_x D)
  obtain ⟨g, g1, g2⟩ := sliceElems_bytes (i := m.next) (C := mSlots ld k data.length) (next := next) (lp := ld.sub (name! "x")) (off := 0) (cap := 64)
    (bs := D.x.1.take D.nx) hne ⟨64, byteArr D.x.1, hlx, by omega, by omega, fun q hq => by
      rw [Nat.zero_add, byteArr, List.getElem_take, List.getElem?_eq_getElem (by simp at hq; omega)]; rfl⟩
  rw [htl] at g1
  by_cases hz : D.nx = 0
  · refine ⟨old, setB ?_, ?_⟩
    · show (evs X xPart >>= _) ⟨m.next, mSlots ld k data.length, old, next⟩ = _
      rw [bind_of e1]
      show (sliceElems (.slice (ld.sub (name! "x")) 0 D.nx 64) >>= _) ⟨m.next, mSlots ld k data.length, old, next⟩ = _
      rw [bind_of g1]
      show (appendSlice X.room (.slice ⟨k, 0, []⟩ 0 data.length 98) g D.nx >>= _) ⟨m.next, mSlots ld k data.length, old, next⟩ = _
      rw [hz, bind_of (append_none (by omega)), List.take_zero, List.append_nil]
      rfl
    · rw [hz, List.take_zero, List.append_nil]
      exact F
  · have hap := append_fits (room := X.room) (i := m.next) (C := mSlots ld k data.length) (old := old) (next := next) (lp := ⟨k, 0, []⟩) (off := 0)
      (cap := 98) (n := 98) (len := data.length) (k := D.nx) (g := g) (show k ≠ m.next by omega) F.look (by omega) hz (by omega)
    rw [filled_splice (k := D.nx) (add := D.x.1.take D.nx) htl (by omega) g2] at hap
    refine ⟨putAt old ⟨k, 0, []⟩ (filled (data ++ D.x.1.take D.nx)), setB ?_, hlt, F.lt', ?_, fun j hj => ?_⟩
    · show (evs X xPart >>= _) ⟨m.next, mSlots ld k data.length, old, next⟩ = _
      rw [bind_of e1]
      show (sliceElems (.slice (ld.sub (name! "x")) 0 D.nx 64) >>= _) ⟨m.next, mSlots ld k data.length, old, next⟩ = _
      rw [bind_of g1]
      show (appendSlice X.room (.slice ⟨k, 0, []⟩ 0 data.length 98) g D.nx >>= _) ⟨m.next, mSlots ld k data.length, old, next⟩ = _
      rw [bind_of hap, List.length_append, htl]
      rfl
    · simp [putAt, F.arr, Val.put, Val.set, show ∀ u, like u (filled (data ++ D.x.1.take D.nx)) = filled (data ++ D.x.1.take D.nx) from fixed_arr _ _]
    · rw [putAt_of_ne (show j ≠ k by omega), F.old j hj]

/-- `b = b[:len(b)+len(d.x)-d.nx]`. -/
theorem resize_ok {X : World} (hl : ld.frame < m.next) (hd : look m.frame ld = .ok (digV D)) (F : Filling m k data old next) (hn : D.nx ≤ 64)
    (h98 : data.length + (64 - D.nx) ≤ 98) :
    exec X N (.assign (.cons (.loc 1) .nil) (.cons (.slice (.loc 1) .omit (.bin .sub (.bin .add (.len (.loc 1))
      (.len (.field (.loc 0) (name! "x")))) (.field (.loc 0) (name! "nx")))) .nil)) ⟨m.next, mSlots ld k data.length, old, next⟩ =
      .ok (.normal, ⟨m.next, mSlots ld k (data ++ List.replicate (64 - D.nx) 0).length, old, next⟩) ∧
    Filling m k (data ++ List.replicate (64 - D.nx) 0) old next := by
  have hne : ld.frame ≠ m.next := Nat.ne_of_lt hl
  have hlt := F.lt
  refine ⟨setB ?_, hlt, F.lt', by rw [filled_zero h98]; exact F.arr, F.old⟩
  have h1 : evs X (.len (.loc 1)) ⟨m.next, mSlots ld k data.length, old, next⟩ = .ok ([.int data.length], ⟨m.next, mSlots ld k data.length, old, next⟩) :=
    evs_lenSlice (evs_loc rfl)
  have hx : evs X (.field (.loc 0) (name! "x")) ⟨m.next, mSlots ld k data.length, old, next⟩ =
      .ok ([.arr 64 (byteArr D.x.1)], ⟨m.next, mSlots ld k data.length, old, next⟩) := evs_dig hne (F.dig hl hd) (digV_get_x D)
  have h2 : evs X (.len (.field (.loc 0) (name! "x"))) ⟨m.next, mSlots ld k data.length, old, next⟩ =
      .ok ([.int (64 : Nat)], ⟨m.next, mSlots ld k data.length, old, next⟩) := by
    show (evs X (.field (.loc 0) (name! "x")) >>= _) _ = _
    rw [bind_of hx]
    rfl
  have h3 : evs X (.field (.loc 0) (name! "nx")) ⟨m.next, mSlots ld k data.length, old, next⟩ =
      .ok ([.int D.nx], ⟨m.next, mSlots ld k data.length, old, next⟩) := evs_dig hne (F.dig hl hd) (digV_get_nx D)
  have h4 := evs_bin (evs_bin h1 h2 (o := .add) (v := .int (data.length + 64 : Nat)) (by
    rw [← wrap_nat (data.length + 64) (by omega)]; rfl)) h3 (o := .sub) (v := .int (data.length + (64 - D.nx) : Nat)) (by
    rw [← wrap_nat (data.length + (64 - D.nx)) (by omega), show ((data.length + (64 - D.nx) : Nat) : Int) = ((data.length + 64 : Nat) : Int) - D.nx by omega]
    rfl)
  have hld : load ⟨m.next, 1, []⟩ ⟨m.next, mSlots ld k data.length, old, next⟩ =
      .ok (.slice ⟨k, 0, []⟩ 0 data.length 98, ⟨m.next, mSlots ld k data.length, old, next⟩) := 
    load_some (show (Mem.frame _ _)[1]? = some (.slice ⟨k, 0, []⟩ 0 data.length 98) by simp [Mem.frame, mSlots]) rfl
  have h5 := evs_slice (X := X) (e := .loc 1) (lo := .omit) (a := []) (b := [.int (data.length + (64 - D.nx) : Nat)])
    (l := ⟨m.next, 1, []⟩) (m := ⟨m.next, mSlots ld k data.length, old, next⟩) rfl rfl h4
    (sliceOf_slice (x := 0) (y := data.length + (64 - D.nx)) hld bound_none (bound_some rfl) (by omega) (by omega))
  rw [List.length_append, List.length_replicate]
  exact h5

/-- What `MarshalBinary` puts together, sha1cd.go:41-49. -/
def mOut (D : Digest) : List Byte := [] ++ Magic ++ bytes32 (getH D.h 0) ++ bytes32 (getH D.h 1) ++ bytes32 (getH D.h 2) ++
  bytes32 (getH D.h 3) ++ bytes32 (getH D.h 4) ++ D.x.1.take D.nx ++ List.replicate (64 - D.nx) 0 ++ bytes64 D.len

theorem marshal_mOut (hn : D.nx ≤ 64) : D.marshalBinary = .ok (D, mOut D) := by
  rw [marshal_spec D hn]
  simp only [encode, Spec.digestBytes, mOut, ← bytes32_eq, ← bytes64_eq, List.nil_append, List.append_assoc, absD]
  rfl

theorem mOut_length (hn : D.nx ≤ 64) : (mOut D).length = 98 := by
  have hx : D.x.1.length = 64 := D.x.2
  simp [mOut, Magic, bytes32, bytes64]
  omega

theorem marshal_error (hn : ¬D.nx ≤ 64) : D.marshalBinary = .error .sliceOutOfRange := by
  simp only [Digest.marshalBinary, if_neg hn]
  rfl

/-- `MarshalBinary`. -/
theorem marshal_eq (hP : HasMarshal P) (hl : ld.frame < m.next) (hd : look m.frame ld = .ok (digV D)) :
    match D.marshalBinary with
    | .ok (_, out) => ∃ k m', P.call N (d + 2) 0 (name! "MarshalBinary") [.ptr ld] m = .ok ([.slice ⟨k, 0, []⟩ 0 out.length out.length, .null], m') ∧
        Became m m.frame m' ∧ m.next ≤ k ∧ k < m'.next ∧ m'.frame k = [.arr out.length (byteArr out)]
    | .error e => ∃ s, P.call N (d + 2) 0 (name! "MarshalBinary") [.ptr ld] m = .error s ∧ Stands e s := by
  rw [call_of (by rfl) hP.marshal (congrArg Func.body marshalFunc_eq)]
  have hnp : ¬[Val.ptr ld].length < marshalFunc.params.length := by rw [marshalFunc_eq]; exact Nat.lt_irrefl 1
  have hpass : passed marshalFunc.params [.ptr ld] ++ (if marshalFunc.named then marshalFunc.results.map zero else []) = [.ptr ld] := by
    rw [marshalFunc_eq]; rfl
  have hent : m.enter [.ptr ld] = ⟨m.next, [.ptr ld], m.frame, m.next + 1⟩ := rfl
  have hne : ld.frame ≠ m.next := Nat.ne_of_lt hl
  have l32 : ∀ x, (bytes32 x).length = 4 := fun _ => rfl
  have lM : Magic.length = 6 := rfl
  have hx : D.x.1.length = 64 := D.x.2
  obtain ⟨e0, F0⟩ := make_ok (X := P.world N (d + 1)) (N := N) (m := m) (ld := ld)
  obtain ⟨old1, e1, F1⟩ := magic_ok (X := P.world N (d + 1)) (N := N) (ld := ld) F0
  obtain ⟨old2, next2, e2, F2⟩ := appH_ok (N := N) (d := d) hP hl hd F1 (j := 0) (by omega) (by simp [lM])
  obtain ⟨old3, next3, e3, F3⟩ := appH_ok (N := N) (d := d) hP hl hd F2 (j := 1) (by omega) (by simp [lM, l32])
  obtain ⟨old4, next4, e4, F4⟩ := appH_ok (N := N) (d := d) hP hl hd F3 (j := 2) (by omega) (by simp [lM, l32])
  obtain ⟨old5, next5, e5, F5⟩ := appH_ok (N := N) (d := d) hP hl hd F4 (j := 3) (by omega) (by simp [lM, l32])
  obtain ⟨old6, next6, e6, F6⟩ := appH_ok (N := N) (d := d) hP hl hd F5 (j := 4) (by omega) (by simp [lM, l32])
  have pre : ∀ ss R, exec (P.world N (d + 1)) N (seqs ss) ⟨m.next, mSlots ld (m.next + 1) (Magic ++ bytes32 (getH D.h 0) ++ bytes32 (getH D.h 1) ++
      bytes32 (getH D.h 2) ++ bytes32 (getH D.h 3) ++ bytes32 (getH D.h 4)).length, old6, next6⟩ = R →
      exec (P.world N (d + 1)) N (seqs (.define 1 (.cons (.make (.slice .u8) (.num 0) (.num 98)) .nil) ::
        .assign (.cons (.loc 1) .nil) (.cons (.appendAll (.loc 1) (.str (chars! "shacd\x01"))) .nil) ::
        appH 0 :: appH 1 :: appH 2 :: appH 3 :: appH 4 :: ss)) ⟨m.next, [.ptr ld], m.frame, m.next + 1⟩ = R := fun ss R h =>
    (exec_seqs_cons e0).trans ((exec_seqs_cons e1).trans ((exec_seqs_cons e2).trans ((exec_seqs_cons e3).trans ((exec_seqs_cons e4).trans
      ((exec_seqs_cons e5).trans ((exec_seqs_cons e6).trans h))))))
  have l6 : (Magic ++ bytes32 (getH D.h 0) ++ bytes32 (getH D.h 1) ++
      bytes32 (getH D.h 2) ++ bytes32 (getH D.h 3) ++ bytes32 (getH D.h 4)).length = 26 := by simp [lM, l32]
  by_cases hn : D.nx ≤ 64
  · rw [marshal_mOut hn]
    obtain ⟨old7, e7, F7⟩ := appX_ok (X := P.world N (d + 1)) (N := N) hl hd F6 hn (by omega)
    obtain ⟨e8, F8⟩ := resize_ok (X := P.world N (d + 1)) (N := N) hl hd F7 hn (by simp [lM, l32]; omega)
    have l8 := mOut_length hn
    simp only [mOut, List.nil_append] at l8
    obtain ⟨old9, next9, e9, F9⟩ := appLen_ok (N := N) (d := d) hP hl hd F8 (by rw [List.length_append] at l8; exact Nat.le_of_eq l8)
    have hx : exec (P.world N (d + 1)) N marshalBody (m.enter (passed marshalFunc.params [.ptr ld] ++
        (if marshalFunc.named then marshalFunc.results.map zero else []))) =
        .ok (.ret [.slice ⟨m.next + 1, 0, []⟩ 0 (mOut D).length (mOut D).length, .null], ⟨m.next, mSlots ld (m.next + 1) 98, old9, next9⟩) := by
      rw [hpass, hent, mOut_length hn]
      refine exec_block_ret (pre _ _ ((exec_seqs_cons e7).trans ((exec_seqs_cons e8).trans ((exec_seqs_cons e9).trans ?_))))
      rw [l8]
      rfl
    refine ⟨m.next + 1, _, runFunc_of (congrArg Func.body marshalFunc_eq) hnp hx (by rw [marshalFunc_eq]; rfl), ⟨rfl, ?_, fun j hj => ?_⟩,
      Nat.le_succ _, ?_, ?_⟩
    · have := F9.lt'
      rw [show marshalBody.addrs = true by by_kernel]
      simp only [Mem.leave, true_or, if_true]
      omega
    · rw [show marshalBody.addrs = true by by_kernel, leave_frame (by omega), F9.old j hj]
    · have := F9.lt'
      rw [show marshalBody.addrs = true by by_kernel]
      simp only [Mem.leave, true_or, if_true]
      exact this
    · rw [show marshalBody.addrs = true by by_kernel, leave_frame (by omega), F9.arr, filled, mOut_length hn]
      simp only [mOut, List.nil_append]
      rw [l8, Nat.sub_self, List.replicate_zero, List.append_nil]
  · rw [marshal_error hn]
    refine ⟨.bounds, runFunc_error (congrArg Func.body marshalFunc_eq) hnp ?_, trivial⟩
    rw [hpass, hent]
    refine exec_block_error (pre _ _ (exec_seqs_error (exec_assign_error (ps := [some ⟨m.next, 1, []⟩]) rfl (evs_cons_error ?_))))
    have e7 : evs (P.world N (d + 1)) xPart ⟨m.next, mSlots ld (m.next + 1) (Magic ++ bytes32 (getH D.h 0) ++ bytes32 (getH D.h 1) ++
      bytes32 (getH D.h 2) ++ bytes32 (getH D.h 3) ++ bytes32 (getH D.h 4)).length, old6, next6⟩ = _ := xPart_error (X := P.world N (d + 1)) (C := [.slice ⟨m.next + 1, 0, []⟩ 0 (Magic ++ bytes32 (getH D.h 0) ++ bytes32 (getH D.h 1) ++
      bytes32 (getH D.h 2) ++ bytes32 (getH D.h 3) ++ bytes32 (getH D.h 4)).length 98]) (next := next6) hne (F6.dig hl hd) hn
    show (evs _ xPart >>= _) _ = _
    rw [bind_run, e7]

end

end Verif.Source.Go
