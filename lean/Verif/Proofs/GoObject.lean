import Verif.Proofs.GoBlock
import Verif.Model.Digest

/-!
The hash object in the memory of the programs read from text, and the steps that its methods are made of.
-/

namespace Verif.Source.Go

open Verif Verif.Source Verif.Model

/-- Bytes as the elements of an array. -/
def byteArr (l : List Byte) : Nat → Val := fun j => .u8 (l[j]?.getD 0)

/-- The fields that a block function leaves alone. -/
def restOf (x : List Byte) (nx : Nat) (len : Word64) : Nat → Val := fun f =>
  if f = name! "x" then .arr 64 (byteArr x) else if f = name! "nx" then .int nx else if f = name! "len" then .u64 len else .null

/-- A digest as a value. -/
def digV (D : Digest) : Val := digVal (restOf D.x.1 D.nx D.len) D.h D.col

theorem fixed_digV (D : Digest) : Fixed (digV D) := fixed_dig _ _ _

theorem digV_get_h (D : Digest) : (digV D).get [name! "h"] = .ok (five D.h) := rfl
theorem digV_get_x (D : Digest) : (digV D).get [name! "x"] = .ok (.arr 64 (byteArr D.x.1)) := rfl
theorem digV_get_nx (D : Digest) : (digV D).get [name! "nx"] = .ok (.int D.nx) := rfl
theorem digV_get_len (D : Digest) : (digV D).get [name! "len"] = .ok (.u64 D.len) := rfl
theorem digV_get_col (D : Digest) : (digV D).get [name! "col"] = .ok (.bool D.col) := rfl

theorem digV_set_h (D : Digest) (k : Nat) (hk : k < 5) (x : Word) :
    (digV D).set [name! "h", k] (.u32 x) = .ok (digV { D with h := setH D.h k x }) := dig_set _ _ _ _ hk _

theorem digV_set_col (D : Digest) (b : Bool) : (digV D).set [name! "col"] (.bool b) = .ok (digV { D with col := b }) := by
  simp only [digV, digVal, Val.set, Except.ok.injEq, Val.struct.injEq, like]
  funext f
  by_cases hf : f = name! "col"
  · subst hf
    rfl
  · simp [hf]

theorem digV_set_nx (D : Digest) (n : Nat) : (digV D).set [name! "nx"] (.int n) = .ok (digV { D with nx := n }) := by
  simp only [digV, digVal, Val.set, Except.ok.injEq, Val.struct.injEq, like]
  funext f
  by_cases hf : f = name! "nx"
  · subst hf
    rfl
  · simp [hf, restOf]

theorem digV_set_nx0 (D : Digest) : (digV D).set [name! "nx"] (.const 0) = .ok (digV { D with nx := 0 }) :=
  digV_set_nx D 0

theorem digV_set_len (D : Digest) (n : Word64) : (digV D).set [name! "len"] (.u64 n) = .ok (digV { D with len := n }) := by
  simp only [digV, digVal, Val.set, Except.ok.injEq, Val.struct.injEq, like]
  funext f
  by_cases hf : f = name! "len"
  · subst hf
    rfl
  · simp [hf, restOf]

theorem digV_set_len0 (D : Digest) : (digV D).set [name! "len"] (.const 0) = .ok (digV { D with len := 0 }) :=
  digV_set_len D 0

theorem digV_set_x (D : Digest) (l : Buf) (g : Nat → Val) (hg : g = byteArr l.1) :
    (digV D).set [name! "x"] (.arr 64 g) = .ok (digV { D with x := l }) := by
  subst hg
  simp only [digV, digVal, Val.set, Except.ok.injEq, Val.struct.injEq, like]
  funext f
  by_cases hf : f = name! "x"
  · subst hf
    rfl
  · simp [hf, restOf]

theorem zero_dig : zero digTy = digV Digest.zero := by
  have h5 : zero (.arr 5 .u32) = five ⟨0, 0, 0, 0, 0⟩ := zeros_five
  have hx : zero (.arr 64 .u8) = .arr 64 (byteArr (List.replicate 64 0)) := by
    refine congrArg (Val.arr 64) (funext fun j => ?_)
    show Val.u8 0 = Val.u8 _
    rw [List.getElem?_replicate]
    split <;> rfl
  simp only [digTy, zero, digV, digVal, Digest.zero] at h5 hx ⊢
  refine congrArg Val.struct (funext fun f => ?_)
  rw [← h5, hx]
  by_cases h1 : f = name! "h"
  · simp [h1]
  · by_cases h2 : f = name! "x"
    · simp [h2, restOf]
    · by_cases h3 : f = name! "nx"
      · simp [h3, restOf]
      · by_cases h4 : f = name! "len"
        · simp [h4, restOf]
        · simp [h1, h2, h3, h4, restOf]

/-- The frames below `i` are `fr` but for what is at `ld`. -/
structure Keeps (fr : Nat → List Val) (i : Nat) (ld : Loc) (v : Val) (old : Nat → List Val) (next : Nat) : Prop where
  lt : i < next
  eq : ∀ k, k < i → old k = putAt fr ld v k

section
variable {fr : Nat → List Val} {i : Nat} {ld : Loc} {v w u : Val} {old : Nat → List Val} {next : Nat}

theorem Keeps.look (K : Keeps fr i ld v old next) (hl : ld.frame < i) (h : look fr ld = .ok u) (hv : Fixed v) :
    look old ld = .ok v := by
  rw [look_congr (K.eq _ hl), look_putAt hv h]

theorem Keeps.put (K : Keeps fr i ld v old next) (h : Go.look fr ld = .ok u) (hw : Fixed w) :
    Keeps fr i ld w (putAt old ld w) next := by
  refine ⟨K.lt, fun k hk => ?_⟩
  rw [← putAt_putAt (w := v) hw h]
  by_cases hk' : k = ld.frame
  · subst hk'
    simp only [putAt, if_true]
    rw [K.eq _ hk]
    simp only [putAt, if_true]
  · rw [putAt_of_ne hk', putAt_of_ne hk', K.eq k hk]

theorem Keeps.other (K : Keeps fr i ld v old next) {l : Loc} (hl : l.frame < i) (hne : l.frame ≠ ld.frame) :
    Go.look old l = Go.look fr l := look_congr ((K.eq _ hl).trans (putAt_of_ne hne))

theorem Keeps.frame (K : Keeps fr i ld v old next) {g : Nat} (hl : g < i) (hne : g ≠ ld.frame) : old g = fr g :=
  (K.eq _ hl).trans (putAt_of_ne hne)

theorem keeps_self {m : Mem} (h : Go.look m.frame ld = .ok v) : Keeps m.frame m.next ld v m.frame (m.next + 1) :=
  ⟨Nat.lt_succ_self _, fun k _ => by rw [putAt_self h]⟩

/-- What a function leaves behind when it returns. -/
theorem leave_became {m : Mem} {C : List Val} (K : Keeps m.frame m.next ld v old next) (keep : Bool) :
    Became m (putAt m.frame ld v) (m.leave ⟨m.next, C, old, next⟩ keep) := by
  refine ⟨rfl, ?_, ?_⟩
  · have := K.lt
    simp only [Mem.leave]
    split <;> omega
  · intro k hk
    refine Eq.trans ?_ (K.eq k hk)
    simp only [Mem.leave, Mem.frame]
    by_cases hid : k = m.id
    · rw [if_pos hid, hid]
    · rw [if_neg hid, if_neg hid, if_neg (by omega)]

/-- What a call leaves to its caller. -/
theorem became_keeps {C : List Val} {m' : Mem} (K : Keeps fr i ld v old next) (hl : ld.frame < i) (hu : Go.look fr ld = .ok u)
    (hw : Fixed w) (B : Became ⟨i, C, old, next⟩ (putAt (Mem.frame ⟨i, C, old, next⟩) ld w) m') :
    ∃ old' next', m' = ⟨i, C, old', next'⟩ ∧ Keeps fr i ld w old' next' := by
  have hcur : m'.cur = C := by
    have := B.frame i K.lt
    rw [putAt_of_ne (Nat.ne_of_gt hl)] at this
    simp only [Mem.frame, B.id, if_true] at this
    exact this
  have hlt := K.lt
  refine ⟨m'.old, m'.next, ?_, Nat.lt_of_lt_of_le K.lt B.next, fun k hk => ?_⟩
  · have := B.id
    cases m'
    simp only at hcur this
    subst hcur
    subst this
    rfl
  · have h1 := B.frame k (show k < next by omega)
    have h2 : m'.frame k = m'.old k := by
      have hid : m'.id = i := B.id
      simp only [Mem.frame, hid, if_neg (Nat.ne_of_lt hk)]
    rw [h2] at h1
    rw [h1, ← putAt_putAt (w := v) hw hu]
    by_cases hk' : k = ld.frame
    · subst hk'
      simp only [putAt, if_true, Mem.frame, if_neg (Nat.ne_of_lt hk)]
      rw [K.eq _ hk]
      simp only [putAt, if_true]
    · rw [putAt_of_ne hk', putAt_of_ne hk']
      simp only [Mem.frame, if_neg (Nat.ne_of_lt hk)]
      exact K.eq k hk

end

/-- The package variables `G` and the table, in the frames. -/
structure Boot (G : List Val) (fr : Nat → List Val) : Prop where
  vars : fr 0 = G
  table : fr 1 = [table sha1Dvs]

theorem Boot.putAt {G : List Val} {fr : Nat → List Val} (B : Boot G fr) {ld : Loc} (hl : 2 ≤ ld.frame) (v : Val) :
    Boot G (putAt fr ld v) :=
  ⟨(putAt_of_ne (by omega)).trans B.vars, (putAt_of_ne (by omega)).trans B.table⟩

/-- The slice holds the bytes `bs`. -/
def Bytes (fr : Nat → List Val) (lp : Loc) (off cap : Nat) (bs : List Byte) : Prop :=
  ∃ n f, look fr lp = .ok (.arr n f) ∧ off + cap ≤ n ∧ bs.length ≤ cap ∧ ∀ q (hq : q < bs.length), f (off + q) = .u8 bs[q]

section
variable {fr : Nat → List Val} {lp : Loc} {off cap : Nat} {bs : List Byte}

theorem Bytes.drop (h : Bytes fr lp off cap bs) {k : Nat} (hk : k ≤ bs.length) : Bytes fr lp (off + k) (cap - k) (bs.drop k) := by
  obtain ⟨n, f, h1, h2, h3, h4⟩ := h
  refine ⟨n, f, h1, by omega, by simp; omega, fun q hq => ?_⟩
  rw [List.getElem_drop, Nat.add_assoc]
  exact h4 (k + q) (by simp at hq; omega)

theorem Bytes.take (h : Bytes fr lp off cap bs) {k : Nat} (hk : k ≤ bs.length) : Bytes fr lp off cap (bs.take k) := by
  obtain ⟨n, f, h1, h2, h3, h4⟩ := h
  refine ⟨n, f, h1, h2, by simp; omega, fun q hq => ?_⟩
  rw [List.getElem_take]
  exact h4 q (by simp at hq; omega)

theorem Bytes.congr {fr' : Nat → List Val} (h : Bytes fr lp off cap bs) (he : look fr' lp = look fr lp) : Bytes fr' lp off cap bs := by
  obtain ⟨n, f, h1, h2⟩ := h
  exact ⟨n, f, he.trans h1, h2⟩

theorem Bytes.look (h : Bytes fr lp off cap bs) {q : Nat} (hq : q < bs.length) :
    Go.look fr (lp.sub (off + q)) = .ok (.u8 bs[q]) := by
  obtain ⟨n, f, h1, h2, h3, h4⟩ := h
  rw [look_sub h1]
  simp only [Val.get]
  rw [if_pos (by omega), h4 q hq]

end

/-- A `[]byte` with the given bytes, not in the frame of the digest: `nil`, or a slice of an array. -/
inductive IsBytes (fr : Nat → List Val) (next no : Nat) : Val → List Byte → Prop where
  | null : IsBytes fr next no .null []
  | slice {lp : Loc} {off cap : Nat} {bs : List Byte} : lp.frame < next → lp.frame ≠ no → Bytes fr lp off cap bs →
      IsBytes fr next no (.slice lp off bs.length cap) bs

/-- What the call of `block` does (sha1cdblock_noasm.go:5, sha1cdblock_amd64.go:22, sha1cdblock_arm64.go:23). -/
def CallsBlock (P : Program) (N d : Nat) (G : List Val) (block : BlockFn) : Prop :=
  ∀ {ld lp : Loc} {rest : Nat → Val} {h : Regs} {c : Bool} {off cap : Nat} {bs : List Byte} {m : Mem},
    bs.length / 64 < N → m.id < m.next → Boot G m.frame → 2 ≤ ld.frame → ld.frame < m.next → lp.frame < m.next →
    look m.frame ld = .ok (digVal rest h c) →
    (∀ h' c' q (hq : q < bs.length), look (withDig m.frame ld rest h' c') (lp.sub (off + q)) = .ok (.u8 bs[q])) →
    bs.length ≤ cap →
    match block ⟨h, c⟩ bs with
    | .ok r => ∃ m', P.call N d (name! "sha1cd") (name! "block") [.ptr ld, .slice lp off bs.length cap] m =
        .ok ([], m') ∧ Became m (withDig m.frame ld rest r.h r.col) m'
    | .error e => ∃ s, P.call N d (name! "sha1cd") (name! "block") [.ptr ld, .slice lp off bs.length cap] m =
        .error s ∧ Stands e s

section
variable {X : World} {N i : Nat} {ld : Loc} {D D' : Digest} {C : List Val} {old : Nat → List Val} {next : Nat}

/-- `d.f` where `d` is the pointer in slot 0. -/
theorem evs_dig {f : Nat} {v : Val} (hi : ld.frame ≠ i) (hd : look old ld = .ok (digV D)) (hv : (digV D).get [f] = .ok v) :
    evs X (.field (.loc 0) f) ⟨i, .ptr ld :: C, old, next⟩ = .ok ([v], ⟨i, .ptr ld :: C, old, next⟩) :=
  evs_field (evs_loc rfl) (load_look (l := ld.sub f) hi ((look_sub hd).trans hv) _)

theorem through_dig : through ⟨i, 0, []⟩ ⟨i, .ptr ld :: C, old, next⟩ = .ok (ld, ⟨i, .ptr ld :: C, old, next⟩) := by
  have hl : load ⟨i, 0, []⟩ ⟨i, .ptr ld :: C, old, next⟩ = .ok (.ptr ld, ⟨i, .ptr ld :: C, old, next⟩) := load_pget rfl
  simp only [through, bind_run, hl, pure_run]

theorem place_dig {f : Nat} : place X (.field (.loc 0) f) ⟨i, .ptr ld :: C, old, next⟩ =
    .ok (ld.sub f, ⟨i, .ptr ld :: C, old, next⟩) :=
  place_field (l := ⟨i, 0, []⟩) (m1 := ⟨i, .ptr ld :: C, old, next⟩) rfl through_dig

theorem store_dig {f : Nat} {x : Val} (hi : ld.frame ≠ i) (hd : look old ld = .ok (digV D))
    (hs : (digV D).set [f] x = .ok (digV D')) :
    store (ld.sub f) x ⟨i, C, old, next⟩ = .ok ((), ⟨i, C, putAt old ld (digV D'), next⟩) :=
  store_part hi hd hs (fixed_digV _)

/-- `d.f = e`. -/
theorem exec_dig {f : Nat} {e : Expr} {x : Val} {old' : Nat → List Val} {next' : Nat} (hi : ld.frame ≠ i)
    (he : evs X e ⟨i, .ptr ld :: C, old, next⟩ = .ok ([x], ⟨i, .ptr ld :: C, old', next'⟩))
    (hd : look old' ld = .ok (digV D)) (hs : (digV D).set [f] x = .ok (digV D')) :
    exec X N (.assign (.cons (.field (.loc 0) f) .nil) (.cons e .nil)) ⟨i, .ptr ld :: C, old, next⟩ =
      .ok (.normal, ⟨i, .ptr ld :: C, putAt old' ld (digV D'), next'⟩) := by
  have hps : places X (.cons (.field (.loc 0) f) .nil) ⟨i, .ptr ld :: C, old, next⟩ =
      .ok ([some (ld.sub f)], ⟨i, .ptr ld :: C, old, next⟩) := by
    simp only [places, bind_run, place_dig, pure_run]
  exact exec_assign hps (evs_one he) (storeAll_one (store_dig hi hd hs))

/-- `d.f += e`. -/
theorem exec_op {f : Nat} {o : BOp} {e : Expr} {a b x : Val} (hi : ld.frame ≠ i) (hd : look old ld = .ok (digV D))
    (ha : (digV D).get [f] = .ok a)
    (he : evs X e ⟨i, .ptr ld :: C, old, next⟩ = .ok ([b], ⟨i, .ptr ld :: C, old, next⟩)) (hx : arith o a b = some x)
    (hs : (digV D).set [f] x = .ok (digV D')) :
    exec X N (.opAssign o (.field (.loc 0) f) e) ⟨i, .ptr ld :: C, old, next⟩ =
      .ok (.normal, ⟨i, .ptr ld :: C, putAt old ld (digV D'), next⟩) := by
  show (place X (.field (.loc 0) f) >>= _) _ = _
  rw [bind_of place_dig, bind_of (load_look (l := ld.sub f) hi ((look_sub hd).trans ha) _), bind_of (ev_of he), hx]
  rw [bind_of (show need (some x) ⟨i, .ptr ld :: C, old, next⟩ = .ok (x, _) from rfl), bind_of (store_dig hi hd hs)]
  rfl

/-- `d.h[k] = e`. -/
theorem exec_digH {k : Nat} (hk : k < 5) {w : Nat} (hi : ld.frame ≠ i) (hd : look old ld = .ok (digV D)) :
    exec X N (.assign (.cons (digH k) .nil) (.cons (.num w) .nil)) ⟨i, .ptr ld :: C, old, next⟩ =
      .ok (.normal, ⟨i, .ptr ld :: C, putAt old ld (digV { D with h := setH D.h k (BitVec.ofNat 32 w) }), next⟩) := by
  refine exec_assign (places_cons (by simp [digH]) (digH_place hi hd hk) rfl) (evs_one evs_num) (storeAll_one ?_)
  have : (ld.sub (name! "h")).sub k = { ld with path := ld.path ++ [name! "h", k] } := by simp [Loc.sub]
  rw [this]
  refine store_part hi hd ?_ (fixed_digV _)
  rw [← digV_set_h D k hk, ← ofInt_nat]
  match k, hk with
  | 0, _ | 1, _ | 2, _ | 3, _ | 4, _ => rfl

end

/-! ### Slices -/

section
variable {X : World} {m m1 m2 m3 : Mem}

theorem evs_slice {e lo hi : Expr} {l : Loc} {a b : List Val} {v : Val} (he : place X e m = .ok (l, m1))
    (hlo : evs X lo m1 = .ok (a, m2)) (hhi : evs X hi m2 = .ok (b, m3)) (hs : sliceOf l a.head? b.head? m3 = .ok (v, m3)) :
    evs X (.slice e lo hi) m = .ok ([v], m3) := by
  show (place X e >>= _) m = _
  rw [bind_of he, bind_of hlo, bind_of hhi, bind_of hs]
  rfl

theorem evs_slice_error {e lo hi : Expr} {l : Loc} {a b : List Val} {s : Stop} (he : place X e m = .ok (l, m1))
    (hlo : evs X lo m1 = .ok (a, m2)) (hhi : evs X hi m2 = .ok (b, m3)) (hs : sliceOf l a.head? b.head? m3 = .error s) :
    evs X (.slice e lo hi) m = .error s := by
  show (place X e >>= _) m = _
  rw [bind_of he, bind_of hlo, bind_of hhi, bind_run, hs]

theorem evs_copy {a b : Expr} {x y v : Val} (ha : evs X a m = .ok ([x], m1)) (hb : evs X b m1 = .ok ([y], m2))
    (hv : copySlice x y m2 = .ok (v, m3)) : evs X (.copy a b) m = .ok ([v], m3) := by
  show (evs X a >>= _) m = _
  rw [bind_of ha, bind_of (single_one _ _), bind_of hb, bind_of (single_one _ _), bind_of hv]
  rfl

theorem evs_copy_error {a b : Expr} {s : Stop} (ha : evs X a m = .error s) : evs X (.copy a b) m = .error s := by
  show (evs X a >>= _) m = _
  rw [bind_run, ha]

/-- A bound that is an expression with a value. -/
theorem bound_some {v : Val} {x : Nat} {n : Nat} (h : number v = some (x : Int)) : bound (some v) n m = .ok ((x : Int), m) := by
  simp only [bound, need, h]

theorem bound_none {n : Nat} : bound none n m = .ok ((n : Int), m) := rfl

theorem sliceOf_slice {l b : Loc} {off len cap : Nat} {lo hi : Option Val} {x y : Nat}
    (hl : load l m = .ok (.slice b off len cap, m)) (hlo : bound lo 0 m = .ok ((x : Int), m))
    (hhi : bound hi len m = .ok ((y : Int), m)) (hxy : x ≤ y) (hy : y ≤ cap) :
    sliceOf l lo hi m = .ok (.slice b (off + x) (y - x) (cap - x), m) := by
  simp only [sliceOf, bind_run, hl, pure_run, hlo, hhi]
  rw [if_pos ⟨by omega, by omega, by omega⟩, pure_run]
  rw [show ((y : Int) - x).toNat = y - x by omega, show (x : Int).toNat = x by omega]

theorem sliceOf_arr {l : Loc} {n : Nat} {f : Nat → Val} {lo hi : Option Val} {x y : Nat}
    (hl : load l m = .ok (.arr n f, m)) (hlo : bound lo 0 m = .ok ((x : Int), m))
    (hhi : bound hi n m = .ok ((y : Int), m)) (hxy : x ≤ y) (hy : y ≤ n) :
    sliceOf l lo hi m = .ok (.slice l x (y - x) (n - x), m) := by
  simp only [sliceOf, bind_run, hl, pure_run, hlo, hhi]
  rw [if_pos ⟨by omega, by omega, by omega⟩, pure_run]
  rw [show ((y : Int) - x).toNat = y - x by omega, show (x : Int).toNat = x by omega, Nat.zero_add]

theorem sliceOf_arr_error {l : Loc} {n : Nat} {f : Nat → Val} {lo hi : Option Val} {x y : Nat}
    (hl : load l m = .ok (.arr n f, m)) (hlo : bound lo 0 m = .ok ((x : Int), m))
    (hhi : bound hi n m = .ok ((y : Int), m)) (h : ¬(x ≤ y ∧ y ≤ n)) : sliceOf l lo hi m = .error .bounds := by
  simp only [sliceOf, bind_run, hl, pure_run, hlo, hhi]
  rw [if_neg (by omega)]
  rfl

end

/-- The elements of a slice with the given bytes. -/
theorem sliceElems_bytes {i : Nat} {C : List Val} {old : Nat → List Val} {next : Nat} {lp : Loc} {off cap : Nat} {bs : List Byte}
    (hi : lp.frame ≠ i) (h : Bytes old lp off cap bs) :
    ∃ g, sliceElems (.slice lp off bs.length cap) ⟨i, C, old, next⟩ = .ok ((g, bs.length), ⟨i, C, old, next⟩) ∧
      ∀ q (hq : q < bs.length), g q = .u8 bs[q] := by
  obtain ⟨n, f, h1, h2, h3, h4⟩ := h
  by_cases hz : bs.length = 0
  · refine ⟨fun _ => .null, ?_, fun q hq => by omega⟩
    simp only [sliceElems, bind_run, need, parts, hz, if_true, pure_run]
  · refine ⟨fun j => f (off + j), ?_, h4⟩
    have hl := load_look (next := next) hi h1 C
    simp only [sliceElems, bind_run, need, parts, hz, if_false, arrayAt, hl, pure_run]

/-- Bytes put into an array from an index on. -/
theorem splice_bytes {x p : List Byte} {n off k : Nat} {g : Nat → Val} (hx : x.length = n) (hk : off + k ≤ n) (hp : k ≤ p.length)
    (hg : ∀ q (hq : q < p.length), g q = .u8 p[q]) :
    splice (byteArr x) g off k = byteArr (x.take off ++ p.take k ++ x.drop (off + k)) := by
  funext j
  unfold splice byteArr
  have e1 : (x.take off).length = off := by simp; omega
  have e2 : (p.take k).length = k := by simp; omega
  by_cases h1 : off ≤ j ∧ j < off + k
  · rw [if_pos h1, hg (j - off) (by omega), List.getElem?_append_left (by simp; omega),
      List.getElem?_append_right (by omega), e1, List.getElem?_take_of_lt (by omega), List.getElem?_eq_getElem (by omega)]
    rfl
  · rw [if_neg h1]
    by_cases h2 : j < off
    · rw [List.append_assoc, List.getElem?_append_left (by omega), List.getElem?_take_of_lt h2]
    · rw [List.getElem?_append_right (by simp; omega), List.getElem?_drop]
      congr 3
      simp only [List.length_append, e1, e2]
      omega

section
variable {i : Nat} {ld : Loc} {D : Digest} {C : List Val} {old : Nat → List Val} {next : Nat}

/-- `copy(d.x[off:], p)`. -/
theorem copy_dig {off cap' : Nat} {lp : Loc} {poff pcap : Nat} {bs : List Byte} (h64 : off ≤ 64) (hi : ld.frame ≠ i)
    (hd : look old ld = .ok (digV D)) (hl : lp.frame ≠ i) (hb : Bytes old lp poff pcap bs) :
    copySlice (.slice (ld.sub (name! "x")) off (64 - off) cap') (.slice lp poff bs.length pcap) ⟨i, C, old, next⟩ =
      .ok (.int (min (64 - off) bs.length : Nat), ⟨i, C, putAt old ld (digV { D with x := copyAt D.x off h64 bs }), next⟩) := by
  obtain ⟨g, g1, g2⟩ := sliceElems_bytes (C := C) (next := next) hl hb
  have hsp := splice_bytes (x := D.x.1) (p := bs) (n := 64) (off := off) (k := min (64 - off) bs.length) D.x.2 (by omega) (by omega) g2
  have hx : splice (byteArr D.x.1) g off (min (64 - off) bs.length) = byteArr (copyAt D.x off h64 bs).1 := by
    rw [hsp]
    simp only [copyAt]
    congr 3
    by_cases hc : 64 - off ≤ bs.length
    · rw [Nat.min_eq_left hc]
    · rw [Nat.min_eq_right (by omega), List.take_of_length_le (Nat.le_refl _), List.take_of_length_le (by omega)]
  simp only [copySlice, bind_run, need, parts, g1]
  by_cases hz : min (64 - off) bs.length = 0
  · rw [if_pos hz, hz, pure_run]
    have : digV { D with x := copyAt D.x off h64 bs } = digV D := by
      have hs : splice (byteArr D.x.1) g off 0 = byteArr D.x.1 := by
        funext j
        simp only [splice]
        rw [if_neg (by omega)]
      rw [hz, hs] at hx
      have hr : restOf (copyAt D.x off h64 bs).1 D.nx D.len = restOf D.x.1 D.nx D.len := by
        funext f
        simp only [restOf, hx]
      simp only [digV, hr]
    rw [this, putAt_self hd]
    rfl
  · rw [if_neg hz]
    have hld := load_look (l := ld.sub (name! "x")) (next := next) hi ((look_sub hd).trans (digV_get_x D)) C
    simp only [bind_run, storeMany, hld]
    rw [if_pos (by omega), store_dig hi hd (digV_set_x D _ _ hx)]
    rfl

end

end Verif.Source.Go
