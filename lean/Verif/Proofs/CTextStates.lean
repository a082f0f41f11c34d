import Verif.Proofs.CTextW

/-!
`sha1_compression_states` as it is read from the text of cgo/sha1.c is `Model.C.sha1_compression_states`.
-/

namespace Verif.Source.C

open Verif Verif.Source Verif.Source.Go Verif.Model
open Verif.Model.C (Item.exec Step Item CState Plat stepFull stepsStates runItems sha1_bswap32 sha1_load load32 sha1_mix rotate_left)

/-- Five zeros. -/
def noRegs : Regs := ⟨0, 0, 0, 0, 0⟩

/-- State `i`. -/
def stateAt (S : Fin 80 → Regs) (i : Nat) : Regs := if h : i < 80 then S ⟨i, h⟩ else noRegs

/-- The array of the states. -/
def statesV (S : Fin 80 → Regs) : Val := .arr 80 fun j => quint (stateAt S j)

/-- The word `t` of a block. -/
def at16 (m : Fin 16 → Word) (t : Nat) : Word := if h : t < 16 then m ⟨t, h⟩ else 0

/-- The word `t` of a block, for a processor of the given byte order (cgo/sha1.c:146-157). -/
def loaded (be : Bool) (m : Fin 16 → Word) (t : Nat) : Word := bif be then at16 m t else sha1_bswap32 (at16 m t)

/-- The word `t` of the expanded message (cgo/sha1.c:144,159). -/
def mixed (W : Fin 80 → Word) (t : Nat) : Word :=
  rotate_left (at80 W (t - 3) ^^^ at80 W (t - 8) ^^^ at80 W (t - 14) ^^^ at80 W (t - 16)) 1

/-- cgo/sha1.c:459-869, little-endian. -/
def statesLe : Func := evaluated! funcOf funcs2Le (name! "sha1_compression_states")
/-- cgo/sha1.c:459-869, big-endian. -/
def statesBe : Func := evaluated! funcOf funcs2Be (name! "sha1_compression_states")

/-- The statements of cgo/sha1.c:464-862, little-endian. -/
def itemsLe : List Stmt := evaluated! ((bodyOf statesLe).drop 2).take 170
/-- The statements of cgo/sha1.c:464-862, big-endian. -/
def itemsBe : List Stmt := evaluated! ((bodyOf statesBe).drop 2).take 170

/-- The body of `sha1_compression_states` (cgo/sha1.c:459-869) with the given steps. -/
def statesBody (items : List Stmt) : Stmt := .block 4 (seqs ([locals 0, .var .u32] ++ (items ++ adds 4)))

theorem statesLe_eq : statesLe = ⟨name! "C", name! "sha1_compression_states",
    [.slice .u32, .slice .u32, .slice .u32, .slice (.arr 5 .u32)], [], false, some (statesBody itemsLe)⟩ := by by_kernel

theorem statesBe_eq : statesBe = ⟨name! "C", name! "sha1_compression_states",
    [.slice .u32, .slice .u32, .slice .u32, .slice (.arr 5 .u32)], [], false, some (statesBody itemsBe)⟩ := by by_kernel

/-- The slices of a call of `sha1_compression_states`. -/
abbrev Parts4 := Part4 × Part4 × Part4 × Part4

/-- What the parameters of `sha1_compression_states` point to. -/
def sD (r : Regs) (m : Fin 16 → Word) (W : Fin 80 → Word) (S : Fin 80 → Regs) : List (Option Val) :=
  [some (quint r), some (words 16 m), some (words 80 W), some (statesV S)]

/-- The slots of `sha1_compression_states`. -/
def sC (p : Parts4) (v : Model.C.Env) (x : Word) : List Val :=
  [sl p.1, sl p.2.1, sl p.2.2.1, sl p.2.2.2, .u32 (v .a), .u32 (v .b), .u32 (v .c), .u32 (v .d), .u32 (v .e), .u32 x]

/-- The elements of `words 80`. -/
def wordFn (W : Fin 80 → Word) (j : Nat) : Val := .u32 (if h : j < 80 then W ⟨j, h⟩ else 0)

theorem words_upd {W : Fin 80 → Word} {t : Nat} (h : t < 80) (x : Word) :
    (Val.arr 80 fun j => if j = t then .u32 x else wordFn W j) = words 80 (upd W ⟨t, h⟩ x) := by
  unfold words
  congr 1
  funext j
  by_cases hj : j = t
  · subst hj
    simp [h, upd]
  · rw [if_neg hj]
    unfold wordFn
    by_cases hj' : j < 80
    · simp [hj', upd, hj]
    · simp [hj']

/-- A state after `k` of its five words have been stored (cgo/sha1.c:248-253). -/
def stored (r : Regs) (v : Model.C.Env) : Nat → Nat → Val
  | 0, q => quintFn r q
  | k + 1, q => if q = k then .u32 ([v .a, v .b, v .c, v .d, v .e].getD k 0) else stored r v k q

/-- The states after `k` words of state `i` have been stored (cgo/sha1.c:248-253). -/
def storing (S : Fin 80 → Regs) (v : Model.C.Env) (i : Nat) : Nat → Nat → Val
  | 0, j => quint (stateAt S j)
  | k + 1, j => if j = i then .arr 5 (stored (stateAt S i) v (k + 1)) else storing S v i k j

theorem storing_all {S : Fin 80 → Regs} {v : Model.C.Env} {i : Nat} (h : i < 80) :
    Val.arr 80 (storing S v i 5) = statesV (upd S ⟨i, h⟩ v.regs) := by
  unfold statesV
  congr 1
  funext j
  by_cases hj : j = i
  · subst hj
    have hs : stateAt (upd S ⟨j, h⟩ v.regs) j = v.regs := by simp [stateAt, h, upd]
    rw [hs, storing, if_pos rfl]
    exact quint_set (stateAt S j) (v .a) (v .b) (v .c) (v .d) (v .e)
  · have hs : stateAt (upd S ⟨i, h⟩ v.regs) j = stateAt S j := by
      unfold stateAt
      by_cases hj' : j < 80
      · simp [hj', upd, hj]
      · simp [hj']
    rw [hs]
    simp [storing, hj]

/-- Statements that are the macro calls. -/
inductive Items (be : Bool) : List Stmt → List Item → Prop where
  | nil : Items be [] []
  | load {s t ss ts} : (∀ r m W S p v x, rexec noPure s (sD r m W S, sC p v x) =
      some ([some (quint r), some (words 16 m),
        some (.arr 80 fun j => if j = t.t then .u32 (loaded be m t.t) else wordFn W j), some (statesV S)],
        sC p (stepFull t (loaded be m t.t) v) (loaded be m t.t))) → t.t < 16 →
      Items be ss ts → Items be (s :: .skip :: ss) (.load t :: ts)
  | expand {s t ss ts} : (∀ r m W S p v x, rexec noPure s (sD r m W S, sC p v x) =
      some ([some (quint r), some (words 16 m),
        some (.arr 80 fun j => if j = t.t then .u32 (mixed W t.t) else wordFn W j), some (statesV S)],
        sC p (stepFull t (mixed W t.t) v) (mixed W t.t))) → 16 ≤ t.t → t.t < 80 →
      Items be ss ts → Items be (s :: .skip :: ss) (.expand t :: ts)

  | store {i s0 s1 s2 s3 s4 ss ts} : (∀ r m W S p v x, rexec noPure (seqs [s0, s1, s2, s3, s4]) (sD r m W S, sC p v x) =
      some ([some (quint r), some (words 16 m), some (words 80 W), some (.arr 80 (storing S v i 5))], sC p v x)) →
      i < 80 → Items be ss ts → Items be (s0 :: s1 :: s2 :: s3 :: s4 :: ss) (.store i :: ts)

theorem itemsLe_do : Items false itemsLe stepsStates := by
  unfold itemsLe stepsStates
  repeat first
    | refine Items.load (fun r m W S p v x => by by_kernel) (by decide) ?_
    | refine Items.expand (fun r m W S p v x => by by_kernel) (by decide) (by decide) ?_
    | refine Items.store (fun r m W S p v x => by by_kernel) (by decide) ?_
  exact Items.nil

theorem itemsBe_do : Items true itemsBe stepsStates := by
  unfold itemsBe stepsStates
  repeat first
    | refine Items.load (fun r m W S p v x => by by_kernel) (by decide) ?_
    | refine Items.expand (fun r m W S p v x => by by_kernel) (by decide) (by decide) ?_
    | refine Items.store (fun r m W S p v x => by by_kernel) (by decide) ?_
  exact Items.nil

/-- The block `m` is the bytes `B` (cgo/sha1.c:146-157). -/
def Loads (cfg : Plat) (B : List Byte) (m : Fin 16 → Word) : Prop :=
  ∀ t (h : t < 16), load32 cfg B t = .ok (m ⟨t, h⟩)

theorem mixed_eq {W : Fin 80 → Word} {t : Nat} (h1 : 16 ≤ t) (h2 : t < 80) : mixed W t = sha1_mix W t h1 h2 := by
  unfold mixed sha1_mix at80
  simp only [show t - 3 < 80 by omega, show t - 8 < 80 by omega, show t - 14 < 80 by omega, show t - 16 < 80 by omega,
    dite_true]

theorem loaded_eq {cfg : Plat} {B : List Byte} {m : Fin 16 → Word} (hm : Loads cfg B m) {t : Nat} (h : t < 16) :
    sha1_load cfg B t = .ok (loaded cfg.bigEndian m t) := by
  unfold sha1_load loaded at16
  rw [hm t h]
  cases cfg.bigEndian <;> simp [h] <;> rfl

theorem items_do {be : Bool} {ss : List Stmt} {ts : List Item} (h : Items be ss ts) {cfg : Plat} (hc : cfg.bigEndian = be)
    {B : List Byte} {m : Fin 16 → Word} (hm : Loads cfg B m) (r : Regs) (p : Parts4) :
    ∀ st x, ∃ st' x', runItems cfg B ts st = .ok st' ∧
      rexec noPure (seqs ss) (sD r m st.W st.states, sC p st.v x) = some (sD r m st'.W st'.states, sC p st'.v x') := by
  induction h with
  | nil => intro st x; exact ⟨st, x, rfl, rfl⟩
  | @load s t ss ts h ht _ ih =>
    intro st x
    have e := h r m st.W st.states p st.v x
    rw [words_upd (show t.t < 80 by omega)] at e
    obtain ⟨st', x', h1, h2⟩ := ih ⟨stepFull t (loaded be m t.t) st.v,
      upd st.W ⟨t.t, by omega⟩ (loaded be m t.t), st.states⟩ (loaded be m t.t)
    refine ⟨st', x', ?_, ?_⟩
    · rw [runItems, Item.exec, loaded_eq hm ht, hc]
      simp only [bind, Except.bind, show t.t < 80 by omega, dite_true]
      exact h1
    · simp only [seqs, rexec, e]
      exact h2
  | @expand s t ss ts h h16 h80 _ ih =>
    intro st x
    have e := h r m st.W st.states p st.v x
    rw [words_upd h80] at e
    obtain ⟨st', x', h1, h2⟩ := ih ⟨stepFull t (mixed st.W t.t) st.v,
      upd st.W ⟨t.t, h80⟩ (mixed st.W t.t), st.states⟩ (mixed st.W t.t)
    refine ⟨st', x', ?_, ?_⟩
    · rw [runItems, Item.exec]
      simp only [h16, h80, and_self, dite_true]
      rw [← mixed_eq h16 h80]
      exact h1
    · simp only [seqs, rexec, e]
      exact h2
  | @store i s0 s1 s2 s3 s4 ss ts h hi _ ih =>
    intro st x
    have e := h r m st.W st.states p st.v x
    rw [storing_all hi] at e
    obtain ⟨st', x', h1, h2⟩ := ih ⟨st.v, st.W, upd st.states ⟨i, hi⟩ st.v.regs⟩ x
    refine ⟨st', x', ?_, (rexec_seqs_append (ss := [s0, s1, s2, s3, s4]) e).trans h2⟩
    rw [runItems, Item.exec]
    simp only [hi, dite_true]
    exact h1

theorem adds4_do (r : Regs) (m : Fin 16 → Word) (W : Fin 80 → Word) (S : Fin 80 → Regs) (p : Parts4) (v : Model.C.Env)
    (x : Word) : rexec noPure (seqs (adds 4)) (sD r m W S, sC p v x) = some (sD (r.add v.regs) m W S, sC p v x) := by
  refine Eq.trans (b := some ([some (.arr 5 fun j => if j = 4 then .u32 (r.e + v .e) else if j = 3 then .u32 (r.d + v .d)
    else if j = 2 then .u32 (r.c + v .c) else if j = 1 then .u32 (r.b + v .b) else if j = 0 then .u32 (r.a + v .a)
    else quintFn r j), some (words 16 m), some (words 80 W), some (statesV S)], sC p v x)) (by by_kernel) ?_
  rw [quint_set]
  rfl

/-- The body of `sha1_compression_states` (cgo/sha1.c:459-869). -/
theorem states_body {be : Bool} {items : List Stmt} (hi : Items be items stepsStates) {cfg : Plat}
    (hc : cfg.bigEndian = be) {B : List Byte} {m : Fin 16 → Word} (hm : Loads cfg B m) (r : Regs) (W : Fin 80 → Word)
    (S : Fin 80 → Regs) (p q p' q' : Part4) : ∃ r' W' S',
    Model.C.sha1_compression_states cfg r B W S = .ok (r', W', S') ∧
    rexec noPure (statesBody items) (sD r m W S, [sl p, sl q, sl p', sl q']) =
      some (sD r' m W' S', [sl p, sl q, sl p', sl q']) := by
  obtain ⟨st, x, h1, h2⟩ := items_do hi hc hm r (p, q, p', q') ⟨Model.C.Env.of r, W, S⟩ 0
  refine ⟨r.add st.v.regs, st.W, st.states, ?_, ?_⟩
  · unfold Model.C.sha1_compression_states
    rw [h1]
    rfl
  have h0 : rexec noPure (seqs [locals 0, .var .u32]) (sD r m W S, [sl p, sl q, sl p', sl q']) =
      some (sD r m W S, sC (p, q, p', q') (Model.C.Env.of r) 0) := by by_kernel
  have h3 : rexec noPure (seqs ([locals 0, .var .u32] ++ (items ++ adds 4))) (sD r m W S, [sl p, sl q, sl p', sl q']) =
      some (sD (r.add st.v.regs) m st.W st.states, sC (p, q, p', q') st.v x) :=
    (rexec_seqs_append h0).trans ((rexec_seqs_append h2).trans (adds4_do r m st.W st.states (p, q, p', q') st.v x))
  rw [statesBody, rexec, h3]
  rfl

end Verif.Source.C
