import Verif.Model.Conc
import Verif.Spec.Conc

/-! Interleaved accesses: a goroutine that shares no object that anyone writes runs as if alone. -/

namespace Verif.Conc

open Verif Verif.Model Verif.Model.Conc Verif.Spec

/-! ### Running alone -/

/-- The code run without interference. -/
def alone {α : Type} (S : Store) : Prog α → GoM (Store × α)
  | .ret a => .ok (S, a)
  | .panic e => .error e
  | .rd o f k => alone S (k (get (S o) f))
  | .wr o f v k => alone (S.set o (put (S o) f v)) k

theorem set_get (S : Store) (o : Nat) (d : Digest) : S.set o d o = d := if_pos rfl

theorem set_set (S : Store) (o : Nat) (d d' : Digest) : (S.set o d).set o d' = S.set o d' := by
  funext q; unfold Store.set; split <;> rfl

theorem set_self (S : Store) (o : Nat) : S.set o (S o) = S := by
  funext q; unfold Store.set; split
  · rename_i h; rw [h]
  · rfl

theorem set_ne (S : Store) (o q : Nat) (d : Digest) (h : q ≠ o) : S.set o d q = S q := if_neg h

theorem alone_bind {α β : Type} (p : Prog α) (g : α → Prog β) : ∀ S : Store,
    alone S (p >>= g) = alone S p >>= fun r => alone r.1 (g r.2) := by
  show ∀ S, alone S (p.bind g) = _
  induction p with
  | ret a => intro S; rfl
  | panic e => intro S; rfl
  | rd o f k ih => intro S; exact ih _ _
  | wr o f v k ih => intro S; exact ih _

theorem bind_ok {α β : Type} {p : Prog α} {S S' : Store} {a : α} (h : alone S p = .ok (S', a)) (g : α → Prog β) :
    alone S (p >>= g) = alone S' (g a) := by
  rw [alone_bind, h]; rfl

theorem alone_pure {α : Type} (S : Store) (a : α) : alone S (pure a : Prog α) = .ok (S, a) := rfl

theorem alone_rd (S : Store) (o : Nat) (f : Field) : alone S (rd o f) = .ok (S, get (S o) f) := rfl

theorem alone_wr (S : Store) (o : Nat) (f : Field) (v : f.ty) :
    alone S (wr o f v) = .ok (S.set o (put (S o) f v), ()) := rfl

theorem alone_lift {α : Type} (S : Store) (m : GoM α) : alone S (lift m) = m >>= fun a => .ok (S, a) := by
  cases m <;> rfl

theorem get_nx (d : Digest) : get d .nx = d.nx := rfl
theorem get_len (d : Digest) : get d .len = d.len := rfl
theorem get_h0 (d : Digest) : get d (.h 0) = d.h.a := rfl
theorem get_h1 (d : Digest) : get d (.h 1) = d.h.b := rfl
theorem get_h2 (d : Digest) : get d (.h 2) = d.h.c := rfl
theorem get_h3 (d : Digest) : get d (.h 3) = d.h.d := rfl
theorem get_h4 (d : Digest) : get d (.h 4) = d.h.e := rfl

theorem rdH_alone (S : Store) (o : Nat) : alone S (rdH o) = .ok (S, (S o).h) := rfl

theorem wrH_alone (S : Store) (o : Nat) (s : Regs) :
    alone S (wrH o s) = .ok (S.set o { S o with h := s }, ()) := by
  unfold wrH
  rw [bind_ok (alone_wr _ _ _ _), bind_ok (alone_wr _ _ _ _), bind_ok (alone_wr _ _ _ _), bind_ok (alone_wr _ _ _ _),
    alone_wr]
  simp only [set_set, set_get]
  rfl

theorem rdX_alone (S : Store) (o n : Nat) (h : n ≤ 64) :
    alone S (rdX o n h) = .ok (S, ⟨(S o).x.1.take n, by rw [List.length_take, (S o).x.2]; omega⟩) := by
  induction n with
  | zero => rfl
  | succ n ih =>
    unfold rdX
    rw [bind_ok (ih _), bind_ok (alone_rd _ _ _), alone_pure]
    have e : (S o).x.1.take n ++ [get (S o) (.x ⟨n, h⟩)] = (S o).x.1.take (n + 1) := by
      rw [List.take_add_one, List.getElem?_eq_getElem (by rw [(S o).x.2]; omega)]
      rfl
    exact congrArg (fun l => Except.ok (S, l)) (Subtype.ext e)

theorem copyAt_cons (x : Buf) (off : Nat) (h : off < 64) (b : Byte) (bs : List Byte) :
    copyAt ⟨x.1.set off b, by rw [List.length_set]; exact x.2⟩ (off + 1) h bs =
      copyAt x off (Nat.le_of_lt h) (b :: bs) := by
  apply Subtype.ext
  unfold copyAt
  have hx := x.2
  simp only [List.length_cons]
  rw [show 64 - off = (63 - off) + 1 by omega, List.take_succ_cons, show 64 - (off + 1) = 63 - off by omega,
    show min (63 - off + 1) (bs.length + 1) = min (63 - off) bs.length + 1 by omega,
    List.take_add_one, List.getElem?_set_self (by omega), List.take_set_of_le (Nat.le_refl _),
    List.drop_set_of_lt (by omega), show off + 1 + min (63 - off) bs.length = off + (min (63 - off) bs.length + 1) by omega]
  simp

theorem copyAt_nil (x : Buf) (off : Nat) (h : off ≤ 64) : copyAt x off h [] = x := by
  apply Subtype.ext
  unfold copyAt
  simp

theorem copyAt_end (x : Buf) (p : List Byte) : copyAt x 64 (Nat.le_refl _) p = x := by
  apply Subtype.ext
  unfold copyAt
  simp

theorem wrX_alone (o : Nat) (p : List Byte) : ∀ (S : Store) (off : Nat) (h : off ≤ 64),
    alone S (wrX o off p) = .ok (S.set o { S o with x := copyAt (S o).x off h p }, ()) := by
  induction p with
  | nil =>
    intro S off h
    rw [copyAt_nil]
    show Except.ok (S, ()) = Except.ok (S.set o (S o), ())
    rw [set_self]
  | cons b bs ih =>
    intro S off h
    unfold wrX
    by_cases hl : off < 64
    · rw [dif_pos hl, bind_ok (alone_wr _ _ _ _), ih _ _ hl, set_set, set_get, ← copyAt_cons _ _ hl]
      rfl
    · have e : off = 64 := by omega
      subst e
      rw [dif_neg hl, copyAt_end]
      show Except.ok (S, ()) = Except.ok (S.set o (S o), ())
      rw [set_self]

/-! ### The methods -/

theorem callBlock_alone (block : BlockFn) (S : Store) (o : Nat) (p : List Byte) :
    alone S (callBlock block o p) = (S o).callBlock block p >>= fun d => .ok (S.set o d, ()) := by
  unfold callBlock Digest.callBlock
  rw [bind_ok (rdH_alone _ _), bind_ok (alone_rd _ _ _), alone_bind, alone_lift]
  show (block ⟨(S o).h, (S o).col⟩ p >>= _) >>= _ = (block ⟨(S o).h, (S o).col⟩ p >>= _) >>= _
  cases block ⟨(S o).h, (S o).col⟩ p with
  | error e => rfl
  | ok c =>
    show alone S (wrH o c.h >>= fun _ => wr o .col c.col) = _
    rw [bind_ok (wrH_alone _ _ _), alone_wr, set_set, set_get]
    rfl

theorem writeFill_alone (block : BlockFn) (S : Store) (o : Nat) (p : List Byte) :
    alone S (writeFill block o p) = (S o).writeFill block p >>= fun r => .ok (S.set o r.1, r.2) := by
  unfold writeFill Digest.writeFill
  rw [bind_ok (alone_rd _ _ _), get_nx]
  by_cases h0 : (S o).nx > 0
  · rw [if_pos h0, if_pos h0]
    by_cases h1 : (S o).nx ≤ 64
    · rw [if_pos h1, dif_pos h1]
      simp only
      rw [bind_ok (wrX_alone _ _ _ _ h1), bind_ok (alone_rd _ _ _), bind_ok (alone_wr _ _ _ _),
        bind_ok (alone_rd _ _ _)]
      simp only [set_set, set_get]
      have e : put { S o with x := copyAt (S o).x (S o).nx h1 p } .nx
          (get { S o with x := copyAt (S o).x (S o).nx h1 p } .nx + min (64 - (S o).nx) p.length) =
          { S o with x := copyAt (S o).x (S o).nx h1 p, nx := (S o).nx + min (64 - (S o).nx) p.length } := rfl
      rw [e]
      generalize ed : ({ S o with x := copyAt (S o).x (S o).nx h1 p, nx := (S o).nx + min (64 - (S o).nx) p.length } :
        Digest) = d
      have en : (S o).nx + min (64 - (S o).nx) p.length = d.nx := by rw [← ed]
      have ex : copyAt (S o).x (S o).nx h1 p = d.x := by rw [← ed]
      rw [en]
      show alone (S.set o d) (if d.nx = Chunk then _ else _) = _
      by_cases hc : d.nx = Chunk
      · rw [if_pos hc, if_pos hc, bind_ok (rdX_alone _ _ _ _), set_get]
        have et : d.x.1.take 64 = d.x.1 := List.take_of_length_le (by rw [d.x.2]; omega)
        simp only
        rw [et, ex, alone_bind, callBlock_alone, set_get]
        cases d.callBlock block d.x.1 with
        | error e => rfl
        | ok d' =>
          simp only [bind, Except.bind]
          show alone _ (wr o .nx 0 >>= fun _ => pure (p.drop (min (64 - (S o).nx) p.length))) = _
          rw [bind_ok (alone_wr _ _ _ _), set_set, set_set, set_get]
          rfl
      · rw [if_neg hc, if_neg hc]; rfl
    · rw [if_neg h1, dif_neg h1]; rfl
  · rw [if_neg h0, if_neg h0]
    show Except.ok (S, p) = Except.ok (S.set o (S o), p)
    rw [set_self]

theorem writeBulk_alone (block : BlockFn) (S : Store) (o : Nat) (p : List Byte) :
    alone S (writeBulk block o p) = (S o).writeBulk block p >>= fun r => .ok (S.set o r.1, r.2) := by
  unfold writeBulk Digest.writeBulk
  by_cases h : p.length ≥ Chunk
  · rw [if_pos h, if_pos h]
    simp only
    rw [alone_bind, callBlock_alone]
    cases (S o).callBlock block _ <;> rfl
  · rw [if_neg h, if_neg h]
    show Except.ok (S, p) = Except.ok (S.set o (S o), p)
    rw [set_self]

theorem writeTail_alone (S : Store) (o : Nat) (p : List Byte) :
    alone S (writeTail o p) = .ok (S.set o ((S o).writeTail p), ()) := by
  unfold writeTail Digest.writeTail
  by_cases h : p.length > 0
  · rw [if_pos h, if_pos h, bind_ok (wrX_alone _ _ _ _ (Nat.zero_le _)), alone_wr, set_set, set_get]
    rfl
  · rw [if_neg h, if_neg h]
    show Except.ok (S, ()) = Except.ok (S.set o (S o), ())
    rw [set_self]

theorem write_alone (block : BlockFn) (S : Store) (o : Nat) (p : List Byte) :
    alone S (write block o p) = (S o).write block p >>= fun r => .ok (S.set o r.1, .write r.2.1 r.2.2) := by
  unfold write Digest.write
  by_cases h : p.length = 0
  · rw [if_pos h, if_pos h]
    show Except.ok (S, _) = Except.ok (S.set o (S o), _)
    rw [set_self]
  · rw [if_neg h, if_neg h]
    simp only
    rw [bind_ok (alone_rd _ _ _), bind_ok (alone_wr _ _ _ _), alone_bind, writeFill_alone, set_get]
    show (Digest.writeFill block { S o with len := (S o).len + BitVec.ofNat 64 p.length } p >>= _) >>= _ = _
    cases Digest.writeFill block { S o with len := (S o).len + BitVec.ofNat 64 p.length } p with
    | error e => rfl
    | ok r =>
      obtain ⟨d1, p1⟩ := r
      simp only [bind, Except.bind]
      show alone _ (writeBulk block o p1 >>= _) = _
      rw [alone_bind, writeBulk_alone]
      simp only [set_set, set_get]
      cases d1.writeBulk block p1 with
      | error e => rfl
      | ok r =>
        obtain ⟨d2, p2⟩ := r
        simp only [bind, Except.bind]
        show alone _ (writeTail o p2 >>= _) = _
        rw [bind_ok (writeTail_alone _ _ _), set_set, set_get]
        rfl

theorem copy_alone (S : Store) (o : Nat) : alone S (copy o) = .ok (S, S o) := by
  unfold copy
  rw [bind_ok (rdH_alone _ _), bind_ok (rdX_alone _ _ _ _), bind_ok (alone_rd _ _ _), bind_ok (alone_rd _ _ _),
    bind_ok (alone_rd _ _ _), alone_pure]
  have e : (S o).x.1.take 64 = (S o).x.1 := List.take_of_length_le (by rw [(S o).x.2]; omega)
  have e' : (⟨(S o).x.1.take 64, by rw [e]; exact (S o).x.2⟩ : Buf) = (S o).x := Subtype.ext e
  exact congrArg (fun x => Except.ok (S, ({ S o with x := x } : Digest))) e'

theorem sum_alone (block : BlockFn) (S : Store) (o : Nat) (inp : List Byte) :
    alone S (sum block o inp) = (S o).sum block inp >>= fun r => .ok (S.set o r.1, .sum r.2) := by
  unfold sum Digest.sum
  rw [bind_ok (copy_alone _ _), alone_bind, alone_lift]
  simp only
  cases (S o).checkSum block with
  | error e => rfl
  | ok r =>
    show Except.ok (S, _) = Except.ok (S.set o (S o), _)
    rw [set_self]

theorem crs_alone (block : BlockFn) (S : Store) (o : Nat) (inp : List Byte) :
    alone S (collisionResistantSum block o inp) = (S o).collisionResistantSum block inp >>= fun r =>
      .ok (S.set o r.1, .collisionResistantSum r.2.1 r.2.2) := by
  unfold collisionResistantSum Digest.collisionResistantSum
  rw [bind_ok (copy_alone _ _), alone_bind, alone_lift]
  simp only
  cases (S o).checkSum block with
  | error e => rfl
  | ok r =>
    show Except.ok (S, _) = Except.ok (S.set o (S o), _)
    rw [set_self]

theorem reset_alone (S : Store) (o : Nat) : alone S (reset o) = .ok (S.set o (S o).reset, .reset) := by
  unfold reset
  simp only [bind_ok (alone_wr _ _ _ _), alone_pure, set_set, set_get]
  rfl

theorem marshal_alone (S : Store) (o : Nat) :
    alone S (marshalBinary o) = (S o).marshalBinary >>= fun r => .ok (S.set o r.1, .marshalBinary r.2 none) := by
  unfold marshalBinary Digest.marshalBinary
  simp only [bind_ok (alone_rd _ _ _), get_h0, get_h1, get_h2, get_h3, get_h4]
  show alone S (if h : (S o).nx ≤ 64 then _ else _) = _
  by_cases h : (S o).nx ≤ 64
  · rw [dif_pos h, if_pos h, bind_ok (rdX_alone _ _ _ _), bind_ok (alone_rd _ _ _), alone_bind, alone_lift]
    simp only [get_nx]
    cases Slice.resliceTo _ _ with
    | error e => rfl
    | ok b =>
      show Except.ok (S, _) = Except.ok (S.set o (S o), _)
      rw [set_self]
      rfl
  · rw [dif_neg h, if_neg h]; rfl

theorem unmarshal_alone (S : Store) (o : Nat) (b : List Byte) :
    alone S (unmarshalBinary o b) = (S o).unmarshalBinary b >>= fun r => .ok (S.set o r.1, .unmarshalBinary r.2) := by
  unfold unmarshalBinary Digest.unmarshalBinary
  by_cases h1 : b.length < Magic.length ∨ b.take Magic.length ≠ Magic
  · rw [if_pos h1, if_pos h1]
    show Except.ok (S, _) = Except.ok (S.set o (S o), _)
    rw [set_self]
  · rw [if_neg h1, if_neg h1]
    by_cases h2 : b.length ≠ MarshaledSize
    · rw [if_pos h2, if_pos h2]
      show Except.ok (S, _) = Except.ok (S.set o (S o), _)
      rw [set_self]
    · rw [if_neg h2, if_neg h2]
      simp only [alone_bind, alone_lift]
      cases consumeUint32 (b.drop Magic.length) with
      | error e => rfl
      | ok r0 =>
        obtain ⟨b0, h0⟩ := r0
        simp only [bind, Except.bind, alone_wr]
        cases consumeUint32 b0 with
        | error e => rfl
        | ok r1 =>
          obtain ⟨b1, h1⟩ := r1
          simp only
          cases consumeUint32 b1 with
          | error e => rfl
          | ok r2 =>
            obtain ⟨b2, h2⟩ := r2
            simp only
            cases consumeUint32 b2 with
            | error e => rfl
            | ok r3 =>
              obtain ⟨b3, h3⟩ := r3
              simp only
              cases consumeUint32 b3 with
              | error e => rfl
              | ok r4 =>
                obtain ⟨b4, h4⟩ := r4
                simp only [wrX_alone _ _ _ _ (Nat.zero_le _), alone_pure, set_set, set_get]
                cases consumeUint64 (b4.drop (min 64 b4.length)) with
                | error e => rfl
                | ok r5 =>
                  obtain ⟨b5, len⟩ := r5
                  simp only [set_set, set_get]
                  generalize ed : put _ Field.len len = d
                  show Except.ok ((S.set o d).set o (put ((S.set o d) o) .nx
                    (get ((S.set o d) o) .len % 64).toNat), Out.unmarshalBinary none) = _
                  rw [set_set, set_get, ← ed]
                  rfl

/-- Run without interference, the accesses of a method amount to the method. -/
theorem call_alone (block : BlockFn) (S : Store) (o : Nat) (op : Op) :
    alone S (call block o op) = (S o).call block op >>= fun r => .ok (S.set o r.1, r.2) := by
  have hs : ∀ out : Out, (Except.ok (S, out) : GoM _) = .ok (S.set o (S o), out) := fun out => by rw [set_self]
  cases op with
  | write p =>
    show alone S (write block o p) = _
    rw [write_alone]
    show _ = ((S o).write block p >>= _) >>= _
    cases (S o).write block p <;> rfl
  | sum inp =>
    show alone S (sum block o inp) = _
    rw [sum_alone]
    show _ = ((S o).sum block inp >>= _) >>= _
    cases (S o).sum block inp <;> rfl
  | collisionResistantSum inp =>
    show alone S (collisionResistantSum block o inp) = _
    rw [crs_alone]
    show _ = ((S o).collisionResistantSum block inp >>= _) >>= _
    cases (S o).collisionResistantSum block inp <;> rfl
  | reset => exact reset_alone S o
  | size => exact hs _
  | blockSize => exact hs _
  | marshalBinary =>
    show alone S (marshalBinary o) = _
    rw [marshal_alone]
    show _ = ((S o).marshalBinary >>= _) >>= _
    cases (S o).marshalBinary <;> rfl
  | unmarshalBinary b =>
    show alone S (unmarshalBinary o b) = _
    rw [unmarshal_alone]
    show _ = ((S o).unmarshalBinary b >>= _) >>= _
    cases (S o).unmarshalBinary b <;> rfl

/-! ### What the code touches -/

/-- The code reads objects in `R` and writes objects in `W` only, whatever values it finds. -/
def Touches {α : Type} (R W : Nat → Prop) : Prog α → Prop
  | .ret _ => True
  | .panic _ => True
  | .rd o _ k => R o ∧ ∀ v, Touches R W (k v)
  | .wr o _ _ k => W o ∧ Touches R W k

theorem Touches.bind {α β : Type} {R W : Nat → Prop} {p : Prog α} {g : α → Prog β} (hp : Touches R W p)
    (hg : ∀ a, Touches R W (g a)) : Touches R W (p >>= g) := by
  show Touches R W (p.bind g)
  induction p with
  | ret a => exact hg a
  | panic e => trivial
  | rd o f k ih => exact ⟨hp.1, fun v => ih v (hp.2 v)⟩
  | wr o f v k ih => exact ⟨hp.1, ih hp.2⟩

theorem Touches.mono {α : Type} {R W R' W' : Nat → Prop} (hR : ∀ o, R o → R' o) (hW : ∀ o, W o → W' o) {p : Prog α}
    (hp : Touches R W p) : Touches R' W' p := by
  induction p with
  | ret a => trivial
  | panic e => trivial
  | rd o f k ih => exact ⟨hR o hp.1, fun v => ih v (hp.2 v)⟩
  | wr o f v k ih => exact ⟨hW o hp.1, ih hp.2⟩

theorem touches_rd {R W : Nat → Prop} {o : Nat} (f : Field) (h : R o) : Touches R W (rd o f) := ⟨h, fun _ => trivial⟩

theorem touches_wr {R W : Nat → Prop} {o : Nat} (f : Field) (v : f.ty) (h : W o) : Touches R W (wr o f v) :=
  ⟨h, trivial⟩

theorem touches_pure {α : Type} {R W : Nat → Prop} (a : α) : Touches R W (pure a : Prog α) := trivial

theorem touches_lift {α : Type} {R W : Nat → Prop} (m : GoM α) : Touches R W (lift m) := by cases m <;> trivial

theorem touches_rdH {R W : Nat → Prop} {o : Nat} (h : R o) : Touches R W (rdH o) :=
  ⟨h, fun _ => ⟨h, fun _ => ⟨h, fun _ => ⟨h, fun _ => ⟨h, fun _ => trivial⟩⟩⟩⟩⟩

theorem touches_wrH {R W : Nat → Prop} {o : Nat} (s : Regs) (h : W o) : Touches R W (wrH o s) :=
  ⟨h, h, h, h, h, trivial⟩

theorem touches_rdX {R W : Nat → Prop} {o : Nat} (h : R o) (n : Nat) (hn : n ≤ 64) : Touches R W (rdX o n hn) := by
  induction n with
  | zero => trivial
  | succ n ih =>
    unfold rdX
    exact (ih _).bind fun _ => (touches_rd _ h).bind fun _ => trivial

theorem touches_wrX {R W : Nat → Prop} {o : Nat} (h : W o) (p : List Byte) : ∀ off, Touches R W (wrX o off p) := by
  induction p with
  | nil => intro off; trivial
  | cons b bs ih =>
    intro off
    unfold wrX
    split
    · exact (touches_wr _ _ h).bind fun _ => ih _
    · trivial

theorem touches_panic {α : Type} {R W : Nat → Prop} (e : Panic) : Touches R W (.panic e : Prog α) := trivial

attribute [local irreducible] rdX wrX rdH wrH Touches

theorem touches_callBlock {R W : Nat → Prop} {o : Nat} (hr : R o) (hw : W o) (block : BlockFn) (p : List Byte) :
    Touches R W (callBlock block o p) :=
  (touches_rdH hr).bind fun _ => (touches_rd _ hr).bind fun _ => (touches_lift _).bind fun c =>
    (touches_wrH c.h hw).bind fun _ => touches_wr _ _ hw

theorem touches_copy {R W : Nat → Prop} {o : Nat} (h : R o) : Touches R W (copy o) :=
  (touches_rdH h).bind fun _ => (touches_rdX h _ _).bind fun _ => (touches_rd _ h).bind fun _ =>
    (touches_rd _ h).bind fun _ => (touches_rd _ h).bind fun _ => touches_pure _

theorem touches_write {R W : Nat → Prop} {o : Nat} (hr : R o) (hw : W o) (block : BlockFn) (p : List Byte) :
    Touches R W (write block o p) := by
  unfold write
  split
  · exact touches_pure _
  · refine (touches_rd _ hr).bind fun _ => (touches_wr _ _ hw).bind fun _ => Touches.bind ?_ fun _ =>
      Touches.bind ?_ fun _ => Touches.bind ?_ fun _ => touches_pure _
    · refine (touches_rd _ hr).bind fun nx => ?_
      split
      · split
        · refine (touches_wrX hw _ _).bind fun _ => (touches_rd _ hr).bind fun _ => (touches_wr _ _ hw).bind fun _ =>
            (touches_rd _ hr).bind fun _ => ?_
          split
          · exact (touches_rdX hr _ _).bind fun _ => (touches_callBlock hr hw _ _).bind fun _ =>
              (touches_wr _ _ hw).bind fun _ => touches_pure _
          · exact touches_pure _
        · exact touches_panic _
      · exact touches_pure _
    · unfold writeBulk
      split
      · exact (touches_callBlock hr hw _ _).bind fun _ => touches_pure _
      · exact touches_pure _
    · unfold writeTail
      split
      · exact (touches_wrX hw _ _).bind fun _ => touches_wr _ _ hw
      · exact touches_pure _

theorem touches_sum {R W : Nat → Prop} {o : Nat} (hr : R o) (block : BlockFn) (inp : List Byte) :
    Touches R W (sum block o inp) :=
  (touches_copy hr).bind fun _ => (touches_lift _).bind fun _ => touches_pure _

theorem touches_crs {R W : Nat → Prop} {o : Nat} (hr : R o) (block : BlockFn) (inp : List Byte) :
    Touches R W (collisionResistantSum block o inp) :=
  (touches_copy hr).bind fun _ => (touches_lift _).bind fun _ => touches_pure _

theorem touches_reset {R W : Nat → Prop} {o : Nat} (hw : W o) : Touches R W (reset o) := by
  have w : ∀ (f : Field) (v : f.ty), Touches R W (wr o f v) := fun f v => touches_wr f v hw
  exact (w _ _).bind fun _ => (w _ _).bind fun _ => (w _ _).bind fun _ => (w _ _).bind fun _ => (w _ _).bind fun _ =>
    (w _ _).bind fun _ => (w _ _).bind fun _ => (w _ _).bind fun _ => touches_pure _

theorem touches_marshal {R W : Nat → Prop} {o : Nat} (hr : R o) : Touches R W (marshalBinary o) := by
  have r : ∀ f : Field, Touches R W (rd o f) := fun f => touches_rd f hr
  refine (r _).bind fun _ => (r _).bind fun _ => (r _).bind fun _ => (r _).bind fun _ => (r _).bind fun _ =>
    (r _).bind fun nx => ?_
  split
  · exact (touches_rdX hr _ _).bind fun _ => (r _).bind fun _ => (touches_lift _).bind fun _ => (r _).bind fun _ =>
      touches_pure _
  · exact touches_panic _

theorem touches_unmarshal {R W : Nat → Prop} {o : Nat} (hr : R o) (hw : W o) (b : List Byte) :
    Touches R W (unmarshalBinary o b) := by
  have w : ∀ (f : Field) (v : f.ty), Touches R W (wr o f v) := fun f v => touches_wr f v hw
  unfold unmarshalBinary
  split
  · exact touches_pure _
  · split
    · exact touches_pure _
    · exact (touches_lift _).bind fun _ => (w _ _).bind fun _ => (touches_lift _).bind fun _ => (w _ _).bind fun _ =>
        (touches_lift _).bind fun _ => (w _ _).bind fun _ => (touches_lift _).bind fun _ => (w _ _).bind fun _ =>
        (touches_lift _).bind fun _ => (w _ _).bind fun _ => (touches_wrX hw _ _).bind fun _ =>
        (touches_lift _).bind fun _ => (w _ _).bind fun _ => (touches_rd _ hr).bind fun _ =>
        (w _ _).bind fun _ => touches_pure _

theorem touches_call_of {R W : Nat → Prop} {o : Nat} (block : BlockFn) (op : Op) (hr : R o)
    (hw : isMutator op = true → W o) : Touches R W (call block o op) := by
  cases op with
  | write p => exact touches_write hr (hw rfl) block p
  | sum inp => exact touches_sum hr block inp
  | collisionResistantSum inp => exact touches_crs hr block inp
  | reset => exact touches_reset (hw rfl)
  | size => exact touches_pure _
  | blockSize => exact touches_pure _
  | marshalBinary => exact touches_marshal hr
  | unmarshalBinary b => exact touches_unmarshal hr (hw rfl) b

/-- A call reads its object, and writes it only if it is one that changes it. -/
theorem touches_call (block : BlockFn) (o : Nat) (op : Op) :
    Touches (fun q => q = o) (fun q => q = o ∧ isMutator op = true) (call block o op) :=
  touches_call_of block op rfl fun h => ⟨rfl, h⟩

theorem touches_goroutine (block : BlockFn) (cs : List (Nat × Op)) :
    Touches (Uses cs) (Changes cs) (goroutine block cs) := by
  induction cs with
  | nil => exact touches_pure _
  | cons c cs ih =>
    obtain ⟨o, op⟩ := c
    refine ((touches_call block o op).mono ?_ ?_).bind fun _ => (ih.mono ?_ ?_).bind fun _ => touches_pure _
    · rintro q rfl; exact ⟨_, List.mem_cons_self, rfl⟩
    · rintro q ⟨rfl, h⟩; exact ⟨_, List.mem_cons_self, rfl, h⟩
    · rintro q ⟨c, hc, h⟩; exact ⟨c, List.mem_cons_of_mem _ hc, h⟩
    · rintro q ⟨c, hc, h⟩; exact ⟨c, List.mem_cons_of_mem _ hc, h⟩

attribute [local semireducible] rdX wrX rdH wrH Touches

/-! ### Interleaving -/

/-- `n` accesses without interference. -/
def solo {α : Type} : Nat → Store × Prog α → Store × Prog α
  | 0, r => r
  | n + 1, r => solo n (r.2.step r.1)

theorem solo_ret {α : Type} (n : Nat) (S : Store) (a : α) : solo n (S, .ret a) = (S, .ret a) := by
  induction n with
  | zero => rfl
  | succ n ih => exact ih

/-- Code that ends does so after finitely many accesses. -/
theorem solo_alone {α : Type} (p : Prog α) : ∀ (S S' : Store) (a : α), alone S p = .ok (S', a) →
    ∃ N, ∀ n, N ≤ n → solo n (S, p) = (S', .ret a) := by
  induction p with
  | ret b =>
    intro S S' a h
    cases h
    exact ⟨0, fun n _ => solo_ret n _ _⟩
  | panic e => intro S S' a h; cases h
  | rd o f k ih =>
    intro S S' a h
    obtain ⟨N, hN⟩ := ih _ S S' a h
    refine ⟨N + 1, fun n hn => ?_⟩
    obtain ⟨m, rfl⟩ : ∃ m, n = m + 1 := ⟨n - 1, by omega⟩
    exact hN m (by omega)
  | wr o f v k ih =>
    intro S S' a h
    obtain ⟨N, hN⟩ := ih _ S' a h
    refine ⟨N + 1, fun n hn => ?_⟩
    obtain ⟨m, rfl⟩ : ∃ m, n = m + 1 := ⟨n - 1, by omega⟩
    exact hN m (by omega)

theorem bind_assoc' {α β γ : Type} (p : Prog α) (f : α → Prog β) (g : β → Prog γ) :
    (p >>= f) >>= g = p >>= fun a => f a >>= g := by
  show (p.bind f).bind g = p.bind fun a => (f a).bind g
  induction p with
  | ret a => rfl
  | panic e => rfl
  | rd o fl k ih => exact congrArg (Prog.rd o fl) (funext ih)
  | wr o fl v k ih => exact congrArg (Prog.wr o fl v) ih

theorem solo_add {α : Type} (m n : Nat) (r : Store × Prog α) : solo (m + n) r = solo n (solo m r) := by
  induction m generalizing r with
  | zero => rw [Nat.zero_add]; rfl
  | succ m ih => rw [Nat.succ_add]; exact ih _

theorem solo_rdX {α : Type} (S : Store) (o n : Nat) (h : n ≤ 64) (g : { l : List Byte // l.length = n } → Prog α) :
    solo n (S, rdX o n h >>= g) = (S, g ⟨(S o).x.1.take n, by rw [List.length_take, (S o).x.2]; omega⟩) := by
  induction n with
  | zero => rfl
  | succ n ih =>
    unfold rdX
    rw [bind_assoc', solo_add, ih]
    show (S, g ⟨_, _⟩) = _
    have e : (S o).x.1.take n ++ [get (S o) (.x ⟨n, h⟩)] = (S o).x.1.take (n + 1) := by
      rw [List.take_add_one, List.getElem?_eq_getElem (by rw [(S o).x.2]; omega)]
      rfl
    exact congrArg (fun l => (S, g l)) (Subtype.ext e)

/-- The first 70 accesses of a copy. -/
theorem solo_copy {α : Type} (S : Store) (o : Nat) (g : Digest → Prog α) :
    solo 70 (S, copy o >>= g) = (S, rd o .len >>= fun len => rd o .col >>= fun col =>
      g { h := (S o).h, x := (S o).x, nx := (S o).nx, len := len, col := col }) := by
  unfold copy
  rw [show 70 = 5 + (64 + 1) from rfl, solo_add, solo_add, bind_assoc']
  have e5 : ∀ k : Regs → Prog α, solo 5 (S, rdH o >>= k) = (S, k (S o).h) := fun _ => rfl
  rw [e5, bind_assoc', solo_rdX]
  have e : (S o).x.1.take 64 = (S o).x.1 := List.take_of_length_le (by rw [(S o).x.2]; omega)
  have e' : (⟨(S o).x.1.take 64, by rw [e]; exact (S o).x.2⟩ : Buf) = (S o).x := Subtype.ext e
  rw [e']
  rfl

/-- One goroutine for a while. -/
theorem run_solo (i n : Nat) : ∀ c : Conf, c.run (List.replicate n i) =
    ⟨(solo n (c.store, c.gos i)).1, fun j => if j = i then (solo n (c.store, c.gos i)).2 else c.gos j⟩ := by
  induction n with
  | zero =>
    intro c
    show c = _
    cases c
    simp only [solo, Conf.mk.injEq, true_and]
    funext j
    split
    · rename_i h; rw [h]
    · rfl
  | succ n ih =>
    intro c
    show (c.step i).run (List.replicate n i) = _
    rw [ih]
    simp only [Conf.step, if_true, solo, Conf.mk.injEq, true_and]
    funext j
    split <;> rfl

theorem run_cat (σ τ : List Nat) : ∀ c : Conf, c.run (σ ++ τ) = (c.run σ).run τ := by
  induction σ with
  | nil => intro c; rfl
  | cons i σ ih => intro c; exact ih _

/-- Every goroutine is where it would be alone, and finds in its objects what it would find alone. -/
structure Same (R W : Nat → Nat → Prop) (c : Conf) (D : Nat → Store × Prog (List Out)) : Prop where
  gos : ∀ i, c.gos i = (D i).2
  store : ∀ i o, R i o → c.store o = (D i).1 o
  touches : ∀ i, Touches (R i) (W i) (c.gos i)

theorem Touches.step {α : Type} {R W : Nat → Prop} {p : Prog α} (h : Touches R W p) (S : Store) :
    Touches R W (p.step S).2 := by
  cases p with
  | ret a => trivial
  | panic e => trivial
  | rd o f k => exact h.2 _
  | wr o f v k => exact h.2

theorem Same.step {R W : Nat → Nat → Prop} (hWR : ∀ i o, W i o → R i o) (hd : ∀ i j o, i ≠ j → W i o → ¬ R j o)
    {c : Conf} {D : Nat → Store × Prog (List Out)} (h : Same R W c D) (i : Nat) :
    Same R W (c.step i) (fun j => if j = i then (D i).2.step (D i).1 else D j) := by
  have ht := h.touches i
  have key : ((c.gos i).step c.store).2 = ((D i).2.step (D i).1).2 ∧
      (∀ o, R i o → ((c.gos i).step c.store).1 o = ((D i).2.step (D i).1).1 o) ∧
      (∀ j o, j ≠ i → R j o → ((c.gos i).step c.store).1 o = c.store o) := by
    rw [← h.gos i]
    cases hp : c.gos i with
    | ret a => exact ⟨rfl, h.store i, fun _ _ _ _ => rfl⟩
    | panic e => exact ⟨rfl, h.store i, fun _ _ _ _ => rfl⟩
    | rd o f k =>
      rw [hp] at ht
      refine ⟨?_, h.store i, fun _ _ _ _ => rfl⟩
      show k (get (c.store o) f) = k (get ((D i).1 o) f)
      rw [h.store i o ht.1]
    | wr o f v k =>
      rw [hp] at ht
      refine ⟨rfl, fun q hq => ?_, fun j q hj hq => ?_⟩
      · show Store.set _ _ _ q = Store.set _ _ _ q
        unfold Store.set
        split
        · rw [h.store i o (hWR i o ht.1)]
        · exact h.store i q hq
      · exact set_ne _ _ _ _ fun e => hd i j q (Ne.symm hj) (e ▸ ht.1) hq
  refine ⟨fun j => ?_, fun j o hj => ?_, fun j => ?_⟩
  · show (if j = i then _ else _) = _
    split
    · exact key.1
    · exact h.gos j
  · show ((c.gos i).step c.store).1 o = _
    by_cases hji : j = i
    · rw [if_pos hji]; exact key.2.1 o (hji ▸ hj)
    · rw [if_neg hji, key.2.2 j o hji hj]; exact h.store j o hj
  · show Touches (R j) (W j) (if j = i then _ else _)
    split
    · rename_i e; rw [e]; exact ht.step _
    · exact h.touches j

theorem Same.run {R W : Nat → Nat → Prop} (hWR : ∀ i o, W i o → R i o) (hd : ∀ i j o, i ≠ j → W i o → ¬ R j o)
    (σ : List Nat) : ∀ {c : Conf} {D : Nat → Store × Prog (List Out)}, Same R W c D →
      Same R W (c.run σ) (fun j => solo (σ.count j) (D j)) := by
  induction σ with
  | nil => intro c D h; exact h
  | cons i σ ih =>
    intro c D h
    have := ih (h.step hWR hd i)
    have e : (fun j => solo (List.count j (i :: σ)) (D j)) =
        (fun j => solo (σ.count j) (if j = i then (D i).2.step (D i).1 else D j)) := by
      funext j
      by_cases hj : j = i
      · subst hj
        rw [List.count_cons_self, if_pos rfl]; rfl
      · rw [List.count_cons_of_ne (Ne.symm hj), if_neg hj]
    rw [e]
    exact this

theorem same_run (block : BlockFn) (S : Store) (gs : Nat → List (Nat × Op)) (hd : Disciplined gs) (σ : List Nat) :
    Same (fun j => Uses (gs j)) (fun j => Changes (gs j)) ((Conf.mk S fun j => goroutine block (gs j)).run σ)
      (fun j => solo (σ.count j) (S, goroutine block (gs j))) := by
  have h0 : Same (fun j => Uses (gs j)) (fun j => Changes (gs j)) (Conf.mk S fun j => goroutine block (gs j))
      (fun j => (S, goroutine block (gs j))) :=
    ⟨fun _ => rfl, fun _ _ _ => rfl, fun j => touches_goroutine block (gs j)⟩
  exact h0.run (fun j o ⟨c, hc, h1, _⟩ => ⟨c, hc, h1⟩) hd σ

/-- A goroutine whose objects are not written by others ends, after finitely many of its own accesses and
whatever others do in between, with the results and the memory it would have alone. -/
theorem interleave (block : BlockFn) (S : Store) (gs : Nat → List (Nat × Op))
    (hd : Disciplined gs) (i : Nat) (S' : Store) (outs : List Out)
    (ha : alone S (goroutine block (gs i)) = .ok (S', outs)) :
    ∃ N, ∀ σ : List Nat, N ≤ σ.count i →
      ((Conf.mk S fun j => goroutine block (gs j)).run σ).gos i = .ret outs ∧
      ∀ o, Uses (gs i) o → ((Conf.mk S fun j => goroutine block (gs j)).run σ).store o = S' o := by
  obtain ⟨N, hN⟩ := solo_alone _ S S' outs ha
  refine ⟨N, fun σ hσ => ?_⟩
  have h := same_run block S gs hd σ
  have e := hN _ hσ
  refine ⟨(h.gos i).trans (congrArg Prod.snd e), fun o ho => (h.store i o ho).trans ?_⟩
  exact congrFun (congrArg Prod.fst e) o

/-- A goroutine alone: if the calls on every object go well, so does the goroutine, and every object does what it
would do if it were the only one. -/
theorem goroutine_alone (block : BlockFn) (cs : List (Nat × Op)) : ∀ (S : Store),
    (∀ o, ∃ d outs, (S o).run block (opsOn o cs) = .ok (d, outs)) →
    ∃ S' outs, alone S (goroutine block cs) = .ok (S', outs) ∧ outs.length = cs.length ∧
      ∀ o, (S o).run block (opsOn o cs) = .ok (S' o, outsOn o cs outs) := by
  induction cs with
  | nil => intro S _; exact ⟨S, [], rfl, rfl, fun _ => rfl⟩
  | cons c cs ih =>
    obtain ⟨o, op⟩ := c
    intro S h
    have eo : opsOn o ((o, op) :: cs) = op :: opsOn o cs := by simp [opsOn]
    have en : ∀ q, q ≠ o → opsOn q ((o, op) :: cs) = opsOn q cs := fun q hq => by
      simp [opsOn, Ne.symm hq]
    obtain ⟨d1, outs1, h1⟩ := h o
    rw [eo, Digest.run] at h1
    cases hc : (S o).call block op with
    | error e => rw [hc] at h1; cases h1
    | ok r =>
      obtain ⟨d, out⟩ := r
      rw [hc] at h1
      obtain ⟨S', outs, g1, g2, g3⟩ := ih (S.set o d) (fun q => by
        by_cases hq : q = o
        · subst hq
          rw [set_get]
          simp only [bind, Except.bind] at h1
          cases hr : d.run block (opsOn q cs) with
          | error e => rw [hr] at h1; cases h1
          | ok r => exact ⟨r.1, r.2, rfl⟩
        · rw [set_ne _ _ _ _ hq, ← en q hq]; exact h q)
      refine ⟨S', out :: outs, ?_, by rw [List.length_cons, g2, List.length_cons], fun q => ?_⟩
      · have hb : alone S (call block o op) = .ok (S.set o d, out) := by rw [call_alone, hc]; rfl
        show alone S (call block o op >>= fun r => goroutine block cs >>= fun rs => pure (r :: rs)) = _
        rw [bind_ok hb, bind_ok g1]
        rfl
      · by_cases hq : q = o
        · subst hq
          have := g3 q
          rw [set_get] at this
          rw [eo, Digest.run, hc]
          simp only [bind, Except.bind, this, pure, Except.pure]
          simp [outsOn]
        · have := g3 q
          rw [set_ne _ _ _ _ hq] at this
          rw [en q hq, this]
          simp [outsOn, Ne.symm hq]

end Verif.Conc
