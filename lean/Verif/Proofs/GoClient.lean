import Verif.Source.GoClient
import Verif.Proofs.GoUnmarshal
import Verif.Proofs.GoMarshal
import Verif.Proofs.GoNoasm
import Verif.Proofs.Sim
import Verif.Spec.System

/-!
Whatever a program does with the package that the text describes, each of its calls returns what the model's does.
-/

namespace Verif.Source.Go

open Verif Verif.Source Verif.Model Verif.Spec

/-- The first `n` elements are bytes. -/
def U8s (n : Nat) (f : Nat → Val) : Prop := ∀ q, q < n → ∃ b, f q = .u8 b

/-- A slice that a program may have. -/
inductive IsHeld (m : Mem) : Val → Prop where
  | null : IsHeld m .null
  | slice {k off len cap n : Nat} {f : Nat → Val} : 2 ≤ k → k < m.next → m.frame k = [.arr n f] → U8s n f → off + cap ≤ n → len ≤ cap →
      IsHeld m (.slice ⟨k, 0, []⟩ off len cap)

/-- But for frame `k`, nothing has changed except for bytes of arrays. -/
structure Evolves (m m' : Mem) (k : Nat) : Prop where
  id : m'.id = m.id
  next : m.next ≤ m'.next
  boot : ∀ g, g < 2 → m'.frame g = m.frame g
  keep : ∀ g, g < m.next → g ≠ k → m'.frame g = m.frame g ∨
    ∃ n f f', m.frame g = [.arr n f] ∧ m'.frame g = [.arr n f'] ∧ U8s n f'

/-- The memory after a call on the object in frame `k`, which is `D` then. -/
structure Moves (m m' : Mem) (k : Nat) (D : Digest) : Prop extends Evolves m m' k where
  dig : m'.frame k = [digV D]

theorem look_cell {fr : Nat → List Val} {k : Nat} {v : Val} (h : fr k = [v]) : look fr ⟨k, 0, []⟩ = .ok v := by
  simp [look, h, Val.get]

theorem cell_put {fr : Nat → List Val} {k : Nat} {v w : Val} (h : fr k = [v]) (hw : Fixed w) : putAt fr ⟨k, 0, []⟩ w k = [w] := by
  simp [putAt, h, Val.put, Val.set, hw v]

theorem load_frame {m : Mem} {l : Loc} {v : Val} (h : look m.frame l = .ok v) : load l m = .ok (v, m) := by
  obtain ⟨u, h1, h2⟩ := look_inv h
  exact load_some h1 h2

section
variable {m m' : Mem} {k : Nat} {D D' : Digest} {v : Val} {bs : List Byte}

/-- The bytes of a slice. -/
theorem bytesOf_is {no : Nat} (h : IsBytes m.frame m.next no v bs) : bytesOf v m = .ok (bs, m) := by
  cases h with
  | null => rfl
  | slice h1 h2 hb =>
    obtain ⟨n, f, k1, k2, k3, k4⟩ := hb
    by_cases hz : bs.length = 0
    · rw [List.eq_nil_of_length_eq_zero hz]
      simp [bytesOf, sliceElems, bind_run, need, parts, pure_run]
    · have := load_frame k1
      simp only [bytesOf, sliceElems, bind_run, need, parts, hz, if_false, arrayAt, this, pure_run, Except.ok.injEq, Prod.mk.injEq, and_true]
      refine List.ext_getElem (by simp) fun q h1 h2 => ?_
      simp only [List.length_map, List.length_range] at h1
      simp only [List.getElem_map, List.getElem_range, k4 q h1]

theorem IsHeld.bytes (h : IsHeld m v) (hk : m.frame k = [digV D]) : ∃ bs, IsBytes m.frame m.next k v bs := by
  cases h with
  | null => exact ⟨[], .null⟩
  | slice h2 hn he hu hc hl =>
    rename_i g off len cap n f
    have hne : g ≠ k := by
      intro e
      subst e
      rw [he] at hk
      cases hk
    refine ⟨(List.range len).map fun i => match f (off + i) with | .u8 x => x | _ => 0, ?_⟩
    have := IsBytes.slice (fr := m.frame) (next := m.next) (no := k) (lp := ⟨g, 0, []⟩) (off := off) (cap := cap)
      (bs := (List.range len).map fun i => match f (off + i) with | .u8 x => x | _ => 0) hn hne
      ⟨n, f, look_cell he, hc, by simpa using hl, fun q hq => by
        simp only [List.length_map, List.length_range] at hq
        obtain ⟨b, hb⟩ := hu (off + q) (by omega)
        simp [hb]⟩
    simpa using this

theorem IsHeld.anyBytes (h : IsHeld m v) : ∃ bs, IsBytes m.frame m.next m.next v bs := by
  cases h with
  | null => exact ⟨[], .null⟩
  | slice h2 hn he hu hc hl =>
    rename_i g off len cap n f
    refine ⟨(List.range len).map fun i => match f (off + i) with | .u8 x => x | _ => 0, ?_⟩
    have := IsBytes.slice (fr := m.frame) (next := m.next) (no := m.next) (lp := ⟨g, 0, []⟩) (off := off) (cap := cap)
      (bs := (List.range len).map fun i => match f (off + i) with | .u8 x => x | _ => 0) hn (by simp only; omega)
      ⟨n, f, look_cell he, hc, by simpa using hl, fun q hq => by
        simp only [List.length_map, List.length_range] at hq
        obtain ⟨b, hb⟩ := hu (off + q) (by omega)
        simp [hb]⟩
    simpa using this

theorem IsHeld.evolves (h : IsHeld m v) (hk : ∀ n f, m.frame k = [.arr n f] → m.next ≤ k) (M : Evolves m m' k) : IsHeld m' v := by
  cases h with
  | null => exact .null
  | slice h2 hn he hu hc hl =>
    rename_i g off len cap n f
    have hne : g ≠ k := by
      intro e
      subst e
      have := hk _ _ he
      omega
    have hn' := Nat.lt_of_lt_of_le hn M.next
    rcases M.keep g hn hne with e | ⟨n', f0, f', e1, e2, e3⟩
    · exact .slice h2 hn' (e.trans he) hu hc hl
    · rw [he] at e1
      cases e1
      exact .slice h2 hn' e2 e3 hc hl

/-- A call that changes the object only. -/
theorem moves_put (h2 : 2 ≤ k) (hl : k < m.next) (hd : m.frame k = [digV D]) (B : Became m (putAt m.frame ⟨k, 0, []⟩ (digV D')) m') :
    Moves m m' k D' := by
  have put : ∀ g, g < m.next → g ≠ k → m'.frame g = m.frame g := fun g hg hne => (B.frame g hg).trans (putAt_of_ne hne)
  exact ⟨⟨B.id, B.next, fun g hg => put g (by omega) (by omega), fun g hg hne => .inl (put g hg hne)⟩,
    (B.frame k hl).trans (cell_put hd (fixed_digV D'))⟩

/-- A call that changes nothing. -/
theorem moves_same (h2 : 2 ≤ k) (hl : k < m.next) (hd : m.frame k = [digV D]) (B : Became m m.frame m') : Moves m m' k D :=
  ⟨⟨B.id, B.next, fun g hg => B.frame g (by omega), fun g hg _ => .inl (B.frame g hg)⟩, (B.frame k hl).trans hd⟩

theorem became_refl (m : Mem) : Became m m.frame m := ⟨rfl, Nat.le_refl _, fun _ _ => rfl⟩

theorem Appended.moves {room : Nat → Nat} {v' : Val} {add : List Byte} (A : Appended room m m' v bs add v') (h2 : 2 ≤ k) (hl : k < m.next) (hd : m.frame k = [digV D])
    (hv : IsHeld m v) (hb : IsBytes m.frame m.next k v bs) : Moves m m' k D ∧ IsHeld m' v' := by
  cases A with
  | moved a1 a2 a3 B a5 a6 a7 a8 =>
    rename_i j c f
    refine ⟨moves_same h2 hl hd B, .slice (by omega) a3 a5 (fun q hq => ?_) (by omega) (by omega)⟩
    by_cases hq' : q < (bs ++ add).length
    · exact ⟨_, a7 q hq'⟩
    · exact ⟨_, a8 q (by omega)⟩
  | inPlace a1 a2 a3 a4 B =>
    rename_i lp off cap n f g
    cases hv with
    | slice b2 bn be bu bc bl =>
    rename_i j n' f'
    obtain ⟨_, p1, p2, _⟩ := hb.inv
    rw [look_cell be] at a1
    cases a1
    simp only at p1 p2
    have hu : U8s n (splice f g (off + bs.length) add.length) := by
      intro q hq
      simp only [splice]
      split
      · rename_i h
        exact ⟨_, a4 _ (by omega)⟩
      · exact bu q hq
    have hj : m'.frame j = [.arr n (splice f g (off + bs.length) add.length)] := (B.frame j p1).trans (cell_put be (fixed_arr _ _))
    refine ⟨⟨⟨B.id, B.next, fun i hi => (B.frame i (by omega)).trans (putAt_of_ne (by simp only; omega)), fun i hi hne => ?_⟩,
      (B.frame k hl).trans ((putAt_of_ne (Ne.symm p2)).trans hd)⟩, .slice b2 (Nat.lt_of_lt_of_le bn B.next) hj hu bc (by omega)⟩
    by_cases e : i = j
    · subst e
      exact .inr ⟨n, f, _, be, hj, hu⟩
    · exact .inl ((B.frame i hi).trans (putAt_of_ne e))

end

/-- What the functions of the package need. -/
structure HasAll (P : Program) (N : Nat) (G : List Val) (block : BlockFn) : Prop where
  sums : HasSums P
  marshal : HasMarshal P
  unmarshal : HasUnmarshal P
  calls : ∀ d, CallsBlock P N (d + 5) G block

/-- Frames other than `k` are as before. -/
def Rest (m m' : Mem) (k : Nat) : Prop := ∀ g, g < m.next → g ≠ k → m'.frame g = m.frame g

/-- What a method call without arguments on the object in frame `k` has done, other than to the object. -/
def Left0 (m m' : Mem) (k : Nat) (out : Out) (r : List Val) : Meth0 → Prop
  | .marshalBinary => ∃ j o, out = .marshalBinary o none ∧ r = [.slice ⟨j, 0, []⟩ 0 o.length o.length] ∧ Rest m m' k ∧ m.next ≤ j ∧ j < m'.next ∧
      m'.frame j = [.arr o.length (byteArr o)]
  | _ => r = [] ∧ Rest m m' k

/-- What a method call with the slice `v` has done, other than to the object. -/
def Left1 (room : Nat → Nat) (m m' : Mem) (k : Nat) (v : Val) (bs : List Byte) (out : Out) (r : List Val) : Meth1 → Prop
  | .sum => ∃ add v', out = .sum (bs ++ add) ∧ r = [v'] ∧ Appended room m m' v bs add v'
  | .collisionResistantSum => ∃ add c v', out = .collisionResistantSum (bs ++ add) c ∧ r = [v'] ∧ Appended room m m' v bs add v'
  | _ => r = [] ∧ Rest m m' k

theorem rest_put {m m' : Mem} {k : Nat} {w : Val} (B : Became m (putAt m.frame ⟨k, 0, []⟩ w) m') : Rest m m' k :=
  fun g hg hne => (B.frame g hg).trans (putAt_of_ne hne)

theorem rest_same {m m' : Mem} {k : Nat} (B : Became m m.frame m') : Rest m m' k := fun g hg _ => B.frame g hg

section
variable {P : Program} {N d : Nat} {G : List Val} {block : BlockFn} {m : Mem} {k : Nat} {D D' : Digest} {out : Out} {v : Val} {bs : List Byte}

theorem errOf_errVal (e : Option Err) (m : Mem) : errOf (errVal e) m = .ok (e, m) := by
  cases e with
  | none => rfl
  | some e => cases e <;> rfl

/-- A method call without arguments is the model's. -/
theorem callMeth0_eq (hP : HasAll P N G block) (h2 : 2 ≤ k) (hl : k < m.next) (hd : m.frame k = [digV D]) {f : Meth0}
    (hc : D.call block f.op = .ok (D', out)) :
    ∃ r m', callMeth0 P N (d + 8) (.ptr ⟨k, 0, []⟩) f m = .ok ((r, out), m') ∧ Moves m m' k D' ∧ (∀ w ∈ r, IsHeld m' w) ∧ Left0 m m' k out r f := by
  have hD := hP.sums.toHasSum.toHasDigest
  have hlk := look_cell hd
  cases f with
  | reset =>
    obtain ⟨m', e, B⟩ := reset_eq (N := N) (d := d + 7) hD (ld := ⟨k, 0, []⟩) hl hlk
    simp only [Meth0.op, Digest.call, pure, Except.pure, Except.ok.injEq, Prod.mk.injEq] at hc
    obtain ⟨rfl, rfl⟩ := hc
    refine ⟨[], m', ?_, moves_put h2 hl hd B, by simp, rfl, rest_put B⟩
    simp only [callMeth0, bind_run, e, pure_run]
  | size =>
    obtain ⟨m', e, rfl⟩ := size_eq (N := N) (d := d + 7) (ld := ⟨k, 0, []⟩) (m := m) hD
    simp only [Meth0.op, Digest.call, pure, Except.pure, Except.ok.injEq, Prod.mk.injEq] at hc
    obtain ⟨rfl, rfl⟩ := hc
    refine ⟨[], m', ?_, moves_same h2 hl hd (became_refl _), by simp, rfl, rest_same (became_refl _)⟩
    simp only [callMeth0, bind_run, e]
    rfl
  | blockSize =>
    obtain ⟨m', e, rfl⟩ := blockSize_eq (N := N) (d := d + 7) (ld := ⟨k, 0, []⟩) (m := m) hD
    simp only [Meth0.op, Digest.call, pure, Except.pure, Except.ok.injEq, Prod.mk.injEq] at hc
    obtain ⟨rfl, rfl⟩ := hc
    refine ⟨[], m', ?_, moves_same h2 hl hd (became_refl _), by simp, rfl, rest_same (became_refl _)⟩
    simp only [callMeth0, bind_run, e]
    rfl
  | marshalBinary =>
    have S := marshal_eq (N := N) (d := d + 6) hP.marshal (ld := ⟨k, 0, []⟩) hl hlk
    simp only [Meth0.op, Digest.call, bind, Except.bind, pure, Except.pure] at hc
    generalize hr : D.marshalBinary = R at S hc
    match R, S with
    | .error e, _ => simp at hc
    | .ok (E, o), ⟨j, m', e, B, j1, j2, j3⟩ =>
      simp only [Except.ok.injEq, Prod.mk.injEq] at hc
      obtain ⟨rfl, rfl⟩ := hc
      have hE : E = D := by
        have : D.marshalBinary = .ok (E, o) := hr
        simp only [Digest.marshalBinary, bind, Except.bind, pure, Except.pure] at this
        repeat' split at this
        all_goals first
          | cases this; rfl
          | cases this
      subst hE
      have hu : U8s o.length (byteArr o) := fun q _ => ⟨_, rfl⟩
      refine ⟨[.slice ⟨j, 0, []⟩ 0 o.length o.length], m', ?_, moves_same h2 hl hd B, fun w hw => ?_, j, o, rfl, rfl, rest_same B, j1, j2, j3⟩
      rotate_left
      · rw [List.mem_singleton] at hw
        subst hw
        exact .slice (by omega) j2 j3 hu (by omega) (Nat.le_refl _)
      · have hb : bytesOf (.slice ⟨j, 0, []⟩ 0 o.length o.length) m' = .ok (o, m') :=
          bytesOf_is (no := j + 1) (.slice j2 (by simp only; omega) ⟨o.length, _, look_cell j3, by omega, Nat.le_refl _, fun q hq => by
            simp [byteArr, List.getElem?_eq_getElem hq]⟩)
        simp only [callMeth0, bind_run, e, hb, errOf, pure_run]

/-- A method call with a slice is the model's. -/
theorem callMeth1_eq (hP : HasAll P N G block) (hN : 33 < N) (hG : Boot G m.frame) (h2 : 2 ≤ k) (hl : k < m.next) (hd : m.frame k = [digV D])
    (hh : IsHeld m v) (hv : IsBytes m.frame m.next k v bs) (hb : bs.length < 64 * N) (hb' : bs.length < 2 ^ 63) {f : Meth1}
    (hc : D.call block (f.op bs) = .ok (D', out)) :
    ∃ r m', callMeth1 P N (d + 8) (.ptr ⟨k, 0, []⟩) v f m = .ok ((r, out), m') ∧ Moves m m' k D' ∧ (∀ w ∈ r, IsHeld m' w) ∧ Left1 P.room m m' k v bs out r f := by
  have hD := hP.sums.toHasSum.toHasDigest
  have hlk := look_cell hd
  cases f with
  | write =>
    have S := write_eq (ld := ⟨k, 0, []⟩) hD (hP.calls (d + 2)) (by omega) (by omega) hG h2 hl hlk hv hb'
    simp only [Meth1.op, Digest.call, bind, Except.bind, pure, Except.pure] at hc
    generalize D.write block bs = R at S hc
    match R, S with
    | .error e, _ => simp at hc
    | .ok (E, n, x), ⟨hx, m', e, B⟩ =>
      simp only [Except.ok.injEq, Prod.mk.injEq] at hc
      obtain ⟨rfl, rfl⟩ := hc
      subst hx
      refine ⟨[], m', ?_, moves_put h2 hl hd B, by simp, rfl, rest_put B⟩
      simp only [callMeth1, bind_run, e]
      rfl
  | sum =>
    have S := sum_eq (ld := ⟨k, 0, []⟩) hP.sums (hP.calls d) (by omega) hG h2 hl hlk hv
    simp only [Meth1.op, Digest.call, Digest.sum, bind, Except.bind, pure, Except.pure] at hc
    generalize D.checkSum block = R at S hc
    match R, S with
    | .error e, _ => simp at hc
    | .ok (E, hash), ⟨v', m', e, A⟩ =>
      simp only [Except.ok.injEq, Prod.mk.injEq] at hc
      obtain ⟨rfl, rfl⟩ := hc
      obtain ⟨M, H⟩ := A.moves h2 hl hd hh hv
      refine ⟨[v'], m', ?_, M, by simpa using H, hash, v', rfl, rfl, A⟩
      have := bytesOf_is (A.bytes hl hv)
      simp only [callMeth1, bind_run, e, this, pure_run]
  | collisionResistantSum =>
    have S := crs_eq (ld := ⟨k, 0, []⟩) hP.sums (hP.calls d) (by omega) hG h2 hl hlk hv
    simp only [Meth1.op, Digest.call, Digest.collisionResistantSum, bind, Except.bind, pure, Except.pure] at hc
    generalize D.checkSum block = R at S hc
    match R, S with
    | .error e, _ => simp at hc
    | .ok (E, hash), ⟨v', m', e, A⟩ =>
      simp only [Except.ok.injEq, Prod.mk.injEq] at hc
      obtain ⟨rfl, rfl⟩ := hc
      obtain ⟨M, H⟩ := A.moves h2 hl hd hh hv
      refine ⟨[v'], m', ?_, M, by simpa using H, hash, _, v', rfl, rfl, A⟩
      have := bytesOf_is (A.bytes hl hv)
      simp only [callMeth1, bind_run, e, this, pure_run]
  | unmarshalBinary =>
    obtain ⟨E, x, m', h1, e, B⟩ := unmarshal_eq (N := N) (d := d + 6) hP.unmarshal (ld := ⟨k, 0, []⟩) hl hlk hv
    simp only [Meth1.op, Digest.call, bind, Except.bind, pure, Except.pure, h1, Except.ok.injEq, Prod.mk.injEq] at hc
    obtain ⟨rfl, rfl⟩ := hc
    refine ⟨[], m', ?_, moves_put h2 hl hd B, by simp, rfl, rest_put B⟩
    simp only [callMeth1, bind_run, e, errOf_errVal, pure_run]

end

/-- What holds between the steps of a program that has seen `es`. -/
structure Inv (G : List Val) (block : BlockFn) (c : Client) (m : Mem) (es : List Ev) : Prop where
  id : m.id = 0
  next : 2 ≤ m.next
  boot : Boot G m.frame
  objs : ∀ (o : Nat) (v : Val), c.objs[o]? = some v → ∃ k D, v = .ptr ⟨k, 0, []⟩ ∧ 2 ≤ k ∧ k < m.next ∧ m.frame k = [digV D] ∧
    new.run block (opsOf o es) = .ok (D, outsOf o es)
  inj : ∀ (o o' : Nat) (v : Val), c.objs[o]? = some v → c.objs[o']? = some v → o = o'
  none : ∀ o, c.objs.length ≤ o → opsOf o es = [] ∧ outsOf o es = []
  held : ∀ v ∈ c.held, IsHeld m v
  pkg : ∀ data h b, .sumPkg data h b ∈ es → sumPkg block .callFirst data = .ok (h, b)

theorem opsOf_append (o : Nat) (xs ys : List Ev) : opsOf o (xs ++ ys) = opsOf o xs ++ opsOf o ys := List.filterMap_append

theorem outsOf_append (o : Nat) (xs ys : List Ev) : outsOf o (xs ++ ys) = outsOf o xs ++ outsOf o ys := List.filterMap_append

/-- No call of the model panics. -/
structure Total (block : BlockFn) : Prop where
  run : ∀ ops, ∃ r, new.run block ops = .ok r
  pkg : ∀ data, ∃ r, sumPkg block .callFirst data = .ok r

theorem Total.call {block : BlockFn} (T : Total block) {ops : List Op} {D : Digest} {outs : List Out}
    (h : new.run block ops = .ok (D, outs)) (op : Op) :
    ∃ D' out, D.call block op = .ok (D', out) ∧ new.run block (ops ++ [op]) = .ok (D', outs ++ [out]) := by
  obtain ⟨r, hr⟩ := T.run (ops ++ [op])
  rw [run_append, h] at hr ⊢
  simp only [bind, Except.bind, Digest.run, pure, Except.pure] at hr ⊢
  cases hc : D.call block op with
  | error e => rw [hc] at hr; cases hr
  | ok x => exact ⟨x.1, x.2, rfl, rfl⟩

theorem sumPkg_length {block : BlockFn} {data h : List Byte} {b : Bool} (hr : sumPkg block .callFirst data = .ok (h, b)) : h.length = 20 := by
  simp only [sumPkg, bind, Except.bind, pure, Except.pure] at hr
  split at hr
  · cases hr
  · split at hr
    · cases hr
    · rename_i v hv
      cases hr
      exact checkSum_length hv

section
variable {P : Program} {N d : Nat} {G : List Val} {block : BlockFn} {m m' : Mem} {c : Client} {es : List Ev}

/-- After a call on object `o`. -/
theorem Inv.called (I : Inv G block c m es) {o k : Nat} {D D' : Digest} (ho : c.objs[o]? = some (.ptr ⟨k, 0, []⟩)) (hd : m.frame k = [digV D])
    (M : Moves m m' k D') {op : Op} {out : Out}
    (hr : new.run block (opsOf o es ++ [op]) = .ok (D', outsOf o es ++ [out])) {r : List Val} (hw : ∀ w ∈ r, IsHeld m' w) :
    Inv G block { c with held := c.held ++ r } m' (es ++ [.call o op out]) := by
  have hk : ∀ n f, m.frame k = [.arr n f] → m.next ≤ k := fun n f e => by rw [hd] at e; cases e
  refine ⟨M.id.trans I.id, Nat.le_trans I.next M.next, ⟨(M.boot 0 (by omega)).trans I.boot.vars, (M.boot 1 (by omega)).trans I.boot.table⟩,
    fun o' v hv => ?_, I.inj, fun o' ho' => ?_, fun v hv => ?_, fun data h b hm => ?_⟩
  · obtain ⟨k', E, e1, e2, e3, e4, e5⟩ := I.objs o' v hv
    subst e1
    by_cases hoo : o' = o
    · subst hoo
      have : k' = k := by
        simp only at hv
        rw [ho] at hv
        cases hv
        rfl
      subst this
      refine ⟨k', D', rfl, e2, Nat.lt_of_lt_of_le e3 M.next, M.dig, ?_⟩
      rw [opsOf_append, outsOf_append]
      simpa [opsOf, outsOf] using hr
    · have hne : k' ≠ k := by
        intro e
        subst e
        exact hoo (I.inj o' o _ hv ho)
      refine ⟨k', E, rfl, e2, Nat.lt_of_lt_of_le e3 M.next, ?_, ?_⟩
      · rcases M.keep k' e3 hne with e | ⟨n, f, f', a, _⟩
        · exact e.trans e4
        · rw [e4] at a; cases a
      · rw [opsOf_append, outsOf_append]
        simpa [opsOf, outsOf, Ne.symm hoo] using e5
  · have hne : o ≠ o' := by
      intro e
      subst e
      have := (List.getElem?_eq_some_iff.mp ho).1
      simp only at ho'
      omega
    have := I.none o' ho'
    rw [opsOf_append, outsOf_append, this.1, this.2]
    simp [opsOf, outsOf, hne]
  · rcases List.mem_append.mp hv with h | h
    · exact (I.held v h).evolves hk M.toEvolves
    · exact hw v h
  · rcases List.mem_append.mp hm with h | h
    · exact I.pkg _ _ _ h
    · simp at h

/-- After something that changes no object. -/
theorem Inv.silent (I : Inv G block c m es) (M : Evolves m m' m.next) {r : List Val} (hw : ∀ w ∈ r, IsHeld m' w)
    {new : List Ev} (hn : ∀ e ∈ new, ∃ data h b, e = .sumPkg data h b ∧ sumPkg block .callFirst data = .ok (h, b)) :
    Inv G block { c with held := c.held ++ r } m' (es ++ new) := by
  have ops : ∀ o, opsOf o (es ++ new) = opsOf o es := by
    intro o
    rw [opsOf_append]
    suffices opsOf o new = [] by rw [this, List.append_nil]
    refine List.filterMap_eq_nil_iff.mpr fun e he => ?_
    obtain ⟨_, _, _, rfl, _⟩ := hn e he
    rfl
  have outs : ∀ o, outsOf o (es ++ new) = outsOf o es := by
    intro o
    rw [outsOf_append]
    suffices outsOf o new = [] by rw [this, List.append_nil]
    refine List.filterMap_eq_nil_iff.mpr fun e he => ?_
    obtain ⟨_, _, _, rfl, _⟩ := hn e he
    rfl
  refine ⟨M.id.trans I.id, Nat.le_trans I.next M.next, ⟨(M.boot 0 (by omega)).trans I.boot.vars, (M.boot 1 (by omega)).trans I.boot.table⟩,
    fun o v hv => ?_, I.inj, fun o ho => ?_, fun v hv => ?_, fun data h b hm => ?_⟩
  · obtain ⟨k, E, e1, e2, e3, e4, e5⟩ := I.objs o v hv
    refine ⟨k, E, e1, e2, Nat.lt_of_lt_of_le e3 M.next, ?_, by rw [ops, outs]; exact e5⟩
    rcases M.keep k e3 (by omega) with e | ⟨n, f, f', a, _⟩
    · exact e.trans e4
    · rw [e4] at a; cases a
  · rw [ops, outs]
    exact I.none o ho
  · rcases List.mem_append.mp hv with h | h
    · exact (I.held v h).evolves (fun _ _ _ => Nat.le_refl _) M
    · exact hw v h
  · rcases List.mem_append.mp hm with h | h
    · exact I.pkg _ _ _ h
    · obtain ⟨_, _, _, e, hs⟩ := hn _ h
      cases e
      exact hs

theorem evolves_refl (m : Mem) (k : Nat) : Evolves m m k := ⟨rfl, Nat.le_refl _, fun _ _ => rfl, fun _ _ _ => .inl rfl⟩

theorem Inv.same (I : Inv G block c m es) : Inv G block c m (es ++ []) := by
  have := I.silent (evolves_refl m m.next) (r := []) (new := []) (by simp) (by simp)
  simpa using this

theorem Inv.hold (I : Inv G block c m es) (M : Evolves m m' m.next) {w : Val} (hw : IsHeld m' w) :
    Inv G block { c with held := c.held ++ [w] } m' (es ++ []) :=
  I.silent M (by simpa using hw) (by simp)

/-- One step. -/
theorem step_ok (hP : HasAll P N G block) (T : Total block) (hN : 33 < N) (I : Inv G block c m es) (s : Step) :
    ∃ c' new m', c.step P N (d + 8) s m = .ok ((c', new), m') ∧ Inv G block c' m' (es ++ new) := by
  have hm : m.id < m.next := by rw [I.id]; have := I.next; omega
  have hD := hP.sums.toHasSum.toHasDigest
  cases s with
  | new =>
    obtain ⟨m', e, B, hn, hl⟩ := new_eq (N := N) (d := d + 6) hD hm
    refine ⟨{ c with objs := c.objs ++ [.ptr ⟨m.next, 0, []⟩] }, [], m', ?_, ?_⟩
    · simp only [Client.step, bind_run, e, pure_run]
    · have get : ∀ o v, (c.objs ++ [Val.ptr ⟨m.next, 0, []⟩])[o]? = some v →
          c.objs[o]? = some v ∨ o = c.objs.length ∧ v = .ptr ⟨m.next, 0, []⟩ := by
        intro o v hv
        by_cases ho : o < c.objs.length
        · rw [List.getElem?_append_left ho] at hv
          exact .inl hv
        · rw [List.getElem?_append_right (by omega)] at hv
          have := (List.getElem?_eq_some_iff.mp hv).1
          simp only [List.length_singleton] at this
          have ho' : o = c.objs.length := by omega
          subst ho'
          simp at hv
          exact .inr ⟨rfl, hv.symm⟩
      have fresh : ∀ o : Nat, c.objs[o]? ≠ some (Val.ptr ⟨m.next, 0, []⟩) := by
        intro o ho
        obtain ⟨k, D, e1, _, e3, _⟩ := I.objs o _ ho
        cases e1
        exact Nat.lt_irrefl _ e3
      have M : Evolves m m' m.next := ⟨B.id, B.next, fun g hg => B.frame g (by have := I.next; omega), fun g hg _ => .inl (B.frame g hg)⟩
      have I' := I.silent M (r := []) (new := []) (by simp) (by simp)
      simp only [List.append_nil] at I' ⊢
      refine ⟨I'.id, I'.next, I'.boot, fun o v hv => ?_, fun o o' v hv hv' => ?_, fun o ho => ?_, I'.held, I'.pkg⟩
      · rcases get o v hv with h | ⟨rfl, rfl⟩
        · exact I'.objs o v h
        · refine ⟨m.next, Model.new, rfl, I.next, hn, hl, ?_⟩
          have := I.none c.objs.length (Nat.le_refl _)
          rw [this.1, this.2]
          rfl
      · rcases get o v hv with h | ⟨rfl, rfl⟩
        · rcases get o' v hv' with h' | ⟨rfl, rfl⟩
          · exact I.inj o o' v h h'
          · exact absurd h (fresh o)
        · rcases get o' _ hv' with h' | ⟨rfl, _⟩
          · exact absurd h' (fresh o')
          · rfl
      · simp only [List.length_append, List.length_singleton] at ho
        exact I.none o (by omega)
  | null =>
    exact ⟨_, _, m, rfl, I.hold (evolves_refl m m.next) .null⟩
  | make bs =>
    refine ⟨_, _, _, rfl, I.hold ?_ (.slice (f := fun i => .u8 (bs.getD i 0)) (n := bs.length) I.next (Nat.lt_succ_self _) ?_ (fun q _ => ⟨_, rfl⟩) (by omega) (Nat.le_refl _))⟩
    · refine ⟨rfl, Nat.le_succ _, fun g hg => ?_, fun g hg _ => .inl ?_⟩ <;>
      · have := I.next
        simp only [Mem.frame, if_neg (show ¬g = m.next by omega)]
    · have := I.next
      simp only [Mem.frame, I.id, if_neg (show ¬m.next = 0 by omega), if_true]
  | reslice s i j =>
    cases hs : c.held[s]? with
    | none => exact ⟨c, [], m, by simp only [Client.step, hs, pure_run], I.same⟩
    | some v =>
      cases I.held v (List.mem_of_getElem? hs) with
      | null => exact ⟨c, [], m, by simp only [Client.step, hs, pure_run], I.same⟩
      | slice h2 hn he hu hc hl =>
        rename_i k off len cap n f
        by_cases hij : i ≤ j ∧ j ≤ cap
        · refine ⟨_, _, m, ?_, I.hold (evolves_refl m m.next) (w := .slice ⟨k, 0, []⟩ (off + i) (j - i) (cap - i))
            (.slice h2 hn he hu (by omega) (by omega))⟩
          simp only [Client.step, hs]
          rw [if_pos hij]
          rfl
        · refine ⟨c, [], m, ?_, I.same⟩
          simp only [Client.step, hs]
          rw [if_neg hij]
          rfl
  | poke s i b =>
    cases hs : c.held[s]? with
    | none => exact ⟨c, [], m, by simp only [Client.step, hs, pure_run], I.same⟩
    | some v =>
      cases I.held v (List.mem_of_getElem? hs) with
      | null => exact ⟨c, [], m, by simp only [Client.step, hs, pure_run], I.same⟩
      | slice h2 hn he hu hc hl =>
        rename_i k off len cap n f
        by_cases hi : i < len
        · have hset : (Val.arr n f).set [off + i] (.u8 b) = .ok (.arr n fun j => if j = off + i then .u8 b else f j) := by
            obtain ⟨x, hx⟩ := hu (off + i) (by omega)
            simp only [Val.set]
            rw [if_pos (by omega), hx]
            rfl
          have hst : store ((⟨k, 0, []⟩ : Loc).sub (off + i)) (.u8 b) m =
              .ok ((), m.setFrame k [.arr n fun j => if j = off + i then .u8 b else f j]) := by
            simp only [store, Loc.sub, he, List.nil_append, List.getElem?_cons_zero, hset, List.set_cons_zero]
          have hk0 : k ≠ m.id := by rw [I.id]; omega
          have hfr : ∀ g, (m.setFrame k [.arr n fun j => if j = off + i then .u8 b else f j]).frame g =
              if g = k then [.arr n fun j => if j = off + i then .u8 b else f j] else m.frame g := by
            intro g
            simp only [Mem.setFrame, if_neg hk0, Mem.frame]
            by_cases h1 : g = m.id
            · rw [if_pos h1, if_pos h1, if_neg (by omega)]
            · rw [if_neg h1, if_neg h1]
          have hu' : U8s n fun j => if j = off + i then .u8 b else f j := by
            intro q hq
            by_cases h : q = off + i
            · exact ⟨b, if_pos h⟩
            · obtain ⟨x, hx⟩ := hu q hq
              exact ⟨x, (if_neg h).trans hx⟩
          refine ⟨c, [], m.setFrame k [.arr n fun j => if j = off + i then .u8 b else f j], ?_, ?_⟩
          rotate_left
          · have := I.silent (m' := m.setFrame k [.arr n fun j => if j = off + i then .u8 b else f j]) (r := []) (new := [])
              ⟨?_, ?_, fun g hg => ?_, fun g hg _ => ?_⟩ (by simp) (by simp)
            · simpa using this
            · simp only [Mem.setFrame, if_neg hk0]
            · simp only [Mem.setFrame, if_neg hk0]; exact Nat.le_refl _
            · rw [hfr, if_neg (by omega)]
            · by_cases h : g = k
              · subst h
                exact .inr ⟨n, f, _, he, by rw [hfr, if_pos rfl], hu'⟩
              · exact .inl (by rw [hfr, if_neg h])
          · simp only [Client.step, hs]
            rw [if_pos hi]
            simp only [bind_run, hst, pure_run]
        · refine ⟨c, [], m, ?_, I.same⟩
          simp only [Client.step, hs]
          rw [if_neg hi]
          rfl
  | call0 o f =>
    cases ho : c.objs[o]? with
    | none => exact ⟨c, [], m, by simp only [Client.step, ho, pure_run], I.same⟩
    | some v =>
      obtain ⟨k, D, rfl, h2, hl, hd, hr⟩ := I.objs o v ho
      obtain ⟨D', out, hc, hr'⟩ := T.call hr f.op
      obtain ⟨r, m', e, M, hw, _⟩ := callMeth0_eq (d := d) hP h2 hl hd hc
      refine ⟨_, _, m', ?_, I.called ho hd M hr' hw⟩
      simp only [Client.step, ho, bind_run, e, pure_run]
  | call1 o f s =>
    cases ho : c.objs[o]? with
    | none => exact ⟨c, [], m, by simp only [Client.step, ho, pure_run], I.same⟩
    | some v =>
      cases hs : c.held[s]? with
      | none => exact ⟨c, [], m, by simp only [Client.step, ho, hs, pure_run], I.same⟩
      | some p =>
        obtain ⟨k, D, rfl, h2, hl, hd, hr⟩ := I.objs o v ho
        have hh := I.held p (List.mem_of_getElem? hs)
        obtain ⟨bs, hv⟩ := hh.bytes hd
        have hbs := bytesOf_is hv
        by_cases hb : bs.length < 64 * N ∧ bs.length < 2 ^ 63
        · obtain ⟨D', out, hc, hr'⟩ := T.call hr (f.op bs)
          obtain ⟨r, m', e, M, hw, _⟩ := callMeth1_eq (d := d) hP hN I.boot h2 hl hd hh hv hb.1 hb.2 hc
          refine ⟨_, _, m', ?_, I.called ho hd M hr' hw⟩
          simp only [Client.step, ho, hs, bind_run, hbs]
          rw [if_pos hb]
          simp only [bind_run, e, pure_run]
        · refine ⟨c, [], m, ?_, I.same⟩
          simp only [Client.step, ho, hs, bind_run, hbs]
          rw [if_neg hb]
          rfl
  | sumPkg s =>
    cases hs : c.held[s]? with
    | none => exact ⟨c, [], m, by simp only [Client.step, hs, pure_run], I.same⟩
    | some p =>
      obtain ⟨bs, hv⟩ := (I.held p (List.mem_of_getElem? hs)).anyBytes
      have hbs := bytesOf_is hv
      by_cases hb : bs.length < 64 * N ∧ bs.length < 2 ^ 63
      · have S := sumPkg_eq hP.sums (hP.calls d) (hP.calls (d + 1)) (by omega) (by omega) I.next I.boot hv hb.2
        obtain ⟨⟨hash, col⟩, hr⟩ := T.pkg bs
        have hlen : hash.length = 20 := sumPkg_length hr
        rw [hr] at S
        obtain ⟨m', e, B⟩ := S
        refine ⟨c, [.sumPkg bs hash col], m', ?_, ?_⟩
        · have ha : arrBytes (.arr 20 (byteArr hash)) = some hash := by
            simp only [arrBytes, byteArr, Option.some.injEq]
            refine List.ext_getElem (by simp [hlen]) fun q h1 h2 => ?_
            simp [List.getElem?_eq_getElem h2]
          simp only [Client.step, hs, bind_run, hbs]
          rw [if_pos hb]
          simp only [bind_run, e, need, ha, pure_run]
        · have := I.silent (m' := m') (r := []) (new := [.sumPkg bs hash col])
            ⟨B.id, B.next, fun g hg => B.frame g (by have := I.next; omega), fun g hg _ => .inl (B.frame g hg)⟩ (by simp)
            (fun e he => ⟨_, _, _, List.mem_singleton.mp he, hr⟩)
          simpa using this
      · refine ⟨c, [], m, ?_, I.same⟩
        simp only [Client.step, hs, bind_run, hbs]
        rw [if_neg hb]
        rfl

/-- Every program. -/
theorem run_ok (hP : HasAll P N G block) (T : Total block) (hN : 33 < N) (ss : List Step) (I : Inv G block c m es) :
    ∃ c' new m', c.run P N (d + 8) ss m = .ok ((c', new), m') ∧ Inv G block c' m' (es ++ new) := by
  induction ss generalizing c m es with
  | nil => exact ⟨c, [], m, rfl, I.same⟩
  | cons s ss ih =>
    obtain ⟨c1, n1, m1, e1, I1⟩ := step_ok (d := d) hP T hN I s
    obtain ⟨c2, n2, m2, e2, I2⟩ := ih I1
    refine ⟨c2, n1 ++ n2, m2, ?_, by rw [← List.append_assoc]; exact I2⟩
    simp only [Client.run, bind_run, e1, e2, pure_run]

end

end Verif.Source.Go
