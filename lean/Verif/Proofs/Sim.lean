import Verif.Proofs.Codec
import Verif.Model.Build
import Verif.Proofs.Simd
import Verif.Proofs.Amd64Block
import Verif.Proofs.FlatCall

/-! Bisimulation of hash objects. -/

namespace Verif

open Verif.Model Verif.Spec

theorem Model.Build.impl_table {dvs : List DvInfo} {det : Regs → Block → Bool} (ht : TableImpl dvs det) (B : Build) :
    BlockImpl (B.blockWith dvs) det := by
  cases B with
  | noasm => exact fun c p => blockGeneric_table ht c p
  | amd64 fg hs s ok =>
    show BlockImpl (blockAmd64Build fg hs s dvs) det
    unfold blockAmd64Build
    split
    · exact fun c p => blockGeneric_table ht c p
    · exact simdBlock_table ht _ fun k H p m1 cs hp => Amd64.blockAMD64_ok (s k) (ok k) H p hp m1 cs
  | arm64 fg hs s r16 ok =>
    show BlockImpl (blockArm64Build fg hs s r16 dvs) det
    unfold blockArm64Build
    split
    · exact fun c p => blockGeneric_table ht c p
    · exact simdBlock_table ht _ fun k H p m1 cs hp => Arm64.blockARM64_ok (s k) (r16 k) (ok k) H p hp m1 cs
  | amd64Flat fg hs e ok =>
    show BlockImpl (blockAmd64Flat fg hs e dvs) det
    unfold blockAmd64Flat
    split
    · exact fun c p => blockGeneric_table ht c p
    · exact simdBlock_table ht _ fun k H p m1 cs hp => Flat.Amd64.call_ok _ (ok k) _ _ _ H p hp m1 cs
  | arm64Flat fg hs e ok r16 =>
    show BlockImpl (blockArm64Flat fg hs e dvs) det
    unfold blockArm64Flat
    split
    · exact fun c p => blockGeneric_table ht c p
    · exact simdBlock_table ht _ fun k H p m1 cs hp => Flat.Arm64.call_ok _ (ok k) _ _ (r16 k) H p hp m1 cs

theorem Model.Build.impl (B : Build) : BlockImpl B.block detGo := B.impl_table sha1Dvs_impl

/-- Same chaining value, pending bytes, length. -/
structure SimD (d1 d2 : Digest) : Prop where
  inv1 : DInv d1
  inv2 : DInv d2
  h : d1.h = d2.h
  buf : (absD d1).buf = (absD d2).buf
  len : d1.len = d2.len

/-- The same and the same flag. -/
def Sim (d1 d2 : Digest) : Prop := SimD d1 d2 ∧ d1.col = d2.col

/-- The output without the flag. -/
def eraseFlag : Out → Out
  | .collisionResistantSum b _ => .collisionResistantSum b false
  | o => o

theorem SimD.nx {d1 d2 : Digest} (h : SimD d1 d2) : d1.nx = d2.nx := by
  rw [h.inv1, h.inv2, h.len]

theorem Sim.refl {d : Digest} (h : DInv d) : Sim d d := ⟨⟨h, h, rfl, rfl, rfl⟩, rfl⟩

theorem absorb_simD (det : Regs → Block → Bool) {d1 d2 : Digest} (h : SimD d1 d2) (p : List Byte) :
    ((absD d1).absorb det p).h = ((absD d2).absorb det p).h ∧
    ((absD d1).absorb det p).buf = ((absD d2).absorb det p).buf ∧
    (d1.col = d2.col → ((absD d1).absorb det p).col = ((absD d2).absorb det p).col) := by
  have hh : (absD d1).h = (absD d2).h := h.h
  refine ⟨?_, ?_, ?_⟩
  · simp only [Sp.absorb, hh, h.buf]
  · simp only [Sp.absorb, h.buf]
  · intro hc
    have hc' : (absD d1).col = (absD d2).col := hc
    simp only [Sp.absorb, hh, h.buf, hc']

/-- Every operation succeeds on related objects, with the same output, and keeps them related. -/
theorem call_sim (block1 block2 : BlockFn) (det : Regs → Block → Bool) (hb1 : BlockImpl block1 det)
    (hb2 : BlockImpl block2 det) {d1 d2 : Digest} (h : SimD d1 d2) (op : Op) :
    ∃ d1' d2' o1 o2, d1.call block1 op = .ok (d1', o1) ∧ d2.call block2 op = .ok (d2', o2) ∧
      SimD d1' d2' ∧ eraseFlag o1 = eraseFlag o2 ∧
      (d1.col = d2.col → d1'.col = d2'.col ∧ o1 = o2) := by
  cases op with
  | write p =>
    obtain ⟨e1, w1, i1, l1, a1⟩ := write_spec block1 det hb1 d1 h.inv1 p
    obtain ⟨e2, w2, i2, l2, a2⟩ := write_spec block2 det hb2 d2 h.inv2 p
    obtain ⟨hh, hb, hc⟩ := absorb_simD det h p
    rw [← a1, ← a2] at hh hb hc
    refine ⟨e1, e2, .write p.length none, .write p.length none, ?_, ?_, ⟨i1, i2, hh, hb, ?_⟩, rfl, ?_⟩
    · simp [Digest.call, w1, bind, Except.bind, pure, Except.pure]
    · simp [Digest.call, w2, bind, Except.bind, pure, Except.pure]
    · rw [l1, l2, h.len]
    · intro hcol; exact ⟨hc hcol, rfl⟩
  | sum inp =>
    obtain ⟨hh, hb, hc⟩ := absorb_simD det h (padTail d1.len)
    refine ⟨d1, d2, .sum (inp ++ (finish det d1).1), .sum (inp ++ (finish det d2).1), ?_, ?_, h, ?_, ?_⟩
    · simp [Digest.call, sum_spec block1 det hb1 d1 h.inv1, bind, Except.bind, pure, Except.pure]
    · simp [Digest.call, sum_spec block2 det hb2 d2 h.inv2, bind, Except.bind, pure, Except.pure]
    · simp only [finish, hh, ← h.len]
    · intro hcol; exact ⟨hcol, by simp only [finish, hh, ← h.len]⟩
  | collisionResistantSum inp =>
    obtain ⟨hh, hb, hc⟩ := absorb_simD det h (padTail d1.len)
    refine ⟨d1, d2, .collisionResistantSum (inp ++ (finish det d1).1) (finish det d1).2,
      .collisionResistantSum (inp ++ (finish det d2).1) (finish det d2).2, ?_, ?_, h, ?_, ?_⟩
    · simp [Digest.call, crs_spec block1 det hb1 d1 h.inv1, bind, Except.bind, pure, Except.pure]
    · simp [Digest.call, crs_spec block2 det hb2 d2 h.inv2, bind, Except.bind, pure, Except.pure]
    · simp only [eraseFlag, finish, hh, ← h.len]
    · intro hcol; exact ⟨hcol, by simp only [finish, hh, ← h.len, hc hcol]⟩
  | reset =>
    exact ⟨d1.reset, d2.reset, .reset, .reset, rfl, rfl, ⟨rfl, rfl, rfl, by simp [absD, Digest.reset], rfl⟩,
      rfl, fun _ => ⟨rfl, rfl⟩⟩
  | size => exact ⟨d1, d2, _, _, rfl, rfl, h, rfl, fun hc => ⟨hc, rfl⟩⟩
  | blockSize => exact ⟨d1, d2, _, _, rfl, rfl, h, rfl, fun hc => ⟨hc, rfl⟩⟩
  | marshalBinary =>
    have m1 := marshal_spec d1 (Nat.le_of_lt h.inv1.lt)
    have m2 := marshal_spec d2 (Nat.le_of_lt h.inv2.lt)
    refine ⟨d1, d2,
      .marshalBinary (encode d1.h ((absD d1).buf ++ List.replicate (64 - d1.nx) 0) d1.len) none,
      .marshalBinary (encode d2.h ((absD d2).buf ++ List.replicate (64 - d2.nx) 0) d2.len) none,
      ?_, ?_, h, ?_, ?_⟩
    · simp [Digest.call, m1, bind, Except.bind, pure, Except.pure]
    · simp [Digest.call, m2, bind, Except.bind, pure, Except.pure]
    · rw [h.h, h.buf, h.len, h.nx]
    · intro hc; exact ⟨hc, by rw [h.h, h.buf, h.len, h.nx]⟩
  | unmarshalBinary b =>
    by_cases hm : b.length < Magic.length ∨ b.take Magic.length ≠ Magic
    · refine ⟨d1, d2, .unmarshalBinary (some .badIdentifier), .unmarshalBinary (some .badIdentifier),
        ?_, ?_, h, rfl, fun hc => ⟨hc, rfl⟩⟩ <;>
        simp only [Digest.call, Digest.unmarshalBinary, if_pos hm, bind, Except.bind, pure, Except.pure]
    · by_cases hl : b.length = MarshaledSize
      · obtain ⟨H, x, len, hx, rfl⟩ := parse b hl (Decidable.byContradiction fun hne => hm (.inr hne))
        refine ⟨{ d1 with h := H, x := ⟨x, hx⟩, len := len, nx := (len % 64).toNat },
          { d2 with h := H, x := ⟨x, hx⟩, len := len, nx := (len % 64).toNat },
          .unmarshalBinary none, .unmarshalBinary none, ?_, ?_, ?_, rfl, ?_⟩
        · simp only [Digest.call, unmarshal_encode _ H x len hx, bind, Except.bind, pure, Except.pure]
        · simp only [Digest.call, unmarshal_encode _ H x len hx, bind, Except.bind, pure, Except.pure]
        · exact ⟨rfl, rfl, rfl, rfl, rfl⟩
        · exact fun hc => ⟨hc, rfl⟩
      · refine ⟨d1, d2, .unmarshalBinary (some .badSize), .unmarshalBinary (some .badSize),
          ?_, ?_, h, rfl, fun hc => ⟨hc, rfl⟩⟩ <;>
          simp only [Digest.call, Digest.unmarshalBinary, if_neg hm, ne_eq, hl, not_false_eq_true, if_true,
            bind, Except.bind, pure, Except.pure]

theorem run_sim (block1 block2 : BlockFn) (det : Regs → Block → Bool) (hb1 : BlockImpl block1 det)
    (hb2 : BlockImpl block2 det) (ops : List Op) {d1 d2 : Digest} (h : SimD d1 d2) :
    ∃ d1' d2' o1 o2, d1.run block1 ops = .ok (d1', o1) ∧ d2.run block2 ops = .ok (d2', o2) ∧
      SimD d1' d2' ∧ o1.map eraseFlag = o2.map eraseFlag ∧
      (d1.col = d2.col → d1'.col = d2'.col ∧ o1 = o2) := by
  induction ops generalizing d1 d2 with
  | nil => exact ⟨d1, d2, [], [], rfl, rfl, h, rfl, fun hc => ⟨hc, rfl⟩⟩
  | cons op ops ih =>
    obtain ⟨e1, e2, o1, o2, c1, c2, hs, ho, hc⟩ := call_sim block1 block2 det hb1 hb2 h op
    obtain ⟨f1, f2, q1, q2, r1, r2, hs', ho', hc'⟩ := ih hs
    refine ⟨f1, f2, o1 :: q1, o2 :: q2, ?_, ?_, hs', by simp [ho, ho'], ?_⟩
    · simp [Digest.run, c1, r1, bind, Except.bind, pure, Except.pure]
    · simp [Digest.run, c2, r2, bind, Except.bind, pure, Except.pure]
    · intro hcol
      obtain ⟨k1, k2⟩ := hc hcol
      obtain ⟨k3, k4⟩ := hc' k1
      exact ⟨k3, by rw [k2, k4]⟩

theorem new_inv : DInv new := rfl

theorem run_append (block : BlockFn) (d : Digest) (xs ys : List Op) :
    d.run block (xs ++ ys) = (do
      let (d, o1) ← d.run block xs
      let (d, o2) ← d.run block ys
      pure (d, o1 ++ o2)) := by
  induction xs generalizing d with
  | nil =>
    simp only [List.nil_append, Digest.run, bind, Except.bind, pure, Except.pure]
    cases d.run block ys <;> rfl
  | cons x xs ih =>
    simp only [List.cons_append, Digest.run, bind, Except.bind, pure, Except.pure, ih]
    cases h : d.call block x with
    | error e => rfl
    | ok v =>
      simp only
      cases h2 : v.1.run block xs with
      | error e => rfl
      | ok v2 =>
        simp only
        cases h3 : v2.1.run block ys <;> rfl

theorem run_length (block : BlockFn) (ops : List Op) (d d' : Digest) (outs : List Out)
    (h : d.run block ops = .ok (d', outs)) : outs.length = ops.length := by
  induction ops generalizing d outs with
  | nil => simp only [Digest.run, pure, Except.pure, Except.ok.injEq, Prod.mk.injEq] at h; rw [← h.2]; rfl
  | cons op ops ih =>
    simp only [Digest.run, bind, Except.bind, pure, Except.pure] at h
    cases h1 : d.call block op with
    | error e => rw [h1] at h; cases h
    | ok v =>
      rw [h1] at h; simp only at h
      cases h2 : v.1.run block ops with
      | error e => rw [h2] at h; cases h
      | ok v2 =>
        rw [h2] at h
        simp only [Except.ok.injEq, Prod.mk.injEq] at h
        rw [← h.2, List.length_cons, List.length_cons, ih _ _ (by rw [h2, ← h.1])]

/-- Every state reached from `New` satisfies the invariant. -/
theorem reach_inv (block : BlockFn) (det : Regs → Block → Bool) (hb : BlockImpl block det)
    (ops : List Op) (d : Digest) (outs : List Out) (h : new.run block ops = .ok (d, outs)) : DInv d := by
  obtain ⟨d1, d2, o1, o2, r1, r2, hs, _, _⟩ := run_sim block block det hb hb ops (Sim.refl new_inv).1
  rw [h] at r1
  cases r1
  exact hs.inv1

/-- A run of writes. -/
theorem run_writes {det : Regs → Block → Bool} {block : BlockFn} (hb : BlockImpl block det)
    (ps : List (List Byte)) {d : Digest} {m : List Byte} (h : Holds det d m) :
    ∃ d', d.run block (ps.map .write) = .ok (d', ps.map fun p => .write p.length none) ∧
      Holds det d' (m ++ ps.flatten) := by
  induction ps generalizing d m with
  | nil => exact ⟨d, rfl, by simpa using h⟩
  | cons p ps ih =>
    obtain ⟨d1, w, h1⟩ := h.write hb p
    obtain ⟨d2, r, h2⟩ := ih h1
    refine ⟨d2, ?_, by simpa using h2⟩
    simp [Digest.run, Digest.call, w, r, bind, Except.bind, pure, Except.pure]

theorem sumPkg_call {det : Regs → Block → Bool} {block : BlockFn} (hb : BlockImpl block det)
    (m : List Byte) : sumPkg block .callFirst m = .ok (safeHash det m) := by
  obtain ⟨d, w, h⟩ := (holds_reset det Digest.zero).write hb m
  obtain ⟨d', e, ha⟩ := checkSum_spec block det hb d h.1
  have hf := h.finish
  unfold sumPkg
  simp only [w, e, bind, Except.bind, pure, Except.pure]
  rw [List.nil_append] at hf
  rw [← hf]
  unfold finish
  rw [← ha]
  rfl

end Verif
