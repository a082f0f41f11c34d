import Verif.Props.Stream
import Verif.Model.Memory
import Verif.Model.CgoMemory
import Verif.Model.Amd64
import Verif.Model.Arm64
import Verif.Model.Flat

/-!
What it means in the model to panic or to touch memory outside an array.  The theorems that nothing panics
(C06, C36, C48, C50) say something only if the operations concerned panic exactly where Go does, or fault exactly where
an access is out of bounds; here this is stated operation by operation.  And which values of the struct `digest`
make the methods panic: C06 holds because no history of calls leads to one of them.
-/

namespace Verif.Props

open Verif Verif.Model Verif.Spec

/-- Returns a value. -/
def Returns {α : Type} (x : GoM α) : Prop := ∃ v, x = .ok v

theorem returns_ok {α : Type} (v : α) : Returns (.ok v : GoM α) := ⟨v, rfl⟩

theorem not_returns {α : Type} (p : Panic) : ¬ Returns (.error p : GoM α) := fun ⟨_, h⟩ => nomatch h

theorem fill_nx {block : BlockFn} {det : Regs → Block → Bool} (hb : BlockImpl block det) (d : Digest) (hd : d.nx ≤ 64)
    (p : List Byte) : ∃ d' q, d.writeFill block p = .ok (d', q) ∧ d'.nx < 64 ∧ (d'.nx = 0 ∨ q = []) ∧
      (d'.nx + q.length) % 64 = (d.nx + p.length) % 64 := by
  unfold Digest.writeFill
  by_cases h0 : d.nx > 0
  · rw [if_pos h0, dif_pos hd]
    by_cases h64 : d.nx + min (64 - d.nx) p.length = 64
    · rw [if_pos (show _ = Chunk from h64)]
      unfold Digest.callBlock
      rw [hb]
      simp only [bind, Except.bind, pure, Except.pure]
      exact ⟨_, _, rfl, by simp, .inl rfl, by simp only [List.length_drop]; omega⟩
    · rw [if_neg (show ¬ _ = Chunk from h64)]
      simp only [pure, Except.pure]
      refine ⟨_, _, rfl, by simp only; omega, .inr ?_, ?_⟩
      · exact List.drop_eq_nil_of_le (by omega)
      · simp only [List.length_drop]
        omega
  · rw [if_neg h0]
    exact ⟨d, p, rfl, by omega, .inl (by omega), rfl⟩

theorem write_nx {block : BlockFn} {det : Regs → Block → Bool} (hb : BlockImpl block det) (d : Digest) (hd : d.nx ≤ 64)
    (p : List Byte) (hp : p ≠ []) :
    ∃ d', d.write block p = .ok (d', p.length, none) ∧ d'.nx = (d.nx + p.length) % 64 := by
  unfold Digest.write
  rw [if_neg (by simpa using hp)]
  simp only [bind, Except.bind]
  obtain ⟨d1, q1, e1, n1, c1, l1⟩ := fill_nx hb { d with len := d.len + BitVec.ofNat 64 p.length } hd p
  rw [e1]
  simp only
  obtain ⟨d2, q2, e2, c2, m2, n2, _, p2, s2, a2⟩ := bulk_spec block det hb d1 q1 c1 n1
  rw [e2]
  simp only
  obtain ⟨n3, _, a3⟩ := tail_spec det d2 q2 c2 m2 n2
  refine ⟨_, rfl, ?_⟩
  have e := congrArg (fun s => s.buf.length) a3
  rw [absD_buf_length _ (by omega), a2] at e
  rw [e, Sp.absorb_append, ← s2]
  show (rem64 _).length = _
  rw [rem64_length, List.length_append, absD_buf_length _ (by omega), l1]

/-- `nx` too large: the slice `d.x[d.nx:]` panics (sha1cd.go:140). -/
theorem write_panics (block : BlockFn) (d : Digest) (q : List Byte) (hq : q ≠ []) (hn : 64 < d.nx) :
    d.write block q = .error .sliceOutOfRange := by
  unfold Digest.write Digest.writeFill
  rw [if_neg (by simpa using hq)]
  simp only [bind, Except.bind]
  rw [if_pos (by omega), dif_neg (by omega)]
  rfl

theorem marshal_panics (d : Digest) (hn : 64 < d.nx) : d.marshalBinary = .error .sliceOutOfRange := by
  unfold Digest.marshalBinary
  simp only
  rw [if_neg (by omega)]
  rfl

theorem checkSum_cases (B : Build) (d : Digest) :
    (64 < d.nx → d.checkSum B.block = .error .sliceOutOfRange) ∧
    (d.nx ≤ 64 → d.nx % 64 ≠ d.len.toNat % 64 → d.checkSum B.block = .error .nxNotZero) ∧
    (d.nx ≤ 64 → d.nx % 64 = d.len.toNat % 64 → Returns (d.checkSum B.block)) := by
  have hne : padTail d.len ≠ [] := by simp [padTail]
  refine ⟨fun hn => ?_, fun hn hc => ?_, fun hn hc => ?_⟩
  · unfold Digest.checkSum
    rw [padding_spec]
    simp only [bind, Except.bind]
    rw [write_panics _ _ _ hne hn]
  all_goals
    unfold Digest.checkSum
    rw [padding_spec]
    simp only [bind, Except.bind]
    obtain ⟨d', e, hx⟩ := write_nx (build_impl B) d hn _ hne
    have hz : d'.nx = 0 ↔ d.nx % 64 = d.len.toNat % 64 := by
      rw [hx, padTail_length]
      unfold zeroPad
      omega
    rw [e]
    simp only
  · rw [if_pos (fun h => hc (hz.mp h))]
    rfl
  · rw [if_neg (by simp [hz.mpr hc])]
    exact returns_ok _

/-- C06: which values of the struct make the methods panic, and how, for every one of its values: `Write` of something
and `MarshalBinary` if `nx > 64`, and the sums unless moreover `nx` is the length modulo 64.  (`nx = 64`, which no history
leads to, is like 0.) -/
theorem C06_exactly (B : Build) (d : Digest) (p inp : List Byte) :
    (Returns (d.write B.block p) ↔ p = [] ∨ d.nx ≤ 64) ∧
    (Returns d.marshalBinary ↔ d.nx ≤ 64) ∧
    (Returns (d.sum B.block inp) ↔ d.nx ≤ 64 ∧ d.nx % 64 = d.len.toNat % 64) ∧
    (Returns (d.collisionResistantSum B.block inp) ↔ d.nx ≤ 64 ∧ d.nx % 64 = d.len.toNat % 64) ∧
    Returns (d.unmarshalBinary p) ∧
    (64 < d.nx → d.sum B.block inp = .error .sliceOutOfRange) ∧
    (d.nx ≤ 64 → d.nx % 64 ≠ d.len.toNat % 64 → d.sum B.block inp = .error .nxNotZero) := by
  obtain ⟨c1, c2, c3⟩ := checkSum_cases B d
  have cs : Returns (d.checkSum B.block) ↔ d.nx ≤ 64 ∧ d.nx % 64 = d.len.toNat % 64 := by
    by_cases hn : d.nx ≤ 64
    · by_cases hc : d.nx % 64 = d.len.toNat % 64
      · exact ⟨fun _ => ⟨hn, hc⟩, fun _ => c3 hn hc⟩
      · rw [c2 hn hc]
        exact ⟨fun h => absurd h (not_returns _), fun h => absurd h.2 hc⟩
    · rw [c1 (by omega)]
      exact ⟨fun h => absurd h (not_returns _), fun h => absurd h.1 hn⟩
  refine ⟨?_, ?_, ?_, ?_, ?_, ?_, ?_⟩
  · by_cases hp : p = []
    · subst hp
      exact ⟨fun _ => .inl rfl, fun _ => returns_ok _⟩
    · by_cases hn : d.nx ≤ 64
      · obtain ⟨d', e, _⟩ := write_nx (build_impl B) d hn p hp
        rw [e]
        exact ⟨fun _ => .inr hn, fun _ => returns_ok _⟩
      · rw [write_panics _ _ p hp (by omega)]
        exact ⟨fun h => absurd h (not_returns _), fun h => absurd h (by simp [hp, hn])⟩
  · by_cases hn : d.nx ≤ 64
    · rw [marshal_spec d hn]
      exact ⟨fun _ => hn, fun _ => returns_ok _⟩
    · rw [marshal_panics d (by omega)]
      exact ⟨fun h => absurd h (not_returns _), fun h => absurd h hn⟩
  · rw [← cs]
    unfold Digest.sum
    simp only [bind, Except.bind]
    cases h : d.checkSum B.block with
    | error e => simp [Returns]
    | ok v => simp [Returns, pure, Except.pure]
  · rw [← cs]
    unfold Digest.collisionResistantSum
    simp only [bind, Except.bind]
    cases h : d.checkSum B.block with
    | error e => simp [Returns]
    | ok v => simp [Returns, pure, Except.pure]
  · by_cases hm : p.length < Magic.length ∨ p.take Magic.length ≠ Magic
    · unfold Digest.unmarshalBinary
      rw [if_pos hm]
      exact returns_ok _
    · by_cases hl : p.length = 98
      · obtain ⟨H, x, len, hx, e⟩ := parse p hl (by simpa [Magic] using (not_or.mp hm).2)
        rw [e, unmarshal_encode d H x len hx]
        exact returns_ok _
      · unfold Digest.unmarshalBinary
        rw [if_neg hm, if_pos (by simpa [MarshaledSize, Magic, Chunk] using hl)]
        exact returns_ok _
  · intro hn
    unfold Digest.sum
    simp only [bind, Except.bind]
    rw [c1 hn]
  · intro hn hc
    unfold Digest.sum
    simp only [bind, Except.bind]
    rw [c2 hn hc]

/-- Instances: values of the struct that panic in each of the two ways, and one that no history leads to and that does not. -/
example (B : Build) : ({ new with nx := 65 } : Digest).sum B.block [] = .error .sliceOutOfRange ∧
    ({ new with nx := 3 } : Digest).sum B.block [] = .error .nxNotZero ∧
    Returns (({ new with nx := 64 } : Digest).sum B.block []) :=
  ⟨(C06_exactly B _ [] []).2.2.2.2.2.1 (by decide), (C06_exactly B _ [] []).2.2.2.2.2.2 (by decide) (by decide),
    (C06_exactly B _ [] []).2.2.1.mpr ⟨by decide, by decide⟩⟩

/-! ### Operation by operation -/

theorem ite_returns {α : Type} {c : Prop} [Decidable c] (v : α) (p : Panic) :
    Returns (if c then (pure v : GoM α) else throw p) ↔ c := by
  by_cases h : c
  · rw [if_pos h]
    exact ⟨fun _ => h, fun _ => returns_ok _⟩
  · rw [if_neg h]
    exact ⟨fun r => absurd r (not_returns _), fun r => absurd r h⟩

theorem dite_returns {α : Type} {c : Prop} [Decidable c] (v : c → α) (p : Panic) :
    Returns (if h : c then (pure (v h) : GoM α) else throw p) ↔ c := by
  by_cases h : c
  · rw [dif_pos h]
    exact ⟨fun _ => h, fun _ => returns_ok _⟩
  · rw [dif_neg h]
    exact ⟨fun r => absurd r (not_returns _), fun r => absurd r h⟩

theorem bind_returns {α β : Type} (x : GoM α) (f : α → GoM β) : Returns (x >>= f) ↔ ∃ v, x = .ok v ∧ Returns (f v) := by
  cases x with
  | error e => simp [bind, Except.bind, Returns]
  | ok v => simp [bind, Except.bind, Returns]

/-- C06: the operations of sha1cd.go panic exactly if the bytes concerned are not there: `PutUint64(b[off:], …)` and `PutUint32`, `b[:n]`,
`consumeUint32`, `consumeUint64`, and, in memory, `s[i:j]` and `PutUint64(s, …)`. -/
theorem C06_bounds (l bs : List Byte) (off i j n : Nat) (b : Slice) (s : Sl) (H : Heap) :
    (Returns (putAt l off bs) ↔ off + bs.length ≤ l.length) ∧
    (Returns (b.resliceTo n) ↔ n ≤ b.data.length + b.tail.length) ∧
    (Returns (consumeUint32 l) ↔ 4 ≤ l.length) ∧ (Returns (consumeUint64 l) ↔ 8 ≤ l.length) ∧
    (Returns (s.slice i j) ↔ i ≤ j ∧ j ≤ s.cap) ∧ (Returns (putSl H s bs) ↔ bs.length ≤ s.len) := by
  refine ⟨ite_returns _ _, ite_returns _ _, ?_, ?_, ite_returns _ _, ite_returns _ _⟩
  · match l with
    | [] | [_] | [_, _] | [_, _, _] => exact ⟨fun h => absurd h (not_returns _), fun h => by simp at h⟩
    | _ :: _ :: _ :: _ :: _ => exact ⟨fun _ => by simp, fun _ => returns_ok _⟩
  · match l with
    | [] | [_] | [_, _] | [_, _, _] | [_, _, _, _] | [_, _, _, _, _] | [_, _, _, _, _, _] | [_, _, _, _, _, _, _] =>
      exact ⟨fun h => absurd h (not_returns _), fun h => by simp at h⟩
    | _ :: _ :: _ :: _ :: _ :: _ :: _ :: _ :: _ => exact ⟨fun _ => by simp, fun _ => returns_ok _⟩

/-- Instance. -/
example : ¬ Returns (putAt (List.replicate 72 0) 65 (bytes64 3)) ∧ Returns (putAt (List.replicate 72 0) 64 (bytes64 3)) ∧
    ¬ Returns (consumeUint64 [1, 2, 3, 4, 5, 6, 7]) := by
  refine ⟨?_, ?_, ?_⟩
  · rw [(C06_bounds _ _ _ 0 0 0 ⟨[], []⟩ ⟨0, 0, 0, 0⟩ []).1]; decide
  · rw [(C06_bounds _ _ _ 0 0 0 ⟨[], []⟩ ⟨0, 0, 0, 0⟩ []).1]; decide
  · rw [(C06_bounds _ [] 0 0 0 0 ⟨[], []⟩ ⟨0, 0, 0, 0⟩ []).2.2.2.1]; decide

/-- C49: how a changed table makes every build panic: no entry with `DvType` = 0, or a `TestT` other than 58, 65 and 0. -/
theorem C49_panics (mask : Word) (m1 : Fin 80 → Word) (cs : Fin 3 → Regs) (h : Regs) (dv : DvInfo) (dvs : List DvInfo) :
    scanDvs mask m1 cs h [] = .error .indexOutOfRange ∧
    (Returns (selectCs cs dv.TestT) ↔ dv.TestT = 58 ∨ dv.TestT = 65 ∨ dv.TestT = 0) ∧
    (dv.DvType ≠ 0 → mask &&& ((1#32) <<< dv.MaskB.toNat) ≠ 0 → dv.TestT ≠ 58 → dv.TestT ≠ 65 → dv.TestT ≠ 0 →
      scanDvs mask m1 cs h (dv :: dvs) = .error .badTestT) ∧
    ((∀ e ∈ dv :: dvs, e.DvType ≠ 0 ∧ mask &&& ((1#32) <<< e.MaskB.toNat) = 0) →
      scanDvs mask m1 cs h (dv :: dvs) = .error .indexOutOfRange) := by
  refine ⟨rfl, ?_, fun h1 h2 h3 h4 h5 => ?_, fun hall => ?_⟩
  · unfold selectCs
    by_cases h1 : dv.TestT = 58
    · rw [if_pos h1]
      exact ⟨fun _ => .inl h1, fun _ => returns_ok _⟩
    · by_cases h2 : dv.TestT = 65
      · rw [if_neg h1, if_pos h2]
        exact ⟨fun _ => .inr (.inl h2), fun _ => returns_ok _⟩
      · rw [if_neg h1, if_neg h2]
        exact (ite_returns _ _).trans ⟨fun h => .inr (.inr h), fun h => (h.resolve_left h1).resolve_left h2⟩
  · unfold scanDvs selectCs
    rw [if_pos h1, if_pos h2, if_neg h3, if_neg h4, if_neg h5]
    rfl
  · generalize dv :: dvs = l at hall
    induction l with
    | nil => rfl
    | cons e l ih =>
      unfold scanDvs
      obtain ⟨h1, h2⟩ := hall e (by simp)
      rw [if_pos h1, if_neg (by simp [h2])]
      exact ih fun e' he => hall e' (by simp [he])

/-- Instance: the table without its last entry, for a mask that selects nothing in it, and with a wrong `TestT`. -/
example (m1 : Fin 80 → Word) (cs : Fin 3 → Regs) (h : Regs) :
    scanDvs 1 m1 cs h [⟨1, 43, 0, 58, 0, 5, fun _ => 0⟩] = .error .indexOutOfRange ∧
    scanDvs 1 m1 cs h [⟨1, 43, 0, 59, 0, 0, fun _ => 0⟩] = .error .badTestT :=
  ⟨(C49_panics _ _ _ _ _ _).2.2.2 (by simp), (C49_panics _ _ _ _ _ _).2.2.1 (by simp) (by simp) (by simp) (by simp) (by simp)⟩

/-- C50: the accesses of the C code fault exactly if they are out of bounds: the words of the block, of the expanded
message and of the states, `memcpy` into `ctx->buffer`, an entry after the last one of the table, a shift by 32 or more and a state
that is not stored; and recompressing from a step other than 58 and 65 aborts. -/
theorem C50_bounds (cfg : C.Plat) (buf p : List Byte) (t off n : Nat) (W : Fin 80 → Word) (x : Buf) (H : Heap) (a : Nat)
    (s : Sl) (r : Regs) (mask : Word) (dv : C.DvInfoT) (dvs : List C.DvInfoT) (ctx : C.Ctx) :
    (Returns (C.load32 cfg buf t) ↔ 4 * t + 4 ≤ buf.length) ∧
    (Returns (C.rd W t) ↔ t < 80) ∧
    (Returns (C.memcpyBuf x off p) ↔ off + p.length ≤ 64) ∧
    (Returns (Cgo.memcpyM H a off s n) ↔ off + n ≤ 64 ∧ n ≤ s.len) ∧
    (t ≠ 58 → t ≠ 65 → C.sha1_recompression_step t W r = .error .abort) ∧
    C.dvLoop mask [] ctx = .error .fault ∧
    (dv.dvType ≠ 0 → 32 ≤ dv.maskb → C.dvLoop mask (dv :: dvs) ctx = .error .fault) ∧
    (dv.dvType ≠ 0 → dv.maskb < 32 → mask &&& (1#32 <<< dv.maskb) ≠ 0 → 80 ≤ dv.testt →
      C.dvLoop mask (dv :: dvs) ctx = .error .fault) := by
  refine ⟨?_, dite_returns _ _, dite_returns _ _, ite_returns _ _, fun h1 h2 => ?_, rfl, fun h1 h2 => ?_, fun h1 h2 h3 h4 => ?_⟩
  · have e : 4 * t + 4 ≤ buf.length ↔ 4 ≤ (buf.drop (4 * t)).length := by simp; omega
    rw [e]
    unfold C.load32
    match buf.drop (4 * t) with
    | [] | [_] | [_, _] | [_, _, _] => exact ⟨fun h => absurd h (not_returns _), fun h => by simp at h⟩
    | _ :: _ :: _ :: _ :: _ => exact ⟨fun _ => by simp, fun _ => returns_ok _⟩
  · unfold C.sha1_recompression_step
    rw [if_neg h1, if_neg h2]
    rfl
  · unfold C.dvLoop
    rw [if_pos h1, if_neg (by omega)]
    rfl
  · unfold C.dvLoop
    rw [if_pos h1, if_pos h2, if_pos h3]
    simp only
    rw [dif_neg (by omega)]
    rfl

/-- C50: the macro calls of `sha1_compression_states` fault exactly if the state, the word of the block or the expanded word does not
exist. -/
theorem C50_bounds_items (cfg : C.Plat) (m : List Byte) (st : C.CState) (i : Nat) (s : C.Step) :
    (Returns (C.Item.exec cfg m st (.store i)) ↔ i < 80) ∧
    (Returns (C.Item.exec cfg m st (.load s)) ↔ 4 * s.t + 4 ≤ m.length ∧ s.t < 80) ∧
    (Returns (C.Item.exec cfg m st (.expand s)) ↔ 16 ≤ s.t ∧ s.t < 80) := by
  refine ⟨dite_returns _ _, ?_, dite_returns _ _⟩
  have e := (C50_bounds cfg m [] s.t 0 0 (fun _ => 0) ⟨List.replicate 64 0, rfl⟩ [] 0 ⟨0, 0, 0, 0⟩ ⟨0, 0, 0, 0, 0⟩ 0
    ⟨0, 0, 0, 0, 0, 0, fun _ => 0⟩ []
    ⟨0, ⟨0, 0, 0, 0, 0⟩, ⟨List.replicate 64 0, rfl⟩, 0, 0, 0, 0, 0, ⟨0, 0, 0, 0, 0⟩, ⟨0, 0, 0, 0, 0⟩, fun _ => 0, fun _ => 0,
      fun _ => ⟨0, 0, 0, 0, 0⟩⟩).1
  have l : Returns (C.sha1_load cfg m s.t) ↔ Returns (C.load32 cfg m s.t) := by
    unfold C.sha1_load
    rw [bind_returns]
    exact ⟨fun ⟨v, h, _⟩ => ⟨v, h⟩, fun ⟨v, h⟩ => ⟨v, h, returns_ok _⟩⟩
  rw [← e, ← l]
  unfold C.Item.exec
  simp only
  rw [bind_returns]
  constructor
  · rintro ⟨v, h, r⟩
    exact ⟨⟨v, h⟩, (dite_returns _ _).mp r⟩
  · rintro ⟨⟨v, h⟩, r⟩
    exact ⟨v, h, (dite_returns _ _).mpr r⟩

/-- Instance: a block of 63 bytes lacks its last word only, and 61 bytes fit behind three. -/
example (cfg : C.Plat) (x : Buf) (ctx : C.Ctx) : ¬ Returns (C.load32 cfg (List.replicate 63 7) 15) ∧ Returns (C.load32 cfg (List.replicate 63 7) 14) ∧
    Returns (C.memcpyBuf x 3 (List.replicate 61 7)) ∧ ¬ Returns (C.memcpyBuf x 3 (List.replicate 62 7)) := by
  have e := fun p t q => C50_bounds cfg p q t 3 0 (fun _ => 0) x [] 0 ⟨0, 0, 0, 0⟩ ⟨0, 0, 0, 0, 0⟩ 0 ⟨0, 0, 0, 0, 0, 0, fun _ => 0⟩ []
    ctx
  refine ⟨?_, ?_, ?_, ?_⟩
  · rw [(e _ _ []).1]; simp
  · rw [(e _ _ []).1]; simp
  · rw [(e [] 0 _).2.2.1]; simp
  · rw [(e [] 0 _).2.2.1]; simp

/-- C48: the accesses of the assembly fault exactly if they are out of bounds or not at a multiple of four: one or four words of
an array; and sixteen bytes of the chunk. -/
theorem C48_bounds {n : Nat} (f : Fin n → Word) (off : Nat) (v : Word) (V : Vec) (p : List Byte) :
    (Returns (rdW f off) ↔ off % 4 = 0 ∧ off + 4 ≤ 4 * n) ∧
    (Returns (wrW f off v) ↔ off % 4 = 0 ∧ off + 4 ≤ 4 * n) ∧
    (Returns (rdV f off) ↔ off % 4 = 0 ∧ off + 16 ≤ 4 * n) ∧
    (Returns (wrV f off V) ↔ off % 4 = 0 ∧ off + 16 ≤ 4 * n) ∧
    (Returns (rdP p off) ↔ off + 16 ≤ p.length) := by
  have r : ∀ o, Returns (rdW f o) ↔ o % 4 = 0 ∧ o + 4 ≤ 4 * n := fun o =>
    (dite_returns _ _).trans ⟨fun h => by omega, fun h => by omega⟩
  have w : ∀ (g : Fin n → Word) o u, Returns (wrW g o u) ↔ o % 4 = 0 ∧ o + 4 ≤ 4 * n := fun g o u =>
    (dite_returns _ _).trans ⟨fun h => by omega, fun h => by omega⟩
  refine ⟨r off, w f off v, ?_, ?_, ite_returns _ _⟩
  · unfold rdV
    simp only [bind_returns]
    constructor
    · rintro ⟨a, ha, b, hb, c, hc, d, hd, _⟩
      have h1 := (r _).mp ⟨_, ha⟩
      have h2 := (r _).mp ⟨_, hd⟩
      omega
    · intro h
      obtain ⟨a, ha⟩ := (r off).mpr (by omega)
      obtain ⟨b, hb⟩ := (r (off + 4)).mpr (by omega)
      obtain ⟨c, hc⟩ := (r (off + 8)).mpr (by omega)
      obtain ⟨d, hd⟩ := (r (off + 12)).mpr (by omega)
      exact ⟨a, ha, b, hb, c, hc, d, hd, returns_ok _⟩
  · unfold wrV
    simp only [bind_returns]
    constructor
    · rintro ⟨a, ha, b, hb, c, hc, hd⟩
      have h1 := (w _ _ _).mp ⟨_, ha⟩
      have h2 := (w _ _ _).mp hd
      omega
    · intro h
      obtain ⟨a, ha⟩ := (w f off V.l0).mpr (by omega)
      obtain ⟨b, hb⟩ := (w a (off + 4) V.l1).mpr (by omega)
      obtain ⟨c, hc⟩ := (w b (off + 8) V.l2).mpr (by omega)
      exact ⟨a, ha, b, hb, c, hc, (w c (off + 12) V.l3).mpr (by omega)⟩

/-- The `n` bytes at offset `a` of a region lie inside it, at a multiple of four for the arrays of words; slots of the frame
have sixteen bytes, at a multiple of sixteen. -/
def Inside (m : Mem) (frame : Word64) (n : Nat) (a : Nat) : Region → Prop
  | .h => a % 4 = 0 ∧ a + n ≤ 20
  | .m1 => a % 4 = 0 ∧ a + n ≤ 320
  | .cs => a % 4 = 0 ∧ a + n ≤ 60
  | .p => a + n ≤ m.p.length
  | .stack => n = 16 ∧ a % 16 = 0 ∧ frame.toNat ≤ a ∧ a + 16 ≤ frame.toNat + 80

theorem ptr_iff (g : Region) (o : Word64) (P : Region → Word64 → Prop) :
    (∃ g' o', Val.ptr g o = .ptr g' o' ∧ P g' o') ↔ P g o :=
  ⟨fun ⟨_, _, h, p⟩ => by cases h; exact p, fun p => ⟨g, o, rfl, p⟩⟩

/-- C48: on amd64 a load or store of sixteen or four bytes faults unless the register holds an address inside an array, the
chunk or the frame; the chunk is never written, MOVDQA and arithmetic with a memory operand take aligned slots of the frame only,
and four bytes are accessed in the arrays of words only. -/
theorem C48_access_amd64 (s : Amd64.St) (off : Nat) (r : Amd64.G) (V : Vec) (v : Word) :
    (Returns (s.load off r) ↔ ∃ g o, s.g r = .ptr g o ∧ Inside s.mem s.frame 16 (o + BitVec.ofNat 64 off).toNat g) ∧
    (Returns (s.store V off r) ↔
      ∃ g o, s.g r = .ptr g o ∧ g ≠ .p ∧ Inside s.mem s.frame 16 (o + BitVec.ofNat 64 off).toNat g) ∧
    (Returns (s.loadA off r) ↔ ∃ o, s.g r = .ptr .stack o ∧ Inside s.mem s.frame 16 (o + BitVec.ofNat 64 off).toNat .stack) ∧
    (Returns (s.storeA V off r) ↔ ∃ o, s.g r = .ptr .stack o ∧ Inside s.mem s.frame 16 (o + BitVec.ofNat 64 off).toNat .stack) ∧
    (Returns (s.loadL off r) ↔
      ∃ g o, s.g r = .ptr g o ∧ g ≠ .p ∧ Inside s.mem s.frame 4 (o + BitVec.ofNat 64 off).toNat g) ∧
    (Returns (s.storeL v off r) ↔
      ∃ g o, s.g r = .ptr g o ∧ g ≠ .p ∧ Inside s.mem s.frame 4 (o + BitVec.ofNat 64 off).toNat g) := by
  have slot : ∀ a : Word64, Returns (s.slot a) ↔ a.toNat % 16 = 0 ∧ s.frame.toNat ≤ a.toNat ∧ a.toNat + 16 ≤ s.frame.toNat + 80 :=
    fun a => ite_returns _ _
  have rd {α : Type} (x : GoM α) {β : Type} (f : α → β) : Returns (x >>= fun v => (pure (f v) : GoM β)) ↔ Returns x := by
    rw [bind_returns]
    exact ⟨fun ⟨v, h, _⟩ => ⟨v, h⟩, fun ⟨v, h⟩ => ⟨v, h, returns_ok _⟩⟩
  have no {α : Type} (p : Panic) : Returns (throw p : GoM α) ↔ False := ⟨fun h => not_returns _ h, False.elim⟩
  unfold Amd64.St.loadA Amd64.St.storeA Amd64.St.load Amd64.St.store Amd64.St.loadL Amd64.St.storeL
  cases hg : s.g r with
  | int w => simp [no]
  | ptr g o =>
    cases g <;>
      simp only [rd, no, slot, (C48_bounds _ _ 0 ⟨0, 0, 0, 0⟩ []).1, (C48_bounds _ _ _ ⟨0, 0, 0, 0⟩ []).2.1,
        (C48_bounds _ _ 0 ⟨0, 0, 0, 0⟩ []).2.2.1, (C48_bounds _ _ 0 _ []).2.2.2.1,
        (C48_bounds (n := 0) Fin.elim0 _ 0 ⟨0, 0, 0, 0⟩ _).2.2.2.2, ptr_iff] <;>
      simp [Inside]

/-- C48: the same on arm64, where there is no frame and the offset is 0. -/
theorem C48_access_arm64 (s : Arm64.St) (r : Arm64.G) (V : Vec) (v : Word) :
    (Returns (s.load r) ↔ ∃ g o, s.g r = .ptr g o ∧ g ≠ .stack ∧ Inside s.mem 0 16 o.toNat g) ∧
    (Returns (s.store V r) ↔ ∃ g o, s.g r = .ptr g o ∧ g ≠ .stack ∧ g ≠ .p ∧ Inside s.mem 0 16 o.toNat g) ∧
    (Returns (s.loadS r) ↔ ∃ g o, s.g r = .ptr g o ∧ g ≠ .p ∧ Inside s.mem 0 4 o.toNat g) ∧
    (Returns (s.storeS v r) ↔ ∃ g o, s.g r = .ptr g o ∧ g ≠ .p ∧ Inside s.mem 0 4 o.toNat g) := by
  have rd {α : Type} (x : GoM α) {β : Type} (f : α → β) : Returns (x >>= fun v => (pure (f v) : GoM β)) ↔ Returns x := by
    rw [bind_returns]
    exact ⟨fun ⟨v, h, _⟩ => ⟨v, h⟩, fun ⟨v, h⟩ => ⟨v, h, returns_ok _⟩⟩
  have no {α : Type} (p : Panic) : Returns (throw p : GoM α) ↔ False := ⟨fun h => not_returns _ h, False.elim⟩
  unfold Arm64.St.load Arm64.St.store Arm64.St.loadS Arm64.St.storeS
  cases hg : s.g r with
  | int w => simp [no]
  | ptr g o =>
    cases g <;>
      simp only [rd, no, (C48_bounds _ _ 0 ⟨0, 0, 0, 0⟩ []).1, (C48_bounds _ _ _ ⟨0, 0, 0, 0⟩ []).2.1,
        (C48_bounds _ _ 0 ⟨0, 0, 0, 0⟩ []).2.2.1, (C48_bounds _ _ 0 _ []).2.2.2.1,
        (C48_bounds (n := 0) Fin.elim0 _ 0 ⟨0, 0, 0, 0⟩ _).2.2.2.2, ptr_iff] <;>
      simp [Inside]

/-- Instance: sixteen bytes of the chunk can be loaded from its offset 48 but not from 49, and cannot be stored. -/
example (s : Arm64.St) (hp : s.mem.p.length = 64) (r : Arm64.G) (V : Vec) :
    (s.g r = .ptr .p 48 → Returns (s.load r)) ∧ (s.g r = .ptr .p 49 → ¬ Returns (s.load r)) ∧
    (s.g r = .ptr .p 48 → ¬ Returns (s.store V r)) := by
  have e := C48_access_arm64 s r V 0
  refine ⟨fun h => ?_, fun h => ?_, fun h => ?_⟩
  · rw [e.1, h, ptr_iff]; simp [Inside, hp]
  · rw [e.1, h, ptr_iff]; simp [Inside, hp]
  · rw [e.2.1, h, ptr_iff]; simp

/-- C48: in the flat memory MOVDQA, arithmetic with a memory operand and loads of constants fault at an address that is not a
multiple of sixteen, whatever the permissions. -/
theorem C48_aligned (s : Flat.Amd64.FSt) (off : Nat) (r : Amd64.G) (V : Vec) (c : Amd64.Sym) :
    ((s.ea off r).toNat % 16 ≠ 0 → s.loadA off r = .error .fault ∧ s.storeA V off r = .error .fault) ∧
    ((s.sym c).toNat % 16 ≠ 0 → s.loadC c = .error .fault) := by
  refine ⟨fun h => ⟨?_, ?_⟩, fun h => ?_⟩
  · unfold Flat.Amd64.FSt.loadA
    rw [if_neg h]
    rfl
  · unfold Flat.Amd64.FSt.storeA
    rw [if_neg h]
    rfl
  · unfold Flat.Amd64.FSt.loadC
    rw [if_neg h]
    rfl

/-- C48: the arithmetic of the assembly is never done on addresses in a way that depends on where the arrays lie: adding two of
them, the complement of one, the bitwise and of one outside the frame, and shifting one are faults. -/
theorem C48_addresses (r r' : Region) (o o' : Word64) (s : Amd64.St) (t : Arm64.St) (d e : Amd64.G) (x y : Arm64.G) (n : Nat) :
    (Val.ptr r o).add (.ptr r' o') = .error .fault ∧
    (s.g d = .ptr r o → Amd64.exec s (.notq d) = .error .fault ∧ Amd64.exec s (.andq d e) = .error .fault) ∧
    (s.g d = .ptr r o → r ≠ .stack → Amd64.exec s (.andq e d) = .error .fault) ∧
    (t.g x = .ptr r o → Arm64.exec t (.lsr n x y) = .error .fault ∧ Arm64.exec t (.lsl n x y) = .error .fault) ∧
    (t.g .r16 = .ptr r o → Arm64.skips t = .error .fault) ∧ (t.g .r21 = .ptr r o → Arm64.skips t = .error .fault) := by
  refine ⟨rfl, fun h => ⟨?_, ?_⟩, fun h hr => ?_, fun h => ⟨?_, ?_⟩, fun h => ?_, fun h => ?_⟩
  · simp only [Amd64.exec, h]
    rfl
  · simp only [Amd64.exec, h]
    rfl
  · simp only [Amd64.exec, h]
    cases s.g e <;> cases r <;> first | rfl | exact absurd rfl hr
  · simp only [Arm64.exec, h]
    rfl
  · simp only [Arm64.exec, h]
    rfl
  · simp only [Arm64.skips, h]
    rfl
  · simp only [Arm64.skips, h]
    cases t.g .r16 <;> rfl

end Verif.Props
