import Verif.Props.Stream
import Verif.Proofs.Conc

/-!
Goroutines: C43.

`(Conf.mk S fun j => goroutine B.block (gs j)).run σ` is the state after the accesses of schedule `σ` (which goroutine
makes each access to memory) when goroutine `j` makes the calls `gs j` and the objects are `S` at the start.
-/

namespace Verif.Props

open Verif Verif.Model Verif.Model.Conc Verif.Conc Verif.Spec

/-- C43.  Objects with any history, any number of goroutines making any calls, in any order of their accesses: if no
goroutine changes an object that another one uses, then every goroutine, once it has made some number of accesses, has
ended without panic, with exactly the results that each of its objects gives when the goroutine's calls on it are made
alone, and has left each of its objects as these calls alone do. -/
theorem C43_goroutines (B : Build) (S : Store) (hS : ∀ o, ∃ pre outs, new.run B.block pre = .ok (S o, outs))
    (gs : Nat → List (Nat × Op)) (hd : Disciplined gs) (i : Nat) :
    ∃ (outs : List Out) (fin : Nat → Digest) (N : Nat), outs.length = (gs i).length ∧
      (∀ o, (S o).run B.block (opsOn o (gs i)) = .ok (fin o, outsOn o (gs i) outs)) ∧
      ∀ σ : List Nat, N ≤ σ.count i →
        ((Conf.mk S fun j => goroutine B.block (gs j)).run σ).gos i = .ret outs ∧
        ∀ o, Uses (gs i) o → ((Conf.mk S fun j => goroutine B.block (gs j)).run σ).store o = fin o := by
  obtain ⟨S', outs, h1, h2, h3⟩ := goroutine_alone B.block (gs i) S fun o => by
    obtain ⟨pre, os, hr⟩ := hS o
    have inv := reach_inv B.block _ (build_impl B) pre _ _ hr
    obtain ⟨d1, _, o1, _, r1, _⟩ := run_sim B.block B.block _ (build_impl B) (build_impl B) (opsOn o (gs i)) (Sim.refl inv).1
    exact ⟨d1, o1, r1⟩
  obtain ⟨N, hN⟩ := interleave B.block S gs hd i S' outs h1
  exact ⟨outs, S', N, h2, h3, hN⟩

/-- C43, the results: if the objects were made by writes, resets and looks, so that object `o` holds `msgOf (pre o)`,
and the goroutine restores nothing, then the results it gets from `o` are those of the specification, as if
nothing else were running. -/
theorem C43_results (B : Build) (S : Store) (pre : Nat → List Op) (hpre : ∀ o, ∀ op ∈ pre o, isRestore op = false)
    (hS : ∀ o, ∃ outs, new.run B.block (pre o) = .ok (S o, outs))
    (gs : Nat → List (Nat × Op)) (hd : Disciplined gs) (i : Nat) (hgs : ∀ c ∈ gs i, isRestore c.2 = false) :
    ∃ (outs : List Out) (N : Nat), outs.length = (gs i).length ∧
      (∀ o, outsOn o (gs i) outs = results goVerdict (msgOf (pre o)) (opsOn o (gs i))) ∧
      ∀ σ : List Nat, N ≤ σ.count i →
        ((Conf.mk S fun j => goroutine B.block (gs j)).run σ).gos i = .ret outs := by
  obtain ⟨outs, fin, N, h1, h2, h3⟩ := C43_goroutines B S (fun o => ⟨pre o, hS o⟩) gs hd i
  refine ⟨outs, N, h1, fun o => ?_, fun σ hσ => (h3 σ hσ).1⟩
  obtain ⟨os, hr⟩ := hS o
  obtain ⟨d, r, hh⟩ := (holds_new goVerdict).run (build_impl B) (pre o) (hpre o)
  rw [hr] at r
  simp only [Except.ok.injEq, Prod.mk.injEq] at r
  obtain ⟨rfl, _⟩ := r
  obtain ⟨d', r', _⟩ := hh.run (build_impl B) (opsOn o (gs i)) fun op hop => by
    obtain ⟨c, hc, rfl⟩ := List.mem_map.mp hop
    exact hgs c (List.mem_filter.mp hc).1
  rw [h2 o] at r'
  simp only [Except.ok.injEq, Prod.mk.injEq] at r'
  exact r'.2

/-- C43, no data race: under the same discipline no schedule reaches a state in which one goroutine is about to write a
location that another is about to access. -/
theorem C43_race_free (B : Build) (S : Store) (gs : Nat → List (Nat × Op)) (hd : Disciplined gs) (σ : List Nat) :
    ¬ ((Conf.mk S fun j => goroutine B.block (gs j)).run σ).Race := by
  rintro ⟨i, j, o, f, w, hij, hi, hj⟩
  have h := same_run B.block S gs hd σ
  have ti := h.touches i
  have tj := h.touches j
  have ci : Changes (gs i) o := by
    revert ti hi
    cases ((Conf.mk S fun j => goroutine B.block (gs j)).run σ).gos i with
    | wr o' f' v k => intro hi ti; cases hi; exact ti.1
    | _ => intro hi; cases hi
  have uj : Uses (gs j) o := by
    revert tj hj
    cases ((Conf.mk S fun j => goroutine B.block (gs j)).run σ).gos j with
    | rd o' f' k => intro hj tj; cases hj; exact tj.1
    | wr o' f' v k =>
      intro hj tj; cases hj
      obtain ⟨c, hc, h1, _⟩ := tj.1
      exact ⟨c, hc, h1⟩
    | _ => intro hj; cases hj
  exact hd i j o hij ci uj

/-- Two goroutines that look at object 0 ("abc") while each writes an object of its own and a third one resets its. -/
def gs43 : Nat → List (Nat × Op)
  | 0 => [(0, .sum []), (1, .write [0x61]), (0, .marshalBinary), (1, .write [0x62, 0x63]), (1, .collisionResistantSum [])]
  | 1 => [(2, .write [0x64]), (0, .collisionResistantSum [7])]
  | 2 => [(3, .reset), (3, .unmarshalBinary [])]
  | _ => []

theorem gs43_ok : Disciplined gs43 := by
  rintro i j o hij ⟨c, hc, rfl, hm⟩ ⟨c', hc', e⟩
  match i, j, hij with
  | 0, 1, _ | 0, 2, _ | 1, 0, _ | 1, 2, _ | 2, 0, _ | 2, 1, _ =>
    simp only [gs43, List.mem_cons, List.not_mem_nil, or_false] at hc hc'
    rcases hc with rfl | rfl | rfl | rfl | rfl <;> rcases hc' with rfl | rfl | rfl | rfl | rfl <;>
      simp_all [isMutator]
  | i + 3, _, _ => simp [gs43] at hc
  | 0, j + 3, _ | 1, j + 3, _ | 2, j + 3, _ => simp [gs43] at hc'
  | 0, 0, h | 1, 1, h | 2, 2, h => exact (h rfl).elim

/-- `Write` does not look at the length. -/
theorem write_len (block : BlockFn) (d : Digest) (L : Word64) (p : List Byte) :
    ({ d with len := L } : Digest).write block p =
      (d.write block p).map fun r => ({ r.1 with len := L + BitVec.ofNat 64 p.length }, r.2) := by
  have fill : ∀ (d : Digest) (L : Word64) (p : List Byte), ({ d with len := L } : Digest).writeFill block p =
      (d.writeFill block p).map fun r => ({ r.1 with len := L }, r.2) := by
    intro d L p
    unfold Digest.writeFill
    simp only
    split
    · split
      · split
        · unfold Digest.callBlock
          simp only [bind, Except.bind]
          cases block ⟨d.h, d.col⟩ (copyAt d.x d.nx _ p).1 <;> rfl
        · rfl
      · rfl
    · rfl
  have bulk : ∀ (d : Digest) (L : Word64) (p : List Byte), ({ d with len := L } : Digest).writeBulk block p =
      (d.writeBulk block p).map fun r => ({ r.1 with len := L }, r.2) := by
    intro d L p
    unfold Digest.writeBulk Digest.callBlock
    split
    · simp only [bind, Except.bind]
      cases block ⟨d.h, d.col⟩ _ <;> rfl
    · rfl
  have tail : ∀ (d : Digest) (L : Word64) (p : List Byte), ({ d with len := L } : Digest).writeTail p =
      { d.writeTail p with len := L } := by
    intro d L p
    unfold Digest.writeTail
    split <;> rfl
  unfold Digest.write
  split
  · rename_i h
    rw [h]
    simp [Except.map, pure, Except.pure]
  · simp only [bind, Except.bind]
    rw [fill d (L + BitVec.ofNat 64 p.length), fill d (d.len + BitVec.ofNat 64 p.length)]
    cases d.writeFill block p with
    | error e => rfl
    | ok r =>
      simp only [Except.map]
      rw [bulk r.1 (L + BitVec.ofNat 64 p.length), bulk r.1 (d.len + BitVec.ofNat 64 p.length)]
      cases r.1.writeBulk block r.2 with
      | error e => rfl
      | ok r' =>
        simp only [Except.map, pure, Except.pure]
        rw [tail r'.1 (L + BitVec.ofNat 64 p.length), tail r'.1 (d.len + BitVec.ofNat 64 p.length)]

/-- A copy whose length is ahead of its bytes by a number that is not a multiple of 64 cannot be finished. -/
theorem torn_checkSum (B : Build) (d : Digest) (hd : DInv d) (n : Nat) (hn : n % 64 ≠ 0) :
    ({ d with len := d.len + BitVec.ofNat 64 n } : Digest).checkSum B.block = .error .nxNotZero := by
  unfold Digest.checkSum
  rw [padding_spec]
  obtain ⟨d', e, hi, hl, _⟩ := write_spec B.block _ (build_impl B) d hd (padTail (d.len + BitVec.ofNat 64 n))
  have hx : d'.nx ≠ 0 := by
    rw [hi, hl, toNat_len_add, padTail_length]
    unfold zeroPad
    rw [BitVec.toNat_add, BitVec.toNat_ofNat]
    omega
  simp only [bind, Except.bind]
  rw [write_len, e]
  simp only [Except.map]
  rw [if_pos hx]
  rfl

/-- C43, why the discipline is needed, although `Sum` works on a copy "to avoid race conditions" (sha1cd.go:160): making
the copy reads the object, and a `Write` at the same time, of any bytes whose number is not a multiple of 64, can let
`Sum` panic, whatever the object holds. -/
theorem C43_race_panics (B : Build) (S : Store) (o : Nat) (hS : ∃ pre outs, new.run B.block pre = .ok (S o, outs))
    (inp p : List Byte) (hp : p.length % 64 ≠ 0) :
    ∃ σ, ((Conf.mk S fun j => goroutine B.block (if j = 0 then [(o, .sum inp)] else if j = 1 then
      [(o, .write p)] else [])).run σ).gos 0 = .panic .nxNotZero := by
  refine ⟨List.replicate 70 0 ++ (List.replicate 2 1 ++ List.replicate 2 0), ?_⟩
  obtain ⟨pre, outs, hr⟩ := hS
  have inv := reach_inv B.block _ (build_impl B) pre _ _ hr
  have torn := torn_checkSum B (S o) inv p.length hp
  rw [run_cat, run_cat, run_solo, run_solo, run_solo]
  simp only [if_true, if_neg (show (0:Nat) ≠ 1 by decide), if_neg (show (1:Nat) ≠ 0 by decide)]
  have e0 : ∃ k, goroutine B.block [(o, .sum inp)] = copy o >>= fun d0 => lift (d0.checkSum B.block) >>= k := by
    refine ⟨fun r => pure [.sum (inp ++ r.2)], ?_⟩
    unfold goroutine goroutine call Model.Conc.sum
    rw [bind_assoc']
    refine congrArg (copy o >>= ·) (funext fun d0 => ?_)
    rw [bind_assoc']
    rfl
  obtain ⟨k, e0⟩ := e0
  have e1 : (solo 2 (S, goroutine B.block [(o, .write p)])).1 =
      S.set o { S o with len := (S o).len + BitVec.ofNat 64 p.length } := by
    have h0 : p.length ≠ 0 := by omega
    unfold goroutine call Model.Conc.write
    simp only [if_neg h0]
    rfl
  have e2 : ∀ (T : Store) (g : Word64 → Bool → Prog (List Out)), (solo 2 (T, rd o .len >>= fun len =>
      rd o .col >>= fun col => g len col)).2 = g (T o).len (T o).col := fun _ _ => rfl
  rw [e0, solo_copy]
  simp only
  rw [e1, e2, set_get, torn]
  rfl

/-- Instance, with the goroutines of `gs43`: whatever the schedule, the second goroutine gets the digest of "abc"
appended to its argument, and the first the digest of "abc" twice, from object 0 and from object 1. -/
example (B : Build) (S : Store) (hS : ∀ o, ∃ outs, new.run B.block (if o = 0 then [.write abc] else []) = .ok (S o, outs)) :
    ∃ N, ∀ σ : List Nat, N ≤ σ.count 0 → N ≤ σ.count 1 →
      ∃ cp, ((Conf.mk S fun j => goroutine B.block (gs43 j)).run σ).gos 0 = .ret [.sum abcDigest, .write 1 none,
        .marshalBinary cp none, .write 2 none, .collisionResistantSum abcDigest false] ∧
      ((Conf.mk S fun j => goroutine B.block (gs43 j)).run σ).gos 1 = .ret [.write 1 none,
        .collisionResistantSum (7 :: abcDigest) false] := by
  have hp : ∀ o : Nat, ∀ op ∈ (if o = 0 then [Op.write abc] else []), isRestore op = false := by
    intro o op h
    split at h
    · rw [List.mem_singleton.mp h]; rfl
    · cases h
  obtain ⟨outs0, N0, l0, r0, f0⟩ := C43_results B S _ hp hS gs43 gs43_ok 0 (by simp [gs43, isRestore])
  obtain ⟨outs1, N1, l1, r1, f1⟩ := C43_results B S _ hp hS gs43 gs43_ok 1 (by simp [gs43, isRestore])
  refine ⟨max N0 N1, fun σ h0 h1 => ?_⟩
  rw [f0 σ (by omega), f1 σ (by omega)]
  match outs0, l0, r0 with
  | [a, b, c, d, e], _, r0 =>
    match outs1, l1, r1 with
    | [a', b'], _, r1 =>
      have a0 := r0 0
      have a1 := r0 1
      have b0 := r1 0
      have b2 := r1 2
      simp [outsOn, opsOn, gs43, results, result, msgAfter, msgOf] at a0 a1 b0 b2
      rw [abc_hash] at a0 b0
      have e3 : [97#8, 98#8, 99#8] = abc := rfl
      rw [e3, abc_hash] at a1
      exact ⟨_, by rw [a0.1, a0.2, a1.1, a1.2.1, a1.2.2], by rw [b0, b2]; rfl⟩

end Verif.Props
