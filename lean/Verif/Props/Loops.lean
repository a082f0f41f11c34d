import Verif.Proofs.Loops
import Verif.Props.Stream
import Verif.Props.Flat

/-!
Termination and work: C47.

The code is run as written in `Model/Loops`: counters are machine integers of the platform (`int` has 32 or 64 bits),
every index is checked when it is used, and every iteration of every loop, every execution of the label `rehash`, every
call of `CalculateDvMask` and every instruction of the assembly (other than `CMP`, branches and `RET`) uses up one unit of
a budget.  A loop that does not end would use up every budget.
-/

namespace Verif.Props

open Verif Verif.Model Verif.Spec

/-- The steps one block takes at least. -/
def minSteps : Loops.Mach → Nat
  | .portable => 83
  | .amd64 _ _ => 197
  | .arm64 _ _ _ => 171

/-- And at most. -/
def maxSteps : Loops.Mach → Nat
  | .portable => 3637
  | .amd64 _ _ => 3979
  | .arm64 _ _ _ => 3901

private theorem lo_eq : LoopProofs.lo = minSteps := by funext B; cases B <;> rfl

private theorem hi_eq : LoopProofs.hi = maxSteps := by funext B; cases B <;> rfl

/-- C47: a call of the amd64 assembly on one chunk, at any addresses and with any contents of the registers, ends after
exactly 195 instructions with the compression of the chunk. -/
theorem C47_amd64 (e : Flat.Amd64.Entry) (ok : e.env.Ok 80) (h : Regs) (p : List Byte) (hp : p.length = 64)
    (m1 : Fin 80 → Word) (cs : Fin 3 → Regs) (budget : Nat) :
    Loops.callAmd64 e h p m1 cs (budget + 195) =
      .ok (⟨compress h (toBlock p), fun i => sched (toBlock p) i, rawCs h (toBlock p)⟩, budget) :=
  LoopProofs.callAmd64_costs e ok h p m1 cs _ (Flat.Amd64.call_ok e.env ok e.x e.g e.r12 h p hp m1 cs) budget

/-- C47: a call of the arm64 assembly on one chunk ends after exactly 169 instructions with the compression of the chunk;
if R16 holds one of the 64 largest values, after 13 instructions with nothing changed. -/
theorem C47_arm64 (e : Flat.Arm64.Entry) (ok : e.env.Ok 0) (h : Regs) (p : List Byte) (hp : p.length = 64)
    (m1 : Fin 80 → Word) (cs : Fin 3 → Regs) (budget : Nat) :
    ((e.g .r16).toNat + 64 < 2 ^ 64 → Loops.callArm64 e h p m1 cs (budget + 169) =
      .ok (⟨compress h (toBlock p), fun i => sched (toBlock p) i, rawCs h (toBlock p)⟩, budget)) ∧
    (2 ^ 64 ≤ (e.g .r16).toNat + 64 → Loops.callArm64 e h p m1 cs (budget + 13) = .ok (⟨h, m1, cs⟩, budget)) :=
  ⟨fun r => LoopProofs.callArm64_costs e ok r h p m1 cs _ (Flat.Arm64.call_ok e.env ok e.v e.g r h p hp m1 cs) budget,
    fun r => LoopProofs.skipArm64_costs e ok r h p m1 cs _ (Flat.Arm64.call_skip e.env ok e.v e.g r h p m1 cs) budget⟩

/-- C47: whatever bytes it is given, the block function ends, without an index out of range, with the result of
`Model/Block` or `Model/Flat`; it makes a bounded number of steps for each complete block and none for the rest. -/
theorem C47_block (n : Nat) (hn : n = 32 ∨ n = 64) (B : Loops.Mach) (c : Core) (p : List Byte) :
    ∃ c' k, B.build.block c p = .ok c' ∧ minSteps B * (p.length / 64) ≤ k ∧ k ≤ maxSteps B * (p.length / 64) ∧
      ∀ budget, k ≤ budget → Loops.block n B c p budget = .ok (c', budget - k) := by
  have hb := (Build.impl B.build) c p
  obtain ⟨k, hk, l, u⟩ := LoopProofs.machBlock_costs hn B c _ p hb
  rw [lo_eq] at l
  rw [hi_eq] at u
  refine ⟨_, k, hb, l, u, fun budget h => ?_⟩
  have := hk (budget - k)
  rwa [Nat.sub_add_cancel h] at this

/-- What a loop should do: while its condition holds, use up one unit and then execute the body. -/
inductive Iterates {S : Type} (cond : S → Bool) (body : S → Loops.M S) : S → Nat → S → Nat → Prop
  | over (s : S) (b : Nat) : cond s = false → Iterates cond body s b s b
  | again (s s' t : S) (b b' r : Nat) : cond s = true → body s b = .ok (s', b') → Iterates cond body s' b' t r →
    Iterates cond body s (b + 1) t r

/-- What ending says: a loop that ends has executed its body again and again, each time using up at least one unit of the budget, until its
condition was false; and if the body never gains budget, that is when it ends. -/
theorem C47_loop_ends {S : Type} (cond : S → Bool) (body : S → Loops.M S) (s t : S) (budget rest : Nat) :
    (Loops.whileLoop cond body s budget = .ok (t, rest) → Iterates cond body s budget t rest ∧ cond t = false) ∧
    ((∀ s b s' b', body s b = .ok (s', b') → b' ≤ b) → Iterates cond body s budget t rest →
      Loops.whileLoop cond body s budget = .ok (t, rest)) := by
  constructor
  · have key : ∀ (fuel : Nat) (s : S) (b : Nat), Loops.whileFuel cond body fuel s b = .ok (t, rest) →
        Iterates cond body s b t rest ∧ cond t = false := by
      intro fuel
      induction fuel with
      | zero =>
        intro s b h
        unfold Loops.whileFuel at h
        by_cases hc : cond s = true
        · rw [if_pos hc] at h; cases h
        · rw [if_neg hc] at h
          cases h
          exact ⟨.over _ _ (by simpa using hc), by simpa using hc⟩
      | succ fuel ih =>
        intro s b h
        unfold Loops.whileFuel at h
        by_cases hc : cond s = true
        · rw [if_pos hc] at h
          cases b with
          | zero => cases h
          | succ b =>
            simp only [bind, StateT.bind, Loops.tick, Except.bind] at h
            match hb : body s b with
            | .ok (s', b') =>
              rw [hb] at h
              exact ⟨.again s s' t b b' rest hc hb (ih s' b' h).1, (ih s' b' h).2⟩
            | .error e => rw [hb] at h; cases h
        · rw [if_neg hc] at h
          cases h
          exact ⟨.over _ _ (by simpa using hc), by simpa using hc⟩
    exact key _ _ _
  · intro hle hi
    have key : ∀ fuel, budget ≤ fuel → Loops.whileFuel cond body fuel s budget = .ok (t, rest) := by
      induction hi with
      | over s b hc =>
        intro fuel _
        cases fuel <;> (unfold Loops.whileFuel; rw [if_neg (by simp [hc])]; rfl)
      | again s s' t b b' r hc hb _ ih =>
        intro fuel hf
        cases fuel with
        | zero => exact absurd hf (by omega)
        | succ fuel =>
          unfold Loops.whileFuel
          rw [if_pos hc]
          simp only [bind, StateT.bind, Loops.tick, Except.bind]
          rw [hb]
          exact ih fuel (by have := hle _ _ _ _ hb; omega)
    exact key budget (Nat.le_refl _)

/-- So a loop whose condition is always true ends with no budget. -/
theorem C47_endless {S : Type} (body : S → Loops.M S) (s : S) (budget : Nat) (r : S × Nat) :
    Loops.whileLoop (fun _ => true) body s budget ≠ .ok r := fun h =>
  Bool.noConfusion ((C47_loop_ends _ body s r.1 budget r.2).1 h).2

/-- What the absence of panics says: an index out of range panics, whatever the budget, and a panic in straight-line code is
one here. -/
theorem C47_panics {n k : Nat} {α β : Type} (a : Fin k → α) (p : List β) (i : BitVec n) (v : α) (e : Panic) (budget : Nat) :
    (k ≤ i.toNat → Loops.ld a i budget = .error (.panic .indexOutOfRange) ∧
      Loops.st a i v budget = .error (.panic .indexOutOfRange)) ∧
    (p.length ≤ i.toNat → Loops.ldSlice p i budget = .error (.panic .indexOutOfRange)) ∧
    Loops.lift (.error e : GoM α) budget = .error (.panic e) := by
  refine ⟨fun h => ⟨?_, ?_⟩, fun h => ?_, rfl⟩
  · unfold Loops.ld; rw [dif_neg (by omega)]; rfl
  · unfold Loops.st; rw [dif_neg (by omega)]; rfl
  · unfold Loops.ldSlice; rw [dif_neg (by omega)]; rfl

/-- Instance: a loop that ends. -/
example : Loops.whileLoop (fun i : Nat => decide (i < 3)) (fun i => pure (i + 1)) 0 7 = .ok (3, 4) := by rfl

/-- A block function given two and a half blocks makes at least 166 and at most 7274 steps. -/
example (c : Core) : ∃ c' k, 166 ≤ k ∧ k ≤ 7274 ∧
    Loops.block 32 .portable c (List.replicate 160 7) k = .ok (c', 0) := by
  obtain ⟨c', k, _, l, u, h⟩ := C47_block 32 (.inl rfl) .portable c (List.replicate 160 7)
  simp only [List.length_replicate, minSteps, maxSteps] at l u
  exact ⟨c', k, l, u, by simpa using h k (Nat.le_refl k)⟩

/-- C47: `Write` on an object with any history hashes exactly the blocks that the bytes written complete: with `r` bytes
pending before and `r'` after, `(r + len(p) - r') / 64` blocks, each within the bounds above. -/
theorem C47_write (n : Nat) (hn : n = 32 ∨ n = 64) (B : Loops.Mach) (ops : List Op) (d : Digest) (outs : List Out)
    (hd : new.run B.build.block ops = .ok (d, outs)) (p : List Byte) :
    ∃ d' b k, d.write B.build.block p = .ok (d', p.length, none) ∧ 64 * b + d'.nx = d.nx + p.length ∧ d'.nx < 64 ∧
      minSteps B * b ≤ k ∧ k ≤ maxSteps B * b ∧
      ∀ budget, k ≤ budget → Loops.write n B d p budget = .ok ((d', p.length, none), budget - k) := by
  have hi := reach_inv B.build.block detGo (Build.impl B.build) ops d outs hd
  obtain ⟨d', w, _⟩ := write_spec B.build.block detGo (Build.impl B.build) d hi p
  obtain ⟨b, k, hk, l, u, a, z⟩ := LoopProofs.write_costs hn B d d' hi.lt p _ w
  rw [lo_eq] at l
  rw [hi_eq] at u
  refine ⟨d', b, k, w, a, z, l, u, fun budget h => ?_⟩
  have := hk (budget - k)
  rwa [Nat.sub_add_cancel h] at this

/-- After 60 bytes, ten more make the object hash one block. -/
example (d : Digest) (outs : List Out) (hd : new.run blockNoasm [.write (List.replicate 60 1)] = .ok (d, outs)) :
    ∃ d' k, d.write blockNoasm (List.replicate 10 2) = .ok (d', 10, none) ∧ d'.nx = 6 ∧ 83 ≤ k ∧ k ≤ 3637 ∧
      Loops.write 64 .portable d (List.replicate 10 2) k = .ok ((d', 10, none), 0) := by
  obtain ⟨d0, b0, k0, w0, a0, z0, _⟩ := C47_write 64 (.inr rfl) .portable [] new [] rfl (List.replicate 60 1)
  have e : d = d0 := by
    have w0 : new.write blockNoasm (List.replicate 60 1) = .ok (d0, _, _) := w0
    simp only [Digest.run, Digest.call, w0, bind, Except.bind, pure, Except.pure] at hd
    cases hd
    rfl
  subst e
  obtain ⟨d', b, k, w, a, z, l, u, h⟩ := C47_write 64 (.inr rfl) .portable _ d outs hd (List.replicate 10 2)
  simp only [List.length_replicate, show new.nx = 0 from rfl] at a0 a
  have hb : b = 1 := by omega
  subst hb
  simp only [minSteps, maxSteps] at l u
  exact ⟨d', k, w, by omega, by omega, by omega, by simpa using h k (Nat.le_refl k)⟩

/-- The bytes a call may cause to be hashed: those written; two blocks of pending bytes and padding for the observers;
one block of pending bytes that come with a checkpoint. -/
def bytesHashed : Op → Nat
  | .write p => p.length
  | .sum _ => 128
  | .collisionResistantSum _ => 128
  | .unmarshalBinary _ => 64
  | .reset => 0
  | .size => 0
  | .blockSize => 0
  | .marshalBinary => 0

/-- C47: every history of calls on a new object ends, without an index out of range, with the results of `Model/Digest`
and after at most 3637/64 steps (less than 57; 63 on amd64 and 61 on arm64) for each byte handed to it. -/
theorem C47_history (n : Nat) (hn : n = 32 ∨ n = 64) (B : Loops.Mach) (ops : List Op) :
    ∃ d outs k, new.run B.build.block ops = .ok (d, outs) ∧ 64 * k ≤ maxSteps B * (ops.map bytesHashed).sum ∧
      ∀ budget, k ≤ budget → Loops.run n B new ops budget = .ok ((d, outs), budget - k) := by
  obtain ⟨d, outs, r⟩ := C06_no_panic B.build ops
  obtain ⟨k, hk, u⟩ := LoopProofs.run_costs hn B ops new d new_inv outs r
  have e : ops.map LoopProofs.opWork = ops.map bytesHashed :=
    List.map_congr_left fun op _ => by cases op <;> rfl
  rw [e, show new.nx = 0 from rfl, Nat.zero_add, hi_eq] at u
  refine ⟨d, outs, k, r, by omega, fun budget h => ?_⟩
  have := hk (budget - k)
  rwa [Nat.sub_add_cancel h] at this

/-- Writing a SHAttered prefix, looking at the sum twice and resetting costs fewer than 57 steps per byte. -/
example : ∃ d outs k, new.run blockNoasm [.write shattered1, .sum [], .collisionResistantSum [1], .reset] = .ok (d, outs) ∧
    64 * k ≤ 3637 * (shattered1.length + 256) ∧
    Loops.run 64 .portable new [.write shattered1, .sum [], .collisionResistantSum [1], .reset] k = .ok ((d, outs), 0) := by
  generalize shattered1 = m
  obtain ⟨d, outs, k, r, u, h⟩ := C47_history 64 (.inr rfl) .portable [.write m, .sum [], .collisionResistantSum [1], .reset]
  refine ⟨d, outs, k, r, by simpa [bytesHashed, maxSteps] using u, ?_⟩
  simpa using h k (Nat.le_refl k)

/-- C47: `Sum(data)` hashes exactly the `(len(data) + 72) / 64` blocks of the padded message, each within
the bounds above. -/
theorem C47_sum (n : Nat) (hn : n = 32 ∨ n = 64) (B : Loops.Mach) (order : EvalOrder) (data : List Byte) :
    ∃ r k, sumPkg B.build.block order data = .ok r ∧ minSteps B * ((data.length + 72) / 64) ≤ k ∧
      k ≤ maxSteps B * ((data.length + 72) / 64) ∧
      ∀ budget, k ≤ budget → Loops.sumPkg n B order data budget = .ok (r, budget - k) := by
  obtain ⟨r, c, hr⟩ := C06_sum_no_panic B.build order data
  obtain ⟨k, hk, l, u⟩ := LoopProofs.sumPkg_costs hn B order data _ hr
  rw [lo_eq] at l
  rw [hi_eq] at u
  refine ⟨(r, c), k, hr, l, u, fun budget h => ?_⟩
  have := hk (budget - k)
  rwa [Nat.sub_add_cancel h] at this

/-- The empty message is one block, a message of 56 bytes two. -/
example : ∃ r k, 166 ≤ k ∧ k ≤ 7274 ∧ Loops.sumPkg 32 .portable .callFirst (List.replicate 56 0) k = .ok (r, 0) := by
  obtain ⟨r, k, _, l, u, h⟩ := C47_sum 32 (.inl rfl) .portable .callFirst (List.replicate 56 0)
  simp only [List.length_replicate, minSteps, maxSteps] at l u
  exact ⟨r, k, l, u, by simpa using h k (Nat.le_refl k)⟩

/-- The places in memory of C48 for amd64 and arm64. -/
def exAmd64 : Loops.Mach := .amd64 (fun k => ⟨exEnv, fun _ => ⟨BitVec.ofNat 32 k, 2, 3, 4⟩, fun _ => 7, 9⟩) fun _ => exEnv_ok

def exArm64 : Loops.Mach :=
  .arm64 (fun k => ⟨exEnv0, fun _ => ⟨BitVec.ofNat 32 k, 2, 3, 4⟩, fun _ => 0x10001⟩) (fun _ => exEnv0_ok)
    fun _ => show (0x10001 : Word64).toNat + 64 < 2 ^ 64 by decide

/-- On the two block collision of SHAttered, amd64 and arm64 end with the digest and the flag raised. -/
example : (∃ k, Loops.sumPkg 64 exAmd64 .callFirst shattered1 k = .ok ((shatteredDigest1, true), 0)) ∧
    ∃ k, Loops.sumPkg 64 exArm64 .callFirst shattered1 k = .ok ((shatteredDigest1, true), 0) := by
  have e : ∀ B : Loops.Mach, sumPkg B.build.block .callFirst shattered1 = .ok (shatteredDigest1, true) := fun B =>
    (sumPkg_call (build_impl B.build) _).trans (by rw [shattered1_hash])
  revert e
  generalize shattered1 = m
  intro e
  have g : ∀ B : Loops.Mach, ∃ k, Loops.sumPkg 64 B .callFirst m k = .ok ((shatteredDigest1, true), 0) := fun B => by
    obtain ⟨r, k, hr, _, _, h⟩ := C47_sum 64 (.inr rfl) B .callFirst m
    rw [e B] at hr
    cases hr
    exact ⟨k, by simpa using h k (Nat.le_refl k)⟩
  exact ⟨g exAmd64, g exArm64⟩

/-- Two blocks on amd64 take 394 to 7958 steps. -/
example : ∃ r k, 394 ≤ k ∧ k ≤ 7958 ∧ Loops.sumPkg 64 exAmd64 .callFirst (List.replicate 56 0) k = .ok (r, 0) := by
  obtain ⟨r, k, _, l, u, h⟩ := C47_sum 64 (.inr rfl) exAmd64 .callFirst (List.replicate 56 0)
  simp only [List.length_replicate, exAmd64, minSteps, maxSteps] at l u
  exact ⟨r, k, l, u, by simpa using h k (Nat.le_refl k)⟩

end Verif.Props
