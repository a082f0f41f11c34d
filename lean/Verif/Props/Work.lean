import Verif.Proofs.Work
import Verif.Props.Loops

/-!
The exact number of steps (C47) and what it reveals about the data (C54).

Steps are those of `Model/Loops`: see `Props/Loops`.  `Spec/Work` says how many there should be.
-/

namespace Verif.Props

open Verif Verif.Model Verif.Spec

/-- The steps of one compression: 80 and one for the label `rehash`, or the instructions of the assembly. -/
def compressionSteps : Loops.Mach → Nat
  | .portable => 81
  | .amd64 _ _ => 195
  | .arm64 _ _ _ => 169

private theorem cs_eq : LoopProofs.compression = compressionSteps := by funext B; cases B <;> rfl

/-- C47: the block function takes exactly the steps `Spec/Work` counts for the complete blocks it is given, from the
chaining value it is given. -/
theorem C47_block_exact (n : Nat) (hn : n = 32 ∨ n = 64) (B : Loops.Mach) (c : Core) (p : List Byte) :
    ∃ c', B.build.block c p = .ok c' ∧ ∀ budget,
      Loops.block n B c p (budget + work (compressionSteps B) c.h (blocks p)) = .ok (c', budget) := by
  have hb := (Build.impl B.build) c p
  have := LoopProofs.machBlock_exact hn B c _ p hb
  rw [cs_eq] at this
  exact ⟨_, hb, this⟩

/-- C47: so does `Write` on an object with any history, checkpoints restored included; the blocks are those that the pending
bytes and the bytes written make up. -/
theorem C47_write_exact (n : Nat) (hn : n = 32 ∨ n = 64) (B : Loops.Mach) (ops : List Op) (d : Digest) (outs : List Out)
    (hd : new.run B.build.block ops = .ok (d, outs)) (p : List Byte) :
    ∃ d', d.write B.build.block p = .ok (d', p.length, none) ∧ ∀ budget,
      Loops.write n B d p (budget + work (compressionSteps B) d.h (blocks (d.x.1.take d.nx ++ p))) =
        .ok ((d', p.length, none), budget) := by
  have hi := reach_inv B.build.block detGo (Build.impl B.build) ops d outs hd
  obtain ⟨d', w, _⟩ := write_spec B.build.block detGo (Build.impl B.build) d hi p
  have := LoopProofs.write_exact hn B d d' hi.lt p _ w
  rw [cs_eq] at this
  exact ⟨d', w, this⟩

/-- C47: a history of calls on a new object, without restored checkpoints, takes exactly the steps that `Spec/Work` counts
from the messages held. -/
theorem C47_history_exact (n : Nat) (hn : n = 32 ∨ n = 64) (B : Loops.Mach) (ops : List Op)
    (hops : ∀ op ∈ ops, isRestore op = false) :
    ∃ d, ∀ budget, Loops.run n B new ops (budget + runWork (compressionSteps B) [] ops) =
      .ok ((d, results (verdict GoDetected) [] ops), budget) := by
  obtain ⟨d, r, _⟩ := (holds_new detGo).run (Build.impl B.build) ops hops
  have := LoopProofs.run_exact hn B ops hops new d [] (holds_new detGo) _ r
  rw [cs_eq, detGo_eq] at this
  exact ⟨d, this⟩

/-- C47: `Sum(data)` takes exactly the steps for the blocks of the padded message. -/
theorem C47_sum_exact (n : Nat) (hn : n = 32 ∨ n = 64) (B : Loops.Mach) (order : EvalOrder) (data : List Byte) :
    ∃ r, sumPkg B.build.block order data = .ok r ∧ ∀ budget,
      Loops.sumPkg n B order data (budget + work (compressionSteps B) H0 (blocks (pad data))) = .ok (r, budget) := by
  obtain ⟨r, c, hr⟩ := C06_sum_no_panic B.build order data
  have := LoopProofs.sumPkg_exact hn B order data _ hr
  rw [cs_eq] at this
  exact ⟨(r, c), hr, this⟩

theorem work_prefix (c : Nat) (m p : List Byte) : work c H0 (blocks m) ≤ work c H0 (blocks (m ++ p)) := by
  rw [blocks_append_rem, LoopProofs.work_append]
  omega

theorem runWork_append (c : Nat) (a b : List Op) : ∀ m, runWork c m (a ++ b) = runWork c m a + runWork c (a.foldl msgAfter m) b := by
  induction a with
  | nil => intro m; simp [runWork]
  | cons op a ih => intro m; simp [runWork, ih, Nat.add_assoc]

theorem runWork_writes (c : Nat) (ps : List (List Byte)) : ∀ m,
    runWork c m (ps.map .write) + work c H0 (blocks m) = work c H0 (blocks (m ++ ps.flatten)) ∧
      (ps.map Op.write).foldl msgAfter m = m ++ ps.flatten := by
  induction ps with
  | nil => intro m; simp [runWork]
  | cons p ps ih =>
    intro m
    obtain ⟨i1, i2⟩ := ih (m ++ p)
    have := work_prefix c m p
    simp only [List.map_cons, List.foldl_cons, runWork, callWork, msgAfter, List.flatten_cons, i2]
    rw [← List.append_assoc, ← i1]
    refine ⟨by omega, rfl⟩

/-- C47: however a message is divided into `Write` calls, they and a final sum together take exactly the steps of `Sum` on
the whole. -/
theorem C47_splitting (n : Nat) (hn : n = 32 ∨ n = 64) (B : Loops.Mach) (ps : List (List Byte)) (inp : List Byte) :
    ∃ d, ∀ budget, Loops.run n B new (ps.map .write ++ [.collisionResistantSum inp])
      (budget + work (compressionSteps B) H0 (blocks (pad ps.flatten))) =
        .ok ((d, results (verdict GoDetected) [] (ps.map .write ++ [.collisionResistantSum inp])), budget) := by
  obtain ⟨d, h⟩ := C47_history_exact n hn B (ps.map .write ++ [.collisionResistantSum inp]) (fun op hop => by
    rw [List.mem_append, List.mem_map] at hop
    rcases hop with ⟨p, _, rfl⟩ | hop
    · rfl
    · rw [List.mem_singleton] at hop
      subst hop
      rfl)
  refine ⟨d, fun budget => ?_⟩
  rw [← h budget]
  congr 2
  obtain ⟨e1, e2⟩ := runWork_writes (compressionSteps B) ps []
  rw [runWork_append, e2]
  simp only [List.nil_append] at e1 ⊢
  simp only [runWork, callWork]
  have := work_prefix (compressionSteps B) ps.flatten (padTail (BitVec.ofNat 64 ps.flatten.length))
  rw [← pad_eq] at this
  rw [blocks_lt [] (by simp), LoopProofs.work_nil] at e1
  omega

/-- The first five blocks of shattered-1.pdf take 930 steps: two of the six blocks meet the conditions of some vector, and
one is flagged and compressed three times. -/
theorem shattered1_work : work 81 H0 (blocks (pad shattered1)) = 930 := by
  rw [LoopProofs.work_eval 81 6 _ shattered1_pad]
  decide +kernel

/-- Instance: `Sum` needs 930 units for SHAttered, no more and no fewer. -/
example : Loops.sumPkg 64 .portable .callFirst shattered1 930 = .ok ((shatteredDigest1, true), 0) ∧
    Loops.sumPkg 64 .portable .callFirst shattered1 1000 = .ok ((shatteredDigest1, true), 70) := by
  have e : sumPkg blockNoasm .callFirst shattered1 = .ok (shatteredDigest1, true) :=
    (sumPkg_call (build_impl .noasm) _).trans (by rw [shattered1_hash])
  have w := shattered1_work
  revert e w
  generalize shattered1 = m
  intro e w
  obtain ⟨r, hr, h⟩ := C47_sum_exact 64 (.inr rfl) .portable .callFirst m
  have hr : sumPkg blockNoasm .callFirst m = .ok r := hr
  rw [e] at hr
  cases hr
  have w' : work (compressionSteps .portable) H0 (blocks (pad m)) = 930 := w
  rw [w'] at h
  exact ⟨h 0, h 70⟩

/-- Blocks take the least number of steps, `c + 2` each, exactly if none of them meets the unavoidable conditions of any of
the 32 vectors. -/
theorem work_least_iff (c : Nat) (H : Regs) (Ms : List Block) :
    (c + 2) * Ms.length ≤ work c H Ms ∧
      (work c H Ms = (c + 2) * Ms.length ↔ ∀ M ∈ Ms, ∀ k, k < 32 → ubcHolds k (sched M) = false) := by
  have one : ∀ H M, c + 2 ≤ blockWork c H M ∧
      (blockWork c H M = c + 2 ↔ ∀ k, k < 32 → ubcHolds k (sched M) = false) := by
    classical
    intro H M
    refine ⟨by unfold blockWork; omega, ?_⟩
    constructor
    · intro h k hk
      refine Bool.eq_false_iff.mpr fun hm => ?_
      unfold blockWork lookedAt at h
      rw [if_pos ⟨k, hk, hm⟩] at h
      have : 0 < (List.range 32).countP fun k => decide (∀ j < k, ¬ Hit H M j) :=
        List.countP_pos_iff.mpr ⟨0, by simp, by simp⟩
      omega
    · intro h
      have h0 : ¬ ∃ k, Meets M k := fun ⟨k, hk, hm⟩ => by rw [h k hk] at hm; cases hm
      have hd : ¬ GoDetected H M := fun ⟨k, dv, h1, h2, _⟩ => h0 ⟨k, by
        have := (List.getElem?_eq_some_iff.mp h1).1; rwa [dvList_length] at this, h2⟩
      unfold blockWork lookedAt reconstructed
      rw [if_neg h0, if_neg hd,
        List.countP_eq_zero.mpr (fun k _ q => h0 ⟨k, (of_decide_eq_true q).1⟩)]
  induction Ms generalizing H with
  | nil => simp [LoopProofs.work_nil]
  | cons M Ms ih =>
    obtain ⟨i1, i2⟩ := ih (safeCompress detGo H M)
    obtain ⟨o1, o2⟩ := one H M
    rw [LoopProofs.work_cons, List.length_cons, Nat.mul_succ]
    refine ⟨by omega, ?_⟩
    simp only [List.mem_cons, forall_eq_or_imp]
    rw [← o2, ← i2]
    omega

theorem blocks_length (p : List Byte) : (blocks p).length = p.length / 64 := by
  induction h : p.length using Nat.strongRecOn generalizing p with
  | _ n ih =>
    by_cases hp : 64 ≤ p.length
    · rw [blocks_ge p hp, List.length_cons, ih (p.drop 64).length (by simp; omega) _ rfl, List.length_drop]
      omega
    · rw [blocks_lt p (by omega)]
      simp
      omega

/-- C54: `Sum` takes the least number of steps the length of the message allows exactly if no block of the padded message
meets the unavoidable conditions of any of the 32 vectors; no chaining value comes into it. -/
theorem C54_least_iff (n : Nat) (hn : n = 32 ∨ n = 64) (B : Loops.Mach) (order : EvalOrder) (data : List Byte) :
    ∃ r k, sumPkg B.build.block order data = .ok r ∧
      (∀ budget, Loops.sumPkg n B order data (budget + k) = .ok (r, budget)) ∧
      minSteps B * ((data.length + 72) / 64) ≤ k ∧
      (k = minSteps B * ((data.length + 72) / 64) ↔
        ∀ M ∈ blocks (pad data), ∀ j, j < 32 → ubcHolds j (sched M) = false) := by
  obtain ⟨r, hr, h⟩ := C47_sum_exact n hn B order data
  refine ⟨r, _, hr, h, ?_⟩
  have e1 : minSteps B = compressionSteps B + 2 := by cases B <;> rfl
  have e2 : (data.length + 72) / 64 = (blocks (pad data)).length := by
    rw [blocks_length, pad_eq, List.length_append, padTail_length, BitVec.toNat_ofNat]
    unfold zeroPad
    omega
  rw [e1, e2]
  exact work_least_iff _ _ _

/-- C54: hashing is not constant-time: two messages of 55 bytes, neither flagged, of which one takes 83 steps and the other
220. -/
theorem C54_not_constant : ∃ m m' : List Byte, m.length = 55 ∧ m'.length = 55 ∧
    Loops.sumPkg 64 .portable .callFirst m 83 = .ok (((safeHash (verdict GoDetected) m).1, false), 0) ∧
    Loops.sumPkg 64 .portable .callFirst m' 220 = .ok (((safeHash (verdict GoDetected) m').1, false), 0) := by
  have key : ∀ (m : List Byte) (k : Nat), work 81 H0 (blocks (pad m)) = k →
      (safeHash (verdict GoDetected) m).2 = false →
      Loops.sumPkg 64 .portable .callFirst m k = .ok (((safeHash (verdict GoDetected) m).1, false), 0) := by
    intro m k w e
    obtain ⟨r, hr, h⟩ := C47_sum_exact 64 (.inr rfl) .portable .callFirst m
    have := (sumPkg_call (build_impl .noasm) m).symm.trans hr
    cases this
    have h := h 0
    rw [show work (compressionSteps .portable) H0 (blocks (pad m)) = k from w, Nat.zero_add] at h
    rw [h, ← e]
  refine ⟨List.replicate 55 0, List.replicate 55 0x14, rfl, rfl, key _ _ ?_ ?_, key _ _ ?_ ?_⟩
  · rw [LoopProofs.work_eval 81 1 _ (by decide +kernel)]
    decide +kernel
  · rw [go_eval 1 _ (by decide +kernel)]
    decide +kernel
  · rw [LoopProofs.work_eval 81 1 _ (by decide +kernel)]
    decide +kernel
  · rw [go_eval 1 _ (by decide +kernel)]
    decide +kernel

end Verif.Props
