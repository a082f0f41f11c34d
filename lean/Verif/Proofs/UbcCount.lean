import Verif.Proofs.UbcData
import Verif.Proofs.Eval
import Mathlib.SetTheory.Cardinal.Finite
import Mathlib.Data.BitVec

/-!
How many blocks meet the unavoidable conditions of a vector, and how many vectors' conditions a block can meet.
-/

namespace Verif.Ubc

open Verif Verif.Spec

/-! ### Counting -/

/-- The expansion is linear. -/
theorem sched_xor_sched (M D : Block) (t : Nat) : sched (xorBlock M (sched D)) t = sched M t ^^^ sched D t := by
  induction t using Nat.strongRecOn with
  | _ t ih =>
    by_cases h16 : t < 16
    · rw [sched_lt _ _ h16, sched_lt _ _ h16]; rfl
    · rw [sched_ge _ _ (by omega), sched_ge M _ (by omega), sched_ge D _ (by omega), ← rotl_xor,
        ih _ (by omega), ih _ (by omega), ih _ (by omega), ih _ (by omega), xor_shuffle]

/-- The left side of a condition. -/
def lin (q : BitCond) (W : Nat → Word) : Bool := (W q.w).getLsbD q.i ^^ (W q.v).getLsbD q.j

theorem holds_eq (q : BitCond) (W : Nat → Word) : q.holds W = (lin q W == q.c) := rfl

theorem lin_xor (q : BitCond) (M D : Block) :
    lin q (sched (xorBlock M (sched D))) = (lin q (sched M) ^^ lin q (sched D)) := by
  simp only [lin, sched_xor_sched, BitVec.getLsbD_xor]
  cases (sched M q.w).getLsbD q.i <;> cases (sched M q.v).getLsbD q.j <;>
    cases (sched D q.w).getLsbD q.i <;> cases (sched D q.v).getLsbD q.j <;> rfl

theorem xorBlock_twice (M D : Block) : xorBlock (xorBlock M (sched D)) (sched D) = M := by
  funext i
  simp [xorBlock, BitVec.xor_assoc]

/-- Half of the blocks meet one more condition, if there is a difference that only changes that one. -/
def half (P : Block → Prop) (q : BitCond) (D : Block) (hP : ∀ M, P (xorBlock M (sched D)) ↔ P M)
    (hq : lin q (sched D) = true) :
    {M // P M} ≃ Bool × {M // q.holds (sched M) = true ∧ P M} where
  toFun x := (q.holds (sched x.1), if h : q.holds (sched x.1) = true then ⟨x.1, h, x.2⟩ else
    ⟨xorBlock x.1 (sched D), by
      rw [holds_eq, lin_xor, hq]
      rw [holds_eq] at h
      revert h
      cases lin q (sched x.1) <;> cases q.c <;> decide, (hP x.1).mpr x.2⟩)
  invFun y := if y.1 then ⟨y.2.1, y.2.2.2⟩ else ⟨xorBlock y.2.1 (sched D), (hP y.2.1).mpr y.2.2.2⟩
  left_inv x := by
    by_cases h : q.holds (sched x.1) = true
    · simp [h]
    · simp [h, xorBlock_twice]
  right_inv y := by
    obtain ⟨b, M, h, hp⟩ := y
    cases b
    · have hn : q.holds (sched (xorBlock M (sched D))) = false := by
        rw [holds_eq, lin_xor, hq]
        rw [holds_eq] at h
        revert h
        cases lin q (sched M) <;> cases q.c <;> decide
      simp [hn, xorBlock_twice]
    · simp [h]

/-- Each difference changes its condition and none of those after it. -/
def Tri : List BitCond → List Block → Prop
  | [], [] => True
  | q :: cs, D :: Ds => lin q (sched D) = true ∧ (∀ q' ∈ cs, lin q' (sched D) = false) ∧ Tri cs Ds
  | _, _ => False

theorem all_xor (cs : List BitCond) (D : Block) (h : ∀ q ∈ cs, lin q (sched D) = false) (M : Block) :
    cs.all (·.holds (sched (xorBlock M (sched D)))) = true ↔ cs.all (·.holds (sched M)) = true := by
  rw [List.all_eq_true, List.all_eq_true]
  refine forall_congr' fun q => forall_congr' fun hq => ?_
  rw [holds_eq, holds_eq, lin_xor, h q hq, Bool.xor_false]

theorem card_all : ∀ (cs : List BitCond) (Ds : List Block), Tri cs Ds →
    Nat.card {M : Block // cs.all (·.holds (sched M)) = true} * 2 ^ cs.length = Nat.card Block
  | [], [], _ => by
    rw [List.length_nil, Nat.pow_zero, Nat.mul_one]
    exact Nat.card_congr (Equiv.subtypeUnivEquiv fun _ => rfl)
  | q :: cs, D :: Ds, ⟨h1, h2, h3⟩ => by
    have ih := card_all cs Ds h3
    have e := Nat.card_congr (half (fun M => cs.all (·.holds (sched M)) = true) q D (all_xor cs D h2) h1)
    rw [Nat.card_prod, show Nat.card Bool = 2 by simp] at e
    have e' : Nat.card {M : Block // (q :: cs).all (·.holds (sched M)) = true} =
        Nat.card {M : Block // q.holds (sched M) = true ∧ cs.all (·.holds (sched M)) = true} :=
      Nat.card_congr (Equiv.subtypeEquivRight fun M => by rw [List.all_cons, Bool.and_eq_true])
    rw [e', List.length_cons, Nat.pow_succ, ← ih, e, Nat.mul_comm (2 ^ cs.length) 2, ← Nat.mul_assoc]
    congr 1
    exact Nat.mul_comm _ _
  | [], _ :: _, h => h.elim
  | _ :: _, [], h => h.elim

set_option exponentiation.threshold 512 in
theorem card_block : Nat.card Block = 2 ^ 512 := by
  have h : Nat.card Word = 2 ^ 32 := by
    rw [Nat.card_congr (BitVec.equivFin (m := 32)).toEquiv, Nat.card_eq_fintype_card, Fintype.card_fin]
  unfold Block
  rw [Nat.card_fun, h, Nat.card_eq_fintype_card, Fintype.card_fin, ← Nat.pow_mul]

/-! Evaluation of the table. -/

def blockN (n : Nat) : Block := fun i => BitVec.ofNat 32 (n >>> (32 * i.val))

def inRange (q : BitCond) : Bool := decide (q.w < 80) && decide (q.v < 80)

def triL : List BitCond → List Nat → Bool
  | [], [] => true
  | q :: cs, n :: ns =>
    let W := schedL (wordsL (blockN n))
    inRange q && lin q (fnL W) && cs.all (fun q' => !lin q' (fnL W)) && triL cs ns
  | _, _ => false

theorem lin_congr {q : BitCond} (hq : inRange q = true) {W W' : Nat → Word} (h : ∀ t, t < 80 → W t = W' t) :
    lin q W = lin q W' := by
  simp only [inRange, Bool.and_eq_true, decide_eq_true_eq] at hq
  unfold lin
  rw [h _ hq.1, h _ hq.2]

theorem triL_range : ∀ (cs : List BitCond) (ns : List Nat), triL cs ns = true → ∀ q ∈ cs, inRange q = true
  | [], _, _ => by simp
  | q :: cs, n :: ns, h => by
    simp only [triL, Bool.and_eq_true] at h
    intro q' hq'
    rcases List.mem_cons.mp hq' with rfl | hq'
    · exact h.1.1.1
    · exact triL_range cs ns h.2 q' hq'
  | _ :: _, [], h => by simp [triL] at h

theorem triL_spec : ∀ (cs : List BitCond) (ns : List Nat), triL cs ns = true → Tri cs (ns.map blockN)
  | [], [], _ => trivial
  | q :: cs, n :: ns, h => by
    have hr := triL_range _ _ h
    simp only [triL, Bool.and_eq_true, List.all_eq_true, Bool.not_eq_true'] at h
    have hW := (schedL_spec (blockN n) _ (wordsL_spec (blockN n)).1 (wordsL_spec (blockN n)).2).2
    refine ⟨?_, fun q' hq' => ?_, triL_spec cs ns h.2⟩
    · rw [← lin_congr h.1.1.1 hW]; exact h.1.1.2
    · rw [← lin_congr (hr q' (by simp [hq'])) hW]; exact h.1.2 q' hq'
  | [], _ :: _, h => by simp [triL] at h
  | _ :: _, [], h => by simp [triL] at h

theorem flips_ok : (List.range 32).all (fun k => triL (ubcTable.getD k []) (flips.getD k [])) = true := by
  decide +kernel

/-- The blocks that meet the conditions of vector `k` are one in `2 ^ r`, if these are `r` conditions. -/
theorem card_meets (k : Nat) (hk : k < 32) :
    Nat.card {M : Block // ubcHolds k (sched M) = true} * 2 ^ (ubcTable.getD k []).length = 2 ^ 512 := by
  have h := List.all_eq_true.mp flips_ok k (List.mem_range.mpr hk)
  rw [← card_block]
  exact card_all _ _ (triL_spec _ _ h)

/-! ### How many vectors one message can meet -/

/-- The sum of the bits of the words that are set in `m`. -/
def evalBits (W : Nat → Word) : List Nat → Nat → Bool
  | [], _ => false
  | n :: l, m => (m.testBit n && (W (n / 32)).getLsbD (n % 32)) ^^ evalBits W l m

theorem evalBits_xor (W : Nat → Word) (l : List Nat) (m m' : Nat) :
    evalBits W l (m ^^^ m') = (evalBits W l m ^^ evalBits W l m') := by
  induction l with
  | nil => rfl
  | cons n l ih =>
    simp only [evalBits, ih, Nat.testBit_xor]
    cases m.testBit n <;> cases m'.testBit n <;> cases (W (n / 32)).getLsbD (n % 32) <;>
      cases evalBits W l m <;> cases evalBits W l m' <;> rfl

theorem evalBits_zero (W : Nat → Word) (l : List Nat) : evalBits W l 0 = false := by
  induction l with
  | nil => rfl
  | cons n l ih => simp [evalBits, ih]

theorem evalBits_one (W : Nat → Word) (a : Nat) (l : List Nat) (hl : l.Nodup) :
    evalBits W l (1 <<< a) = (decide (a ∈ l) && (W (a / 32)).getLsbD (a % 32)) := by
  induction l with
  | nil => simp [evalBits]
  | cons n l ih =>
    simp only [evalBits, ih hl.of_cons]
    rw [Nat.one_shiftLeft, Nat.testBit_two_pow]
    by_cases h : a = n
    · subst h
      have : a ∉ l := (List.nodup_cons.mp hl).1
      simp [this]
    · simp [h]

/-- A condition as a set of two bits. -/
def bits (q : BitCond) : Nat := 1 <<< (32 * q.w + q.i) ^^^ 1 <<< (32 * q.v + q.j)

def small (q : BitCond) : Bool := decide (q.w < 80) && decide (q.v < 80) && decide (q.i < 32) && decide (q.j < 32)

theorem eval_bits (W : Nat → Word) (q : BitCond) (h : small q = true) : evalBits W (List.range 2560) (bits q) = lin q W := by
  simp only [small, Bool.and_eq_true, decide_eq_true_eq] at h
  unfold bits lin
  rw [evalBits_xor, evalBits_one _ _ _ List.nodup_range, evalBits_one _ _ _ List.nodup_range,
    show (32 * q.w + q.i) / 32 = q.w by omega, show (32 * q.w + q.i) % 32 = q.i by omega,
    show (32 * q.v + q.j) / 32 = q.v by omega, show (32 * q.v + q.j) % 32 = q.j by omega]
  have h1 : 32 * q.w + q.i ∈ List.range 2560 := List.mem_range.mpr (by omega)
  have h2 : 32 * q.v + q.j ∈ List.range 2560 := List.mem_range.mpr (by omega)
  simp [h1, h2]

/-- Conditions that contradict each other: every bit occurs an even number of times, and the right sides do not add up. -/
def refutes (qs : List BitCond) : Bool :=
  qs.all small && (qs.foldr (fun q m => bits q ^^^ m) 0 == 0) && qs.foldr (fun q b => q.c ^^ b) false

theorem refutes_spec (W : Nat → Word) (qs : List BitCond) (h : refutes qs = true) : ¬ ∀ q ∈ qs, q.holds W = true := by
  intro ha
  simp only [refutes, Bool.and_eq_true, List.all_eq_true, beq_iff_eq] at h
  obtain ⟨⟨h1, h2⟩, h3⟩ := h
  have key : ∀ qs : List BitCond, (∀ q ∈ qs, small q = true) → (∀ q ∈ qs, q.holds W = true) →
      evalBits W (List.range 2560) (qs.foldr (fun q m => bits q ^^^ m) 0) = qs.foldr (fun q b => q.c ^^ b) false := by
    intro qs
    induction qs with
    | nil => intro _ _; exact evalBits_zero W _
    | cons q qs ih =>
      intro hs hh
      rw [List.foldr_cons, List.foldr_cons, evalBits_xor, eval_bits W q (hs q (by simp)),
        ih (fun q h => hs q (by simp [h])) (fun q h => hh q (by simp [h]))]
      have := hh q (by simp)
      rw [holds_eq, beq_iff_eq] at this
      rw [this]
  have := key qs h1 ha
  rw [h2, h3, evalBits_zero] at this
  cases this

def Conflict.valid (c : Conflict) : Bool :=
  c.refs.all (fun r => (c.top :: c.others).contains r.1 && decide (r.2 < (ubcTable.getD r.1 []).length)) &&
    refutes (c.refs.map fun r => (ubcTable.getD r.1 []).getD r.2 ⟨0, 0, 0, 0, false⟩)

theorem Conflict.spec (c : Conflict) (h : c.valid = true) (W : Nat → Word) (ho : ∀ k ∈ c.others, ubcHolds k W = true) :
    ubcHolds c.top W = false := by
  refine Bool.eq_false_iff.mpr fun ht => ?_
  simp only [Conflict.valid, Bool.and_eq_true, List.all_eq_true, decide_eq_true_eq] at h
  refine refutes_spec W _ h.2 fun q hq => ?_
  obtain ⟨r, hr, rfl⟩ := List.mem_map.mp hq
  obtain ⟨h1, h2⟩ := h.1 r hr
  have hk : ubcHolds r.1 W = true := by
    have := List.contains_iff_mem.mp h1
    rcases List.mem_cons.mp this with h | h
    · rw [h]; exact ht
    · exact ho _ h
  refine List.all_eq_true.mp hk _ ?_
  generalize ubcTable.getD r.1 [] = l at h2 ⊢
  rw [List.getD_eq_getElem?_getD, List.getElem?_eq_getElem h2]
  exact List.getElem_mem h2

/-- No message that meets the conditions of the vectors in `cur` meets those of more than `n` of the others. -/
def bound (cs : List Conflict) : List Nat → List Nat → Nat → Bool
  | _, [], _ => true
  | cur, k :: rest, n =>
    if rest.length < n then true else
      (cs.any (fun c => c.top == k && c.others.all cur.contains) ||
        match n with
        | 0 => false
        | n + 1 => bound cs (k :: cur) rest n) && bound cs cur rest n

theorem bound_spec (cs : List Conflict) (hcs : cs.all Conflict.valid = true) (W : Nat → Word) :
    ∀ (rest cur : List Nat) (n : Nat), bound cs cur rest n = true → (∀ k ∈ cur, ubcHolds k W = true) →
      rest.countP (fun k => ubcHolds k W) ≤ n
  | [], _, _, _, _ => by simp
  | k :: rest, cur, n, h, hc => by
    unfold bound at h
    split at h
    · exact Nat.le_trans List.countP_le_length (by simp; omega)
    rw [Bool.and_eq_true, Bool.or_eq_true] at h
    have ih := bound_spec cs hcs W rest cur n h.2 hc
    rw [List.countP_cons]
    cases hk : ubcHolds k W with
    | false => simpa using ih
    | true =>
      rcases h.1 with h1 | h1
      · exfalso
        obtain ⟨c, hc1, hc2⟩ := List.any_eq_true.mp h1
        rw [Bool.and_eq_true, List.all_eq_true, beq_iff_eq] at hc2
        have := c.spec (List.all_eq_true.mp hcs c hc1) W fun j hj => hc j (List.contains_iff_mem.mp (hc2.2 j hj))
        rw [hc2.1, hk] at this
        cases this
      · cases n with
        | zero => cases h1
        | succ n =>
          have := bound_spec cs hcs W rest (k :: cur) n h1 (by
            intro j hj
            rcases List.mem_cons.mp hj with rfl | hj
            · exact hk
            · exact hc j hj)
          simp only [if_pos]
          omega

theorem conflicts_ok : (conflicts0 ++ conflicts2).all Conflict.valid = true := by decide +kernel

theorem bound0 : bound conflicts0 [] order0 6 = true := by decide +kernel

theorem bound2 : bound conflicts2 [] order2 6 = true := by decide +kernel

theorem orders : (order0 ++ order2).Perm (List.range 32) := by decide +kernel

/-- No 80 words meet the conditions of more than twelve vectors. -/
theorem most (W : Nat → Word) : (List.range 32).countP (fun k => ubcHolds k W) ≤ 12 := by
  have h := conflicts_ok
  rw [List.all_append, Bool.and_eq_true] at h
  rw [← orders.countP_eq, List.countP_append]
  have h0 := bound_spec conflicts0 h.1 W order0 [] 6 bound0 (by simp)
  have h2 := bound_spec conflicts2 h.2 W order2 [] 6 bound2 (by simp)
  omega

end Verif.Ubc
