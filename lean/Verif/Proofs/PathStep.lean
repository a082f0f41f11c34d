import Verif.Proofs.PathWord
import Verif.Proofs.UbcCount
import Mathlib.Tactic.Ring

/-!
What one step of the two computations says about the signs of the differences that enter it.  The step adds up to nothing modulo
2^32; going through the sum bit by bit with all choices of signs shows which parities of signs are possible.
-/

namespace Verif.Path

open Verif Verif.Spec Verif.Ubc

/-! ### Sums by position -/

/-- `g 0 + 2 * g 1 + 4 * g 2 + …`, `n` terms. -/
def S (g : Nat → Int) : Nat → Int
  | 0 => 0
  | n + 1 => S g n + 2 ^ n * g n

theorem S_add (g h : Nat → Int) (n : Nat) : S (fun p => g p + h p) n = S g n + S h n := by
  induction n with
  | zero => rfl
  | succ n ih => simp only [S, ih, Int.mul_add]; omega

theorem S_congr (g h : Nat → Int) (n : Nat) (e : ∀ p, p < n → g p = h p) : S g n = S h n := by
  induction n with
  | zero => rfl
  | succ n ih => simp only [S, ih (fun p hp => e p (by omega)), e n (by omega)]

theorem S_neg (g : Nat → Int) (n : Nat) : S (fun p => - g p) n = - S g n := by
  induction n with
  | zero => rfl
  | succ n ih => simp only [S, ih, Int.mul_neg]; omega

theorem S_succ' (g : Nat → Int) (n : Nat) : S g (n + 1) = g 0 + 2 * S (fun p => g (p + 1)) n := by
  induction n with
  | zero => simp [S]
  | succ n ih =>
    rw [S, ih]
    simp only [S, Int.mul_add, ← Int.mul_assoc, Int.pow_succ, Int.mul_comm 2 (2 ^ n : Int)]
    omega

/-- A bit as a number. -/
def num (b : Bool) : Int := if b then 1 else 0

theorem S_bits (x : Word) (n : Nat) : S (fun p => num (x.getLsbD p)) n = ((x.toNat % 2 ^ n : Nat) : Int) := by
  induction n with
  | zero => simp [S, Nat.mod_one]
  | succ n ih =>
    rw [S, ih, Nat.mod_pow_succ, bit_nat]
    rcases Nat.mod_two_eq_zero_or_one (x.toNat / 2 ^ n) with h | h <;> simp [num, h]

theorem S_word (x : Word) : S (fun p => num (x.getLsbD p)) 32 = (x.toNat : Int) := by
  rw [S_bits, Nat.mod_eq_of_lt x.isLt]

/-- The difference of two words, bit by bit. -/
theorem S_diff (x x' : Word) : S (fun p => num (x'.getLsbD p) - num (x.getLsbD p)) 32 = (x'.toNat : Int) - x.toNat := by
  have : (fun p => num (x'.getLsbD p) - num (x.getLsbD p)) = fun p => num (x'.getLsbD p) + -num (x.getLsbD p) := by
    funext p; omega
  rw [this, S_add (fun p => num (x'.getLsbD p)) (fun p => - num (x.getLsbD p)), S_neg, S_word, S_word]
  omega

/-! ### Going through a sum bit by bit -/

/-- A digit and a parity. -/
abbrev Opt := Int × Bool

def ins (a : Opt) (l : List Opt) : List Opt := if l.contains a then l else a :: l

def nub : List Opt → List Opt
  | [] => []
  | a :: l => ins a (nub l)

theorem mem_nub (a : Opt) (l : List Opt) (h : a ∈ l) : a ∈ nub l := by
  induction l with
  | nil => exact h
  | cons b l ih =>
    simp only [nub, ins]
    rcases List.mem_cons.mp h with rfl | h
    · split
      · rename_i hc
        simpa using hc
      · exact List.mem_cons_self
    · split
      · exact ih h
      · exact List.mem_cons_of_mem _ (ih h)

/-- All carries and parities after adding one digit. -/
def addSlot (st s : List Opt) : List Opt := nub (st.flatMap fun a => s.map fun o => (a.1 + o.1, a.2 ^^ o.2))

/-- The carries out of a position whose sum is even. -/
def shift : List Opt → List Opt
  | [] => []
  | a :: l => if a.1 % 2 = 0 then (a.1 / 2, a.2) :: shift l else shift l

/-- All carries and parities after the positions. -/
def dp : List Opt → List (List (List Opt)) → List Opt
  | st, [] => st
  | st, p :: ps => dp (shift (p.foldl addSlot st)) ps

/-- A choice of a digit from each slot. -/
inductive Picks : List (List Opt) → List Opt → Prop
  | nil : Picks [] []
  | cons {s o ss os} : o ∈ s → Picks ss os → Picks (s :: ss) (o :: os)

def vsum : List Opt → Int
  | [] => 0
  | o :: os => o.1 + vsum os

def par : List Opt → Bool
  | [] => false
  | o :: os => o.2 ^^ par os

theorem Picks.append {s o s' o'} (h : Picks s o) (h' : Picks s' o') : Picks (s ++ s') (o ++ o') := by
  induction h with
  | nil => exact h'
  | cons h _ ih => exact .cons h ih

theorem vsum_append (a b : List Opt) : vsum (a ++ b) = vsum a + vsum b := by
  induction a with
  | nil => simp [vsum]
  | cons o a ih => simp only [List.cons_append, vsum, ih]; omega

theorem par_append (a b : List Opt) : par (a ++ b) = (par a ^^ par b) := by
  induction a with
  | nil => simp [par]
  | cons o a ih => simp only [List.cons_append, par, ih, Bool.xor_assoc]

theorem foldl_slots {ss os} (h : Picks ss os) (st : List Opt) (a : Opt) (ha : a ∈ st) :
    (a.1 + vsum os, a.2 ^^ par os) ∈ ss.foldl addSlot st := by
  induction h generalizing st a with
  | nil => simpa [vsum, par] using ha
  | @cons s o ss os ho _ ih =>
    have := ih (addSlot st s) (a.1 + o.1, a.2 ^^ o.2)
      (mem_nub _ _ (List.mem_flatMap.mpr ⟨a, ha, List.mem_map.mpr ⟨o, ho, rfl⟩⟩))
    simpa only [List.foldl_cons, vsum, par, Int.add_assoc, Bool.xor_assoc] using this

theorem mem_shift (l : List Opt) (a : Opt) (h : a ∈ l) (he : a.1 % 2 = 0) : (a.1 / 2, a.2) ∈ shift l := by
  induction l with
  | nil => cases h
  | cons b l ih =>
    simp only [shift]
    rcases List.mem_cons.mp h with rfl | h
    · rw [if_pos he]; exact List.mem_cons_self
    · split
      · exact List.mem_cons_of_mem _ (ih h)
      · exact ih h

/-- All positions, from position `p` on. -/
def from_ {α : Type} (g : Nat → α) : Nat → Nat → List α
  | 0, _ => []
  | n + 1, p => g p :: from_ g n (p + 1)

def parAll (ch : Nat → List Opt) : Nat → Nat → Bool
  | 0, _ => false
  | n + 1, p => par (ch p) ^^ parAll ch n (p + 1)

/-- If the digits add up to a multiple of 2^n, the parity is among the possible ones. -/
theorem dp_sound (sl : Nat → List (List Opt)) (ch : Nat → List Opt) :
    ∀ (n p : Nat) (_ : ∀ q, p ≤ q → q < p + n → Picks (sl q) (ch q)) (st : List Opt) (a : Opt), a ∈ st →
      (2 ^ n : Int) ∣ a.1 + S (fun q => vsum (ch (p + q))) n →
      ∃ c, (c, a.2 ^^ parAll ch n p) ∈ dp st (from_ sl n p) := by
  intro n
  induction n with
  | zero => intro p _ st a ha _; exact ⟨a.1, by simpa [parAll, from_, dp] using ha⟩
  | succ n ih =>
    intro p hp st a ha hd
    rw [S_succ'] at hd
    obtain ⟨k, hk⟩ := hd
    simp only [Nat.add_zero] at hk
    have e : (a.1 + vsum (ch p)) % 2 = 0 := by
      rw [Int.pow_succ, Int.mul_comm _ 2, Int.mul_assoc] at hk
      omega
    have h1 := mem_shift _ _ (foldl_slots (hp p (Nat.le_refl p) (by omega)) st a ha) e
    have h2 := ih (p + 1) (fun q h1 h2 => hp q (by omega) (by omega)) _ _ h1 ⟨k, by
      have : (fun q => vsum (ch (p + 1 + q))) = fun q => vsum (ch (p + (q + 1))) := by
        funext q; rw [Nat.add_assoc, Nat.add_comm 1 q]
      rw [this]
      rw [Int.pow_succ, Int.mul_comm _ 2, Int.mul_assoc] at hk
      simp only
      omega⟩
    simpa only [from_, dp, parAll, Bool.xor_assoc] using h2

/-! ### The sum of one step -/

/-- What is known of the two computations: the kinds of the working variables, the bits of the vector at them, and the
differences of the message words. -/
structure Ctx where
  kind : Nat → Kind
  d : Nat → Nat
  w : Nat → Nat

/-- Which bit of a word becomes bit `p` when the word is rotated by 5 and by 30. -/
def p5 (p : Nat) : Nat := if p < 5 then p + 27 else p - 5
def p30 (p : Nat) : Nat := if p < 30 then p + 2 else p - 30

/-- The number of a bit of a working variable; those of the message words are `32 * t + j`. -/
def code (i j : Nat) : Nat := 32 * (80 + i) + j

def opt {α : Type} (b : Bool) (x : α) : List α := if b then [x] else []

/-- The digits of a bit that differs: up if the bit is clear, down if it is set. -/
def slotA (rel : Nat) (coef : Int) (m j c : Nat) : List (List Opt) :=
  opt (m.testBit j) [(coef, false), (-coef, rel.testBit c)]

def flipsOf (mu ma : Bool) : List Bool := if mu then [true] else if ma then [false, true] else [false]

/-- The logical function of step `t` on three bits. -/
def fbit (t : Nat) (x y z : Bool) : Bool :=
  if t < 40 ∨ 60 ≤ t then x ^^ y ^^ z else (x && y) ^^ (x && z) ^^ (y && z)

/-- An input of the logical function: whether its bit differs, may differ, and whether the bit counts towards the parity. -/
structure In where
  mu : Bool
  ma : Bool
  at_ : Bool

def digF (t : Nat) (x y z fx fy fz : Bool) : Int := num (fbit t (x ^^ fx) (y ^^ fy) (z ^^ fz)) - num (fbit t x y z)

def optsF (t : Nat) (b c d : In) : List Opt :=
  nub ([false, true].flatMap fun x => [false, true].flatMap fun y => [false, true].flatMap fun z =>
    (flipsOf b.mu b.ma).flatMap fun fx => (flipsOf c.mu c.ma).flatMap fun fy => (flipsOf d.mu d.ma).map fun fz =>
      (digF t x y z fx fy fz, (b.at_ && x) ^^ (c.at_ && y) ^^ (d.at_ && z)))

def Ctx.cnt (C : Ctx) (i j : Nat) : Bool := (C.kind i).ex && ((C.kind i).must (C.d i)).testBit j

def Ctx.inp (C : Ctx) (rel i j : Nat) : In :=
  ⟨((C.kind i).must (C.d i)).testBit j, ((C.kind i).may (C.d i)).testBit j, C.cnt i j && rel.testBit (code i j)⟩

def Ctx.cd (C : Ctx) (i : Nat) : Nat := (C.kind i).cd (C.d i)

/-- The slots of position `p` of step `t`. -/
def Ctx.slots (C : Ctx) (rel t p : Nat) : List (List Opt) :=
  slotA rel (-1) (C.cd (t + 1)) p (code (t + 1) p) ++
  (slotA rel 1 (C.cd t) (p5 p) (code t (p5 p)) ++
  (slotA rel 1 (C.cd (t - 4)) (p30 p) (code (t - 4) (p30 p)) ++
  (slotA rel 1 (C.w t) p (32 * t + p) ++
  (let b := C.inp rel (t - 1) p
   let c := C.inp rel (t - 2) (p30 p)
   let d := C.inp rel (t - 3) (p30 p)
   opt (b.ma || c.ma || d.ma) (optsF t b c d)))))

/-- The bits that count at position `p`. -/
def Ctx.codes (C : Ctx) (t p : Nat) : List Nat :=
  opt ((C.cd (t + 1)).testBit p) (code (t + 1) p) ++
  (opt ((C.cd t).testBit (p5 p)) (code t (p5 p)) ++
  (opt ((C.cd (t - 4)).testBit (p30 p)) (code (t - 4) (p30 p)) ++
  (opt ((C.w t).testBit p) (32 * t + p) ++
  (let b := C.inp 0 (t - 1) p
   let c := C.inp 0 (t - 2) (p30 p)
   let d := C.inp 0 (t - 3) (p30 p)
   if b.ma || c.ma || d.ma then
    opt (C.cnt (t - 1) p) (code (t - 1) p) ++ (opt (C.cnt (t - 2) (p30 p)) (code (t - 2) (p30 p)) ++
      opt (C.cnt (t - 3) (p30 p)) (code (t - 3) (p30 p))) else []))))

/-- The words of the first computation that the context speaks about. -/
structure Run (C : Ctx) (W A A' v : Nat → Word) : Prop where
  good : ∀ i, 31 ≤ i → i ≤ 66 → Good (C.kind i) (C.d i) (A i) (A' i) (v i)
  step : ∀ t, 35 ≤ t → t ≤ 65 → A (t + 1) = rotl 5 (A t) + f t (A (t - 1)) (rotl 30 (A (t - 2))) (rotl 30 (A (t - 3))) +
    rotl 30 (A (t - 4)) + K t + W t
  step' : ∀ t, 35 ≤ t → t ≤ 65 → A' (t + 1) = rotl 5 (A' t) + f t (A' (t - 1)) (rotl 30 (A' (t - 2))) (rotl 30 (A' (t - 3))) +
    rotl 30 (A' (t - 4)) + K t + (W t ^^^ BitVec.ofNat 32 (C.w t))

/-- The words numbered together. -/
def both (W v : Nat → Word) (n : Nat) : Word := if n < 80 then W n else v (n - 80)

def value (W v : Nat → Word) (c : Nat) : Bool := (both W v (c / 32)).getLsbD (c % 32)

theorem value_code (W v : Nat → Word) (i j : Nat) (hj : j < 32) : value W v (code i j) = (v i).getLsbD j := by
  unfold value both code
  rw [show (32 * (80 + i) + j) / 32 = 80 + i by omega, show (32 * (80 + i) + j) % 32 = j by omega,
    if_neg (by omega), show 80 + i - 80 = i by omega]

theorem value_msg (W v : Nat → Word) (t j : Nat) (ht : t < 80) (hj : j < 32) :
    value W v (32 * t + j) = (W t).getLsbD j := by
  unfold value both
  rw [show (32 * t + j) / 32 = t by omega, show (32 * t + j) % 32 = j by omega, if_pos ht]

/-- The parity of the bits counted. -/
def parity (W v : Nat → Word) (rel : Nat) : List Nat → Bool
  | [] => false
  | c :: l => (rel.testBit c && value W v c) ^^ parity W v rel l

theorem parity_append (W v : Nat → Word) (rel : Nat) (a b : List Nat) :
    parity W v rel (a ++ b) = (parity W v rel a ^^ parity W v rel b) := by
  induction a with
  | nil => simp [parity]
  | cons c a ih => simp only [List.cons_append, parity, ih, Bool.xor_assoc]

/-- The digit that an additive bit has. -/
def chA (rel : Nat) (coef : Int) (m j c : Nat) (b : Bool) : List Opt :=
  opt (m.testBit j) (if b then (-coef, rel.testBit c) else (coef, false))

theorem chA_picks (rel : Nat) (coef : Int) (m j c : Nat) (b : Bool) :
    Picks (slotA rel coef m j c) (chA rel coef m j c b) := by
  unfold slotA chA opt
  split
  · refine .cons ?_ .nil
    cases b <;> simp
  · exact .nil

theorem chA_sum (rel : Nat) (coef : Int) (m j c : Nat) (hj : j < 32) (x : Word) :
    vsum (chA rel coef m j c (x.getLsbD j)) = coef * (num ((x ^^^ BitVec.ofNat 32 m).getLsbD j) - num (x.getLsbD j)) := by
  unfold chA opt
  rw [BitVec.getLsbD_xor, ofNat_bit _ _ hj]
  cases m.testBit j <;> cases x.getLsbD j <;> simp [vsum, num]

theorem chA_par (W v : Nat → Word) (rel : Nat) (coef : Int) (m j c : Nat) (b : Bool) (h : value W v c = b) :
    par (chA rel coef m j c b) = parity W v rel (opt (m.testBit j) c) := by
  unfold chA opt
  split
  · subst h
    cases hv : value W v c <;> simp [par, parity, hv]
  · rfl

theorem fbit_eq (t : Nat) (h1 : 20 ≤ t) (x y z : Word) (p : Nat) :
    (f t x y z).getLsbD p = fbit t (x.getLsbD p) (y.getLsbD p) (z.getLsbD p) := by
  unfold f fbit
  rw [if_neg (by omega)]
  split
  · rw [if_pos (by omega)]; simp [Parity, BitVec.getLsbD_xor]
  · split
    · rw [if_neg (by omega)]; simp [Maj, BitVec.getLsbD_xor, BitVec.getLsbD_and]
    · rw [if_pos (by omega)]; simp [Parity, BitVec.getLsbD_xor]

theorem p5_lt (p : Nat) (h : p < 32) : p5 p < 32 := by unfold p5; split <;> omega
theorem p30_lt (p : Nat) (h : p < 32) : p30 p < 32 := by unfold p30; split <;> omega

theorem rotl5_bit (x : Word) (p : Nat) (h : p < 32) : (rotl 5 x).getLsbD p = x.getLsbD (p5 p) :=
  rotl_getLsbD 5 (by decide) x p h

theorem rotl30_bit (x : Word) (p : Nat) (h : p < 32) : (rotl 30 x).getLsbD p = x.getLsbD (p30 p) :=
  rotl_getLsbD 30 (by decide) x p h

/-- The digit of the logical function. -/
def chF (t : Nat) (b c d : In) (x y z x' y' z' : Bool) : List Opt :=
  opt (b.ma || c.ma || d.ma) (digF t x y z (x ^^ x') (y ^^ y') (z ^^ z'), (b.at_ && x) ^^ (c.at_ && y) ^^ (d.at_ && z))

/-- An input says the truth about a bit. -/
structure In.Ok (b : In) (x x' : Bool) : Prop where
  mu : b.mu = true → x' = !x
  ma : b.ma = false → x' = x

theorem In.Ok.mem {b : In} {x x' : Bool} (h : b.Ok x x') : (x ^^ x') ∈ flipsOf b.mu b.ma := by
  unfold flipsOf
  split
  · rename_i e
    rw [h.mu e]
    cases x <;> decide
  · split
    · cases (x ^^ x') <;> decide
    · rename_i e
      rw [h.ma (by simpa using e)]
      cases x <;> decide

theorem bool_mem (x : Bool) : x ∈ [false, true] := by cases x <;> decide

theorem chF_picks (t : Nat) (b c d : In) (x y z x' y' z' : Bool) (hb : b.Ok x x') (hc : c.Ok y y') (hd : d.Ok z z') :
    Picks (opt (b.ma || c.ma || d.ma) (optsF t b c d)) (chF t b c d x y z x' y' z') := by
  unfold chF opt
  split
  · refine .cons (mem_nub _ _ ?_) .nil
    refine List.mem_flatMap.mpr ⟨x, bool_mem x, List.mem_flatMap.mpr ⟨y, bool_mem y, List.mem_flatMap.mpr ⟨z, bool_mem z, ?_⟩⟩⟩
    exact List.mem_flatMap.mpr ⟨_, hb.mem, List.mem_flatMap.mpr ⟨_, hc.mem, List.mem_map.mpr ⟨_, hd.mem, rfl⟩⟩⟩
  · exact .nil

theorem chF_sum (t : Nat) (b c d : In) (x y z x' y' z' : Bool) (hb : b.Ok x x') (hc : c.Ok y y') (hd : d.Ok z z') :
    vsum (chF t b c d x y z x' y' z') = num (fbit t x' y' z') - num (fbit t x y z) := by
  unfold chF opt
  split
  · have e : ∀ u w : Bool, (u ^^ (u ^^ w)) = w := by decide
    simp only [vsum, digF, e, Int.add_zero]
  · rename_i h
    simp only [Bool.or_eq_true, not_or, Bool.not_eq_true] at h
    rw [hb.ma h.1.1, hc.ma h.1.2, hd.ma h.2]
    simp [vsum]

/-- The digits of position `p` of step `t`. -/
def Ctx.ch (C : Ctx) (W A A' v : Nat → Word) (rel t p : Nat) : List Opt :=
  chA rel (-1) (C.cd (t + 1)) p (code (t + 1) p) ((v (t + 1)).getLsbD p) ++
  (chA rel 1 (C.cd t) (p5 p) (code t (p5 p)) ((v t).getLsbD (p5 p)) ++
  (chA rel 1 (C.cd (t - 4)) (p30 p) (code (t - 4) (p30 p)) ((v (t - 4)).getLsbD (p30 p)) ++
  (chA rel 1 (C.w t) p (32 * t + p) ((W t).getLsbD p) ++
   chF t (C.inp rel (t - 1) p) (C.inp rel (t - 2) (p30 p)) (C.inp rel (t - 3) (p30 p))
    ((A (t - 1)).getLsbD p) ((A (t - 2)).getLsbD (p30 p)) ((A (t - 3)).getLsbD (p30 p))
    ((A' (t - 1)).getLsbD p) ((A' (t - 2)).getLsbD (p30 p)) ((A' (t - 3)).getLsbD (p30 p)))))

section
variable {C : Ctx} {W A A' v : Nat → Word} (R : Run C W A A' v)
include R

theorem Run.ok (rel i j : Nat) (h1 : 31 ≤ i) (h2 : i ≤ 66) (hj : j < 32) :
    (C.inp rel i j).Ok ((A i).getLsbD j) ((A' i).getLsbD j) :=
  ⟨fun h => (R.good i h1 h2).must j hj h, fun h => (R.good i h1 h2).may j hj h⟩

theorem Run.picks (rel t p : Nat) (h1 : 35 ≤ t) (h2 : t ≤ 65) (hp : p < 32) :
    Picks (C.slots rel t p) (C.ch W A A' v rel t p) := by
  have h30 := p30_lt p hp
  exact (chA_picks _ _ _ _ _ _).append <| (chA_picks _ _ _ _ _ _).append <| (chA_picks _ _ _ _ _ _).append <|
    (chA_picks _ _ _ _ _ _).append <| chF_picks _ _ _ _ _ _ _ _ _ _
      (R.ok rel _ _ (by omega) (by omega) hp) (R.ok rel _ _ (by omega) (by omega) h30) (R.ok rel _ _ (by omega) (by omega) h30)

theorem Run.par (rel t p : Nat) (h1 : 35 ≤ t) (h2 : t ≤ 65) (hp : p < 32) :
    Path.par (C.ch W A A' v rel t p) = parity W v rel (C.codes t p) := by
  have h30 := p30_lt p hp
  have h5 := p5_lt p hp
  have hcnt : ∀ i j, 31 ≤ i → i ≤ 66 → j < 32 →
      ((C.inp rel i j).at_ && (A i).getLsbD j) = parity W v rel (opt (C.cnt i j) (code i j)) := by
    intro i j hi hi' hj
    unfold opt
    simp only [Ctx.inp]
    cases hc : C.cnt i j
    · simp [parity]
    · have hx : v i = A i := (R.good i hi hi').ex (by
        simp only [Ctx.cnt, Bool.and_eq_true] at hc
        exact hc.1)
      simp [parity, value_code _ _ _ _ hj, hx]
  unfold Ctx.ch Ctx.codes
  rw [par_append, par_append, par_append, par_append, parity_append, parity_append, parity_append, parity_append,
    chA_par W v _ _ _ _ _ _ (value_code _ _ _ _ hp), chA_par W v _ _ _ _ _ _ (value_code _ _ _ _ h5),
    chA_par W v _ _ _ _ _ _ (value_code _ _ _ _ h30), chA_par W v _ _ _ _ _ _ (value_msg _ _ _ _ (by omega) hp)]
  congr 4
  unfold chF opt
  simp only [show ∀ i j, (C.inp rel i j).ma = (C.inp 0 i j).ma from fun _ _ => rfl]
  split
  · unfold opt at hcnt
    rw [parity_append, parity_append, ← hcnt _ _ (by omega) (by omega) hp, ← hcnt _ _ (by omega) (by omega) h30,
      ← hcnt _ _ (by omega) (by omega) h30]
    simp [Path.par]
  · rfl

theorem Run.sum (rel t : Nat) (h1 : 35 ≤ t) (h2 : t ≤ 65) (k5 : (C.kind t).r5 = true) (k30 : (C.kind (t - 4)).r30 = true) :
    (2 ^ 32 : Int) ∣ S (fun p => vsum (C.ch W A A' v rel t p)) 32 := by
  let v1 := v (t + 1)
  let v1' := v (t + 1) ^^^ BitVec.ofNat 32 (C.cd (t + 1))
  let a := rotl 5 (v t)
  let a' := rotl 5 (v t ^^^ BitVec.ofNat 32 (C.cd t))
  let e := rotl 30 (v (t - 4))
  let e' := rotl 30 (v (t - 4) ^^^ BitVec.ofNat 32 (C.cd (t - 4)))
  let w := W t
  let w' := W t ^^^ BitVec.ofNat 32 (C.w t)
  let g := f t (A (t - 1)) (rotl 30 (A (t - 2))) (rotl 30 (A (t - 3)))
  let g' := f t (A' (t - 1)) (rotl 30 (A' (t - 2))) (rotl 30 (A' (t - 3)))
  have hS : S (fun p => vsum (C.ch W A A' v rel t p)) 32 =
      -((v1'.toNat : Int) - v1.toNat) + (((a'.toNat : Int) - a.toNat) + (((e'.toNat : Int) - e.toNat) +
        (((w'.toNat : Int) - w.toNat) + ((g'.toNat : Int) - g.toNat)))) := by
    rw [← S_diff, ← S_diff, ← S_diff, ← S_diff, ← S_diff, ← S_neg, ← S_add, ← S_add, ← S_add, ← S_add]
    apply S_congr
    intro p hp
    have h30 := p30_lt p hp
    have h5 := p5_lt p hp
    unfold Ctx.ch
    rw [vsum_append, vsum_append, vsum_append, vsum_append, chA_sum _ _ _ _ _ hp, chA_sum _ _ _ _ _ h5,
      chA_sum _ _ _ _ _ h30, chA_sum _ _ _ _ _ hp, chF_sum _ _ _ _ _ _ _ _ _ _
        (R.ok rel _ _ (by omega) (by omega) hp) (R.ok rel _ _ (by omega) (by omega) h30)
        (R.ok rel _ _ (by omega) (by omega) h30)]
    simp only [a, a', e, e', g, g', rotl5_bit _ p hp, rotl30_bit _ p hp, fbit_eq t (by omega), v1, v1', w, w']
    omega
  rw [hS]
  have q1 : v1' + a + g + e + w = v1 + a' + g' + e' + w' := by
    have ha := (R.good (t + 1) (by omega) (by omega)).add
    have h5 := (R.good t (by omega) (by omega)).rot5 k5
    have h30 := (R.good (t - 4) (by omega) (by omega)).rot30 k30
    have s := R.step t h1 h2
    have s' := R.step' t h1 h2
    have e1 : v1' = A' (t + 1) - A (t + 1) + v1 := BitVec.sub_eq_iff_eq_add.mp ha.symm
    have e2 : a' = rotl 5 (A' t) - rotl 5 (A t) + a := BitVec.sub_eq_iff_eq_add.mp h5.symm
    have e3 : e' = rotl 30 (A' (t - 4)) - rotl 30 (A (t - 4)) + e := BitVec.sub_eq_iff_eq_add.mp h30.symm
    rw [e1, e2, e3, s, s']
    show rotl 5 (A' t) + g' + rotl 30 (A' (t - 4)) + K t + w' - (rotl 5 (A t) + g + rotl 30 (A (t - 4)) + K t + w) + v1 +
      a + g + e + w = v1 + (rotl 5 (A' t) - rotl 5 (A t) + a) + g' + (rotl 30 (A' (t - 4)) - rotl 30 (A (t - 4)) + e) + w'
    generalize rotl 5 (A' t) = x1
    generalize rotl 5 (A t) = x2
    generalize rotl 30 (A' (t - 4)) = x3
    generalize rotl 30 (A (t - 4)) = x4
    ring
  have q2 := congrArg BitVec.toNat q1
  simp only [BitVec.toNat_add] at q2
  omega

/-- One of the possible parities is the actual one. -/
theorem Run.parity (rel t : Nat) (h1 : 35 ≤ t) (h2 : t ≤ 65) (k5 : (C.kind t).r5 = true)
    (k30 : (C.kind (t - 4)).r30 = true) :
    ∃ c, (c, parAll (C.ch W A A' v rel t) 32 0) ∈ dp [(0, false)] (from_ (C.slots rel t) 32 0) := by
  have := dp_sound (C.slots rel t) (C.ch W A A' v rel t) 32 0 (fun q _ hq => R.picks rel t q h1 h2 (by omega))
    [(0, false)] (0, false) (List.mem_singleton.mpr rfl) (by
      simpa only [Nat.zero_add, Int.zero_add] using R.sum rel t h1 h2 k5 k30)
  simpa only [Bool.false_xor] using this

end

/-! ### Relations -/

/-- The bits that count in step `t`. -/
def Ctx.codesAll (C : Ctx) (t : Nat) : Nat → Nat → List Nat
  | 0, _ => []
  | n + 1, p => C.codes t p ++ C.codesAll t n (p + 1)

theorem Run.parAll {C : Ctx} {W A A' v : Nat → Word} (R : Run C W A A' v) (rel t : Nat) (h1 : 35 ≤ t) (h2 : t ≤ 65) :
    ∀ n p, p + n ≤ 32 → Path.parAll (C.ch W A A' v rel t) n p = Path.parity W v rel (C.codesAll t n p)
  | 0, _, _ => rfl
  | n + 1, p, h => by
    rw [Path.parAll, Ctx.codesAll, parity_append, R.par rel t p h1 h2 (by omega), R.parAll rel t h1 h2 n (p + 1) (by omega)]

/-- The bits of `rel` that count, as a number. -/
def covered (rel : Nat) : List Nat → Nat
  | [] => 0
  | c :: l => if rel.testBit c then 1 <<< c ^^^ covered rel l else covered rel l

theorem eval_covered (W v : Nat → Word) (rel N : Nat) (l : List Nat) (h : l.all (· < N) = true) :
    evalBits (both W v) (List.range N) (covered rel l) = parity W v rel l := by
  induction l with
  | nil => exact evalBits_zero _ _
  | cons c l ih =>
    rw [List.all_cons, Bool.and_eq_true, decide_eq_true_iff] at h
    rw [covered, parity]
    split
    · rename_i hr
      rw [evalBits_xor, evalBits_one _ _ _ List.nodup_range, ih h.2, hr, Bool.true_and,
        decide_eq_true (List.mem_range.mpr h.1), Bool.true_and]
      rfl
    · rename_i hr
      rw [Bool.not_eq_true] at hr
      rw [ih h.2, hr, Bool.false_and, Bool.false_xor]

/-- A relation: the bits listed add up to a constant because of step `t`. -/
structure Rel where
  t : Nat
  bits : List Nat
  c : Bool

def maskOf : List Nat → Nat
  | [] => 0
  | c :: l => 1 <<< c ^^^ maskOf l

/-- How many numbers of bits there are. -/
def top : Nat := 4704

/-- The relation is forced by the step. -/
def Ctx.forced (C : Ctx) (r : Rel) : Bool :=
  decide (35 ≤ r.t) && decide (r.t ≤ 65) && (C.kind r.t).r5 && (C.kind (r.t - 4)).r30 &&
    (let l := C.codesAll r.t 32 0
     l.all (· < top) && covered (maskOf r.bits) l == maskOf r.bits) &&
    (dp [(0, false)] (from_ (C.slots (maskOf r.bits) r.t) 32 0)).all (·.2 == r.c)

theorem Run.forced {C : Ctx} {W A A' v : Nat → Word} (R : Run C W A A' v) (r : Rel) (h : C.forced r = true) :
    evalBits (both W v) (List.range top) (maskOf r.bits) = r.c := by
  simp only [Ctx.forced, Bool.and_eq_true, decide_eq_true_iff, beq_iff_eq] at h
  obtain ⟨⟨⟨⟨⟨h1, h2⟩, k5⟩, k30⟩, hl, hc⟩, hd⟩ := h
  obtain ⟨c, hm⟩ := R.parity (maskOf r.bits) r.t h1 h2 k5 k30
  rw [R.parAll _ _ h1 h2 32 0 (by omega), ← eval_covered W v _ top _ hl, hc] at hm
  generalize evalBits (both W v) (List.range top) (maskOf r.bits) = y at hm ⊢
  have := List.all_eq_true.mp hd _ hm
  exact beq_iff_eq.mp this

/-- The relations listed add up to the condition. -/
def adds (q : BitCond) (rs : List Rel) : Bool :=
  decide (q.w < 80) && decide (q.v < 80) && decide (q.i < 32) && decide (q.j < 32) &&
    (rs.foldr (fun r m => maskOf r.bits ^^^ m) 0 == bits q) && (rs.foldr (fun r b => r.c ^^ b) false == q.c)

theorem adds_holds (W v : Nat → Word) (q : BitCond) (rs : List Rel)
    (hr : ∀ r ∈ rs, evalBits (both W v) (List.range top) (maskOf r.bits) = r.c) (h : adds q rs = true) :
    q.holds W = true := by
  simp only [adds, Bool.and_eq_true, decide_eq_true_iff, beq_iff_eq] at h
  obtain ⟨⟨⟨⟨⟨hw, hv⟩, hi⟩, hj⟩, hb⟩, hc⟩ := h
  have e : evalBits (both W v) (List.range top) (rs.foldr (fun r m => maskOf r.bits ^^^ m) 0) =
      rs.foldr (fun r b => r.c ^^ b) false := by
    clear hb hc
    induction rs with
    | nil => exact evalBits_zero _ _
    | cons r rs ih =>
      rw [List.foldr_cons, List.foldr_cons, evalBits_xor, hr r (by simp), ih fun r h => hr r (by simp [h])]
  rw [hb, hc] at e
  have hm : ∀ n k, n < 80 → k < 32 → decide (32 * n + k ∈ List.range top) = true := fun n k h1 h2 =>
    decide_eq_true (List.mem_range.mpr (by unfold top; omega))
  have hval : ∀ n k, n < 80 → k < 32 →
      (both W v ((32 * n + k) / 32)).getLsbD ((32 * n + k) % 32) = (W n).getLsbD k := value_msg W v
  unfold bits at e
  rw [evalBits_xor, evalBits_one _ _ _ List.nodup_range, evalBits_one _ _ _ List.nodup_range, hm _ _ hw hi, hm _ _ hv hj,
    Bool.true_and, Bool.true_and, hval _ _ hw hi, hval _ _ hv hj] at e
  rw [BitCond.holds, e]
  exact beq_self_eq_true _

/-! ### Carries -/

theorem lsb (t : Nat) (h1 : 35 ≤ t) (a1 a b c d e w : Word)
    (h : a1 = rotl 5 a + f t b (rotl 30 c) (rotl 30 d) + rotl 30 e + K t + w) :
    a1.getLsbD 0 = (a.getLsbD 27 ^^ fbit t (b.getLsbD 0) (c.getLsbD 2) (d.getLsbD 2) ^^ e.getLsbD 2 ^^ (K t).getLsbD 0 ^^
      w.getLsbD 0) := by
  rw [h, add_lsb, add_lsb, add_lsb, add_lsb, rotl5_bit _ 0 (by decide), rotl30_bit _ 0 (by decide), fbit_eq t (by omega),
    rotl30_bit _ 0 (by decide), rotl30_bit _ 0 (by decide)]
  rfl

/-- The lowest bit of the sum of step `t` shows that bit `b` of working variable `i` does not differ, all else being equal
(or differing in the message word and in the result). -/
def Ctx.stop (C : Ctx) (t i b : Nat) : Bool :=
  let same := fun j k => !((C.kind j).may (C.d j)).testBit k
  let x := decide (t < 40) || decide (60 ≤ t)
  decide (35 ≤ t) && decide (t ≤ 65) && stops (C.d i) b &&
    (if (C.w t).testBit 0 then ((C.kind (t + 1)).must (C.d (t + 1))).testBit 0 else same (t + 1) 0) && same (t - 1) 0 && same (t - 3) 2 &&
    ((i == t && b == 27 && same (t - 4) 2 && same (t - 2) 2) ||
     (i == t - 4 && b == 2 && same t 27 && same (t - 2) 2) ||
     (x && i == t - 2 && b == 2 && same t 27 && same (t - 4) 2))

theorem Run.stop {C : Ctx} {W A A' v : Nat → Word} (R : Run C W A A' v) (t i b : Nat) (h : C.stop t i b = true) :
    stops (C.d i) b = true ∧ (A' i).getLsbD b = (A i).getLsbD b := by
  simp only [Ctx.stop, Bool.and_eq_true, Bool.or_eq_true, decide_eq_true_iff, beq_iff_eq, Bool.not_eq_true'] at h
  obtain ⟨⟨⟨⟨⟨⟨h1, h2⟩, hs⟩, ha1⟩, hb⟩, hd⟩, h⟩ := h
  refine ⟨hs, ?_⟩
  have l := lsb t h1 _ _ _ _ _ _ _ (R.step t h1 h2)
  have l' := lsb t h1 _ _ _ _ _ _ _ (R.step' t h1 h2)
  rw [BitVec.getLsbD_xor, ofNat_bit _ _ (by decide)] at l'
  have g := fun i h1 h2 j hj => (R.good i h1 h2).may j hj
  have ha2 : (A' (t + 1)).getLsbD 0 = ((A (t + 1)).getLsbD 0 ^^ (C.w t).testBit 0) := by
    split at ha1
    · rename_i hw
      rw [hw, Bool.xor_true]
      exact (R.good (t + 1) (by omega) (by omega)).must 0 (by decide) ha1
    · rename_i hw
      rw [Bool.not_eq_true] at hw
      rw [hw, Bool.xor_false]
      exact g (t + 1) (by omega) (by omega) 0 (by decide) (by simpa using ha1)
  rw [ha2, g (t - 1) (by omega) (by omega) 0 (by decide) hb,
    g (t - 3) (by omega) (by omega) 2 (by decide) hd, l] at l'
  rcases h with (⟨⟨⟨rfl, rfl⟩, he⟩, hc⟩ | ⟨⟨⟨rfl, rfl⟩, ha⟩, hc⟩) | ⟨⟨⟨⟨hx, rfl⟩, rfl⟩, ha⟩, he⟩
  · rw [g (i - 4) (by omega) (by omega) 2 (by decide) he, g (i - 2) (by omega) (by omega) 2 (by decide) hc] at l'
    revert l'
    generalize (C.w _).testBit 0 = u
    generalize fbit _ _ _ _ = y
    generalize (A' i).getLsbD 27 = z
    cases (A i).getLsbD 27 <;> cases y <;> cases (A (i - 4)).getLsbD 2 <;> cases (K i).getLsbD 0 <;>
      cases (W i).getLsbD 0 <;> cases z <;> cases u <;> decide
  · rw [g t (by omega) (by omega) 27 (by decide) ha, g (t - 2) (by omega) (by omega) 2 (by decide) hc] at l'
    revert l'
    generalize (C.w _).testBit 0 = u
    generalize fbit _ _ _ _ = y
    generalize (A' (t - 4)).getLsbD 2 = z
    cases (A t).getLsbD 27 <;> cases y <;> cases (A (t - 4)).getLsbD 2 <;> cases (K t).getLsbD 0 <;>
      cases (W t).getLsbD 0 <;> cases z <;> cases u <;> decide
  · rw [g t (by omega) (by omega) 27 (by decide) ha, g (t - 4) (by omega) (by omega) 2 (by decide) he] at l'
    revert l'
    unfold fbit
    rw [if_pos hx, if_pos hx]
    generalize (C.w _).testBit 0 = u
    generalize (A' (t - 2)).getLsbD 2 = z
    cases (A t).getLsbD 27 <;> cases (A (t - 1)).getLsbD 0 <;> cases (A (t - 2)).getLsbD 2 <;>
      cases (A (t - 3)).getLsbD 2 <;> cases (A (t - 4)).getLsbD 2 <;> cases (K t).getLsbD 0 <;>
      cases (W t).getLsbD 0 <;> cases z <;> cases u <;> decide

end Verif.Path
