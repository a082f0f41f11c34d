import Verif.Model.Loops
import Verif.Proofs.Sim
import Verif.Proofs.FlatCall

/-! `Model/Loops` computes what `Model/Block` and `Model/Digest` compute, and how much of the budget it uses. -/

namespace Verif.LoopProofs

open Verif Verif.Model Verif.Model.Loops

/-- With any budget of at least `k`, the code ends with the result `r` and has used exactly `k`. -/
def Costs {α : Type} (x : M α) (r : α) (k : Nat) : Prop := ∀ n, x (n + k) = .ok (r, n)

theorem bind_ok {α β : Type} {x : M α} {f : α → M β} {n n' : Nat} {a : α} (h : x n = .ok (a, n')) :
    (x >>= f) n = f a n' := by
  show StateT.bind x f n = _
  unfold StateT.bind
  rw [h]
  rfl

theorem Costs.pure {α : Type} (a : α) : Costs (pure a : M α) a 0 := fun _ => rfl

theorem Costs.bind {α β : Type} {x : M α} {f : α → M β} {a : α} {b : β} {k l : Nat} (hx : Costs x a k)
    (hf : Costs (f a) b l) : Costs (x >>= f) b (k + l) := by
  intro n
  show StateT.bind x f _ = _
  unfold StateT.bind
  rw [show n + (k + l) = n + l + k by omega, hx]
  exact hf n

theorem Costs.bind0 {α β : Type} {x : M α} {f : α → M β} {a : α} {b : β} {l : Nat} (hx : Costs x a 0)
    (hf : Costs (f a) b l) : Costs (x >>= f) b l := by
  have := hx.bind hf
  rwa [Nat.zero_add] at this

theorem Costs.cast {α : Type} {x : M α} {r r' : α} {k k' : Nat} (h : Costs x r k) (hr : r = r') (hk : k = k') :
    Costs x r' k' := hr ▸ hk ▸ h

theorem Costs.tick : Costs Loops.tick () 1 := fun _ => rfl

theorem Costs.lift {α : Type} {x : GoM α} {a : α} (h : x = .ok a) : Costs (Loops.lift x) a 0 := by
  subst h; exact fun _ => rfl

/-- The same for a loop, for all budgets. -/
def CostsW {S : Type} (cond : S → Bool) (body : S → M S) (s r : S) (k : Nat) : Prop :=
  ∀ fuel n, n + k ≤ fuel → whileFuel cond body fuel s (n + k) = .ok (r, n)

theorem CostsW.done {S : Type} {cond : S → Bool} {body : S → M S} {s : S} (h : cond s = false) :
    CostsW cond body s s 0 := by
  intro fuel _ _
  cases fuel <;> simp only [whileFuel, h] <;> rfl

theorem CostsW.step {S : Type} {cond : S → Bool} {body : S → M S} {s s' r : S} {k l : Nat} (h : cond s = true)
    (hb : Costs (body s) s' k) (hw : CostsW cond body s' r l) : CostsW cond body s r (1 + k + l) := by
  intro fuel n hf
  obtain ⟨fuel, rfl⟩ : ∃ f, fuel = f + 1 := ⟨fuel - 1, by omega⟩
  simp only [whileFuel, h, if_true]
  rw [show n + (1 + k + l) = n + l + k + 1 by omega]
  refine (bind_ok (Costs.tick _)).trans ?_
  refine (bind_ok (hb _)).trans ?_
  exact hw fuel n (by omega)

theorem CostsW.loop {S : Type} {cond : S → Bool} {body : S → M S} {s r : S} {k : Nat} (h : CostsW cond body s r k) :
    Costs (whileLoop cond body s) r k := fun n => h _ _ (Nat.le_refl _)

/-- A step of a loop with a counter, whose body uses nothing. -/
theorem CostsW.count {C S : Type} {cond : C × S → Bool} {next : C → C} {body : C → S → M S} {c : C} {s t : S} {r : C × S}
    {l : Nat} (h : cond (c, s) = true) (hb : Costs (body c s) t 0)
    (hw : CostsW cond (fun s => body s.1 s.2 >>= fun t => Pure.pure (next s.1, t)) (next c, t) r l) :
    CostsW cond (fun s => body s.1 s.2 >>= fun t => Pure.pure (next s.1, t)) (c, s) r (l + 1) := by
  have h2 : Costs (body c s >>= fun t => Pure.pure (next c, t)) (next c, t) 0 := hb.bind0 (Costs.pure _)
  have := CostsW.step h h2 hw
  rwa [show 1 + 0 + l = l + 1 by omega] at this

/-- `int` has 32 or 64 bits. -/
def IntBits (n : Nat) : Prop := n = 32 ∨ n = 64

theorem nat_lt {n : Nat} (hn : IntBits n) {i : Nat} (h : i < 1000) : (BitVec.ofNat n i).toNat = i := by
  rcases hn with rfl | rfl <;> simp only [BitVec.toNat_ofNat] <;> omega

theorem ofNat_slt {n : Nat} (hn : IntBits n) {i j : Nat} (h : i < 1000) (h' : j < 1000) :
    (BitVec.ofNat n i).slt (BitVec.ofNat n j) = decide (i < j) := by
  have e : ∀ k, k < 1000 → (BitVec.ofNat n k).toInt = k := by
    intro k hk
    rw [BitVec.toInt_eq_toNat_of_lt, nat_lt hn hk]
    rw [nat_lt hn hk]
    rcases hn with rfl | rfl <;> omega
  rw [BitVec.slt, e i h, e j h']
  simp

theorem ofNat_succ (n i : Nat) : BitVec.ofNat n i + 1 = BitVec.ofNat n (i + 1) := by
  rw [BitVec.ofNat_add]
  rfl

theorem ofNat_sub {n : Nat} (hn : IntBits n) {i k : Nat} (h : i < 1000) (hk : k ≤ i) :
    BitVec.ofNat n i - BitVec.ofNat n k = BitVec.ofNat n (i - k) := by
  apply BitVec.eq_of_toNat_eq
  rw [BitVec.toNat_sub, nat_lt hn h, nat_lt hn (by omega), nat_lt hn (by omega)]
  rcases hn with rfl | rfl <;> omega

theorem forUp_costs {n : Nat} (hn : IntBits n) {S : Type} (lo m : Nat) (hm : lo + m < 1000)
    (f : (i : Nat) → lo ≤ i → i < lo + m → S → S) (body : BitVec n → S → M S)
    (hb : ∀ i h1 h2 s, Costs (body (BitVec.ofNat n i) s) (f i h1 h2 s) 0) (s : S) :
    Costs (forUp (BitVec.ofNat n (lo + m)) body (BitVec.ofNat n lo, s))
      (BitVec.ofNat n (lo + m), loopUp lo m f s) m := by
  apply CostsW.loop
  have key : ∀ r j (hj : j + r = m), CostsW (fun s : BitVec n × S => s.1.slt (BitVec.ofNat n (lo + m)))
      (fun s => do let t ← body s.1 s.2; pure (s.1 + 1, t))
      (BitVec.ofNat n (lo + j), loopUp lo j (fun i h1 h2 => f i h1 (by omega)) s)
      (BitVec.ofNat n (lo + m), loopUp lo m f s) r := by
    intro r
    induction r with
    | zero =>
      intro j hj
      obtain rfl : j = m := by omega
      refine CostsW.done ?_
      simp only [ofNat_slt hn hm hm]
      simp
    | succ r ih =>
      intro j hj
      have := ih (j + 1) (by omega)
      refine CostsW.count (next := fun c => c + 1) ?_ (hb (lo + j) (by omega) (by omega) _) (by
        rw [ofNat_succ]; exact this)
      simp only [ofNat_slt hn (show lo + j < 1000 by omega) hm]
      simp
      omega
  have := key m 0 (by omega)
  exact this

theorem word_bits : IntBits 32 := .inl rfl

theorem forUpU_costs {S : Type} (lo m : Nat) (hm : lo + m < 1000)
    (f : (i : Nat) → lo ≤ i → i < lo + m → S → S) (body : Word → S → M S)
    (hb : ∀ i h1 h2 s, Costs (body (BitVec.ofNat 32 i) s) (f i h1 h2 s) 0) (s : S) :
    Costs (forUpU (BitVec.ofNat 32 lo) (BitVec.ofNat 32 (lo + m)) body s) (loopUp lo m f s) m := by
  have lt : ∀ i, i < 1000 → decide (BitVec.ofNat 32 i < BitVec.ofNat 32 (lo + m)) = decide (i < lo + m) := by
    intro i hi
    simp only [BitVec.lt_def, nat_lt word_bits hi, nat_lt word_bits hm]
  have key : ∀ r j (hj : j + r = m), CostsW (fun s : Word × S => decide (s.1 < BitVec.ofNat 32 (lo + m)))
      (fun s => do let t ← body s.1 s.2; pure (s.1 + 1, t))
      (BitVec.ofNat 32 (lo + j), loopUp lo j (fun i h1 h2 => f i h1 (by omega)) s)
      (BitVec.ofNat 32 (lo + m), loopUp lo m f s) r := by
    intro r
    induction r with
    | zero =>
      intro j hj
      obtain rfl : j = m := by omega
      refine CostsW.done ?_
      rw [lt _ hm]
      simp
    | succ r ih =>
      intro j hj
      have := ih (j + 1) (by omega)
      refine CostsW.count (next := fun c => c + 1) ?_ (hb (lo + j) (by omega) (by omega) _) (by
        rw [ofNat_succ]; exact this)
      rw [lt _ (by omega)]
      simp
      omega
  unfold forUpU
  have := (key m 0 (by omega)).loop.bind (f := fun r => pure r.2) (Costs.pure _)
  exact this

/-- A loop down to a bound above 0; `d` is the distance between the counter and the index. -/
theorem forDownU_costs {S : Type} (d lo : Nat) (h0 : 0 < lo + d) : ∀ (m : Nat), lo + m + d < 1000 →
    ∀ (f : (i : Nat) → lo ≤ i → i < lo + m → S → S) (body : Word → S → M S),
    (∀ i h1 h2 s, Costs (body (BitVec.ofNat 32 (i + d)) s) (f i h1 h2 s) 0) → ∀ s,
    CostsW (fun s : Word × S => decide (s.1 ≥ BitVec.ofNat 32 (lo + d)))
      (fun s => do let t ← body s.1 s.2; pure (s.1 - 1, t)) (BitVec.ofNat 32 (lo + m + d - 1), s)
      (BitVec.ofNat 32 (lo + d - 1), loopDown lo m f s) m
  | 0, hm, f, body, hb, s => by
    refine CostsW.done ?_
    simp only [BitVec.le_def, ge_iff_le, nat_lt word_bits (show lo + d < 1000 by omega),
      nat_lt word_bits (show lo + 0 + d - 1 < 1000 by omega)]
    simp
    omega
  | m + 1, hm, f, body, hb, s => by
    have ih := forDownU_costs d lo h0 m (by omega) (fun i h1 h2 => f i h1 (by omega)) body
      (fun i h1 h2 s => hb i h1 (by omega) s) (f (lo + m) (by omega) (by omega) s)
    rw [show lo + (m + 1) + d - 1 = lo + m + d by omega]
    refine CostsW.count (next := fun c => c - 1) ?_ (hb (lo + m) (by omega) (by omega) _) ?_
    · simp only [BitVec.le_def, ge_iff_le, nat_lt word_bits (show lo + d < 1000 by omega),
        nat_lt word_bits (show lo + m + d < 1000 by omega)]
      simp
    · have e : BitVec.ofNat 32 (lo + m + d) - 1 = BitVec.ofNat 32 (lo + m + d - 1) :=
        ofNat_sub (k := 1) word_bits (show lo + m + d < 1000 by omega) (by omega)
      rw [e]
      exact ih

theorem forDownU_loop {S : Type} (d lo m : Nat) (h0 : 0 < lo + d) (hm : lo + m + d < 1000)
    (f : (i : Nat) → lo ≤ i → i < lo + m → S → S) (body : Word → S → M S)
    (hb : ∀ i h1 h2 s, Costs (body (BitVec.ofNat 32 (i + d)) s) (f i h1 h2 s) 0) (s : S) :
    Costs (forDownU (BitVec.ofNat 32 (lo + m + d - 1)) (BitVec.ofNat 32 (lo + d)) body s) (loopDown lo m f s) m := by
  unfold forDownU
  have := (forDownU_costs d lo h0 m hm f body hb s).loop.bind (f := fun r => pure r.2) (Costs.pure _)
  exact this

theorem ld_costs {n k : Nat} {α : Type} (a : Fin k → α) (i : BitVec n) (h : i.toNat < k) :
    Costs (ld a i) (a ⟨i.toNat, h⟩) 0 := by
  unfold ld; rw [dif_pos h]; exact Costs.pure _

theorem st_costs {n k : Nat} {α : Type} (a : Fin k → α) (i : BitVec n) (v : α) (h : i.toNat < k) :
    Costs (st a i v) (upd a ⟨i.toNat, h⟩ v) 0 := by
  unfold st; rw [dif_pos h]; exact Costs.pure _

theorem ldSlice_costs {n : Nat} {α : Type} (p : List α) (j : BitVec n) (h : j.toNat < p.length) :
    Costs (ldSlice p j) p[j.toNat] 0 := by
  unfold ldSlice; rw [dif_pos h]; exact Costs.pure _

theorem and_ix {n : Nat} (hn : IntBits n) {i : Nat} (hi : i < 1000) (a : Fin 16 → Word) :
    Costs (ld a (BitVec.ofNat n i &&& 0xf)) (a (ix i)) 0 := by
  have e : (BitVec.ofNat n i &&& 0xf).toNat = i &&& 0xf := by
    rw [BitVec.toNat_and, nat_lt hn hi]
    exact congrArg (i &&& ·) (nat_lt hn (show 15 < 1000 by decide))
  have h := ld_costs a (BitVec.ofNat n i &&& 0xf) (by rw [e]; exact (ix i).2)
  refine h.cast (congrArg a (Fin.ext e)) rfl

theorem and_ix_sub {n : Nat} (hn : IntBits n) {i : Nat} (hi : i < 1000) (k : Nat) (hk : k ≤ i) (a : Fin 16 → Word) :
    Costs (ld a ((BitVec.ofNat n i - BitVec.ofNat n k) &&& 0xf)) (a (ix (i - k))) 0 := by
  rw [ofNat_sub hn hi hk]
  exact and_ix hn (by omega) a

theorem st_ix {n : Nat} (hn : IntBits n) {i : Nat} (hi : i < 1000) (a : Fin 16 → Word) (v : Word) :
    Costs (st a (BitVec.ofNat n i &&& 0xf) v) (upd a (ix i) v) 0 := by
  have e : (BitVec.ofNat n i &&& 0xf).toNat = i &&& 0xf := by
    rw [BitVec.toNat_and, nat_lt hn hi]
    exact congrArg (i &&& ·) (nat_lt hn (show 15 < 1000 by decide))
  have h := st_costs a (BitVec.ofNat n i &&& 0xf) v (by rw [e]; exact (ix i).2)
  refine h.cast (congrArg (fun k => upd a k v) (Fin.ext e)) rfl

theorem st_at {n k : Nat} (hn : IntBits n) {i : Nat} (hi : i < 1000) (hk : i < k) (a : Fin k → Word) (v : Word) :
    Costs (st a (BitVec.ofNat n i) v) (upd a ⟨i, hk⟩ v) 0 := by
  have e := nat_lt hn hi
  have h := st_costs a (BitVec.ofNat n i) v (by rw [e]; exact hk)
  refine h.cast (congrArg (fun k => upd a k v) (Fin.ext e)) rfl

theorem ld_at {n k : Nat} (hn : IntBits n) {i : Nat} (hi : i < 1000) (hk : i < k) (a : Fin k → Word) :
    Costs (ld a (BitVec.ofNat n i)) (a ⟨i, hk⟩) 0 := by
  have e := nat_lt hn hi
  have h := ld_costs a (BitVec.ofNat n i) (by rw [e]; exact hk)
  exact h.cast (congrArg a (Fin.ext e)) rfl

theorem body1_costs {n : Nat} (hn : IntBits n) (p : List Byte) (hp : 64 ≤ p.length) (i : Nat) (hi : i < 16)
    (s : RoundState) : Costs (body1 p (BitVec.ofNat n i) s) (round1 p hp i hi s) 0 := by
  have ej : ∀ k, k < 4 → (BitVec.ofNat n i * 4 + BitVec.ofNat n k).toNat = i * 4 + k := by
    intro k hk
    rw [BitVec.toNat_add, BitVec.toNat_mul, nat_lt hn (by omega), nat_lt hn (by omega)]
    rw [show (4 : BitVec n).toNat = 4 from nat_lt hn (by decide)]
    rcases hn with rfl | rfl <;> omega
  have e0 : (BitVec.ofNat n i * 4).toNat = i * 4 := by
    rw [BitVec.toNat_mul, nat_lt hn (by omega)]
    rw [show (4 : BitVec n).toNat = 4 from nat_lt hn (by decide)]
    rcases hn with rfl | rfl <;> omega
  have ls : ∀ k (hk : k < 4), Costs (ldSlice p (BitVec.ofNat n i * 4 + BitVec.ofNat n k)) (p[i * 4 + k]'(by omega)) 0 := by
    intro k hk
    refine (ldSlice_costs p _ (by rw [ej k hk]; omega)).cast ?_ rfl
    simp only [ej k hk]
  have l0 : Costs (ldSlice p (BitVec.ofNat n i * 4)) (p[i * 4]'(by omega)) 0 := by
    refine (ldSlice_costs p _ (by rw [e0]; omega)).cast ?_ rfl
    simp only [e0]
  unfold body1
  refine l0.bind0 ((ls 1 (by decide)).bind0 ((ls 2 (by decide)).bind0 ((ls 3 (by decide)).bind0
    ((st_at hn (by omega) hi _ _).bind0 ?_))))
  refine (and_ix hn (by omega) _).bind0 ((and_ix hn (by omega) _).bind0 ((st_at hn (by omega) (by omega) _ _).bind0
    ((Costs.pure _).cast ?_ rfl)))
  rfl

theorem bodyN_costs {n : Nat} (hn : IntBits n) (f : Word → Word → Word → Word) (k : Word) (i : Nat) (h16 : 16 ≤ i)
    (hi : i < 80) (s : RoundState) : Costs (bodyN f k (BitVec.ofNat n i) s) (roundN f k i hi s) 0 := by
  unfold bodyN
  refine (and_ix_sub hn (by omega) 3 (by omega) _).bind0 ((and_ix_sub hn (by omega) 8 (by omega) _).bind0
    ((and_ix_sub hn (by omega) 14 (by omega) _).bind0 ((and_ix hn (by omega) _).bind0
      ((st_ix hn (by omega) _ _).bind0 ?_))))
  refine (and_ix hn (by omega) _).bind0 ((and_ix hn (by omega) _).bind0 ((st_at hn (by omega) hi _ _).bind0
    ((Costs.pure _).cast ?_ rfl)))
  rfl

theorem ofNat_eq {n : Nat} (hn : IntBits n) {i j : Nat} (hi : i < 1000) (hj : j < 1000) :
    (BitVec.ofNat n i = BitVec.ofNat n j) = (i = j) := by
  apply propext
  constructor
  · intro h
    have := congrArg BitVec.toNat h
    rwa [nat_lt hn hi, nat_lt hn hj] at this
  · rintro rfl; rfl

theorem rounds_costs {n : Nat} (hn : IntBits n) (p : List Byte) (hp : 64 ≤ p.length) (h : Regs) (s : RoundState) :
    Costs (Loops.rounds n p h s) (Model.rounds p hp h s) 80 := by
  unfold Loops.rounds
  refine Costs.bind (k := 16) (l := 64) (forUp_costs hn 0 16 (by decide) (fun i _ hi s => round1 p hp i (by omega) s) _
    (fun i h1 h2 s => body1_costs hn p hp i (by omega) s) _) ?_
  refine Costs.bind (k := 4) (l := 60) (forUp_costs hn 16 4 (by decide) (fun i _ hi s => roundN fCh K0 i (by omega) s) _
    (fun i h1 h2 s => bodyN_costs hn _ _ i (by omega) (by omega) s) _) ?_
  refine Costs.bind (k := 20) (l := 40) (forUp_costs hn 20 20 (by decide)
    (fun i _ hi s => roundN fPar K1 i (by omega) s) _
    (fun i h1 h2 s => bodyN_costs hn _ _ i (by omega) (by omega) s) _) ?_
  refine Costs.bind (k := 20) (l := 20) (forUp_costs hn 40 20 (by decide)
    (fun i _ hi s => roundN fMaj K2 i (by omega) (storeCs 58 1 i s)) _
    (fun i h1 h2 s => ?_) _) ?_
  · refine (bodyN_costs hn _ _ i (by omega) (by omega) _).cast ?_ rfl
    unfold storeCs
    simp only [show ((58 : BitVec n)) = BitVec.ofNat n 58 from rfl, ofNat_eq hn (show i < 1000 by omega) (show 58 < 1000 by decide)]
    rfl
  refine Costs.bind (k := 20) (l := 0) (forUp_costs hn 60 20 (by decide)
    (fun i _ hi s => roundN fPar K3 i (by omega) (storeCs 65 2 i s)) _
    (fun i h1 h2 s => ?_) _) (Costs.pure _)
  · refine (bodyN_costs hn _ _ i (by omega) (by omega) _).cast ?_ rfl
    unfold storeCs
    simp only [show ((65 : BitVec n)) = BitVec.ofNat n 65 from rfl, ofNat_eq hn (show i < 1000 by omega) (show 65 < 1000 by decide)]
    rfl

theorem undo_costs (f : Word → Word → Word → Word) (k : Word) (step : Word) (m1 dm : Fin 80 → Word) (i : Nat)
    (hi : i < 80) (s : Regs) : Costs (undoStep f k step m1 dm (BitVec.ofNat 32 i) s)
      (undo f k step i (m1 ⟨i, hi⟩ ^^^ dm ⟨i, hi⟩) s) 0 := by
  have e : step > BitVec.ofNat 32 i ↔ step.toNat > i := by
    rw [gt_iff_lt, BitVec.lt_def, nat_lt word_bits (by omega)]
  unfold undoStep undo
  by_cases h : step.toNat > i
  · simp only [if_pos h, if_pos (e.mpr h)]
    exact (ld_at word_bits (by omega) hi _).bind0 ((ld_at word_bits (by omega) hi _).bind0 (Costs.pure _))
  · simp only [if_neg h, if_neg (fun h' => h (e.mp h'))]
    exact Costs.pure _

theorem redo_costs (f : Word → Word → Word → Word) (k : Word) (step : Word) (m1 dm : Fin 80 → Word) (i : Nat)
    (hi : i < 80) (s : Regs) : Costs (redoStep f k step m1 dm (BitVec.ofNat 32 i) s)
      (redo f k step i (m1 ⟨i, hi⟩ ^^^ dm ⟨i, hi⟩) s) 0 := by
  have e : step ≤ BitVec.ofNat 32 i ↔ step.toNat ≤ i := by
    rw [BitVec.le_def, nat_lt word_bits (by omega)]
  unfold redoStep redo
  by_cases h : step.toNat ≤ i
  · simp only [if_pos h, if_pos (e.mpr h)]
    exact (ld_at word_bits (by omega) hi _).bind0 ((ld_at word_bits (by omega) hi _).bind0 (Costs.pure _))
  · simp only [if_neg h, if_neg (fun h' => h (e.mp h'))]
    exact Costs.pure _

/-- One recompression: 65 iterations backward, 40 forward. -/
theorem hasCollided_costs (step : Word) (m1 dm : Fin 80 → Word) (state h : Regs) :
    Costs (Loops.hasCollided step m1 dm state h) (Model.hasCollided step m1 dm state h) 105 := by
  unfold Loops.hasCollided
  refine Costs.bind (k := 5) (l := 100) (forDownU_loop 0 60 5 (by decide) (by decide)
    (fun i _ hi s => undo fPar K3 step i (m1 ⟨i, by omega⟩ ^^^ dm ⟨i, by omega⟩) s) _
    (fun i _ _ s => undo_costs _ _ _ _ _ i (by omega) s) _) ?_
  refine Costs.bind (k := 20) (l := 80) (forDownU_loop 0 40 20 (by decide) (by decide)
    (fun i _ hi s => undo fMaj K2 step i (m1 ⟨i, by omega⟩ ^^^ dm ⟨i, by omega⟩) s) _
    (fun i _ _ s => undo_costs _ _ _ _ _ i (by omega) s) _) ?_
  refine Costs.bind (k := 20) (l := 60) (forDownU_loop 0 20 20 (by decide) (by decide)
    (fun i _ hi s => undo fPar K1 step i (m1 ⟨i, by omega⟩ ^^^ dm ⟨i, by omega⟩) s) _
    (fun i _ _ s => undo_costs _ _ _ _ _ i (by omega) s) _) ?_
  refine Costs.bind (k := 20) (l := 40) (forDownU_loop 1 0 20 (by decide) (by decide)
    (fun i _ hi s => undo fCh K0 step i (m1 ⟨i, by omega⟩ ^^^ dm ⟨i, by omega⟩) s) _
    (fun i _ _ s => ?_) _) ?_
  · have e : BitVec.ofNat 32 (i + 1) - 1 = BitVec.ofNat 32 i :=
      (ofNat_sub (k := 1) word_bits (show i + 1 < 1000 by omega) (by omega)).trans (by rw [Nat.add_sub_cancel])
    rw [e]
    exact undo_costs _ _ _ _ _ i (by omega) s
  refine Costs.bind (k := 20) (l := 20) (forUpU_costs 40 20 (by decide)
    (fun i _ hi s => redo fMaj K2 step i (m1 ⟨i, by omega⟩ ^^^ dm ⟨i, by omega⟩) s) _
    (fun i _ _ s => redo_costs _ _ _ _ _ i (by omega) s) _) ?_
  exact Costs.bind (k := 20) (l := 0) (forUpU_costs 60 20 (by decide)
    (fun i _ hi s => redo fPar K3 step i (m1 ⟨i, by omega⟩ ^^^ dm ⟨i, by omega⟩) s) _
    (fun i _ _ s => redo_costs _ _ _ _ _ i (by omega) s) _) (Costs.pure _)

/-- The number of entries to test. -/
def entries (dvs : List DvInfo) : Nat := dvs.countP fun e => decide (e.DvType ≠ 0)

theorem cond_true {n : Nat} {i : BitVec n} {e : DvInfo} (h : e.DvType ≠ 0) :
    (fun s : Scan n => !s.found && decide (s.entry.DvType ≠ 0)) ⟨i, e, false⟩ = true := decide_eq_true h

theorem cond_false {n : Nat} {i : BitVec n} {e : DvInfo} (h : ¬ e.DvType ≠ 0) :
    (fun s : Scan n => !s.found && decide (s.entry.DvType ≠ 0)) ⟨i, e, false⟩ = false := decide_eq_false h

theorem scan_costs {n : Nat} (hn : IntBits n) (dvs : List DvInfo) (hd : dvs.length < 1000) (mask : Word)
    (m1 : Fin 80 → Word) (cs : Fin 3 → Regs) (h : Regs) (b : Bool) :
    ∀ (rest : List DvInfo) (e : DvInfo) (j : Nat), dvs.drop j = e :: rest → scanDvs mask m1 cs h (e :: rest) = .ok b →
      ∃ s' k, s'.found = b ∧ k ≤ 106 * entries (e :: rest) ∧
        CostsW (fun s : Scan n => !s.found && decide (s.entry.DvType ≠ 0)) (scanBody dvs mask m1 cs h)
          ⟨BitVec.ofNat n j, e, false⟩ s' k := by
  intro rest
  induction rest with
  | nil =>
    intro e j hj hs
    rw [scanDvs] at hs
    by_cases ht : e.DvType ≠ 0
    · rw [if_pos ht] at hs
      by_cases hm : mask &&& ((1#32) <<< e.MaskB.toNat) ≠ 0
      · rw [if_pos hm] at hs
        cases hc : selectCs cs e.TestT with
        | error _ => simp [hc, bind, Except.bind] at hs
        | ok c =>
          simp only [hc, bind, Except.bind] at hs
          by_cases hcol : Model.hasCollided e.TestT m1 e.Dm c h = true
          · rw [if_pos hcol] at hs
            cases hs
            refine ⟨⟨BitVec.ofNat n j, e, true⟩, 1 + 105 + 0, rfl, ?_, CostsW.step ?_ ?_ (CostsW.done ?_)⟩
            · unfold entries
              rw [List.countP_cons_of_pos (p := fun e : DvInfo => decide (e.DvType ≠ 0)) (decide_eq_true ht)]
              omega
            · exact cond_true ht
            · unfold scanBody
              rw [if_pos hm]
              refine (Costs.lift hc).bind0 (Costs.bind (l := 0) (hasCollided_costs _ _ _ _ _) ?_)
              rw [if_pos hcol]
              exact Costs.pure _
            · rfl
          · rw [if_neg hcol] at hs
            cases hs
      · rw [if_neg hm] at hs
        cases hs
    · rw [if_neg ht] at hs
      cases hs
      exact ⟨_, 0, rfl, Nat.zero_le _, CostsW.done (cond_false ht)⟩
  | cons e' rest ih =>
    intro e j hj hs
    have hlen : j + 1 < dvs.length := by
      have := congrArg List.length hj
      simp at this
      omega
    have hj' : dvs.drop (j + 1) = e' :: rest := by
      rw [← List.drop_drop, hj]; rfl
    have hget : dvs[j + 1]'hlen = e' := by
      rw [List.drop_eq_getElem_cons hlen] at hj'
      exact (List.cons.inj hj').1
    have hnext : Costs (do
        let e ← ldSlice dvs (BitVec.ofNat n j + 1)
        pure { (⟨BitVec.ofNat n j, e, false⟩ : Scan n) with i := BitVec.ofNat n j + 1, entry := e })
        (⟨BitVec.ofNat n (j + 1), e', false⟩ : Scan n) 0 := by
      have et : (BitVec.ofNat n (j + 1)).toNat = j + 1 := nat_lt hn (by omega)
      rw [ofNat_succ]
      refine ((ldSlice_costs dvs (BitVec.ofNat n (j + 1)) (by rw [et]; exact hlen)).cast ?_ rfl).bind0 (Costs.pure _)
      simp only [et]
      exact hget
    rw [scanDvs] at hs
    by_cases ht : e.DvType ≠ 0
    · rw [if_pos ht] at hs
      have hent : entries (e :: e' :: rest) = entries (e' :: rest) + 1 := by
        unfold entries
        rw [List.countP_cons_of_pos (p := fun e : DvInfo => decide (e.DvType ≠ 0)) (decide_eq_true ht)]
      by_cases hm : mask &&& ((1#32) <<< e.MaskB.toNat) ≠ 0
      · rw [if_pos hm] at hs
        cases hc : selectCs cs e.TestT with
        | error _ => simp [hc, bind, Except.bind] at hs
        | ok c =>
          simp only [hc, bind, Except.bind] at hs
          by_cases hcol : Model.hasCollided e.TestT m1 e.Dm c h = true
          · rw [if_pos hcol] at hs
            cases hs
            refine ⟨⟨BitVec.ofNat n j, e, true⟩, 1 + 105 + 0, rfl, by omega, CostsW.step ?_ ?_ (CostsW.done ?_)⟩
            · exact cond_true ht
            · unfold scanBody
              rw [if_pos hm]
              refine (Costs.lift hc).bind0 (Costs.bind (l := 0) (hasCollided_costs _ _ _ _ _) ?_)
              rw [if_pos hcol]
              exact Costs.pure _
            · rfl
          · rw [if_neg hcol] at hs
            obtain ⟨s', k, h1, h2, h3⟩ := ih e' (j + 1) hj' hs
            refine ⟨s', 1 + 105 + k, h1, by omega, CostsW.step (cond_true ht) ?_ h3⟩
            unfold scanBody
            rw [if_pos hm]
            refine (Costs.lift hc).bind0 (Costs.bind (l := 0) (hasCollided_costs _ _ _ _ _) ?_)
            rw [if_neg hcol]
            exact hnext
      · rw [if_neg hm] at hs
        obtain ⟨s', k, h1, h2, h3⟩ := ih e' (j + 1) hj' hs
        refine ⟨s', 1 + 0 + k, h1, by omega, CostsW.step (cond_true ht) ?_ h3⟩
        unfold scanBody
        rw [if_neg hm]
        exact hnext
    · rw [if_neg ht] at hs
      cases hs
      exact ⟨_, 0, rfl, Nat.zero_le _, CostsW.done (cond_false ht)⟩

theorem checkCollision_costs {n : Nat} (hn : IntBits n) (dvs : List DvInfo) (hd : dvs.length < 1000)
    (m1 : Fin 80 → Word) (cs : Fin 3 → Regs) (h : Regs) (b : Bool) (hc : Model.checkCollision dvs m1 cs h = .ok b) :
    ∃ k, 1 ≤ k ∧ k ≤ 1 + 106 * entries dvs ∧ Costs (Loops.checkCollision n dvs m1 cs h) b k := by
  unfold Model.checkCollision at hc
  unfold Loops.checkCollision
  by_cases hm : Ubc.calculateDvMask (some m1) ≠ 0
  · rw [if_pos hm] at hc
    cases dvs with
    | nil => cases hc
    | cons e rest =>
      obtain ⟨s', k, h1, h2, h3⟩ := scan_costs hn (e :: rest) hd _ m1 cs h b rest e 0 rfl hc
      have h0 : Costs (ldSlice (e :: rest) (0 : BitVec n)) e 0 := by
        have et : (0 : BitVec n).toNat = 0 := by simp
        refine (ldSlice_costs (e :: rest) (0 : BitVec n) (by simp)).cast ?_ rfl
        simp
      refine ⟨1 + k, by omega, by omega, Costs.tick.bind ?_⟩
      rw [if_pos hm]
      refine h0.bind0 (Costs.bind (l := 0) h3.loop ?_)
      rw [← h1]
      exact Costs.pure _
  · rw [if_neg hm] at hc
    cases hc
    refine ⟨1, Nat.le_refl _, by omega, Costs.tick.bind (l := 0) ?_⟩
    rw [if_neg hm]
    exact Costs.pure _

/-- The state at the label `rehash`. -/
def chunkOf (st : BlockState) (m1 : Fin 80 → Word) (hi : Nat) : Loops.Chunk :=
  { w := st.w, cs := st.cs, h := st.h, col := st.col, m1 := m1, hi := hi, again := true }

theorem rehash3_costs {n : Nat} (hn : IntBits n) (dvs : List DvInfo) (p : List Byte) (hp : 64 ≤ p.length)
    (m1 : Fin 80 → Word) (st st' : BlockState) (h : rehash dvs p hp 3 m1 st = .ok st') :
    ∃ c, CostsW Chunk.again (rehashBody n dvs p) (chunkOf st m1 3) c 81 ∧ (⟨c.w, c.cs, c.h, c.col⟩ : BlockState) = st' := by
  rw [rehash] at h
  simp only [show ¬ (3 = 2) by decide, show ¬ (3 = 1) by decide, if_false] at h
  have hr := rounds_costs hn p hp st.h { w := st.w, m1 := m1, r := st.h, cs := st.cs }
  generalize Model.rounds p hp st.h { w := st.w, m1 := m1, r := st.h, cs := st.cs } = r at h hr
  have hb : Costs (rehashBody n dvs p (chunkOf st m1 3))
      { w := r.w, cs := r.cs, m1 := r.m1, h := st.h.add r.r, col := st.col, hi := 3, again := false } 80 :=
    Costs.bind (l := 0) hr (Costs.pure _)
  refine ⟨_, CostsW.step (l := 0) rfl hb (CostsW.done rfl), ?_⟩
  cases h
  rfl

theorem rehash2_costs {n : Nat} (hn : IntBits n) (dvs : List DvInfo) (p : List Byte) (hp : 64 ≤ p.length)
    (m1 : Fin 80 → Word) (st st' : BlockState) (h : rehash dvs p hp 2 m1 st = .ok st') :
    ∃ c, CostsW Chunk.again (rehashBody n dvs p) (chunkOf st m1 2) c 162 ∧
      (⟨c.w, c.cs, c.h, c.col⟩ : BlockState) = st' := by
  rw [rehash] at h
  simp only [if_true] at h
  have hr := rounds_costs hn p hp st.h { w := st.w, m1 := m1, r := st.h, cs := st.cs }
  generalize Model.rounds p hp st.h { w := st.w, m1 := m1, r := st.h, cs := st.cs } = r at h hr
  have hb : Costs (rehashBody n dvs p (chunkOf st m1 2))
      (chunkOf { w := r.w, cs := r.cs, h := st.h.add r.r, col := st.col } r.m1 3) 80 :=
    Costs.bind (l := 0) hr (Costs.pure _)
  obtain ⟨c, h1, h2⟩ := rehash3_costs hn dvs p hp _ _ _ h
  exact ⟨c, CostsW.step rfl hb h1, h2⟩

theorem rehash1_costs {n : Nat} (hn : IntBits n) (dvs : List DvInfo) (hd : dvs.length < 1000) (p : List Byte)
    (hp : 64 ≤ p.length) (m1 : Fin 80 → Word) (st st' : BlockState) (h : rehash dvs p hp 1 m1 st = .ok st') :
    ∃ c k, CostsW Chunk.again (rehashBody n dvs p) (chunkOf st m1 1) c k ∧
      (⟨c.w, c.cs, c.h, c.col⟩ : BlockState) = st' ∧ 82 ≤ k ∧ k ≤ 244 + 106 * entries dvs := by
  rw [rehash] at h
  simp only [show ¬ (1 = 2) by decide, if_false, if_true] at h
  have hr := rounds_costs hn p hp st.h { w := st.w, m1 := m1, r := st.h, cs := st.cs }
  generalize Model.rounds p hp st.h { w := st.w, m1 := m1, r := st.h, cs := st.cs } = r at h hr
  cases hc : Model.checkCollision dvs r.m1 r.cs (st.h.add r.r) with
  | error _ => simp [hc, bind, Except.bind] at h
  | ok b =>
    simp only [hc, bind, Except.bind] at h
    obtain ⟨k, k0, k1, k2⟩ := checkCollision_costs hn dvs hd _ _ _ _ hc
    cases b with
    | false =>
      have hb : Costs (rehashBody n dvs p (chunkOf st m1 1))
          { w := r.w, cs := r.cs, m1 := r.m1, h := st.h.add r.r, col := st.col, hi := 1, again := false } (80 + k) :=
        Costs.bind hr (Costs.bind (l := 0) k2 (Costs.pure _))
      refine ⟨_, 1 + (80 + k) + 0, CostsW.step (l := 0) rfl hb (CostsW.done rfl), ?_, by omega, by omega⟩
      cases h
      rfl
    | true =>
      have hb : Costs (rehashBody n dvs p (chunkOf st m1 1))
          (chunkOf { w := r.w, cs := r.cs, h := st.h.add r.r, col := true } r.m1 2) (80 + k) :=
        Costs.bind hr (Costs.bind (l := 0) k2 (Costs.pure _))
      obtain ⟨c, h1, h2⟩ := rehash2_costs hn dvs p hp _ _ _ h
      exact ⟨c, 1 + (80 + k) + 162, CostsW.step rfl hb h1, h2, by omega, by omega⟩

theorem blockLoop_costs {n : Nat} (hn : IntBits n) (dvs : List DvInfo) (hd : dvs.length < 1000) :
    ∀ (b : Nat) (p : List Byte) (st st' : BlockState), p.length / 64 = b → blockLoop dvs st p = .ok st' →
    ∃ q k, CostsW (fun s : BlockState × List Byte => decide (s.2.length ≥ 64)) (chunkBody n dvs) (st, p) (st', q) k ∧
      83 * b ≤ k ∧ k ≤ (245 + 106 * entries dvs) * b := by
  intro b
  induction b with
  | zero =>
    intro p st st' hb h
    rw [blockLoop, dif_neg (by omega)] at h
    cases h
    exact ⟨p, 0, CostsW.done (by simp; omega), by omega, by omega⟩
  | succ b ih =>
    intro p st st' hb h
    have hp : 64 ≤ p.length := by omega
    rw [blockLoop, dif_pos hp] at h
    cases hr : rehash dvs p hp 1 (fun _ => 0) st with
    | error _ => rw [hr] at h; cases h
    | ok st1 =>
      simp only [hr, bind, Except.bind] at h
      obtain ⟨q, k, h1, h2, h3⟩ := ih (p.drop 64) st1 st' (by simp; omega) h
      obtain ⟨c, l, c1, c2, c3, c4⟩ := rehash1_costs hn dvs hd p hp _ _ _ hr
      have hb : Costs (chunkBody n dvs (st, p)) (st1, p.drop 64) l :=
        Costs.bind (l := 0) c1.loop ((Costs.pure _).cast (by rw [c2]) rfl)
      refine ⟨q, 1 + l + k, CostsW.step (by simp; omega) hb h1, by omega, ?_⟩
      rw [Nat.mul_succ]
      omega

/-- The bound for one block: three compressions and 32 recompressions. -/
theorem block_costs {n : Nat} (hn : IntBits n) (c c' : Core) (p : List Byte) (h : blockNoasm c p = .ok c') :
    ∃ k, Costs (Loops.blockGeneric n sha1Dvs c p) c' k ∧ 83 * (p.length / 64) ≤ k ∧ k ≤ 3637 * (p.length / 64) := by
  unfold blockNoasm Model.blockGeneric at h
  cases hr : blockLoop sha1Dvs ⟨fun _ => 0, fun _ => ⟨0, 0, 0, 0, 0⟩, c.h, c.col⟩ p with
  | error _ => rw [hr] at h; cases h
  | ok st =>
    simp only [hr, bind, Except.bind] at h
    cases h
    obtain ⟨q, k, h1, h2, h3⟩ := blockLoop_costs hn sha1Dvs (by decide) _ p _ _ rfl hr
    refine ⟨k, Costs.bind (l := 0) h1.loop (Costs.pure _), h2, ?_⟩
    rwa [show entries sha1Dvs = 32 by decide +kernel] at h3

theorem bind_inv {α β : Type} {x : GoM α} {f : α → GoM β} {r : β} (h : (x >>= f) = .ok r) :
    ∃ a, x = .ok a ∧ f a = .ok r := by
  cases hx : x with
  | error _ => rw [hx] at h; cases h
  | ok a => rw [hx] at h; exact ⟨a, rfl, h⟩

/-- A straight-line sequence of instructions costs its length. -/
theorem execsAmd64_costs (is : List Amd64.Instr) : ∀ {s s' : Flat.Amd64.FSt}, Flat.Amd64.execs s is = .ok s' →
    Costs (Loops.execs Flat.Amd64.exec s is) s' is.length := by
  induction is with
  | nil => intro s s' h; cases h; exact Costs.pure _
  | cons i is ih =>
    intro s s' h
    obtain ⟨t, h1, h2⟩ := bind_inv h
    exact (Costs.bind Costs.tick (Costs.bind0 (Costs.lift h1) (ih h2))).cast rfl (by rw [List.length_cons, Nat.add_comm])

theorem execsArm64_costs (is : List Arm64.Instr) : ∀ {s s' : Flat.Arm64.FSt}, Flat.Arm64.execs s is = .ok s' →
    Costs (Loops.execs Flat.Arm64.exec s is) s' is.length := by
  induction is with
  | nil => intro s s' h; cases h; exact Costs.pure _
  | cons i is ih =>
    intro s s' h
    obtain ⟨t, h1, h2⟩ := bind_inv h
    exact (Costs.bind Costs.tick (Costs.bind0 (Costs.lift h1) (ih h2))).cast rfl (by rw [List.length_cons, Nat.add_comm])

/-- A call of `blockAMD64` executes 195 instructions that are not `CMP`, `JEQ`, `JNE` or `RET`. -/
theorem callAmd64_costs (e : Flat.Amd64.Entry) (ok : e.env.Ok 80) (h : Regs) (p : List Byte) (m1 : Fin 80 → Word)
    (cs : Fin 3 → Regs) (o : AsmOut) (ho : Flat.Amd64.call e.env e.x e.g e.r12 h p m1 cs = .ok o) :
    Costs (Loops.callAmd64 e h p m1 cs) o 195 := by
  obtain ⟨t', mem, t1, t2, t3, er, _, _, _, _, _, _, f1, hz, f2, f3, hq, f4⟩ := Flat.Amd64.run_trace e.env.lay
    ⟨e.x, fun q => if q = .sp then e.env.lay .frame else e.g q, e.r12, e.env.mem h p m1 cs, e.env.lay .args,
      Flat.Amd64.symAt e.env.lay⟩ (Flat.given ok h p m1 cs) rfl rfl rfl 0
  obtain ⟨t, e1, e2⟩ := bind_inv ho
  rw [er] at e1
  cases e1
  cases e2
  unfold Loops.callAmd64 Loops.runAmd64
  refine Costs.bind (k := 195) (l := 0) (Costs.bind (k := 5) (l := 190) (execsAmd64_costs _ f1) ?_) (Costs.pure _)
  rw [if_neg hz]
  refine Costs.bind (k := 10) (l := 180) (execsAmd64_costs _ f2) (Costs.bind (k := 177) (l := 3) (execsAmd64_costs _ f3) ?_)
  exact Costs.bind0 (CostsW.done (by rw [hq]; simp)).loop (execsAmd64_costs _ f4)

/-- A call of `blockARM64` executes 169 instructions that are not `CMP`, `BLS` or `RET`. -/
theorem callArm64_costs (e : Flat.Arm64.Entry) (ok : e.env.Ok 0) (r16 : (e.g .r16).toNat + 64 < 2 ^ 64) (h : Regs)
    (p : List Byte) (m1 : Fin 80 → Word) (cs : Fin 3 → Regs) (o : AsmOut)
    (ho : Flat.Arm64.call e.env e.v e.g h p m1 cs = .ok o) : Costs (Loops.callArm64 e h p m1 cs) o 169 := by
  obtain ⟨t', mem, t1, t2, t3, er, _, _, _, _, f1, f2, cmp, _, f3, f4⟩ := Flat.Arm64.run_trace e.env.lay
    ⟨e.v, e.g, e.env.mem h p m1 cs, e.env.lay .args, e.env.lay .k0⟩ (Flat.given ok h p m1 cs) rfl rfl
  obtain ⟨t, e1, e2⟩ := bind_inv ho
  rw [er] at e1
  cases e1
  cases e2
  unfold Loops.callArm64 Loops.runArm64
  refine Costs.bind (k := 169) (l := 0) (Costs.bind (k := 5) (l := 164) (execsArm64_costs _ f1)
    (Costs.bind (k := 6) (l := 158) (execsArm64_costs _ f2) ?_)) (Costs.pure _)
  rw [if_neg (fun q => by have := cmp.mp q; dsimp only at this; omega)]
  exact Costs.bind (k := 156) (l := 2) (execsArm64_costs _ (f3 r16)) (execsArm64_costs _ f4)

/-- A call of `blockARM64` that skips the chunk executes 13. -/
theorem skipArm64_costs (e : Flat.Arm64.Entry) (ok : e.env.Ok 0) (r16 : 2 ^ 64 ≤ (e.g .r16).toNat + 64) (h : Regs)
    (p : List Byte) (m1 : Fin 80 → Word) (cs : Fin 3 → Regs) (o : AsmOut)
    (ho : Flat.Arm64.call e.env e.v e.g h p m1 cs = .ok o) : Costs (Loops.callArm64 e h p m1 cs) o 13 := by
  obtain ⟨t', mem, t1, t2, t3, er, _, _, _, _, f1, f2, cmp, f3, _, f4⟩ := Flat.Arm64.run_trace e.env.lay
    ⟨e.v, e.g, e.env.mem h p m1 cs, e.env.lay .args, e.env.lay .k0⟩ (Flat.given ok h p m1 cs) rfl rfl
  obtain ⟨t, e1, e2⟩ := bind_inv ho
  rw [er] at e1
  cases e1
  cases e2
  cases f3 r16
  unfold Loops.callArm64 Loops.runArm64
  refine Costs.bind (k := 13) (l := 0) (Costs.bind (k := 5) (l := 8) (execsArm64_costs _ f1)
    (Costs.bind (k := 6) (l := 2) (execsArm64_costs _ f2) ?_)) (Costs.pure _)
  rw [if_pos (cmp.mpr r16)]
  exact Costs.bind0 (Costs.pure _) (execsArm64_costs _ f4)

/-- The loop around the assembly. -/
theorem simdLoop_costs {n : Nat} (hn : IntBits n) (dvs : List DvInfo) (hd : dvs.length < 1000) (N : Nat)
    (asm : Nat → Regs → List Byte → (Fin 80 → Word) → (Fin 3 → Regs) → GoM AsmOut)
    (asmM : Nat → Regs → List Byte → (Fin 80 → Word) → (Fin 3 → Regs) → M AsmOut)
    (ha : ∀ k h p m1 cs o, asm k h p m1 cs = .ok o → Costs (asmM k h p m1 cs) o N) :
    ∀ (b : Nat) (p : List Byte) (k : Nat) (m1 : Fin 80 → Word) (cs : Fin 3 → Regs) (dig c : Core), p.length / 64 = b →
      simdLoop asm dvs k m1 cs dig p = .ok c →
    ∃ s w, CostsW (fun s : Simd => decide (s.p.length ≥ 64)) (simdBody n asmM dvs) ⟨k, m1, cs, dig, p⟩ s w ∧ s.dig = c ∧
      (N + 2) * b ≤ w ∧ w ≤ (2 + 3 * N + 106 * entries dvs) * b := by
  intro b
  induction b with
  | zero =>
    intro p k m1 cs dig c hb h
    rw [simdLoop, if_neg (by omega)] at h
    cases h
    exact ⟨_, 0, CostsW.done (by simp; omega), rfl, by omega, by omega⟩
  | succ b ih =>
    intro p k m1 cs dig c hb h
    have hp : 64 ≤ p.length := by omega
    rw [simdLoop, if_pos hp] at h
    obtain ⟨o, h1, h⟩ := bind_inv h
    obtain ⟨col, h2, h⟩ := bind_inv h
    obtain ⟨l, l1, l2, hl⟩ := checkCollision_costs hn dvs hd _ _ _ _ h2
    cases col with
    | false =>
      obtain ⟨s, w, g1, g2, g3, g4⟩ := ih (p.drop 64) _ _ _ _ _ (by simp; omega) h
      have hb : Costs (simdBody n asmM dvs ⟨k, m1, cs, dig, p⟩)
          ⟨k + 1, o.m1, rectifyCompressionState o.m1 o.cs, ⟨o.h, dig.col⟩, p.drop 64⟩ (N + l) :=
        Costs.bind (ha _ _ _ _ _ _ h1) (Costs.bind (l := 0) hl (Costs.pure _))
      refine ⟨s, 1 + (N + l) + w, CostsW.step (by simp; omega) hb g1, g2, ?_, ?_⟩
      · rw [Nat.mul_succ]; omega
      · rw [Nat.mul_succ]; omega
    | true =>
      obtain ⟨o2, h3, h⟩ := bind_inv h
      obtain ⟨o3, h4, h⟩ := bind_inv h
      obtain ⟨s, w, g1, g2, g3, g4⟩ := ih (p.drop 64) _ _ _ _ _ (by simp; omega) h
      have hb : Costs (simdBody n asmM dvs ⟨k, m1, cs, dig, p⟩)
          ⟨k + 3, o3.m1, o3.cs, ⟨o3.h, true⟩, p.drop 64⟩ (N + (l + (N + N))) :=
        Costs.bind (ha _ _ _ _ _ _ h1) (Costs.bind hl (Costs.bind (ha _ _ _ _ _ _ h3)
          (Costs.bind (l := 0) (ha _ _ _ _ _ _ h4) (Costs.pure _))))
      refine ⟨s, 1 + (N + (l + (N + N))) + w, CostsW.step (by simp; omega) hb g1, g2, ?_, ?_⟩
      · rw [Nat.mul_succ]; omega
      · rw [Nat.mul_succ]; omega

/-- The steps one block takes at least: one compression and the mask. -/
def lo : Mach → Nat
  | .portable => 83
  | .amd64 _ _ => 197
  | .arm64 _ _ _ => 171

/-- And at most: three compressions and 32 recompressions. -/
def hi : Mach → Nat
  | .portable => 3637
  | .amd64 _ _ => 3979
  | .arm64 _ _ _ => 3901

theorem bounds (B : Mach) : (lo B = 83 ∧ hi B = 3637) ∨ (lo B = 197 ∧ hi B = 3979) ∨ (lo B = 171 ∧ hi B = 3901) := by
  cases B
  · exact .inl ⟨rfl, rfl⟩
  · exact .inr (.inl ⟨rfl, rfl⟩)
  · exact .inr (.inr ⟨rfl, rfl⟩)

/-- `omega` for each of the machines. -/
macro "momega" B:term : tactic =>
  `(tactic| (rcases bounds $B with ⟨e1, e2⟩ | ⟨e1, e2⟩ | ⟨e1, e2⟩ <;> simp only [e1, e2] at * <;> omega))

theorem machBlock_costs {n : Nat} (hn : IntBits n) (B : Mach) (c c' : Core) (p : List Byte)
    (h : B.build.block c p = .ok c') :
    ∃ k, Costs (Loops.block n B c p) c' k ∧ lo B * (p.length / 64) ≤ k ∧ k ≤ hi B * (p.length / 64) := by
  have e32 : entries sha1Dvs = 32 := by decide +kernel
  cases B with
  | portable => exact block_costs hn c c' p h
  | amd64 e ok =>
    obtain ⟨s, w, h1, h2, h3, h4⟩ := simdLoop_costs hn sha1Dvs (by decide) 195 _ (fun k => Loops.callAmd64 (e k))
      (fun k h p m1 cs o ho => callAmd64_costs (e k) (ok k) h p m1 cs o ho) _ p 0 _ _ _ _ rfl h
    subst h2
    rw [e32] at h4
    exact ⟨w, Costs.bind (l := 0) h1.loop (Costs.pure _), h3, h4⟩
  | arm64 e ok r16 =>
    obtain ⟨s, w, h1, h2, h3, h4⟩ := simdLoop_costs hn sha1Dvs (by decide) 169 _ (fun k => Loops.callArm64 (e k))
      (fun k h p m1 cs o ho => callArm64_costs (e k) (ok k) (r16 k) h p m1 cs o ho) _ p 0 _ _ _ _ rfl h
    subst h2
    rw [e32] at h4
    exact ⟨w, Costs.bind (l := 0) h1.loop (Costs.pure _), h3, h4⟩

theorem callBlock_costs {n : Nat} (hn : IntBits n) (B : Mach) (d d' : Digest) (p : List Byte)
    (h : d.callBlock B.build.block p = .ok d') :
    ∃ k, Costs (Loops.callBlock n B d p) d' k ∧ lo B * (p.length / 64) ≤ k ∧ k ≤ hi B * (p.length / 64) := by
  unfold Digest.callBlock at h
  cases hr : B.build.block ⟨d.h, d.col⟩ p with
  | error _ => rw [hr] at h; cases h
  | ok c =>
    simp only [hr, bind, Except.bind] at h
    cases h
    obtain ⟨k, h1, h2, h3⟩ := machBlock_costs hn B _ _ _ hr
    exact ⟨k, Costs.bind (l := 0) h1 (Costs.pure _), h2, h3⟩

theorem writeFill_costs {n : Nat} (hn : IntBits n) (B : Mach) (d d' : Digest) (hd : d.nx < 64) (p q : List Byte)
    (h : d.writeFill B.build.block p = .ok (d', q)) :
    ∃ b k, Costs (Loops.writeFill n B d p) (d', q) k ∧ lo B * b ≤ k ∧ k ≤ hi B * b ∧
      64 * b + (d'.nx + q.length) = d.nx + p.length ∧ d'.nx < 64 ∧ (d'.nx = 0 ∨ q = []) := by
  unfold Digest.writeFill at h
  unfold Loops.writeFill
  by_cases h0 : d.nx > 0
  · rw [if_pos h0, dif_pos (by omega)] at h
    rw [if_pos h0, dif_pos (by omega)]
    by_cases h1 : d.nx + min (64 - d.nx) p.length = Model.Chunk
    · rw [if_pos h1] at h
      have h64 : d.nx + min (64 - d.nx) p.length = 64 := h1
      dsimp only at h ⊢
      rw [if_pos h1]
      cases hr : ({ d with x := copyAt d.x d.nx (by omega) p, nx := d.nx + min (64 - d.nx) p.length } : Digest).callBlock
          B.build.block (copyAt d.x d.nx (by omega) p).1 with
      | error _ => rw [hr] at h; cases h
      | ok d1 =>
        simp only [hr, bind, Except.bind] at h
        cases h
        obtain ⟨k, k1, k2, k3⟩ := callBlock_costs hn B _ _ _ hr
        rw [(copyAt d.x d.nx (by omega) p).2] at k2 k3
        refine ⟨1, k, Costs.bind (l := 0) k1 (Costs.pure _), by omega, by omega, ?_, Nat.zero_lt_succ _, .inl rfl⟩
        simp
        omega
    · rw [if_neg h1] at h
      dsimp only
      rw [if_neg h1]
      cases h
      have h64 : ¬ d.nx + min (64 - d.nx) p.length = 64 := h1
      refine ⟨0, 0, Costs.pure _, Nat.le_refl _, Nat.le_refl _, ?_, ?_, .inr ?_⟩
      · simp
        omega
      · show d.nx + min (64 - d.nx) p.length < 64
        omega
      · rw [List.drop_eq_nil_iff]
        omega
  · rw [if_neg h0] at h
    rw [if_neg h0]
    cases h
    exact ⟨0, 0, Costs.pure _, Nat.le_refl _, Nat.le_refl _, by omega, hd, .inl (by omega)⟩

theorem and63 (k : Nat) : k &&& (Model.Chunk - 1) = k % 64 := Nat.and_two_pow_sub_one_eq_mod k 6

theorem writeBulk_costs {n : Nat} (hn : IntBits n) (B : Mach) (d d' : Digest) (p q : List Byte)
    (h : d.writeBulk B.build.block p = .ok (d', q)) :
    ∃ k, Costs (Loops.writeBulk n B d p) (d', q) k ∧ lo B * (p.length / 64) ≤ k ∧ k ≤ hi B * (p.length / 64) ∧
      q.length = p.length % 64 ∧ d'.nx = d.nx := by
  unfold Digest.writeBulk at h
  unfold Loops.writeBulk
  by_cases h0 : p.length ≥ Model.Chunk
  · have h64 : p.length ≥ 64 := h0
    rw [if_pos h0] at h ⊢
    obtain ⟨d1, hr, h⟩ := bind_inv h
    cases h
    obtain ⟨k, k1, k2, k3⟩ := callBlock_costs hn B _ _ _ hr
    rw [List.length_take, and63] at k2 k3
    rw [show min (p.length - p.length % 64) p.length / 64 = p.length / 64 by omega] at k2 k3
    refine ⟨k, Costs.bind (l := 0) k1 (Costs.pure _), k2, k3, ?_, ?_⟩
    · rw [List.length_drop, and63]
      omega
    · obtain ⟨c, _, hc⟩ := bind_inv hr
      cases hc
      rfl
  · have h64 : ¬ p.length ≥ 64 := h0
    rw [if_neg h0] at h ⊢
    cases h
    exact ⟨0, Costs.pure _, by momega B, by omega, by omega, rfl⟩

/-- `Write` runs the block function on exactly the blocks that become complete. -/
theorem write_costs {n : Nat} (hn : IntBits n) (B : Mach) (d d' : Digest) (hd : d.nx < 64) (p : List Byte) (r : Nat × Option Err)
    (h : d.write B.build.block p = .ok (d', r)) :
    ∃ b k, Costs (Loops.write n B d p) (d', r) k ∧ lo B * b ≤ k ∧ k ≤ hi B * b ∧
      64 * b + d'.nx = d.nx + p.length ∧ d'.nx < 64 := by
  unfold Digest.write at h
  unfold Loops.write
  by_cases h0 : p.length = 0
  · rw [if_pos h0] at h ⊢
    cases h
    exact ⟨0, 0, Costs.pure _, Nat.le_refl _, Nat.le_refl _, by omega, hd⟩
  · rw [if_neg h0] at h ⊢
    dsimp only at h ⊢
    obtain ⟨⟨d1, q⟩, hf, h⟩ := bind_inv h
    obtain ⟨⟨d2, t⟩, hg, h⟩ := bind_inv h
    cases h
    have hg : d1.writeBulk B.build.block q = .ok (d2, t) := hg
    obtain ⟨b1, k1, c1, l1, u1, a1, n1, z1⟩ := writeFill_costs hn B _ _ (by exact hd) _ _ hf
    obtain ⟨k2, c2, l2, u2, a2, n2⟩ := writeBulk_costs hn B _ _ _ _ hg
    have z2 : d1.nx = 0 ∨ t.length = 0 := by
      rcases z1 with z | z
      · exact .inl z
      · subst z
        exact .inr a2
    have hnx : (d2.writeTail t).nx = d1.nx + t.length := by
      unfold Digest.writeTail
      by_cases ht : t.length > 0
      · rw [if_pos ht]
        show min 64 t.length = _
        omega
      · rw [if_neg ht]
        omega
    have a1 : 64 * b1 + (d1.nx + q.length) = d.nx + p.length := a1
    exact ⟨b1 + q.length / 64, k1 + (k2 + 0), Costs.bind c1 (Costs.bind c2 (Costs.pure _)), by momega B, by momega B,
      by show _ + (d2.writeTail t).nx = _; omega, by show (d2.writeTail t).nx < _; omega⟩

theorem padding_length (len : Word64) (p : List Byte) (h : padding len = .ok p) : 9 ≤ p.length ∧ p.length ≤ 72 := by
  rw [padding_spec] at h
  cases h
  unfold padTail
  simp only [List.length_append, List.length_cons, List.length_replicate, word64Bytes_length]
  unfold Spec.zeroPad
  omega

theorem checkSum_costs {n : Nat} (hn : IntBits n) (B : Mach) (d d' : Digest) (hd : d.nx < 64) (r : List Byte)
    (h : d.checkSum B.build.block = .ok (d', r)) :
    ∃ k, Costs (Loops.checkSum n B d) (d', r) k ∧ lo B * ((d.nx + 72) / 64) ≤ k ∧ k ≤ hi B * ((d.nx + 72) / 64) := by
  unfold Digest.checkSum at h
  unfold Loops.checkSum
  obtain ⟨pad, hp, h⟩ := bind_inv h
  obtain ⟨p1, p2⟩ := padding_length _ _ hp
  obtain ⟨⟨d1, o⟩, hw, h⟩ := bind_inv h
  obtain ⟨b, k, c, l, u, a, z⟩ := write_costs hn B _ _ hd _ _ hw
  by_cases h0 : d1.nx ≠ 0
  · dsimp only at h
    rw [if_pos h0] at h
    cases h
  · have h0' : d1.nx = 0 := Decidable.not_not.mp h0
    dsimp only at h
    rw [if_neg h0] at h
    obtain ⟨_, g1, h⟩ := bind_inv h
    obtain ⟨_, g2, h⟩ := bind_inv h
    obtain ⟨_, g3, h⟩ := bind_inv h
    obtain ⟨_, g4, h⟩ := bind_inv h
    obtain ⟨_, g5, h⟩ := bind_inv h
    cases h
    refine ⟨k, Costs.bind0 (Costs.lift hp) (Costs.bind (l := 0) c ?_), by momega B, by momega B⟩
    dsimp only
    rw [if_neg h0]
    exact Costs.bind0 (Costs.lift g1) (Costs.bind0 (Costs.lift g2) (Costs.bind0 (Costs.lift g3)
      (Costs.bind0 (Costs.lift g4) (Costs.bind0 (Costs.lift g5) (Costs.pure _)))))

/-- The bytes one call can make the object hash; a checkpoint may bring in a buffer of 63 bytes. -/
def opWork : Op → Nat
  | .write p => p.length
  | .sum _ => 128
  | .collisionResistantSum _ => 128
  | .unmarshalBinary _ => 64
  | _ => 0

theorem call_costs {n : Nat} (hn : IntBits n) (B : Mach) (d d' : Digest) (hd : DInv d) (op : Op) (o : Out)
    (h : d.call B.build.block op = .ok (d', o)) :
    DInv d' ∧ ∃ k, Costs (Loops.call n B d op) (d', o) k ∧ 64 * k + hi B * d'.nx ≤ hi B * (d.nx + opWork op) := by
  have hd' : DInv d' := by
    obtain ⟨e, _, _, _, r, _, hs, _⟩ := call_sim B.build.block B.build.block _ (Build.impl B.build) (Build.impl B.build)
      (Sim.refl hd).1 op
    rw [h] at r
    cases r
    exact hs.inv1
  refine ⟨hd', ?_⟩
  cases op with
  | write p =>
    obtain ⟨⟨_, _, _⟩, h1, h⟩ := bind_inv h
    cases h
    obtain ⟨b, k, c, l, u, a, z⟩ := write_costs hn B _ _ hd.lt _ _ h1
    refine ⟨k, Costs.bind (l := 0) c (Costs.pure _), ?_⟩
    show _ ≤ hi B * (d.nx + p.length)
    momega B
  | sum inp =>
    obtain ⟨⟨_, _⟩, h1, h⟩ := bind_inv h
    cases h
    obtain ⟨⟨_, _⟩, h2, h⟩ := bind_inv h1
    cases h
    obtain ⟨k, c, l, u⟩ := checkSum_costs hn B _ _ hd.lt _ h2
    refine ⟨k, Costs.bind (l := 0) (Costs.bind (l := 0) c (Costs.pure _)) (Costs.pure _), ?_⟩
    have := hd.lt
    show _ ≤ hi B * (d.nx + 128)
    momega B
  | collisionResistantSum inp =>
    obtain ⟨⟨_, _, _⟩, h1, h⟩ := bind_inv h
    cases h
    obtain ⟨⟨_, _⟩, h2, h⟩ := bind_inv h1
    cases h
    obtain ⟨k, c, l, u⟩ := checkSum_costs hn B _ _ hd.lt _ h2
    refine ⟨k, Costs.bind (l := 0) (Costs.bind (l := 0) c (Costs.pure _)) (Costs.pure _), ?_⟩
    have := hd.lt
    show _ ≤ hi B * (d.nx + 128)
    momega B
  | reset => cases h; exact ⟨0, Costs.pure _, by show _ + hi B * 0 ≤ _; omega⟩
  | size => cases h; exact ⟨0, Costs.pure _, by momega B⟩
  | blockSize => cases h; exact ⟨0, Costs.pure _, by momega B⟩
  | marshalBinary =>
    obtain ⟨⟨_, _⟩, h1, h⟩ := bind_inv h
    cases h
    refine ⟨0, Costs.bind0 (Costs.lift h1) (Costs.pure _), ?_⟩
    rw [marshal_spec d (Nat.le_of_lt hd.lt)] at h1
    cases h1
    momega B
  | unmarshalBinary b =>
    obtain ⟨⟨_, _⟩, h1, h⟩ := bind_inv h
    cases h
    refine ⟨0, Costs.bind0 (Costs.lift h1) (Costs.pure _), ?_⟩
    have := hd'.lt
    show _ ≤ hi B * (d.nx + 64)
    momega B

theorem run_costs {n : Nat} (hn : IntBits n) (B : Mach) (ops : List Op) : ∀ (d d' : Digest), DInv d → ∀ (os : List Out),
    d.run B.build.block ops = .ok (d', os) →
    ∃ k, Costs (Loops.run n B d ops) (d', os) k ∧ 64 * k + hi B * d'.nx ≤ hi B * (d.nx + (ops.map opWork).sum) := by
  induction ops with
  | nil =>
    intro d d' _ os h
    cases h
    exact ⟨0, Costs.pure _, by simp⟩
  | cons op ops ih =>
    intro d d' hd os h
    obtain ⟨⟨d1, o⟩, h1, h⟩ := bind_inv h
    obtain ⟨⟨d2, os'⟩, h2, h⟩ := bind_inv h
    cases h
    obtain ⟨i1, k1, c1, b1⟩ := call_costs hn B _ _ hd _ _ h1
    obtain ⟨k2, c2, b2⟩ := ih _ _ i1 _ h2
    refine ⟨k1 + (k2 + 0), Costs.bind c1 (Costs.bind c2 (Costs.pure _)), ?_⟩
    rw [List.map_cons, List.sum_cons]
    momega B

theorem sumPkg_costs {n : Nat} (hn : IntBits n) (B : Mach) (order : EvalOrder) (data : List Byte) (r : List Byte × Bool)
    (h : Model.sumPkg B.build.block order data = .ok r) :
    ∃ k, Costs (Loops.sumPkg n B order data) r k ∧ lo B * ((data.length + 72) / 64) ≤ k ∧
      k ≤ hi B * ((data.length + 72) / 64) := by
  obtain ⟨⟨d1, o1⟩, h1, h⟩ := bind_inv h
  obtain ⟨⟨d2, o2⟩, h2, h⟩ := bind_inv h
  cases h
  have h2 : d1.checkSum B.build.block = .ok (d2, o2) := h2
  obtain ⟨b, k, c, l, u, a, z⟩ := write_costs hn B _ _ (by decide) _ _ h1
  obtain ⟨k2, c2, l2, u2⟩ := checkSum_costs hn B _ _ z _ h2
  have a : 64 * b + d1.nx = 0 + data.length := a
  have e : (data.length + 72) / 64 = b + (d1.nx + 72) / 64 := by omega
  rw [e]
  exact ⟨k + (k2 + 0), Costs.bind c (Costs.bind c2 (Costs.pure _)), by momega B, by momega B⟩

end Verif.LoopProofs
