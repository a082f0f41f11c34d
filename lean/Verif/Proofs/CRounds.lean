import Verif.Model.CSha1
import Verif.Proofs.BlockSpec

/-! The straight-line C code computes the steps of SHA-1. -/

namespace Verif.C

open Verif Verif.Model Verif.Model.C

/-- The C variables in order. -/
def varOf (n : Nat) : Var :=
  match n % 5 with
  | 0 => .a
  | 1 => .b
  | 2 => .c
  | 3 => .d
  | _ => .e

/-- The C variable that plays the part `j` (0 for `a`, …) in step `t`. -/
def role (t j : Nat) : Var := varOf (j + 4 * t)

/-- The step macro call expected at step `t`. -/
def stepAt (t : Nat) : Step :=
  ⟨t / 20 + 1, role t 0, role t 1, role t 2, role t 3, role t 4, t⟩

/-- The working variables before step `t`. -/
def view (t : Nat) (v : Env) : Regs :=
  ⟨v (role t 0), v (role t 1), v (role t 2), v (role t 3), v (role t 4)⟩

theorem stepsW_eq : stepsW = (List.range' 0 80).map stepAt := by decide

theorem stepsStates_eq : stepsStates =
    (List.range' 0 16).map (fun t => .load (stepAt t)) ++
    ((List.range' 16 42).map (fun t => .expand (stepAt t)) ++
    (.store 58 :: ((List.range' 58 7).map (fun t => .expand (stepAt t)) ++
    (.store 65 :: (List.range' 65 15).map (fun t => .expand (stepAt t)))))) := by decide

theorem stepsBack_eq : stepsBack = (List.range 80).reverse.map (fun k => (k, stepAt k)) := by decide

theorem stepsForw_eq : stepsForw = (List.range' 0 80).map (fun k => (k, stepAt k)) := by decide

theorem role_mod (t j : Nat) : role t j = role (t % 5) j := by
  unfold role varOf
  rw [show (j + 4 * t) % 5 = (j + 4 * (t % 5)) % 5 by omega]

theorem role_succ_mod (t j : Nat) : role (t + 1) j = role (t % 5 + 1) j := by
  unfold role varOf
  rw [show (j + 4 * (t + 1)) % 5 = (j + 4 * (t % 5 + 1)) % 5 by omega]

theorem rotate_left_eq (x : Word) (n : Nat) : rotate_left x n = Spec.rotl n x := rfl

theorem rotate_right_30 (x : Word) : rotate_right x 30 = Spec.rotl 2 x := by
  unfold rotate_right Spec.rotl
  exact BitVec.or_comm _ _

theorem f1_eq (b c d : Word) : d ^^^ (b &&& (c ^^^ d)) = Spec.Ch b c d := by
  unfold Spec.Ch
  ext i
  simp
  cases b[i] <;> cases c[i] <;> cases d[i] <;> rfl

theorem f3_eq (b c d : Word) : (b &&& c) + (d &&& (b ^^^ c)) = Spec.Maj b c d := by
  rw [BitVec.add_eq_or_of_and_eq_zero]
  · unfold Spec.Maj
    ext i
    simp
    cases b[i] <;> cases c[i] <;> cases d[i] <;> rfl
  · ext i
    simp
    cases b[i] <;> cases c[i] <;> cases d[i] <;> decide

theorem round_cases (t : Nat) (ht : t < 80) :
    (t < 20 ∧ t / 20 + 1 = 1) ∨ (20 ≤ t ∧ t < 40 ∧ t / 20 + 1 = 2) ∨ (40 ≤ t ∧ t < 60 ∧ t / 20 + 1 = 3) ∨
      (60 ≤ t ∧ t / 20 + 1 = 4) := by omega

theorem f_eq (t : Nat) (ht : t < 80) (b c d : Word) : sha1_f (t / 20 + 1) b c d = Spec.f t b c d := by
  unfold Spec.f
  rcases round_cases t ht with ⟨h, e⟩ | ⟨h1, h, e⟩ | ⟨h1, h, e⟩ | ⟨h, e⟩ <;> rw [e]
  · rw [if_pos h]; exact f1_eq b c d
  · rw [if_neg (by omega), if_pos h]; rfl
  · rw [if_neg (by omega), if_neg (by omega), if_pos h]; exact f3_eq b c d
  · rw [if_neg (by omega), if_neg (by omega), if_neg (by omega)]; rfl

theorem k_eq (t : Nat) (ht : t < 80) : sha1_k (t / 20 + 1) = Spec.K t := by
  unfold Spec.K
  rcases round_cases t ht with ⟨h, e⟩ | ⟨h1, h, e⟩ | ⟨h1, h, e⟩ | ⟨h, e⟩ <;> rw [e]
  · rw [if_pos h]; rfl
  · rw [if_neg (by omega), if_pos h]; rfl
  · rw [if_neg (by omega), if_neg (by omega), if_pos h]; rfl
  · rw [if_neg (by omega), if_neg (by omega), if_neg (by omega)]; rfl

theorem mod5 (t : Nat) : t % 5 = 0 ∨ t % 5 = 1 ∨ t % 5 = 2 ∨ t % 5 = 3 ∨ t % 5 = 4 := by omega

theorem step_view (t : Nat) (ht : t < 80) (w : Word) (v : Env) :
    view (t + 1) (step (stepAt t) w v) = Spec.step t w (view t v) := by
  unfold step stepAt view Spec.step
  simp only [f_eq t ht, k_eq t ht, rotate_left_eq]
  have key : ∀ x f e k w : Word, x + f + e + k + w = e + (x + f + k + w) := by intros; ac_rfl
  simp only [role_succ_mod t, role_mod t, key]
  rcases mod5 t with h | h | h | h | h <;> rw [h] <;> simp [role, varOf, Env.set]

theorem stepFull_view (t : Nat) (ht : t < 80) (w : Word) (v : Env) :
    view (t + 1) (stepFull (stepAt t) w v) = Spec.step t w (view t v) := by
  rw [← step_view t ht]
  unfold step stepFull
  have key : ∀ x f k w : Word, w + x + f + k = x + f + k + w := by intros; ac_rfl
  simp only
  rw [key]

theorem stepBW_view (t : Nat) (ht : t < 80) (w : Word) (v : Env) :
    view t (stepBW (stepAt t) w v) = unstep t w (view (t + 1) v) := by
  unfold stepBW stepAt view unstep
  simp only [f_eq t ht, k_eq t ht, rotate_left_eq, rotate_right_30]
  simp only [role_succ_mod t, role_mod t]
  rcases mod5 t with h | h | h | h | h <;> rw [h] <;> simp [role, varOf, Env.set]

theorem view_zero (v : Env) : view 0 v = v.regs := rfl
theorem view_80 (v : Env) : view 80 v = v.regs := rfl
theorem of_regs (v : Env) : Env.of v.regs = v := by funext x; cases x <;> rfl
theorem regs_of (s : Regs) : (Env.of s).regs = s := rfl

theorem rd_eq (W : Fin 80 → Word) (t : Nat) (h : t < 80) : rd W t = .ok (W ⟨t, h⟩) := by
  unfold rd; rw [dif_pos h]; rfl

theorem runW_spec (W : Fin 80 → Word) (W' : Nat → Word) (hW : ∀ i : Fin 80, W' i = W i) (n : Nat) :
    ∀ (t : Nat) (v : Env), t + n ≤ 80 → ∃ v', runW W ((List.range' t n).map stepAt) v = .ok v' ∧
      view (t + n) v' = Spec.runSteps W' t n (view t v) := by
  induction n with
  | zero => intro t v _; exact ⟨v, rfl, rfl⟩
  | succ n ih =>
    intro t v h
    obtain ⟨v', h1, h2⟩ := ih (t + 1) (step (stepAt t) (W ⟨t, by omega⟩) v) (by omega)
    refine ⟨v', ?_, ?_⟩
    · rw [List.range'_succ, List.map_cons, runW, show (stepAt t).t = t from rfl, rd_eq W t (by omega)]
      exact h1
    · rw [show t + (n + 1) = t + 1 + n by omega, h2, step_view t (by omega), runSteps_succ',
        hW ⟨t, by omega⟩]

theorem compression_W_spec (H : Regs) (W : Fin 80 → Word) (W' : Nat → Word) (hW : ∀ i : Fin 80, W' i = W i) :
    sha1_compression_W H W = .ok (H.add (Spec.steps W' 80 H)) := by
  obtain ⟨v', h1, h2⟩ := runW_spec W W' hW 80 0 (Env.of H) (by decide)
  unfold sha1_compression_W
  rw [stepsW_eq, h1]
  simp only [bind, Except.bind, pure, Except.pure]
  rw [steps_eq_run, ← regs_of H, ← view_zero, ← h2]
  rfl

theorem runBack_spec (T : Nat) (me2 : Fin 80 → Word) (W : Nat → Word) (hW : ∀ i : Fin 80, W i = me2 i) (n : Nat) :
    ∀ v : Env, n ≤ 80 → ∃ v', runBack T me2 ((List.range n).reverse.map (fun k => (k, stepAt k))) v = .ok v' ∧
      Spec.steps W (min n T) (view 0 v') = view (min n T) v := by
  induction n with
  | zero => intro v _; exact ⟨v, rfl, by rw [Nat.zero_min]; rfl⟩
  | succ n ih =>
    intro v h
    rw [List.range_succ, List.reverse_append, List.map_append]
    simp only [List.reverse_singleton, List.map_cons, List.map_nil, List.singleton_append]
    unfold runBack
    by_cases hT : T > n
    · obtain ⟨v', h1, h2⟩ := ih (stepBW (stepAt n) (me2 ⟨n, by omega⟩) v) (by omega)
      refine ⟨v', ?_, ?_⟩
      · rw [if_pos hT, show (stepAt n).t = n from rfl, rd_eq me2 n (by omega)]
        exact h1
      · rw [show min (n + 1) T = n + 1 by omega, Spec.steps]
        rw [show min n T = n by omega] at h2
        rw [h2, stepBW_view n (by omega), hW ⟨n, by omega⟩, step_unstep]
    · obtain ⟨v', h1, h2⟩ := ih v (by omega)
      refine ⟨v', ?_, ?_⟩
      · rw [if_neg hT]; exact h1
      · rw [show min (n + 1) T = min n T by omega]; exact h2

theorem runForw_spec (T : Nat) (hT : T ≤ 80) (me2 : Fin 80 → Word) (W : Nat → Word) (hW : ∀ i : Fin 80, W i = me2 i)
    (n : Nat) : ∀ (k : Nat) (v : Env), k + n = 80 → ∃ v',
      runForw T me2 ((List.range' k n).map (fun k => (k, stepAt k))) v = .ok v' ∧
      view 80 v' = Spec.runSteps W (max k T) (80 - max k T) (view (max k T) v) := by
  induction n with
  | zero =>
    intro k v h
    refine ⟨v, rfl, ?_⟩
    rw [show max k T = 80 by omega]; rfl
  | succ n ih =>
    intro k v h
    rw [List.range'_succ, List.map_cons]
    unfold runForw
    by_cases hk : T ≤ k
    · obtain ⟨v', h1, h2⟩ := ih (k + 1) (step (stepAt k) (me2 ⟨k, by omega⟩) v) (by omega)
      refine ⟨v', ?_, ?_⟩
      · rw [if_pos hk, show (stepAt k).t = k from rfl, rd_eq me2 k (by omega)]
        exact h1
      · rw [show max k T = k by omega, show 80 - k = (80 - (k + 1)) + 1 by omega, runSteps_succ',
          hW ⟨k, by omega⟩, ← step_view k (by omega)]
        rw [show max (k + 1) T = k + 1 by omega] at h2
        exact h2
    · obtain ⟨v', h1, h2⟩ := ih (k + 1) v (by omega)
      refine ⟨v', ?_, ?_⟩
      · rw [if_neg hk]; exact h1
      · rw [show max k T = max (k + 1) T by omega]; exact h2

/-- The recompression from the C variables `state` saved before step `T`: `ihvin` is the chaining value from which
the second message reaches them, `ihvout` is the result of the second message. -/
theorem recompress_spec (T : Nat) (hT : T ≤ 80) (me2 : Fin 80 → Word) (W : Nat → Word)
    (hW : ∀ i : Fin 80, W i = me2 i) (state : Regs) :
    ∃ H', sha1recompress_fast T me2 state =
        .ok (H', H'.add (Spec.runSteps W T (80 - T) (view T (Env.of state)))) ∧
      Spec.steps W T H' = view T (Env.of state) := by
  obtain ⟨v1, h1, h2⟩ := runBack_spec T me2 W hW 80 (Env.of state) (by decide)
  obtain ⟨v2, h3, h4⟩ := runForw_spec T hT me2 W hW 80 0 (Env.of state) (by decide)
  refine ⟨v1.regs, ?_, ?_⟩
  · unfold sha1recompress_fast
    rw [stepsBack_eq, h1, stepsForw_eq, h3]
    simp only [bind, Except.bind, pure, Except.pure]
    rw [show max 0 T = T by omega] at h4
    rw [← h4]; rfl
  · rw [show min 80 T = T by omega] at h2
    exact h2

/-! ### Loading and expanding -/

theorem bswap_eq (b0 b1 b2 b3 : Byte) : sha1_bswap32 (b3 ++ b2 ++ b1 ++ b0) = Spec.be32 b0 b1 b2 b3 := by
  unfold sha1_bswap32 Spec.be32
  apply BitVec.eq_of_getLsbD_eq
  intro i hi
  simp only [BitVec.getLsbD_or, BitVec.getLsbD_shiftLeft, BitVec.getLsbD_ushiftRight, BitVec.getLsbD_and,
    BitVec.getLsbD_append]
  have h : i = 0 ∨ i = 1 ∨ i = 2 ∨ i = 3 ∨ i = 4 ∨ i = 5 ∨ i = 6 ∨ i = 7 ∨ i = 8 ∨ i = 9 ∨ i = 10 ∨ i = 11 ∨ i
      = 12 ∨ i = 13 ∨ i = 14 ∨ i = 15 ∨ i = 16 ∨ i = 17 ∨ i = 18 ∨ i = 19 ∨ i = 20 ∨ i = 21 ∨ i = 22 ∨ i =
      23 ∨ i = 24 ∨ i = 25 ∨ i = 26 ∨ i = 27 ∨ i = 28 ∨ i = 29 ∨ i = 30 ∨ i = 31 := by omega
  rcases h with rfl | rfl | rfl | rfl | rfl | rfl | rfl | rfl | rfl | rfl | rfl | rfl | rfl | rfl | rfl | rfl | rfl
      | rfl | rfl | rfl | rfl | rfl | rfl | rfl | rfl | rfl | rfl | rfl | rfl | rfl | rfl | rfl <;>
    simp

/-- The bytes of each word in the wrong order. -/
def swappedBlock (p : List Byte) : Spec.Block := fun i =>
  Spec.be32 (p.getD (4 * i + 3) 0) (p.getD (4 * i + 2) 0) (p.getD (4 * i + 1) 0) (p.getD (4 * i) 0)

/-- The block that the C code sees. -/
def blockOf (cfg : Plat) (p : List Byte) : Spec.Block :=
  if cfg.bigEndian = cfg.machineBE then Spec.toBlock p else swappedBlock p

theorem blockOf_cfg (cfg : Cfg) (p : List Byte) : blockOf cfg p = Spec.toBlock p := if_pos rfl

/-- `blockOf` word by word. -/
theorem sha1_load_eq (cfg : Plat) (p : List Byte) (t : Nat) (ht : t < 16) (hp : 64 ≤ p.length) :
    sha1_load cfg p t = .ok (blockOf cfg p ⟨t, ht⟩) := by
  have e : p.drop (4 * t) = p.getD (4 * t) 0 :: p.getD (4 * t + 1) 0 :: p.getD (4 * t + 2) 0 ::
      p.getD (4 * t + 3) 0 :: p.drop (4 * t + 4) := by
    have g : ∀ k (hk : k < p.length), p.drop k = p.getD k 0 :: p.drop (k + 1) := fun k hk => by
      rw [List.drop_eq_getElem_cons hk]; simp [List.getD, hk]
    rw [g (4 * t) (by omega), g (4 * t + 1) (by omega), g (4 * t + 2) (by omega), g (4 * t + 3) (by omega)]
  unfold sha1_load C.load32
  rw [e]
  simp only [bind, Except.bind, pure, Except.pure]
  obtain ⟨mb, be, un⟩ := cfg
  cases mb <;> cases be
  · exact congrArg Except.ok (bswap_eq _ _ _ _)
  · rfl
  · exact congrArg Except.ok (bswap_eq _ _ _ _)
  · rfl

/-! ### `sha1_compression_states` -/

/-- The local variables and the words written before step `t`. -/
structure CInv (M : Spec.Block) (H : Regs) (t : Nat) (st : CState) : Prop where
  v : view t st.v = Spec.steps (Spec.sched M) t H
  W : ∀ i : Fin 80, i.val < t → st.W i = Spec.sched M i

theorem CInv.next {M : Spec.Block} {H : Regs} {t : Nat} {st : CState} (h : CInv M H t st) (ht : t < 80) :
    CInv M H (t + 1) { st with W := upd st.W ⟨t, ht⟩ (Spec.sched M t),
                               v := stepFull (stepAt t) (Spec.sched M t) st.v } := by
  refine ⟨?_, ?_⟩
  · simp only
    rw [stepFull_view t ht, h.v]; rfl
  · intro i hi
    simp only [upd]
    split
    · rename_i e; rw [e]
    · rename_i e
      exact h.W i (by
        have : i.val ≠ t := fun hc => e (Fin.ext hc)
        omega)

theorem loads_spec (cfg : Plat) (p : List Byte) (hp : 64 ≤ p.length) (H : Regs) (n : Nat) :
    ∀ (t : Nat) (st : CState), t + n ≤ 16 → CInv (blockOf cfg p) H t st →
      ∃ st', runItems cfg p ((List.range' t n).map (fun t => .load (stepAt t))) st = .ok st' ∧
        CInv (blockOf cfg p) H (t + n) st' ∧ st'.states = st.states := by
  induction n with
  | zero => intro t st _ h; exact ⟨st, rfl, h, rfl⟩
  | succ n ih =>
    intro t st hle h
    have h' := h.next (by omega : t < 80)
    obtain ⟨st', r, hi, hs⟩ := ih (t + 1) _ (by omega) h'
    refine ⟨st', ?_, by rwa [show t + (n + 1) = t + 1 + n by omega], hs⟩
    rw [List.range'_succ, List.map_cons, runItems, Item.exec, show (stepAt t).t = t from rfl,
      sha1_load_eq cfg p t (by omega) hp]
    simp only [bind, Except.bind, dif_pos (show t < 80 by omega), pure, Except.pure]
    rw [sched_lt _ t (by omega)] at r
    exact r

theorem expands_spec (cfg : Plat) (p : List Byte) (M : Spec.Block) (H : Regs) (n : Nat) :
    ∀ (t : Nat) (st : CState), 16 ≤ t → t + n ≤ 80 → CInv M H t st →
      ∃ st', runItems cfg p ((List.range' t n).map (fun t => .expand (stepAt t))) st = .ok st' ∧
        CInv M H (t + n) st' ∧ st'.states = st.states := by
  induction n with
  | zero => intro t st _ _ h; exact ⟨st, rfl, h, rfl⟩
  | succ n ih =>
    intro t st h16 hle h
    have h' := h.next (by omega : t < 80)
    obtain ⟨st', r, hi, hs⟩ := ih (t + 1) _ (by omega) (by omega) h'
    refine ⟨st', ?_, by rwa [show t + (n + 1) = t + 1 + n by omega], hs⟩
    have hmix : sha1_mix st.W t h16 (by omega) = Spec.sched M t := by
      rw [sched_ge M t h16]
      unfold sha1_mix
      rw [h.W ⟨t - 3, by omega⟩ (by simp only; omega), h.W ⟨t - 8, by omega⟩ (by simp only; omega),
        h.W ⟨t - 14, by omega⟩ (by simp only; omega), h.W ⟨t - 16, by omega⟩ (by simp only; omega)]
      rfl
    have hc : 16 ≤ (stepAt t).t ∧ (stepAt t).t < 80 := ⟨h16, by show t < 80; omega⟩
    have hex : Item.exec cfg p st (.expand (stepAt t)) =
        .ok { st with W := upd st.W ⟨t, by omega⟩ (Spec.sched M t),
                      v := stepFull (stepAt t) (Spec.sched M t) st.v } := by
      rw [Item.exec, dif_pos hc, ← hmix]
      rfl
    rw [List.range'_succ, List.map_cons, runItems, hex]
    exact r

theorem runItems_append (cfg : Plat) (p : List Byte) (xs ys : List Item) (st st' : CState)
    (h : runItems cfg p xs st = .ok st') : runItems cfg p (xs ++ ys) st = runItems cfg p ys st' := by
  induction xs generalizing st with
  | nil => cases h; rfl
  | cons x xs ih =>
    rw [List.cons_append, runItems]
    rw [runItems] at h
    cases hx : x.exec cfg p st with
    | error e => rw [hx] at h; cases h
    | ok s => rw [hx] at h; exact ih s h

/-- `sha1_compression_states` computes the compression function, the expanded message, and saves the C variables
before steps 58 and 65. -/
theorem states_spec (cfg : Plat) (p : List Byte) (hp : 64 ≤ p.length) (H : Regs) (W : Fin 80 → Word)
    (states : Fin 80 → Regs) :
    ∃ st58 st65, sha1_compression_states cfg H p W states =
        .ok (Spec.compress H (blockOf cfg p), (fun i => Spec.sched (blockOf cfg p) i),
          upd (upd states 58 st58) 65 st65) ∧
      view 58 (Env.of st58) = Spec.steps (Spec.sched (blockOf cfg p)) 58 H ∧
      view 65 (Env.of st65) = Spec.steps (Spec.sched (blockOf cfg p)) 65 H := by
  obtain ⟨s1, r1, i1, e1⟩ := loads_spec cfg p hp H 16 0 ⟨Env.of H, W, states⟩ (by decide)
    ⟨rfl, fun i hi => absurd hi (by omega)⟩
  obtain ⟨s2, r2, i2, e2⟩ := expands_spec cfg p _ H 42 16 s1 (by decide) (by decide) i1
  obtain ⟨s3, r3, i3, e3⟩ := expands_spec cfg p (blockOf cfg p) H 7 58 { s2 with states := upd s2.states 58 s2.v.regs }
    (by decide) (by decide) ⟨i2.v, i2.W⟩
  obtain ⟨s4, r4, i4, e4⟩ := expands_spec cfg p (blockOf cfg p) H 15 65 { s3 with states := upd s3.states 65 s3.v.regs }
    (by decide) (by decide) ⟨i3.v, i3.W⟩
  refine ⟨s2.v.regs, s3.v.regs, ?_, by rw [of_regs]; exact i2.v, by rw [of_regs]; exact i3.v⟩
  unfold sha1_compression_states
  rw [stepsStates_eq, runItems_append _ _ _ _ _ _ r1, runItems_append _ _ _ _ _ _ r2, runItems]
  simp only [Item.exec, dif_pos (show 58 < 80 by decide), bind, Except.bind, pure, Except.pure]
  have r3' := runItems_append cfg p _
    (.store 65 :: (List.range' 65 15).map (fun t => .expand (stepAt t))) _ _ r3
  have e58 : (⟨58, by decide⟩ : Fin 80) = 58 := rfl
  rw [e58, r3', runItems]
  simp only [Item.exec, dif_pos (show 65 < 80 by decide), bind, Except.bind, pure, Except.pure]
  have e65 : (⟨65, by decide⟩ : Fin 80) = 65 := rfl
  rw [e65, r4]
  simp only [Except.ok.injEq, Prod.mk.injEq]
  refine ⟨?_, ?_, ?_⟩
  · rw [← view_80, i4.v]; rfl
  · funext i; exact i4.W i (by omega)
  · rw [e4]
    simp only [e3, e2, e1]

end Verif.C
