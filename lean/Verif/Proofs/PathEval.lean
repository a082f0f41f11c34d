import Verif.Proofs.Path

/-!
Deciding whether two given computations follow a vector.
-/

namespace Verif.Path

open Verif Verif.Spec

/-- The working variables computed from step `t` on. -/
def varsL : Nat → List Word → Regs → List Word
  | _, [], _ => []
  | t, w :: ws, s => (step t w s).a :: varsL (t + 1) ws (step t w s)

theorem varsL_get : ∀ (ws : List Word) (t : Nat) (s : Regs) (j : Nat), j < ws.length →
    (varsL t ws s).getD j 0#32 = (runL t (ws.take (j + 1)) s).a
  | w :: ws, t, s, 0, _ => by simp [varsL, runL]
  | w :: ws, t, s, j + 1, h => by
    rw [varsL, List.getD_cons_succ, List.take_succ_cons, runL]
    exact varsL_get ws (t + 1) _ j (by simpa using h)

theorem varsL_var (H : Regs) (M : Block) (i : Nat) (h1 : 1 ≤ i) (h2 : i ≤ 80) :
    (varsL 0 (schedL (wordsL M)) H).getD (i - 1) 0#32 = var H M i := by
  have hl := (schedL_spec M _ (wordsL_spec M).1 (wordsL_spec M).2).1
  rw [varsL_get _ _ _ _ (by omega), var, steps_evalM M i h2, show i - 1 + 1 = i by omega]

/-- Some choices of signs. -/
def signedB (d x : Word) : Bool :=
  [0#32, 0xffffffff#32, 0x80000000#32, 0x40000000#32, 1#32, 2#32].any fun s => x == (d &&& s) - (d &&& ~~~s)

theorem signed_of_B (d x : Word) (h : signedB d x = true) : Signed d x := by
  obtain ⟨s, _, hs⟩ := List.any_eq_true.mp h
  exact ⟨s, beq_iff_eq.mp hs⟩

def signedL : List Nat → List Word → List Word → Bool
  | d :: ds, x :: xs, y :: ys => signedB (BitVec.ofNat 32 d) (y - x) && signedL ds xs ys
  | [], _, _ => true
  | _, _, _ => false

theorem signedL_get : ∀ (ds : List Nat) (xs ys : List Word) (j : Nat), signedL ds xs ys = true → j < ds.length →
    Signed (BitVec.ofNat 32 (ds.getD j 0)) (ys.getD j 0#32 - xs.getD j 0#32)
  | d :: ds, x :: xs, y :: ys, 0, h, _ => by
    rw [signedL, Bool.and_eq_true] at h
    exact signed_of_B _ _ h.1
  | d :: ds, x :: xs, y :: ys, j + 1, h, hj => by
    rw [signedL, Bool.and_eq_true] at h
    rw [List.getD_cons_succ, List.getD_cons_succ, List.getD_cons_succ]
    exact signedL_get ds xs ys j h.2 (by simpa using hj)
  | [], _, _, _, _, hj => by simp at hj
  | _ :: _, [], _, _, h, _ => by simp [signedL] at h
  | _ :: _, _ :: _, [], _, h, _ => by simp [signedL] at h

def followsB (l : List Nat) (H : Regs) (M : Block) (H' : Regs) (M' : Block) : Bool :=
  ((List.finRange 16).all fun i => M' i == M i ^^^ localDiff (dwFn l) i) &&
    signedL ((l.drop 35).take 36) ((varsL 0 (schedL (wordsL M)) H).drop 30) ((varsL 0 (schedL (wordsL M')) H').drop 30) &&
    decide (71 ≤ l.length)

theorem follows_of_B {k : Nat} {dv : DV} (hk : dvList[k]? = some dv) (H H' : Regs) (M M' : Block)
    (h : followsB (dwTable.getD k []) H M H' M' = true) : Follows dv H M H' M' := by
  obtain ⟨l, h1, h2, _⟩ := vector hk
  have e : dwTable.getD k [] = l := by
    rw [List.getD_eq_getElem?_getD, h1]; rfl
  rw [e] at h
  simp only [followsB, Bool.and_eq_true, decide_eq_true_iff] at h
  refine ⟨dwFn l, h2, ?_, fun i a b => ?_⟩
  · funext i
    exact beq_iff_eq.mp (List.all_eq_true.mp h.1.1 i (List.mem_finRange i))
  · have := signedL_get _ _ _ (i - 31) h.1.2 (by
      rw [List.length_take, List.length_drop]; omega)
    have dr : ∀ (xs : List Word), (xs.drop 30).getD (i - 31) 0#32 = xs.getD (i - 1) 0#32 := fun xs => by
      rw [List.getD_eq_getElem?_getD, List.getD_eq_getElem?_getD, List.getElem?_drop, show 30 + (i - 31) = i - 1 by omega]
    have dd : ((l.drop 35).take 36).getD (i - 31) 0 = l.getD (i + 4) 0 := by
      rw [List.getD_eq_getElem?_getD, List.getD_eq_getElem?_getD, List.getElem?_take, if_pos (by omega), List.getElem?_drop,
        show 35 + (i - 31) = i + 4 by omega]
    rw [dr, dr, dd, varsL_var _ _ _ (by omega) (by omega), varsL_var _ _ _ (by omega) (by omega)] at this
    exact this

end Verif.Path
