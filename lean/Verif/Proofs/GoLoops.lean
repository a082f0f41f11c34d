import Verif.Proofs.GoPure

/-!
Loops of the programs of `Source/GoSyntax` whose bodies change nothing but the variables of the running function.
-/

namespace Verif.Source.Go

open Verif Verif.Source

section
variable {X : World} {F : Nat → Nat → List Val → Option (List Val)} {D : List (Option Val)} {i : Nat}
  {old : Nat → List Val} {next : Nat}

/-- One more iteration. -/
theorem runLoop_step {c : M Val} {body post : M Sig} {m m1 m2 m3 : Mem} {s : Sig} {n : Nat}
    (hc : c m = .ok (.bool true, m1)) (hb : body m1 = .ok (.normal, m2)) (hp : post m2 = .ok (s, m3)) :
    runLoop c body post (n + 1) m = runLoop c body post n m3 := by
  show (c >>= _) m = _
  rw [bind_of hc]
  show (body >>= _) m1 = _
  rw [bind_of hb]
  show (post >>= _) m2 = _
  rw [bind_of hp]

/-- The end of a loop. -/
theorem runLoop_end {c : M Val} {body post : M Sig} {m m1 : Mem} {n : Nat}
    (hc : c m = .ok (.bool false, m1)) : runLoop c body post (n + 1) m = .ok (.normal, m1) := by
  show (c >>= _) m = _
  rw [bind_of hc]
  rfl

/-- One more iteration, by `pexec`. -/
theorem runLoop_pexec (hr : Right X F D i old next) {N n : Nat} {c : Expr} {body post : Stmt} {C C' : List Val}
    (hs : Seen D i old next C) (hc : one (pvs F D C c) = some (.bool true))
    (hb : pexec F D (.seq body post) C = some C') :
    runLoop (ev X c) (exec X N body) (exec X N post) (n + 1) ⟨i, C, old, next⟩ =
      runLoop (ev X c) (exec X N body) (exec X N post) n ⟨i, C', old, next⟩ ∧ Seen D i old next C' := by
  simp only [pexec] at hb
  split at hb
  · rename_i C1 h1
    obtain ⟨h2, h3⟩ := exec_pexec hr N _ _ _ h1 hs
    obtain ⟨h4, h5⟩ := exec_pexec hr N _ _ _ hb h3
    exact ⟨runLoop_step (ev_pvs hr hs hc) h2 h4, h5⟩
  · cases hb

/-- A loop that counts down: `S j a` are the slots when `j` iterations remain. -/
theorem exec_loopDown (hr : Right X F D i old next) {N : Nat} {c : Expr} {body post : Stmt} {A : Type}
    (S : Nat → A → List Val) (lo : Nat) : ∀ (n : Nat) (f : (i : Nat) → lo ≤ i → i < lo + n → A → A) (a : A) (n' : Nat),
    (∀ j, j < n → ∀ a, one (pvs F D (S (j + 1) a) c) = some (.bool true)) →
    (∀ j (hj : j < n) (a : A), pexec F D (.seq body post) (S (j + 1) a) =
      some (S j (f (lo + j) (Nat.le_add_right _ _) (Nat.add_lt_add_left hj lo) a))) →
    (∀ a, one (pvs F D (S 0 a) c) = some (.bool false)) → n < n' → Seen D i old next (S n a) →
    runLoop (ev X c) (exec X N body) (exec X N post) n' ⟨i, S n a, old, next⟩ =
      .ok (.normal, ⟨i, S 0 (loopDown lo n f a), old, next⟩) ∧ Seen D i old next (S 0 (loopDown lo n f a)) := by
  intro n
  induction n with
  | zero =>
    intro f a n' _ _ h0 hn hs
    obtain ⟨k, rfl⟩ : ∃ k, n' = k + 1 := ⟨n' - 1, by omega⟩
    exact ⟨runLoop_end (ev_pvs hr hs (h0 a)), hs⟩
  | succ n ih =>
    intro f a n' hc hb h0 hn hs
    obtain ⟨k, rfl⟩ : ∃ k, n' = k + 1 := ⟨n' - 1, by omega⟩
    obtain ⟨h1, h2⟩ := runLoop_pexec (N := N) (n := k) hr hs (hc n (Nat.lt_succ_self n) a) (hb n (Nat.lt_succ_self n) a)
    rw [h1]
    exact ih (fun i h1 h2 => f i h1 (Nat.lt_succ_of_lt h2)) _ k (fun j hj => hc j (by omega))
      (fun j hj a => hb j (by omega) a) h0 (by omega) h2

/-- A loop that counts up: `S j a` are the slots after `j` iterations. -/
theorem exec_loopUp (hr : Right X F D i old next) {N : Nat} {c : Expr} {body post : Stmt} {A : Type}
    (S : Nat → A → List Val) (lo : Nat) (n : Nat) (f : (i : Nat) → lo ≤ i → i < lo + n → A → A) (a : A) (n' : Nat)
    (hc : ∀ j, j < n → ∀ a, one (pvs F D (S j a) c) = some (.bool true))
    (hb : ∀ j (hj : j < n) (a : A), pexec F D (.seq body post) (S j a) =
      some (S (j + 1) (f (lo + j) (Nat.le_add_right _ _) (Nat.add_lt_add_left hj lo) a)))
    (hn : ∀ a, one (pvs F D (S n a) c) = some (.bool false)) (hn' : n < n') (hs : Seen D i old next (S 0 a)) :
    runLoop (ev X c) (exec X N body) (exec X N post) n' ⟨i, S 0 a, old, next⟩ =
      .ok (.normal, ⟨i, S n (loopUp lo n f a), old, next⟩) ∧ Seen D i old next (S n (loopUp lo n f a)) := by
  have key : ∀ j (hj : j ≤ n),
      runLoop (ev X c) (exec X N body) (exec X N post) n' ⟨i, S 0 a, old, next⟩ =
        runLoop (ev X c) (exec X N body) (exec X N post) (n' - j)
          ⟨i, S j (loopUp lo j (fun i h1 h2 => f i h1 (by omega)) a), old, next⟩ ∧
        Seen D i old next (S j (loopUp lo j (fun i h1 h2 => f i h1 (by omega)) a)) := by
    intro j
    induction j with
    | zero => intro _; exact ⟨rfl, hs⟩
    | succ j ih =>
      intro hj
      obtain ⟨h1, h2⟩ := ih (by omega)
      obtain ⟨k, hk⟩ : ∃ k, n' - j = k + 1 := ⟨n' - j - 1, by omega⟩
      obtain ⟨h3, h4⟩ := runLoop_pexec (N := N) (n := k) hr h2 (hc j (by omega) _) (hb j (by omega) _)
      rw [h1, hk, h3, show n' - (j + 1) = k by omega]
      exact ⟨rfl, h4⟩
  obtain ⟨h1, h2⟩ := key n (Nat.le_refl n)
  obtain ⟨k, hk⟩ : ∃ k, n' - n = k + 1 := ⟨n' - n - 1, by omega⟩
  rw [h1, hk]
  exact ⟨runLoop_end (ev_pvs hr h2 (hn _)), h2⟩

end

/-- A statement about all numbers below `n + 1`. -/
theorem below_succ {n : Nat} {p : (j : Nat) → j < n + 1 → Prop} (h : ∀ j (hj : j < n), p j (Nat.lt_succ_of_lt hj))
    (hn : p n (Nat.lt_succ_self n)) : ∀ j (hj : j < n + 1), p j hj := by
  intro j hj
  rcases Nat.lt_or_ge j n with h1 | h1
  · exact h j h1
  · have : j = n := by omega
    subst this
    exact hn

end Verif.Source.Go
