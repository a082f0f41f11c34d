import Verif.Basic

namespace Verif

theorem loopUp_inv {S : Type u} (P : Nat → S → Prop) (lo : Nat) :
    ∀ (n : Nat) (body : (i : Nat) → lo ≤ i → i < lo + n → S → S) (s : S), P lo s →
      (∀ i (h1 : lo ≤ i) (h2 : i < lo + n) s, P i s → P (i + 1) (body i h1 h2 s)) →
      P (lo + n) (loopUp lo n body s)
  | 0, _, _, h0, _ => h0
  | n + 1, body, s, h0, hs => by
    have ih := loopUp_inv P lo n (fun i h1 h2 => body i h1 (Nat.lt_succ_of_lt h2)) s h0
      (fun i h1 h2 s hp => hs i h1 (Nat.lt_succ_of_lt h2) s hp)
    exact hs (lo + n) (Nat.le_add_right _ _) (Nat.lt_succ_self _) _ ih

theorem loopDown_inv {S : Type u} (P : Nat → S → Prop) (lo : Nat) :
    ∀ (n : Nat) (body : (i : Nat) → lo ≤ i → i < lo + n → S → S) (s : S), P (lo + n) s →
      (∀ i (h1 : lo ≤ i) (h2 : i < lo + n) s, P (i + 1) s → P i (body i h1 h2 s)) →
      P lo (loopDown lo n body s)
  | 0, _, _, h0, _ => h0
  | n + 1, body, s, h0, hs =>
    loopDown_inv P lo n (fun i h1 h2 => body i h1 (Nat.lt_succ_of_lt h2)) _
      (hs (lo + n) (Nat.le_add_right _ _) (Nat.lt_succ_self _) s h0)
      (fun i h1 h2 s hp => hs i h1 (Nat.lt_succ_of_lt h2) s hp)

@[simp] theorem upd_same {α : Type u} {n : Nat} (f : Fin n → α) (i : Fin n) (v : α) :
    upd f i v i = v := by simp [upd]

theorem upd_ne {α : Type u} {n : Nat} (f : Fin n → α) {i j : Fin n} (v : α) (h : j ≠ i) :
    upd f i v j = f j := by simp [upd, h]

end Verif
