import Verif.Model.Asm
import Verif.Spec.Sha1

/-! Reading and writing the arrays of the assembly code. -/

namespace Verif.Model

open Verif Verif.Spec

/-- Four consecutive words of an array replaced, lane 0 first. -/
def put4 {n : Nat} (f : Fin n → Word) (k : Nat) (v : Vec) : Fin n → Word := fun j =>
  if j.val = k then v.l0 else if j.val = k + 1 then v.l1 else if j.val = k + 2 then v.l2
  else if j.val = k + 3 then v.l3 else f j

theorem wrV_ok {n : Nat} (f : Fin n → Word) (off : Nat) (v : Vec) (h : off % 4 = 0) (h2 : off / 4 + 3 < n) :
    wrV f off v = .ok (put4 f (off / 4) v) := by
  unfold wrV wrW
  rw [dif_pos ⟨h, by omega⟩]
  simp only [bind, Except.bind, pure, Except.pure]
  rw [dif_pos ⟨by omega, by omega⟩]
  simp only []
  rw [dif_pos ⟨by omega, by omega⟩]
  simp only []
  rw [dif_pos ⟨by omega, by omega⟩]
  congr 1
  funext j
  simp only [upd, put4, Fin.ext_iff, show (off + 4) / 4 = off / 4 + 1 by omega,
    show (off + 8) / 4 = off / 4 + 2 by omega, show (off + 12) / 4 = off / 4 + 3 by omega]
  by_cases h0 : j.val = off / 4 <;> by_cases h1 : j.val = off / 4 + 1 <;> by_cases h2 : j.val = off / 4 + 2 <;>
    by_cases h3 : j.val = off / 4 + 3 <;> simp [h0, h1, h2, h3] <;> omega

theorem bind_ok {α β : Type} (a : α) (f : α → GoM β) : (Except.ok a >>= f) = f a := rfl
theorem pure_ok {α : Type} (a : α) : (pure a : GoM α) = .ok a := rfl

/-- Five consecutive words replaced. -/
def put5 (f : Fin 15 → Word) (k : Nat) (v : Vec) (w : Word) : Fin 15 → Word := fun j =>
  if j.val = k + 4 then w else put4 f k v j

theorem put5_other (f : Fin 15 → Word) (k : Nat) (v : Vec) (w : Word) (j : Fin 15) (h : j.val < k ∨ k + 4 < j.val) :
    put5 f k v w j = f j := by
  unfold put5 put4
  rw [if_neg (by omega), if_neg (by omega), if_neg (by omega), if_neg (by omega), if_neg (by omega)]

theorem byte0 (a b c d : Byte) : (a ++ b ++ c ++ d).extractLsb' 0 8 = d := by
  rw [BitVec.extractLsb'_append_eq_of_add_le (by decide)]; simp

theorem byte1 (a b c d : Byte) : (a ++ b ++ c ++ d).extractLsb' 8 8 = c := by
  rw [BitVec.extractLsb'_append_eq_of_le (by decide)]
  show BitVec.extractLsb' 0 8 _ = _
  rw [BitVec.extractLsb'_append_eq_of_add_le (by decide)]; simp

theorem byte2 (a b c d : Byte) : (a ++ b ++ c ++ d).extractLsb' 16 8 = b := by
  rw [BitVec.extractLsb'_append_eq_of_le (by decide)]
  show BitVec.extractLsb' 8 8 _ = _
  rw [BitVec.extractLsb'_append_eq_of_le (by decide)]
  show BitVec.extractLsb' 0 8 _ = _
  rw [BitVec.extractLsb'_append_eq_of_add_le (by decide)]; simp

theorem byte3 (a b c d : Byte) : (a ++ b ++ c ++ d).extractLsb' 24 8 = a := by
  rw [BitVec.extractLsb'_append_eq_of_le (by decide)]
  show BitVec.extractLsb' 16 8 _ = _
  rw [BitVec.extractLsb'_append_eq_of_le (by decide)]
  show BitVec.extractLsb' 8 8 _ = _
  rw [BitVec.extractLsb'_append_eq_of_le (by decide)]
  show BitVec.extractLsb' 0 8 _ = _
  simp

theorem ofBytes_byte (b : Nat → Byte) : ∀ i, i < 16 → (Vec.ofBytes b).byte i = b i
  | 0, _ | 4, _ | 8, _ | 12, _ => byte0 _ _ _ _
  | 1, _ | 5, _ | 9, _ | 13, _ => byte1 _ _ _ _
  | 2, _ | 6, _ | 10, _ | 14, _ => byte2 _ _ _ _
  | 3, _ | 7, _ | 11, _ | 15, _ => byte3 _ _ _ _
  | n + 16, h => absurd h (by omega)

theorem ofBytes_congr (f g : Nat → Byte) (h : ∀ i, i < 16 → f i = g i) : Vec.ofBytes f = Vec.ofBytes g := by
  unfold Vec.ofBytes
  rw [h 0 (by decide), h 1 (by decide), h 2 (by decide), h 3 (by decide), h 4 (by decide), h 5 (by decide),
    h 6 (by decide), h 7 (by decide), h 8 (by decide), h 9 (by decide), h 10 (by decide), h 11 (by decide),
    h 12 (by decide), h 13 (by decide), h 14 (by decide), h 15 (by decide)]

theorem rdW_ok {n : Nat} (f : Fin n → Word) (k : Nat) (h : k < n) : rdW f (4 * k) = .ok (f ⟨k, h⟩) := by
  unfold rdW
  rw [dif_pos ⟨by omega, by omega⟩]
  simp only [pure_ok, show 4 * k / 4 = k by omega]

theorem unflat15_at (f : Fin 15 → Word) (j : Fin 3) (r : Regs)
    (h : ∀ i : Fin 5, f ⟨5 * j.val + i.val, by omega⟩ = flat5 r i) : unflat15 f j = r := by
  have h0 := h 0
  have h1 := h 1
  have h2 := h 2
  have h3 := h 3
  have h4 := h 4
  have : unflat15 f j = unflat5 (flat5 r) := by
    unfold unflat5
    rw [← h0, ← h1, ← h2, ← h3, ← h4]
    rfl
  exact this.trans rfl

end Verif.Model
