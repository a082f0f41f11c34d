import Verif.Spec.Collision
import Verif.Model.Block

namespace Verif

open Verif.Model

theorem rotateLeft32_nat (x : Word) (k : Nat) (hk : k < 32) :
    rotateLeft32 x (k : Int) = Spec.rotl k x := by
  have : ((k : Int) % 32).toNat = k := by omega
  simp only [rotateLeft32, Spec.rotl, this]

theorem rot5 (x : Word) : rotateLeft32 x 5 = Spec.rotl 5 x := rotateLeft32_nat x 5 (by decide)
theorem rot30 (x : Word) : rotateLeft32 x 30 = Spec.rotl 30 x := rotateLeft32_nat x 30 (by decide)
theorem rotm30 (x : Word) : rotateLeft32 x (-30) = Spec.rotl 2 x := rfl

theorem rotl_getLsbD (n : Nat) (hn : n < 32) (x : Word) (i : Nat) (hi : i < 32) :
    (Spec.rotl n x).getLsbD i = x.getLsbD (if i < n then i + (32 - n) else i - n) := by
  unfold Spec.rotl
  simp only [BitVec.getLsbD_or, BitVec.getLsbD_shiftLeft, BitVec.getLsbD_ushiftRight]
  split
  · simp [*, Nat.add_comm]
  · rename_i h
    have : x.getLsbD (32 - n + i) = false := BitVec.getLsbD_of_ge _ _ (by omega)
    simp [hi, h, this]

theorem rotl_xor (n : Nat) (x y : Word) :
    Spec.rotl n (x ^^^ y) = Spec.rotl n x ^^^ Spec.rotl n y := by
  unfold Spec.rotl
  ext i hi
  simp only [BitVec.getElem_or, BitVec.getElem_shiftLeft, BitVec.getElem_ushiftRight,
    BitVec.getElem_xor, BitVec.getLsbD_xor]
  by_cases h : i < n
  · simp [h]
  · have hx : ∀ x : Word, x.getLsbD (32 - n + i) = false :=
      fun x => BitVec.getLsbD_of_ge _ _ (by omega)
    simp [h, hx]

theorem rotl_rotl_inv (n : Nat) (hn : 0 < n) (hn2 : n < 32) (x : Word) :
    Spec.rotl (32 - n) (Spec.rotl n x) = x := by
  apply BitVec.eq_of_getLsbD_eq
  intro i hi
  rw [rotl_getLsbD _ (by omega) _ _ hi, rotl_getLsbD _ hn2]
  · congr 1
    split <;> split <;> omega
  · split <;> omega

theorem rotl2_rotl30 (x : Word) : Spec.rotl 2 (Spec.rotl 30 x) = x :=
  rotl_rotl_inv 30 (by decide) (by decide) x
theorem rotl30_rotl2 (x : Word) : Spec.rotl 30 (Spec.rotl 2 x) = x :=
  rotl_rotl_inv 2 (by decide) (by decide) x

theorem fCh_eq (b c d : Word) : fCh b c d = Spec.Ch b c d := by
  unfold fCh Spec.Ch
  ext i
  simp
  cases b[i] <;> simp
theorem fMaj_eq (b c d : Word) : fMaj b c d = Spec.Maj b c d := by
  unfold fMaj Spec.Maj
  ext i
  simp
  cases b[i] <;> cases c[i] <;> cases d[i] <;> rfl
theorem fPar_eq (b c d : Word) : fPar b c d = Spec.Parity b c d := rfl

theorem ix_val (i : Nat) : (ix i).val = i % 16 := Nat.and_two_pow_sub_one_eq_mod i 4

theorem load32_eq (p : List Byte) (j : Nat) (h : j + 3 < p.length) :
    load32 p j h = Spec.be32 (p.getD j 0) (p.getD (j+1) 0) (p.getD (j+2) 0) (p.getD (j+3) 0) := by
  have e : ∀ k (hk : k < p.length), p.getD k 0 = p[k] := fun k hk => by simp [List.getD, hk]
  rw [e j (by omega), e (j+1) (by omega), e (j+2) (by omega), e (j+3) h]
  unfold load32 Spec.be32
  generalize p[j] = b0, p[j+1] = b1, p[j+2] = b2, p[j+3] = b3
  apply BitVec.eq_of_getLsbD_eq
  intro i hi
  simp only [BitVec.getLsbD_or, BitVec.getLsbD_shiftLeft, BitVec.getLsbD_setWidth,
    BitVec.getLsbD_append]
  have g : ∀ (b : Byte) k, ¬ k < 8 → b.getLsbD k = false :=
    fun b k hk => BitVec.getLsbD_of_ge _ _ (by omega)
  by_cases h8 : i < 8
  · simp [h8, hi, show i < 16 by omega, show i < 24 by omega]
  · by_cases h16 : i < 16
    · simp [h8, h16, hi, show i < 24 by omega, g b3 i h8, show i - 8 < 8 by omega,
        show i - 8 < 32 by omega]
    · by_cases h24 : i < 24
      · simp [h8, h16, h24, hi, g b3 i h8, g b2 (i-8) (by omega), show i - 16 < 32 by omega,
          show i - 8 - 8 = i - 16 by omega, show ¬ (i - 8 < 8) by omega, show i - 16 < 8 by omega]
      · simp [h8, h16, h24, hi, g b3 i h8, g b2 (i-8) (by omega), g b1 (i-16) (by omega),
          show i - 24 < 32 by omega, show ¬ (i - 8 < 8) by omega, show ¬ (i - 8 - 8 < 8) by omega,
          show i - 8 - 8 - 8 = i - 24 by omega]

end Verif
