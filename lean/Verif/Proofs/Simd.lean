import Verif.Model.Asm
import Verif.Proofs.BlockSpec
import Verif.Proofs.Sponge

/-! The Go loop around an assembly block function. -/

namespace Verif

open Verif.Model Verif.Spec

/-- What the assembly functions leave in `cs`: the chaining value and the states before steps 56 and 64. -/
def rawCs (H : Regs) (M : Block) : Fin 3 → Regs := fun j => match j with
  | 0 => H
  | 1 => steps (sched M) 56 H
  | 2 => steps (sched M) 64 H

/-- An assembly function that compresses one chunk, for every call. -/
def AsmOk (asm : Nat → Regs → List Byte → (Fin 80 → Word) → (Fin 3 → Regs) → GoM AsmOut) : Prop :=
  ∀ k H p m1 cs, p.length = 64 →
    asm k H p m1 cs = .ok ⟨compress H (toBlock p), fun i => sched (toBlock p) i, rawCs H (toBlock p)⟩

theorem steps_succ (W : Nat → Word) (t : Nat) (H : Regs) : steps W (t + 1) H = step t (W t) (steps W t H) := rfl

theorem rectify_raw (m1 : Fin 80 → Word) (H s56 s64 : Regs) (cs : Fin 3 → Regs) (h0 : cs 0 = H) (h1 : cs 1 = s56)
    (h2 : cs 2 = s64) : rectifyCompressionState m1 cs = fun j =>
      if j = 0 then H else if j = 1 then step 57 (m1 57) (step 56 (m1 56) s56) else step 64 (m1 64) s64 := by
  have f56 : f 56 = Maj := rfl
  have f57 : f 57 = Maj := rfl
  have f64 : f 64 = Parity := rfl
  have k56 : K 56 = K2 := rfl
  have k57 : K 57 = K2 := rfl
  have k64 : K 64 = K3 := rfl
  funext j
  unfold rectifyCompressionState
  simp only [rot5, rot30, fMaj_eq, fPar_eq, h1, upd, step, f56, f57, f64, k56, k57, k64]
  match j with
  | 0 => simp [h0]
  | 1 =>
    rw [if_neg (by decide), if_pos rfl, if_neg (by decide), if_pos rfl]
    simp only [Regs.mk.injEq, and_true]
    constructor <;> ac_rfl
  | 2 =>
    rw [if_pos rfl, if_neg (by decide), if_neg (by decide), if_neg (by decide), h2]
    simp only [Regs.mk.injEq, and_true]
    ac_rfl

theorem rectify_eq (H : Regs) (M : Block) :
    rectifyCompressionState (fun i => sched M i) (rawCs H M) = csOf H M := by
  rw [rectify_raw (fun i => sched M i) H (steps (sched M) 56 H) (steps (sched M) 64 H) (rawCs H M) rfl rfl rfl]
  funext j
  unfold csOf
  rw [steps_succ _ 57, steps_succ _ 56, steps_succ _ 64]
  rfl

theorem simdLoop_table {dvs : List DvInfo} {det : Regs → Block → Bool} (ht : TableImpl dvs det)
    (asm : Nat → Regs → List Byte → (Fin 80 → Word) → (Fin 3 → Regs) → GoM AsmOut)
    (ha : AsmOk asm) (p : List Byte) : ∀ (k : Nat) (m1 : Fin 80 → Word) (cs : Fin 3 → Regs) (dig : Core),
    simdLoop asm dvs k m1 cs dig p =
      .ok ⟨(safeChain det dig.h (blocks p)).1, dig.col || (safeChain det dig.h (blocks p)).2⟩ := by
  induction hn : p.length using Nat.strongRecOn generalizing p with
  | _ n ih =>
    intro k m1 cs dig
    rw [simdLoop]
    by_cases hp : 64 ≤ p.length
    · have hl : (p.take 64).length = 64 := by simp; omega
      rw [if_pos hp, blocks_ge p hp]
      simp only []
      rw [ha k _ _ _ _ hl]
      simp only [bind, Except.bind, toBlock_take, rectify_eq, ht dig.h (toBlock p)]
      by_cases hd : det dig.h (toBlock p) = true
      · rw [if_pos hd, ha _ _ _ _ _ hl]
        simp only []
        rw [ha _ _ _ _ _ hl]
        simp only []
        rw [ih (p.drop 64).length (by simp; omega) (p.drop 64) rfl]
        simp only [toBlock_take, safeChain, safeCompress, hd]
        simp
      · rw [if_neg hd]
        rw [ih (p.drop 64).length (by simp; omega) (p.drop 64) rfl]
        simp only [safeChain, safeCompress]
        simp [hd]
    · rw [if_neg hp, blocks_lt p (by omega)]
      simp only [safeChain, Bool.or_false]; rfl

theorem simdBlock_table {dvs : List DvInfo} {det : Regs → Block → Bool} (ht : TableImpl dvs det)
    (asm : Nat → Regs → List Byte → (Fin 80 → Word) → (Fin 3 → Regs) → GoM AsmOut)
    (ha : AsmOk asm) : BlockImpl (simdBlock asm dvs) det := fun c p =>
  simdLoop_table ht asm ha p 0 _ _ c

end Verif
