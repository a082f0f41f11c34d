import Verif.Proofs.Sim

/-! Every block function is the same chain of checked compressions, for every contents of the table of disturbance
vectors, panics included. -/

namespace Verif

open Verif.Model Verif.Spec

/-- Compress block by block; each block is checked with the table `dvs` and compressed twice more if the check
says so; a panic of the check ends the chain. -/
def tableChain (dvs : List DvInfo) : Regs → Bool → List Block → GoM Core
  | H, c, [] => pure ⟨H, c⟩
  | H, c, M :: Ms => do
    let b ← checkCollision dvs (fun i => sched M i) (csOf H M) (compress H M)
    tableChain dvs (if b then compress (compress (compress H M) M) M else compress H M) (c || b) Ms

theorem tableChain_cons (dvs : List DvInfo) (H : Regs) (c : Bool) (M : Block) (Ms : List Block) :
    tableChain dvs H c (M :: Ms) = (do
      let b ← checkCollision dvs (fun i => sched M i) (csOf H M) (compress H M)
      tableChain dvs (if b then compress (compress (compress H M) M) M else compress H M) (c || b) Ms) := rfl

theorem rehash1_any (dvs : List DvInfo) (p : List Byte) (hp : 64 ≤ p.length) (m1 : Fin 80 → Word) (st : BlockState) :
    ∃ w cs, rehash dvs p hp 1 m1 st = (do
      let b ← checkCollision dvs (fun i => sched (toBlock p) i) (csOf st.h (toBlock p)) (compress st.h (toBlock p))
      pure ⟨w, cs, if b then compress (compress (compress st.h (toBlock p)) (toBlock p)) (toBlock p)
        else compress st.h (toBlock p), st.col || b⟩) := by
  rw [rehash]
  simp only [show ¬ (1 = 2) by decide, if_false, if_true]
  obtain ⟨h1, h2, h3⟩ := rounds_out p hp st.h ⟨st.w, m1, st.h, st.cs⟩
  rw [h1, h2, h3]
  generalize checkCollision dvs (fun i => sched (toBlock p) i) (csOf st.h (toBlock p)) (compress st.h (toBlock p)) = r
  match r with
  | .error e => exact ⟨st.w, st.cs, rfl⟩
  | .ok false => exact ⟨_, _, by simp only [bind, Except.bind, Bool.or_false]; rfl⟩
  | .ok true =>
    obtain ⟨w, cs, h⟩ := rehash2 dvs p hp (fun i : Fin 80 => sched (toBlock p) i)
      { w := (rounds p hp st.h ⟨st.w, m1, st.h, st.cs⟩).w
        cs := csOf st.h (toBlock p)
        h := compress st.h (toBlock p)
        col := true }
    exact ⟨w, cs, h.trans (by simp only [bind, Except.bind, Bool.or_true]; rfl)⟩

theorem blockLoop_any (dvs : List DvInfo) (p : List Byte) (st : BlockState) :
    (do let s ← blockLoop dvs st p; pure (⟨s.h, s.col⟩ : Core)) = tableChain dvs st.h st.col (blocks p) := by
  induction hn : p.length using Nat.strongRecOn generalizing p st with
  | _ n ih =>
    rw [blockLoop]
    by_cases hp : 64 ≤ p.length
    · rw [dif_pos hp, blocks_ge p hp, tableChain_cons]
      obtain ⟨w, cs, h⟩ := rehash1_any dvs p hp (fun _ => 0) st
      rw [h]
      generalize checkCollision dvs (fun i => sched (toBlock p) i) (csOf st.h (toBlock p))
        (compress st.h (toBlock p)) = r
      match r with
      | .error e => rfl
      | .ok b => exact ih (p.drop 64).length (by simp; omega) (p.drop 64) ⟨w, cs, _, _⟩ rfl
    · rw [dif_neg hp, blocks_lt p (by omega)]
      rfl

theorem blockGeneric_any (dvs : List DvInfo) (c : Core) (p : List Byte) :
    blockGeneric dvs c p = tableChain dvs c.h c.col (blocks p) :=
  blockLoop_any dvs p ⟨fun _ => 0, fun _ => ⟨0, 0, 0, 0, 0⟩, c.h, c.col⟩

theorem simdLoop_any (dvs : List DvInfo)
    (asm : Nat → Regs → List Byte → (Fin 80 → Word) → (Fin 3 → Regs) → GoM AsmOut)
    (ha : AsmOk asm) (p : List Byte) : ∀ (k : Nat) (m1 : Fin 80 → Word) (cs : Fin 3 → Regs) (c : Core),
    simdLoop asm dvs k m1 cs c p = tableChain dvs c.h c.col (blocks p) := by
  induction hn : p.length using Nat.strongRecOn generalizing p with
  | _ n ih =>
    intro k m1 cs c
    rw [simdLoop]
    by_cases hp : 64 ≤ p.length
    · have hl : (p.take 64).length = 64 := by simp; omega
      rw [if_pos hp, blocks_ge p hp, tableChain_cons]
      simp only []
      rw [ha k _ _ _ _ hl]
      simp only [bind, Except.bind, toBlock_take, rectify_eq]
      generalize checkCollision dvs (fun i => sched (toBlock p) i) (csOf c.h (toBlock p))
        (compress c.h (toBlock p)) = r
      match r with
      | .error e => rfl
      | .ok true =>
        simp only [if_true]
        rw [ha _ _ _ _ _ hl]
        simp only []
        rw [ha _ _ _ _ _ hl]
        simp only [toBlock_take, Bool.or_true]
        exact ih (p.drop 64).length (by simp; omega) (p.drop 64) rfl _ _ _ _
      | .ok false =>
        simp only [Bool.false_eq_true, if_false, Bool.or_false]
        exact ih (p.drop 64).length (by simp; omega) (p.drop 64) rfl _ _ _ _
    · rw [if_neg hp, blocks_lt p (by omega)]
      rfl

/-- Every build runs the chain, whatever the table contains. -/
theorem Model.Build.any (B : Build) (dvs : List DvInfo) (c : Core) (p : List Byte) :
    B.blockWith dvs c p = tableChain dvs c.h c.col (blocks p) := by
  cases B with
  | noasm => exact blockGeneric_any dvs c p
  | amd64 fg hs s ok =>
    show blockAmd64Build fg hs s dvs c p = _
    unfold blockAmd64Build
    split
    · exact blockGeneric_any dvs c p
    · exact simdLoop_any dvs _ (fun k H p m1 cs hp => Amd64.blockAMD64_ok (s k) (ok k) H p hp m1 cs) p _ _ _ c
  | arm64 fg hs s r16 ok =>
    show blockArm64Build fg hs s r16 dvs c p = _
    unfold blockArm64Build
    split
    · exact blockGeneric_any dvs c p
    · exact simdLoop_any dvs _
        (fun k H p m1 cs hp => Arm64.blockARM64_ok (s k) (r16 k) (ok k) H p hp m1 cs) p _ _ _ c
  | amd64Flat fg hs e ok =>
    show blockAmd64Flat fg hs e dvs c p = _
    unfold blockAmd64Flat
    split
    · exact blockGeneric_any dvs c p
    · exact simdLoop_any dvs _
        (fun k H p m1 cs hp => Flat.Amd64.call_ok _ (ok k) _ _ _ H p hp m1 cs) p _ _ _ c
  | arm64Flat fg hs e ok r16 =>
    show blockArm64Flat fg hs e dvs c p = _
    unfold blockArm64Flat
    split
    · exact blockGeneric_any dvs c p
    · exact simdLoop_any dvs _
        (fun k H p m1 cs hp => Flat.Arm64.call_ok _ (ok k) _ _ (r16 k) H p hp m1 cs) p _ _ _ c

end Verif
