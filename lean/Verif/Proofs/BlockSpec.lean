import Verif.Proofs.Check

/-! `blockGeneric` is the safe chain over the blocks of its argument. -/

namespace Verif

open Verif.Model Verif.Spec

theorem chunks_ge (p : List Byte) (h : 64 ≤ p.length) : chunks p = p.take 64 :: chunks (p.drop 64) := by
  rw [chunks]; simp [h]

theorem chunks_lt (p : List Byte) (h : p.length < 64) : chunks p = [] := by
  rw [chunks]; simp [Nat.not_le.mpr h]

theorem getD_take (p : List Byte) (i : Nat) (h : i < 64) : (p.take 64).getD i 0 = p.getD i 0 := by
  simp [List.getD, h]

theorem toBlock_take (p : List Byte) : toBlock (p.take 64) = toBlock p := by
  funext i
  simp only [toBlock]
  rw [getD_take _ _ (by omega), getD_take _ _ (by omega), getD_take _ _ (by omega),
    getD_take _ _ (by omega)]

theorem blocks_ge (p : List Byte) (h : 64 ≤ p.length) :
    blocks p = toBlock p :: blocks (p.drop 64) := by
  rw [blocks, chunks_ge p h, List.map_cons, toBlock_take]; rfl

theorem blocks_lt (p : List Byte) (h : p.length < 64) : blocks p = [] := by
  rw [blocks, chunks_lt p h]; rfl

theorem rounds_out (p : List Byte) (hp : 64 ≤ p.length) (H : Regs) (s : RoundState) :
    (rounds p hp H s).m1 = (fun i : Fin 80 => sched (toBlock p) i) ∧
      (rounds p hp H s).cs = csOf H (toBlock p) ∧
      H.add (rounds p hp H s).r = compress H (toBlock p) := by
  have h := rounds_spec p hp H s
  generalize rounds p hp H s = o at h ⊢
  refine ⟨funext fun i => h.m1 i.val i.isLt i.isLt, funext fun j => ?_, by rw [h.r]; rfl⟩
  match j with
  | 0 => rw [h.cs0]; simp [csOf]
  | 1 => rw [h.cs1 (by decide)]; simp [csOf]
  | 2 => rw [h.cs2 (by decide)]; simp [csOf]

theorem rehash3 (dvs : List DvInfo) (p : List Byte) (hp : 64 ≤ p.length) (m1 : Fin 80 → Word)
    (st : BlockState) : ∃ w cs, rehash dvs p hp 3 m1 st =
      .ok { st with w := w, cs := cs, h := compress st.h (toBlock p) } := by
  rw [rehash]
  simp only [show ¬ (3 = 2) by decide, show ¬ (3 = 1) by decide, if_false]
  rw [(rounds_out p hp st.h _).2.2]
  exact ⟨_, _, rfl⟩

theorem rehash2 (dvs : List DvInfo) (p : List Byte) (hp : 64 ≤ p.length) (m1 : Fin 80 → Word)
    (st : BlockState) : ∃ w cs, rehash dvs p hp 2 m1 st =
      .ok { st with w := w, cs := cs, h := compress (compress st.h (toBlock p)) (toBlock p) } := by
  rw [rehash]
  simp only [if_true]
  obtain ⟨w, cs, h⟩ := rehash3 dvs p hp (rounds p hp st.h ⟨st.w, m1, st.h, st.cs⟩).m1
    { st with
      w := (rounds p hp st.h ⟨st.w, m1, st.h, st.cs⟩).w
      cs := (rounds p hp st.h ⟨st.w, m1, st.h, st.cs⟩).cs
      h := st.h.add (rounds p hp st.h ⟨st.w, m1, st.h, st.cs⟩).r }
  refine ⟨w, cs, ?_⟩
  rw [h]
  simp only [(rounds_out p hp st.h _).2.2]

/-- Checking the data of a SHA-1 computation with the table `dvs` does not panic and gives the verdict `det`. -/
def TableImpl (dvs : List DvInfo) (det : Regs → Block → Bool) : Prop :=
  ∀ H M, checkCollision dvs (fun i => sched M i) (csOf H M) (compress H M) = .ok (det H M)

theorem sha1Dvs_impl : TableImpl sha1Dvs detGo := detGo_ok

theorem rehash1_table {dvs : List DvInfo} {det : Regs → Block → Bool} (ht : TableImpl dvs det) (p : List Byte) (hp : 64 ≤ p.length) (m1 : Fin 80 → Word)
    (st : BlockState) : ∃ w cs, rehash dvs p hp 1 m1 st =
      .ok ⟨w, cs, safeCompress det st.h (toBlock p), st.col || det st.h (toBlock p)⟩ := by
  rw [rehash]
  simp only [show ¬ (1 = 2) by decide, if_false, if_true]
  obtain ⟨h1, h2, h3⟩ := rounds_out p hp st.h ⟨st.w, m1, st.h, st.cs⟩
  rw [h1, h2, h3, ht]
  simp only [bind, Except.bind]
  unfold safeCompress
  cases hd : det st.h (toBlock p)
  · simp only [Bool.false_eq_true, if_false, Bool.or_false]
    exact ⟨_, _, rfl⟩
  · simp only [if_true, Bool.or_true]
    obtain ⟨w, cs, h⟩ := rehash2 dvs p hp (fun i : Fin 80 => sched (toBlock p) i)
      { w := (rounds p hp st.h ⟨st.w, m1, st.h, st.cs⟩).w
        cs := csOf st.h (toBlock p)
        h := compress st.h (toBlock p)
        col := true }
    exact ⟨w, cs, h⟩

theorem blockLoop_table {dvs : List DvInfo} {det : Regs → Block → Bool} (ht : TableImpl dvs det) (p : List Byte) (st : BlockState) : ∃ w cs, blockLoop dvs st p =
    .ok ⟨w, cs, (safeChain det st.h (blocks p)).1, st.col || (safeChain det st.h (blocks p)).2⟩ := by
  induction hn : p.length using Nat.strongRecOn generalizing p st with
  | _ n ih =>
    rw [blockLoop]
    by_cases hp : 64 ≤ p.length
    · rw [dif_pos hp, blocks_ge p hp]
      obtain ⟨w, cs, h⟩ := rehash1_table ht p hp (fun _ => 0) st
      rw [h]
      simp only [bind, Except.bind, safeChain]
      obtain ⟨w', cs', h'⟩ := ih (p.drop 64).length (by simp; omega) (p.drop 64)
        ⟨w, cs, safeCompress det st.h (toBlock p), st.col || det st.h (toBlock p)⟩ rfl
      rw [h']
      exact ⟨w', cs', by simp only [Bool.or_assoc]⟩
    · rw [dif_neg hp, blocks_lt p (by omega)]
      exact ⟨st.w, st.cs, by simp only [safeChain, Bool.or_false]; rfl⟩

theorem blockGeneric_table {dvs : List DvInfo} {det : Regs → Block → Bool} (ht : TableImpl dvs det) (dig : Core) (p : List Byte) : blockGeneric dvs dig p =
    .ok ⟨(safeChain det dig.h (blocks p)).1, dig.col || (safeChain det dig.h (blocks p)).2⟩ := by
  unfold blockGeneric
  obtain ⟨w, cs, h⟩ := blockLoop_table ht p ⟨fun _ => 0, fun _ => ⟨0, 0, 0, 0, 0⟩, dig.h, dig.col⟩
  rw [h]; rfl

theorem blockGeneric_spec (dig : Core) (p : List Byte) : blockGeneric sha1Dvs dig p =
    .ok ⟨(safeChain detGo dig.h (blocks p)).1, dig.col || (safeChain detGo dig.h (blocks p)).2⟩ :=
  blockGeneric_table sha1Dvs_impl dig p

end Verif
