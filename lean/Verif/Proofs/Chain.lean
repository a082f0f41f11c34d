import Verif.Proofs.Object

/-!
Facts about padding and chains used for the reductions in `Props/Reduction.lean`.
-/

namespace Verif

open Verif.Model Verif.Spec

theorem chunks_flatten (l : List Byte) (h : l.length % 64 = 0) : (chunks l).flatten = l := by
  unfold chunks
  split
  · rename_i h64
    rw [List.flatten_cons, chunks_flatten (l.drop 64) (by simp; omega), List.take_append_drop]
  · have : l = [] := List.length_eq_zero_iff.mp (by omega)
    simp [this]
termination_by l.length
decreasing_by simp; omega

theorem chunks_length (l : List Byte) (x : List Byte) (h : x ∈ chunks l) : x.length = 64 := by
  unfold chunks at h
  split at h
  · rename_i h64
    rcases List.mem_cons.mp h with h | h
    · rw [h]; simp; omega
    · exact chunks_length (l.drop 64) x h
  · simp at h
termination_by l.length
decreasing_by simp; omega

theorem flatten_length64 (xs : List (List Byte)) (h : ∀ x ∈ xs, x.length = 64) :
    xs.flatten.length = 64 * xs.length := by
  induction xs with
  | nil => rfl
  | cons x xs ih =>
    rw [List.flatten_cons, List.length_append, h x (by simp), ih fun y hy => h y (by simp [hy]),
      List.length_cons]
    omega

theorem pad_length (m : List Byte) : (pad m).length = m.length + zeroPad m.length + 9 := by
  simp [pad, word64Bytes]; omega

theorem pad_length_mod (m : List Byte) : (pad m).length % 64 = 0 := by
  rw [pad_length]; unfold zeroPad; omega

theorem pad_pos (m : List Byte) : 64 ≤ (pad m).length := by
  have := pad_length_mod m
  have := pad_length m
  omega

theorem word64Bytes_inj {v w : Word64} (h : word64Bytes v = word64Bytes w) : v = w := by
  simp only [word64Bytes, List.cons.injEq, and_true] at h
  obtain ⟨h1, h2, h3, h4, h5, h6, h7, h8⟩ := h
  apply BitVec.eq_of_getLsbD_eq
  intro i hi
  have g : ∀ k, i = k + i % 8 → v.extractLsb' k 8 = w.extractLsb' k 8 → v.getLsbD i = w.getLsbD i := by
    intro k hk he
    have := congrArg (fun b => b.getLsbD (i % 8)) he
    simp only [BitVec.getLsbD_extractLsb', show i % 8 < 8 by omega, decide_true, Bool.true_and] at this
    rwa [← hk] at this
  have hc : i / 8 = 0 ∨ i / 8 = 1 ∨ i / 8 = 2 ∨ i / 8 = 3 ∨ i / 8 = 4 ∨ i / 8 = 5 ∨ i / 8 = 6 ∨ i / 8 = 7 := by omega
  rcases hc with c | c | c | c | c | c | c | c
  · exact g 0 (by omega) h8
  · exact g 8 (by omega) h7
  · exact g 16 (by omega) h6
  · exact g 24 (by omega) h5
  · exact g 32 (by omega) h4
  · exact g 40 (by omega) h3
  · exact g 48 (by omega) h2
  · exact g 56 (by omega) h1

theorem pad_last8 (m : List Byte) :
    (pad m).drop ((pad m).length - 8) = word64Bytes (BitVec.ofNat 64 (8 * m.length)) := by
  have hl : (pad m).length - 8 =
      (m ++ 0x80 :: List.replicate (zeroPad m.length) 0).length := by
    rw [pad_length]; simp; omega
  rw [hl]
  unfold pad
  exact List.drop_left

/-- Two messages shorter than 2^61 bytes whose padded forms end in the same 8 bytes have the same length. -/
theorem length_of_last8 {m m' : List Byte} (hm : m.length < 2 ^ 61) (hm' : m'.length < 2 ^ 61)
    (h : (pad m).drop ((pad m).length - 8) = (pad m').drop ((pad m').length - 8)) : m.length = m'.length := by
  rw [pad_last8, pad_last8] at h
  have := congrArg BitVec.toNat (word64Bytes_inj h)
  simp only [BitVec.toNat_ofNat] at this
  omega

/-- Padding is injective on messages shorter than 2^61 bytes. -/
theorem pad_inj {m m' : List Byte} (hm : m.length < 2 ^ 61) (hm' : m'.length < 2 ^ 61)
    (h : pad m = pad m') : m = m' := by
  have hl := length_of_last8 hm hm' (by rw [h])
  have := congrArg (List.take m.length) h
  unfold pad at this
  rw [List.append_assoc, List.append_assoc, List.take_left, hl, List.take_left] at this
  exact this

/-- Two different lists of the same length with the same fold meet at a step with different inputs; the rest is
equal. -/
theorem foldl_meet {σ α : Type} (F : σ → α → σ) (i : σ) :
    ∀ (n : Nat) (xs ys : List α), xs.length = n → ys.length = n → xs ≠ ys →
      xs.foldl F i = ys.foldl F i →
      ∃ pre x post pre' x', xs = pre ++ x :: post ∧ ys = pre' ++ x' :: post ∧
        (pre.foldl F i, x) ≠ (pre'.foldl F i, x') ∧ F (pre.foldl F i) x = F (pre'.foldl F i) x' := by
  intro n
  induction n with
  | zero =>
    intro xs ys hx hy hne _
    exact absurd ((List.length_eq_zero_iff.mp hx).trans (List.length_eq_zero_iff.mp hy).symm) hne
  | succ n ih =>
    intro xs ys hx hy hne hf
    rcases List.eq_nil_or_concat xs with rfl | ⟨xs, x, rfl⟩
    · simp at hx
    rcases List.eq_nil_or_concat ys with rfl | ⟨ys, y, rfl⟩
    · simp at hy
    simp only [List.concat_eq_append] at *
    by_cases he : (xs.foldl F i, x) = (ys.foldl F i, y)
    · obtain ⟨h1, h2⟩ := Prod.mk.inj he
      subst h2
      obtain ⟨pre, a, post, pre', a', e1, e2, h3, h4⟩ := ih xs ys (by simpa using hx) (by simpa using hy)
        (fun h => hne (by rw [h])) h1
      exact ⟨pre, a, post ++ [x], pre', a', by rw [e1]; simp, by rw [e2]; simp, h3, h4⟩
    · exact ⟨xs, x, [], ys, y, rfl, rfl, he, by simpa using hf⟩

/-- Two nonempty lists with different last elements and the same fold meet at the last step. -/
theorem foldl_meet_last {σ α : Type} (F : σ → α → σ) (i : σ) (xs ys : List α) (x y : α) (hne : x ≠ y)
    (hf : (xs ++ [x]).foldl F i = (ys ++ [y]).foldl F i) :
    (xs.foldl F i, x) ≠ (ys.foldl F i, y) ∧ F (xs.foldl F i) x = F (ys.foldl F i) y :=
  ⟨fun h => hne (Prod.mk.inj h).2, by simpa using hf⟩

theorem safeChain_foldl (det : Regs → Block → Bool) (H : Regs) (Ms : List Block) :
    (safeChain det H Ms).1 = Ms.foldl (safeCompress det) H := by
  induction Ms generalizing H with
  | nil => rfl
  | cons M Ms ih => simp only [safeChain, List.foldl_cons, ih]

theorem digestBytes_inj {s t : Regs} (h : digestBytes s = digestBytes t) : s = t := by
  have w : ∀ {v w : Word}, word32Bytes v = word32Bytes w → v = w := by
    intro v w h
    simp only [word32Bytes, List.cons.injEq, and_true] at h
    obtain ⟨h1, h2, h3, h4⟩ := h
    apply BitVec.eq_of_getLsbD_eq
    intro i hi
    have g : ∀ k, i = k + i % 8 → v.extractLsb' k 8 = w.extractLsb' k 8 → v.getLsbD i = w.getLsbD i := by
      intro k hk he
      have := congrArg (fun b => b.getLsbD (i % 8)) he
      simp only [BitVec.getLsbD_extractLsb', show i % 8 < 8 by omega, decide_true, Bool.true_and] at this
      rwa [← hk] at this
    have hc : i / 8 = 0 ∨ i / 8 = 1 ∨ i / 8 = 2 ∨ i / 8 = 3 := by omega
    rcases hc with c | c | c | c
    · exact g 0 (by omega) h4
    · exact g 8 (by omega) h3
    · exact g 16 (by omega) h2
    · exact g 24 (by omega) h1
  simp only [digestBytes, List.append_assoc] at h
  obtain ⟨ha, h⟩ := List.append_inj h rfl
  obtain ⟨hb, h⟩ := List.append_inj h rfl
  obtain ⟨hc, h⟩ := List.append_inj h rfl
  obtain ⟨hd, he⟩ := List.append_inj h rfl
  cases s; cases t
  simp only [Regs.mk.injEq]
  exact ⟨w ha, w hb, w hc, w hd, w he⟩

end Verif
