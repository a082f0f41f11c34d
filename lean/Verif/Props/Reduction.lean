import Verif.Props.Cgo
import Verif.Proofs.Chain
import Mathlib.Data.Fintype.Pigeonhole
import Mathlib.Data.Fintype.BigOperators

/-!
What the change made to SHA-1 (a flagged block is compressed three times) does to collision resistance:
C31 and C35.
-/

namespace Verif.Props

open Verif Verif.Model Verif.Spec

/-! ### C31: collisions of the digest come from collisions of the block function -/

theorem chunks_append_one (xs : List (List Byte)) (hx : ∀ x ∈ xs, x.length = 64) :
    blocks xs.flatten = xs.map toBlock := by
  induction xs with
  | nil => simp [blocks, chunks]
  | cons x xs ih =>
    have h64 := hx x (by simp)
    rw [List.flatten_cons, blocks_append _ _ (by omega), ih fun y hy => hx y (by simp [hy]), List.map_cons]
    have : blocks x = [toBlock x] := by
      unfold blocks
      rw [chunks, if_pos (by omega), chunks, if_neg (by simp; omega), List.take_of_length_le (by omega)]
      rfl
    rw [this]; rfl

/-- The reduction for any detector. -/
theorem safeHash_reduce (det : Regs → Block → Bool) (m m' : List Byte) (hm : m.length < 2 ^ 61)
    (hm' : m'.length < 2 ^ 61) (hne : m ≠ m') (h : (safeHash det m).1 = (safeHash det m').1) :
    ∃ p x p' x' q : List Byte, pad m = p ++ x ++ q ∧ pad m' = p' ++ x' ++ q ∧
      p.length % 64 = 0 ∧ p'.length % 64 = 0 ∧ x.length = 64 ∧ x'.length = 64 ∧
      ((safeChain det H0 (blocks p)).1, x) ≠ ((safeChain det H0 (blocks p')).1, x') ∧
      safeCompress det (safeChain det H0 (blocks p)).1 (toBlock x) =
        safeCompress det (safeChain det H0 (blocks p')).1 (toBlock x') := by
  -- both hashes are folds over 64-byte chunks
  let F : Regs → List Byte → Regs := fun H x => safeCompress det H (toBlock x)
  have fold : ∀ xs : List (List Byte), (∀ x ∈ xs, x.length = 64) →
      (safeChain det H0 (blocks xs.flatten)).1 = xs.foldl F H0 := by
    intro xs hxs
    rw [safeChain_foldl, chunks_append_one xs hxs, List.foldl_map]
  have c64 := chunks_length (pad m)
  have c64' := chunks_length (pad m')
  have e := chunks_flatten (pad m) (pad_length_mod m)
  have e' := chunks_flatten (pad m') (pad_length_mod m')
  have hf : (chunks (pad m)).foldl F H0 = (chunks (pad m')).foldl F H0 := by
    rw [← fold _ c64, ← fold _ c64', e, e']
    exact digestBytes_inj h
  -- a meeting point of the chunk lists gives the conclusion
  have finish : ∀ pre x post pre' x', chunks (pad m) = pre ++ x :: post → chunks (pad m') = pre' ++ x' :: post →
      (pre.foldl F H0, x) ≠ (pre'.foldl F H0, x') → F (pre.foldl F H0) x = F (pre'.foldl F H0) x' →
      ∃ p x p' x' q : List Byte, pad m = p ++ x ++ q ∧ pad m' = p' ++ x' ++ q ∧
        p.length % 64 = 0 ∧ p'.length % 64 = 0 ∧ x.length = 64 ∧ x'.length = 64 ∧
        ((safeChain det H0 (blocks p)).1, x) ≠ ((safeChain det H0 (blocks p')).1, x') ∧
        safeCompress det (safeChain det H0 (blocks p)).1 (toBlock x) =
          safeCompress det (safeChain det H0 (blocks p')).1 (toBlock x') := by
    intro pre x post pre' x' h1 h2 h3 h4
    have l1 : ∀ y ∈ pre, y.length = 64 := fun y hy => c64 y (by rw [h1]; simp [hy])
    have l2 : ∀ y ∈ pre', y.length = 64 := fun y hy => c64' y (by rw [h2]; simp [hy])
    refine ⟨pre.flatten, x, pre'.flatten, x', post.flatten, ?_, ?_, ?_, ?_, c64 x (by rw [h1]; simp),
      c64' x' (by rw [h2]; simp), ?_, ?_⟩
    · rw [← e, h1]; simp
    · rw [← e', h2]; simp
    · rw [flatten_length64 _ l1]; omega
    · rw [flatten_length64 _ l2]; omega
    · rwa [fold _ l1, fold _ l2]
    · rw [fold _ l1, fold _ l2]; exact h4
  by_cases hlen : (chunks (pad m)).length = (chunks (pad m')).length
  · obtain ⟨pre, x, post, pre', x', h1, h2, h3, h4⟩ := foldl_meet F H0 _ _ _ rfl hlen.symm
      (fun hc => hne (pad_inj hm hm' (by rw [← e, ← e', hc]))) hf
    exact finish pre x post pre' x' h1 h2 h3 h4
  · -- different numbers of blocks: the lengths differ, so do the last blocks
    rcases List.eq_nil_or_concat (chunks (pad m)) with h0 | ⟨xs, x, h1⟩
    · have := pad_pos m; rw [← e, h0] at this; simp at this
    rcases List.eq_nil_or_concat (chunks (pad m')) with h0 | ⟨ys, y, h2⟩
    · have := pad_pos m'; rw [← e', h0] at this; simp at this
    rw [List.concat_eq_append] at h1 h2
    have hxy : x ≠ y := by
      intro hxy
      subst hxy
      have l1 : ∀ z ∈ xs, z.length = 64 := fun y hy => c64 y (by rw [h1]; simp [hy])
      have l2 : ∀ z ∈ ys, z.length = 64 := fun y hy => c64' y (by rw [h2]; simp [hy])
      have lx : x.length = 64 := c64 x (by rw [h1]; simp)
      have d : ∀ zs : List (List Byte), (∀ z ∈ zs, z.length = 64) →
          (zs ++ [x]).flatten.drop ((zs ++ [x]).flatten.length - 8) = x.drop 56 := by
        intro zs hz
        have hl := flatten_length64 zs hz
        simp only [List.flatten_append, List.flatten_cons, List.flatten_nil, List.append_nil, List.length_append]
        rw [List.drop_append, List.drop_of_length_le (by omega), List.nil_append]
        congr 1; omega
      have hl : m.length = m'.length := by
        apply length_of_last8 hm hm'
        rw [← e, ← e', h1, h2, d xs l1, d ys l2]
      apply hlen
      have a1 := flatten_length64 _ c64
      have a2 := flatten_length64 _ c64'
      rw [e, pad_length] at a1
      rw [e', pad_length] at a2
      rw [hl] at a1
      omega
    rw [h1, h2] at hf
    obtain ⟨h3, h4⟩ := foldl_meet_last F H0 xs ys x y hxy hf
    exact finish xs x [] ys y h1 h2 h3 h4

theorem blocks_one (x : List Byte) (h : x.length = 64) : blocks x = [toBlock x] := by
  have := chunks_append_one [x] (by simpa using h)
  simpa using this

/-- C31: if two different messages shorter than 2^61 bytes get the same digest, then the two computations
reach, on some 64-byte blocks `x` and `x'` of the padded messages, states `s` and `s'` such that the inputs
`(s.h, x)`, `(s'.h, x')` of the block function differ and its outputs agree.  (That such a pair exists
somewhere follows from counting; that it occurs in the two computations is the content.) -/
theorem C31_collision_reduces (B : Build) (m m' : List Byte) (hm : m.length < 2 ^ 61)
    (hm' : m'.length < 2 ^ 61) (hne : m ≠ m') (D : List Byte) (c c' : Bool)
    (h : sumPkg B.block .callFirst m = .ok (D, c)) (h' : sumPkg B.block .callFirst m' = .ok (D, c')) :
    ∃ (p x p' x' q : List Byte) (s s' t t' : Core),
      pad m = p ++ x ++ q ∧ pad m' = p' ++ x' ++ q ∧
      p.length % 64 = 0 ∧ p'.length % 64 = 0 ∧ x.length = 64 ∧ x'.length = 64 ∧
      B.block ⟨H0, false⟩ p = .ok s ∧ B.block ⟨H0, false⟩ p' = .ok s' ∧
      (s.h, x) ≠ (s'.h, x') ∧ B.block s x = .ok t ∧ B.block s' x' = .ok t' ∧ t.h = t'.h := by
  rw [C14_safe_hash] at h h'
  obtain ⟨p, x, p', x', q, h1, h2, h3, h4, h5, h6, h7, h8⟩ := safeHash_reduce goVerdict m m' hm hm' hne
    ((congrArg Prod.fst (Except.ok.inj h)).trans (congrArg Prod.fst (Except.ok.inj h')).symm)
  refine ⟨p, x, p', x', q, _, _, _, _, h1, h2, h3, h4, h5, h6, build_impl B _ _, build_impl B _ _, h7,
    build_impl B _ _, build_impl B _ _, ?_⟩
  simp only [blocks_one x h5, blocks_one x' h6, safeChain]
  exact h8

/-- The hypotheses of C31 are met: there are more messages of 21 bytes than digests. -/
theorem C31_collisions_exist (det : Regs → Block → Bool) :
    ∃ m m' : List Byte, m.length < 2 ^ 61 ∧ m'.length < 2 ^ 61 ∧ m ≠ m' ∧
      (safeHash det m).1 = (safeHash det m').1 := by
  let f : (Fin 21 → Fin 256) → (Fin 20 → Fin 256) := fun v i =>
    ((safeHash det (List.ofFn fun j => BitVec.ofFin (v j))).1.getD i 0).toFin
  obtain ⟨v, w, hne, he⟩ := Fintype.exists_ne_map_eq_of_card_lt f (by
    simp only [Fintype.card_fun, Fintype.card_fin]; decide)
  refine ⟨List.ofFn fun j => BitVec.ofFin (v j), List.ofFn fun j => BitVec.ofFin (w j), by simp, by simp, ?_, ?_⟩
  · intro h
    apply hne
    have := List.ofFn_injective h
    funext j
    exact congrArg BitVec.toFin (congrFun this j)
  · have len : ∀ m, (safeHash det m).1.length = 20 := fun m => rfl
    apply List.ext_getElem (by rw [len, len])
    intro i h1 h2
    have h20 : i < 20 := by rw [len] at h1; exact h1
    have := congrFun he ⟨i, h20⟩
    simp only [f] at this
    rw [← List.getElem_eq_getD (h := h1), ← List.getElem_eq_getD (h := h2)] at this
    exact BitVec.eq_of_toFin_eq this

/-- Instance. -/
example (B : Build) : ∃ m m' D c c', m.length < 2 ^ 61 ∧ m'.length < 2 ^ 61 ∧ m ≠ m' ∧
    sumPkg B.block .callFirst m = .ok (D, c) ∧ sumPkg B.block .callFirst m' = .ok (D, c') := by
  obtain ⟨m, m', h1, h2, h3, h4⟩ := C31_collisions_exist goVerdict
  refine ⟨m, m', (safeHash goVerdict m).1, (safeHash goVerdict m).2, (safeHash goVerdict m').2, h1, h2, h3,
    C14_safe_hash B m, ?_⟩
  rw [h4]; exact C14_safe_hash B m'

/-- C31 for package cgo: the same with the C library's block function, `compress` applied once or, if the
library's detector says so, three times. -/
theorem C31_cgo_collision_reduces (cfg : Model.C.Cfg) (m m' : List Byte) (hm : m.length < 2 ^ 61)
    (hm' : m'.length < 2 ^ 61) (hne : m ≠ m') (D : List Byte) (c c' : Bool)
    (h : Cgo.sumPkg cfg m = .ok (D, c)) (h' : Cgo.sumPkg cfg m' = .ok (D, c')) :
    ∃ p x p' x' q : List Byte, pad m = p ++ x ++ q ∧ pad m' = p' ++ x' ++ q ∧
      p.length % 64 = 0 ∧ p'.length % 64 = 0 ∧ x.length = 64 ∧ x'.length = 64 ∧
      ((safeChain C.cVerdict H0 (blocks p)).1, x) ≠ ((safeChain C.cVerdict H0 (blocks p')).1, x') ∧
      safeCompress C.cVerdict (safeChain C.cVerdict H0 (blocks p)).1 (toBlock x) =
        safeCompress C.cVerdict (safeChain C.cVerdict H0 (blocks p')).1 (toBlock x') := by
  rw [cgo_sumPkg] at h h'
  exact safeHash_reduce C.cVerdict m m' hm hm' hne
    ((congrArg Prod.fst (Except.ok.inj h)).trans (congrArg Prod.fst (Except.ok.inj h')).symm)

/-! ### C35: flagged messages and SHA-1 -/

/-- Two runs over the same list with different step functions that end equal either start equal or meet. -/
theorem two_folds_meet {σ α : Type} (F G : σ → α → σ) (Ns : List α) (a b : σ)
    (h : Ns.foldl F a = Ns.foldl G b) :
    a = b ∨ ∃ p N q, Ns = p ++ N :: q ∧ p.foldl F a ≠ p.foldl G b ∧
      F (p.foldl F a) N = G (p.foldl G b) N := by
  induction Ns generalizing a b with
  | nil => exact .inl h
  | cons N Ns ih =>
    by_cases hab : a = b
    · exact .inl hab
    right
    rcases ih (F a N) (G b N) h with h1 | ⟨p, N', q, h1, h2, h3⟩
    · exact ⟨[], N, Ns, rfl, hab, h1⟩
    · exact ⟨N :: p, N', q, by rw [h1]; rfl, h2, h3⟩

theorem first_flag (det : Regs → Block → Bool) (H : Regs) (Ms : List Block)
    (h : (safeChain det H Ms).2 = true) :
    ∃ pre M post, Ms = pre ++ M :: post ∧ (safeChain det H pre).2 = false ∧
      det (safeChain det H pre).1 M = true := by
  induction Ms generalizing H with
  | nil => simp [safeChain] at h
  | cons N Ns ih =>
    by_cases hN : det H N = true
    · exact ⟨[], N, Ns, rfl, rfl, hN⟩
    · simp only [safeChain, hN, Bool.false_or] at h
      obtain ⟨pre, M, post, h1, h2, h3⟩ := ih _ h
      refine ⟨N :: pre, M, post, by rw [h1]; rfl, ?_, h3⟩
      simp only [safeChain, h2, Bool.or_false]
      simpa using hN

/-- C35 for any detector. -/
theorem safeHash_differs (det : Regs → Block → Bool) (m D : List Byte) (h : safeHash det m = (D, true)) :
    D ≠ sha1 m ∨
    ∃ pre M post, blocks (pad m) = pre ++ M :: post ∧ det (pre.foldl compress H0) M = true ∧
      (compress (compress (compress (pre.foldl compress H0) M) M) M = compress (pre.foldl compress H0) M ∨
       ∃ p N q X Y, post = p ++ N :: q ∧ X = (safeChain det H0 (pre ++ M :: p)).1 ∧
         Y = (pre ++ M :: p).foldl compress H0 ∧ X ≠ Y ∧ safeCompress det X N = compress Y N) := by
  by_cases hD : D = sha1 m
  swap
  · exact .inl hD
  right
  have h1 : (safeHash det m).1 = D := congrArg Prod.fst h
  have h2 : (safeHash det m).2 = true := congrArg Prod.snd h
  obtain ⟨pre, M, post, e, hu, hd⟩ := first_flag det H0 _ h2
  have hpre := safeChain_unflagged det H0 pre hu
  rw [hpre] at hd
  refine ⟨pre, M, post, e, hd, ?_⟩
  have key : (safeChain det H0 (blocks (pad m))).1 = (blocks (pad m)).foldl compress H0 :=
    digestBytes_inj (by rw [hD] at h1; exact h1)
  rw [e, safeChain_foldl, List.foldl_append, List.foldl_append, ← safeChain_foldl det H0 pre, hpre,
    List.foldl_cons, List.foldl_cons] at key
  have h3 : safeCompress det (pre.foldl compress H0) M =
      compress (compress (compress (pre.foldl compress H0) M) M) M := by simp [safeCompress, hd]
  rcases two_folds_meet _ _ post _ _ key with hm | ⟨p, N, q, a1, a2, a3⟩
  · left; rw [← h3]; exact hm
  · right
    refine ⟨p, N, q, _, _, a1, rfl, rfl, ?_, ?_⟩
    · rw [safeChain_foldl, List.foldl_append, List.foldl_append, ← safeChain_foldl det H0 pre, hpre]
      exact a2
    · rw [safeChain_foldl, List.foldl_append, List.foldl_append, ← safeChain_foldl det H0 pre, hpre]
      exact a3

/-- C35, as a reduction: the digest of a flagged message differs from its SHA-1 digest, unless a coincidence
happens in the computation: at the first flagged block `M`, compressing twice more with `M` leads back to the
same chaining value, or the two chains, having parted there, meet again at a later block `N`.
Missing: that these coincidences do not happen, which is a statement about all values of SHA-1's compression
function. -/
theorem C35_flagged_differs_partial (B : Build) (m D : List Byte)
    (h : sumPkg B.block .callFirst m = .ok (D, true)) :
    D ≠ sha1 m ∨
    ∃ pre M post, blocks (pad m) = pre ++ M :: post ∧ GoDetected (pre.foldl compress H0) M ∧
      (compress (compress (compress (pre.foldl compress H0) M) M) M = compress (pre.foldl compress H0) M ∨
       ∃ p N q X Y, post = p ++ N :: q ∧ X = (safeChain goVerdict H0 (pre ++ M :: p)).1 ∧
         Y = (pre ++ M :: p).foldl compress H0 ∧ X ≠ Y ∧ safeCompress goVerdict X N = compress Y N) := by
  rw [C14_safe_hash] at h
  rcases safeHash_differs goVerdict m D (Except.ok.inj h) with h | ⟨pre, M, post, h1, h2, h3⟩
  · exact .inl h
  · exact .inr ⟨pre, M, post, h1, (verdict_iff _ _ _).mp h2, h3⟩

/-- C35 for package cgo, where the block was detected with the reference conditions.  Missing: as in
`C35_flagged_differs_partial`. -/
theorem C35_cgo_flagged_differs_partial (cfg : Model.C.Cfg) (m D : List Byte)
    (h : Cgo.sumPkg cfg m = .ok (D, true)) :
    D ≠ sha1 m ∨
    ∃ pre M post, blocks (pad m) = pre ++ M :: post ∧ Detected (pre.foldl compress H0) M ∧
      (compress (compress (compress (pre.foldl compress H0) M) M) M = compress (pre.foldl compress H0) M ∨
       ∃ p N q X Y, post = p ++ N :: q ∧ X = (safeChain C.cVerdict H0 (pre ++ M :: p)).1 ∧
         Y = (pre ++ M :: p).foldl compress H0 ∧ X ≠ Y ∧ safeCompress C.cVerdict X N = compress Y N) := by
  rw [cgo_sumPkg] at h
  rcases safeHash_differs C.cVerdict m D (Except.ok.inj h) with h | ⟨pre, M, post, h1, h2, h3⟩
  · exact .inl h
  · exact .inr ⟨pre, M, post, h1, (verdict_iff _ _ _).mp h2, h3⟩

/-- C35 on the two published files: flagged, and neither digest is the SHA-1 digest they share. -/
theorem C35_shattered_partial (B : Build) :
    sumPkg B.block .callFirst shattered1 = .ok (shatteredDigest1, true) ∧
    sumPkg B.block .callFirst shattered2 = .ok (shatteredDigest2, true) ∧
    shatteredDigest1 ≠ sha1 shattered1 ∧ shatteredDigest2 ≠ sha1 shattered2 := by
  refine ⟨?_, ?_, fun h => shattered_sha1_ne.1 h.symm, fun h => shattered_sha1_ne.2 h.symm⟩
  · rw [C14_safe_hash, shattered1_hash]
  · rw [C14_safe_hash, shattered2_hash]

/-- The same for package cgo. -/
theorem C35_cgo_shattered_partial (cfg : Model.C.Cfg) :
    Cgo.sumPkg cfg shattered1 = .ok (shatteredDigest1, true) ∧
    Cgo.sumPkg cfg shattered2 = .ok (shatteredDigest2, true) ∧
    shatteredDigest1 ≠ sha1 shattered1 ∧ shatteredDigest2 ≠ sha1 shattered2 := by
  refine ⟨?_, ?_, fun h => shattered_sha1_ne.1 h.symm, fun h => shattered_sha1_ne.2 h.symm⟩
  · rw [cgo_sumPkg, shattered1_hash_c]
  · rw [cgo_sumPkg, shattered2_hash_c]

end Verif.Props
