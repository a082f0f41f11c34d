import Verif.Props.Codec
import Verif.Props.Files

/-!
What a digest gives away and what it does not undo: C55.
-/

namespace Verif.Props

open Verif Verif.Model Verif.Spec

theorem pad_length_mod (m : List Byte) : (pad m).length % 64 = 0 := by
  rw [pad_eq, List.length_append, padTail_length, BitVec.toNat_ofNat]
  unfold zeroPad
  omega

/-- Hashing a padded message and more: the digest of the message is the chaining value to go on from. -/
theorem safeHash_extend (det : Regs → Block → Bool) (m x : List Byte) :
    ∃ tail, tail = x ++ padTail (BitVec.ofNat 64 ((pad m).length + x.length)) ∧
      safeHash det (pad m ++ x) =
        (digestBytes (safeChain det (safeChain det H0 (blocks (pad m))).1 (blocks tail)).1,
          (safeHash det m).2 || (safeChain det (safeChain det H0 (blocks (pad m))).1 (blocks tail)).2) := by
  refine ⟨_, rfl, ?_⟩
  have hr : rem64 (pad m) = [] := by
    unfold rem64
    exact List.drop_eq_nil_of_le (by have := pad_length_mod m; omega)
  unfold safeHash
  rw [pad_eq (pad m ++ x), List.length_append, List.append_assoc, blocks_append_rem (pad m), hr, List.nil_append,
    safeChain_append]

theorem digestBytes_inj {H H' : Regs} (h : digestBytes H = digestBytes H') : H = H' := by
  have e : encode H (List.replicate 64 0) 0 = encode H' (List.replicate 64 0) 0 := by unfold encode; rw [h]
  exact (encode_inj (by simp) (by simp) e).1

/-- C55: the digest of `m` and its length are all that `UnmarshalBinary` needs to go on from the padded message: for every
build, a hash restored from the magic, the digest, 64 zero bytes and the length of the padded message gives, in every later
history, the results of a hash that holds the padded message, up to the flag. -/
theorem C55_digest_is_checkpoint (B B' : Build) (order : EvalOrder) (m : List Byte) (e : Digest) :
    ∃ D f e', sumPkg B.block order m = .ok (D, f) ∧
      e.unmarshalBinary ([0x73, 0x68, 0x61, 0x63, 0x64, 0x01] ++ D ++ List.replicate 64 0 ++
        word64Bytes (BitVec.ofNat 64 (pad m).length)) = .ok (e', none) ∧
      ∀ later, (∀ op ∈ later, isRestore op = false) → ∃ d o, e'.run B'.block later = .ok (d, o) ∧
        o.map withoutFlag = (results (verdict GoDetected) (pad m) later).map withoutFlag := by
  obtain ⟨f, hs⟩ : ∃ f, sumPkg B.block order m = .ok ((safeHash goVerdict m).1, f) := by
    cases order with
    | callFirst => exact ⟨_, sumPkg_call (build_impl B) m⟩
    | fieldFirst => exact ⟨_, C26_oneshot_any_order_partial B m⟩
  obtain ⟨d, w, hd⟩ := (holds_new goVerdict).write (build_impl B) (pad m)
  rw [List.nil_append] at hd
  obtain ⟨b, e', hm, hu, sim, _⟩ := restore_sim d e hd.1
  have hb : b = [0x73, 0x68, 0x61, 0x63, 0x64, 0x01] ++ (safeHash goVerdict m).1 ++ List.replicate 64 0 ++
      word64Bytes (BitVec.ofNat 64 (pad m).length) := by
    obtain ⟨d1, hc, _⟩ := hd.call (build_impl B) .marshalBinary rfl
    simp only [Digest.call, hm, bind, Except.bind, pure, Except.pure, result, Except.ok.injEq, Prod.mk.injEq,
      Out.marshalBinary.injEq, and_true] at hc
    rw [hc.2, List.drop_eq_nil_of_le (by have := pad_length_mod m; omega)]
    simp [checkpoint, safeHash]
  rw [hb] at hu
  refine ⟨_, f, e', hs, hu, fun later hl => ?_⟩
  obtain ⟨d1, d2, o1, o2, r1, r2, _, ho, _⟩ := run_sim B'.block B'.block _ (build_impl B') (build_impl B') later sim
  obtain ⟨d3, r3, _⟩ := hd.run (build_impl B') later hl
  rw [r3] at r1
  cases r1
  exact ⟨d2, o2, r2, by rw [withoutFlag_eq]; exact ho.symm⟩

/-- Instance: "abc", whose padded form is one block. -/
example (B : Build) : ∃ e, new.unmarshalBinary ([0x73, 0x68, 0x61, 0x63, 0x64, 0x01] ++ abcDigest ++ List.replicate 64 0 ++
    word64Bytes 64) = .ok (e, none) ∧ ∃ d, e.run B.block [.write [1, 2, 3], .sum []] =
      .ok (d, [.write 3 none, .sum (safeHash (verdict GoDetected) (pad abc ++ [1, 2, 3])).1]) := by
  obtain ⟨D, f, e, h1, h2, h3⟩ := C55_digest_is_checkpoint B B .callFirst abc new
  rw [sumPkg_call (build_impl B), abc_hash] at h1
  cases h1
  obtain ⟨d, o, r, ho⟩ := h3 [.write [1, 2, 3], .sum []] (by simp [isRestore])
  refine ⟨e, h2, d, ?_⟩
  rw [r]
  match o, ho with
  | [.write _ _, .sum _], ho => simpa [withoutFlag, results, result, msgAfter] using ho

/-- C55, length extension: who knows the digest of a message and its length, but not the message, can compute with the
package's own functions the digest of the message followed by its padding and any bytes.  The flag of that longer message
is the one computed or that of the message. -/
theorem C55_length_extension (B B' : Build) (m x : List Byte) :
    ∃ D f e e' D' g, sumPkg B.block .callFirst m = .ok (D, f) ∧
      new.unmarshalBinary ([0x73, 0x68, 0x61, 0x63, 0x64, 0x01] ++ D ++ List.replicate 64 0 ++
        word64Bytes (BitVec.ofNat 64 (pad m).length)) = .ok (e, none) ∧
      e.write B'.block x = .ok (e', x.length, none) ∧ e'.collisionResistantSum B'.block [] = .ok (e', D', g) ∧
      sumPkg B.block .callFirst (pad m ++ x) = .ok (D', f || g) := by
  obtain ⟨t, ht, hx⟩ := safeHash_extend goVerdict m x
  obtain ⟨e, e', hu, hw, D', hc⟩ := C08_restored_flag_exact B' new (safeChain goVerdict H0 (blocks (pad m))).1 []
    (BitVec.ofNat 64 (pad m).length) (by have := pad_length_mod m; simp; omega) x
  obtain ⟨D, f, e1, h1, h2, h3⟩ := C55_digest_is_checkpoint B B' .callFirst m new
  rw [sumPkg_call (build_impl B)] at h1
  obtain ⟨rfl, rfl⟩ : (safeHash goVerdict m).1 = D ∧ (safeHash goVerdict m).2 = f := by
    cases h1; exact ⟨rfl, rfl⟩
  have : e1 = e := by
    have hk : checkpoint (safeChain goVerdict H0 (blocks (pad m))).1 [] (BitVec.ofNat 64 (pad m).length) =
        [0x73, 0x68, 0x61, 0x63, 0x64, 0x01] ++ (safeHash goVerdict m).1 ++ List.replicate 64 0 ++
          word64Bytes (BitVec.ofNat 64 (pad m).length) := by simp [checkpoint, safeHash]
    rw [hk, h2] at hu
    cases hu; rfl
  subst this
  obtain ⟨d, o, r, ho⟩ := h3 [.write x, .collisionResistantSum []] (by simp [isRestore])
  simp only [Digest.run, Digest.call, hw, hc, bind, Except.bind, pure, Except.pure, Except.ok.injEq, Prod.mk.injEq] at r
  obtain ⟨-, rfl⟩ := r
  simp only [results, result, msgAfter, List.map_cons, List.map_nil, withoutFlag, List.nil_append, List.cons.injEq,
    Out.collisionResistantSum.injEq, and_true, true_and] at ho
  refine ⟨_, (safeHash goVerdict m).2, e1, e', D', _, ?_, h2, hw, hc, ?_⟩
  · rw [sumPkg_call (build_impl B)]
  · rw [sumPkg_call (build_impl B), ho]
    refine congrArg Except.ok (Prod.ext rfl ?_)
    rw [hx]
    have hz : zeroPad (BitVec.ofNat 64 ((pad m).length + x.length)).toNat =
        zeroPad ((BitVec.ofNat 64 (pad m).length).toNat + x.length) := by
      unfold zeroPad
      simp only [BitVec.toNat_ofNat]
      omega
    have hs : BitVec.ofNat 64 ((pad m).length + x.length) <<< 3 =
        8 * (BitVec.ofNat 64 (pad m).length + BitVec.ofNat 64 x.length) := by
      apply BitVec.eq_of_toNat_eq
      simp [Nat.shiftLeft_eq]
      omega
    have : t = [] ++ x ++ 128 :: List.replicate (zeroPad ((BitVec.ofNat 64 (pad m).length).toNat + x.length)) 0 ++
        word64Bytes (8 * (BitVec.ofNat 64 (pad m).length + BitVec.ofNat 64 x.length)) := by
      rw [ht, padTail, hz, hs, List.nil_append, List.append_assoc]
    rw [← this]
    rfl

/-- C55, collisions last: if two messages of which the padded forms have the same length get the same digest, so do these
padded forms with any bytes appended; whatever was flagged stays flagged, and what is flagged after that is flagged in
both. -/
theorem C55_collisions_extend (det : Regs → Block → Bool) (m m' x : List Byte) (hl : (pad m).length = (pad m').length)
    (h : (safeHash det m).1 = (safeHash det m').1) :
    (safeHash det (pad m ++ x)).1 = (safeHash det (pad m' ++ x)).1 ∧
      ∃ g, (safeHash det (pad m ++ x)).2 = ((safeHash det m).2 || g) ∧
        (safeHash det (pad m' ++ x)).2 = ((safeHash det m').2 || g) := by
  have hH : (safeChain det H0 (blocks (pad m))).1 = (safeChain det H0 (blocks (pad m'))).1 := digestBytes_inj h
  obtain ⟨t, ht, e⟩ := safeHash_extend det m x
  obtain ⟨t', ht', e'⟩ := safeHash_extend det m' x
  have : t' = t := by rw [ht, ht', hl]
  rw [this, ← hH] at e'
  rw [e, e']
  exact ⟨rfl, _, rfl, rfl⟩

theorem safeHash_off (m : List Byte) : (safeHash (fun _ _ => false) m).1 = sha1 m := by
  have : ∀ bs H, (safeChain (fun _ _ => false) H bs).1 = bs.foldl compress H := by
    intro bs
    induction bs with
    | nil => exact fun H => rfl
    | cons b bs ih =>
      intro H
      simp only [safeChain, List.foldl_cons, ih]
      rfl
  simp only [safeHash, this, sha1]

/-- Instance: with nothing detected this is plain SHA-1, of which the two files of test/testdata/files are a collision. -/
example (x : List Byte) : shambles1 ≠ shambles2 ∧
    (safeHash (fun _ _ => false) (pad shambles1 ++ x)).1 = (safeHash (fun _ _ => false) (pad shambles2 ++ x)).1 :=
  ⟨shambles_ne, (C55_collisions_extend _ _ _ x (by
    have := shambles1_pad; have := shambles2_pad
    have := pad_length_mod shambles1; have := pad_length_mod shambles2
    omega) (by rw [safeHash_off, safeHash_off]; exact shambles_sha1)).1⟩

end Verif.Props
