import Verif.Spec.Hmac
import Verif.Props.Held
import Verif.Props.Cgo

/-!
C61: HMAC around the hashes of both packages.  Go's crypto/hmac uses New, Write, Sum, Reset, BlockSize and, if the hash
has them, MarshalBinary and UnmarshalBinary.
-/

namespace Verif.Props

open Verif Verif.Model Verif.Spec

/-- The hash of package sha1cd as crypto/hmac sees it. -/
def goHash (B : Build) : HashIface Digest where
  new := Model.new
  write := Digest.write B.block
  sum := Digest.sum B.block
  reset := Digest.reset
  blockSize := Model.new.blockSize
  marshal := some (fun d => do let (d, b) ← d.marshalBinary; pure (d, b, none), Digest.unmarshalBinary)

/-- The hash of package cgo as crypto/hmac sees it: without checkpoints. -/
def cgoHash (cfg : C.Cfg) : HashIface Cgo.Digest where
  new := Cgo.new
  write := Cgo.Digest.write cfg
  sum := Cgo.Digest.sum cfg
  reset := Cgo.Digest.reset
  blockSize := Cgo.new.blockSize
  marshal := none

/-- What the client needs: `R s m` says that the hash `s` holds the bytes `m`. -/
structure Serves {σ : Type} (I : HashIface σ) (H : List Byte → List Byte) (R : σ → List Byte → Prop) : Prop where
  blockSize : I.blockSize = 64
  short : ∀ m, (H m).length ≤ 64
  new : R I.new []
  reset : ∀ s, R (I.reset s) []
  write : ∀ s m p, R s m → ∃ s', I.write s p = .ok (s', p.length, none) ∧ R s' (m ++ p)
  sum : ∀ s m inp, R s m → ∃ s', I.sum s inp = .ok (s', inp ++ H m) ∧ R s' m
  marshal : ∀ ma un, I.marshal = some (ma, un) → ∀ s m, R s m →
    ∃ s' b, ma s = .ok (s', b, none) ∧ R s' m ∧ ∀ e, ∃ e', un e b = .ok (e', none) ∧ R e' m

/-- The key as padded, and hashed if it is long. -/
def padKey (H : List Byte → List Byte) (key : List Byte) : List Byte :=
  let k := if key.length > 64 then H key else key
  k ++ List.replicate (64 - k.length) 0

/-- The state of a MAC to which `m` was written since the last reset. -/
structure HmInv {σ : Type} (I : HashIface σ) (H : List Byte → List Byte) (R : σ → List Byte → Prop) (key : List Byte)
    (h : Hm σ) (m : List Byte) : Prop where
  inner : R h.inner ((padKey H key).map (· ^^^ 0x36) ++ m)
  plain : h.marshaled = false → h.ipad = (padKey H key).map (· ^^^ 0x36) ∧ h.opad = (padKey H key).map (· ^^^ 0x5c)
  saved : h.marshaled = true → ∃ ma un, I.marshal = some (ma, un) ∧
    (∀ e, ∃ e', un e h.ipad = .ok (e', none) ∧ R e' ((padKey H key).map (· ^^^ 0x36))) ∧
    ∀ e, ∃ e', un e h.opad = .ok (e', none) ∧ R e' ((padKey H key).map (· ^^^ 0x5c))

section
variable {σ : Type} {I : HashIface σ} {H : List Byte → List Byte} {R : σ → List Byte → Prop} {key : List Byte}

theorem hm_new (hI : Serves I H R) (key : List Byte) : ∃ h, Hm.new I key = .ok h ∧ HmInv I H R key h [] := by
  have hcopy : ∀ k : List Byte, k.length ≤ 64 → copyTo 64 k = k ++ List.replicate (64 - k.length) 0 := by
    intro k hk
    unfold copyTo
    rw [List.take_of_length_le hk]
  unfold Hm.new
  rw [hI.blockSize]
  by_cases hk : key.length > 64
  · obtain ⟨o1, w1, r1⟩ := hI.write _ _ key hI.new
    obtain ⟨o2, w2, _⟩ := hI.sum _ _ [] r1
    obtain ⟨i1, w3, r3⟩ := hI.write _ _ ((padKey H key).map (· ^^^ 0x36)) hI.new
    have hpk : copyTo 64 (H key) = padKey H key := by
      rw [hcopy _ (hI.short key)]
      simp only [padKey, if_pos hk]
    refine ⟨⟨(padKey H key).map (· ^^^ 0x5c), (padKey H key).map (· ^^^ 0x36), o2, i1, false⟩, ?_,
      by simpa using r3, fun _ => ⟨rfl, rfl⟩, by simp⟩
    simp only [if_pos hk, w1, w2, bind, Except.bind, pure, Except.pure, List.nil_append, hpk, w3]
  · obtain ⟨i1, w3, r3⟩ := hI.write _ _ ((padKey H key).map (· ^^^ 0x36)) hI.new
    have hpk : copyTo 64 key = padKey H key := by
      rw [hcopy _ (by omega)]
      simp only [padKey, if_neg hk]
    refine ⟨⟨(padKey H key).map (· ^^^ 0x5c), (padKey H key).map (· ^^^ 0x36), I.new, i1, false⟩, ?_,
      by simpa using r3, fun _ => ⟨rfl, rfl⟩, by simp⟩
    simp only [if_neg hk, bind, Except.bind, pure, Except.pure, hpk, w3]

theorem hm_write (hI : Serves I H R) {h : Hm σ} {m : List Byte} (hh : HmInv I H R key h m) (p : List Byte) :
    ∃ h', h.write I p = .ok (h', p.length, none) ∧ HmInv I H R key h' (m ++ p) := by
  obtain ⟨s, w, r⟩ := hI.write _ _ p hh.inner
  exact ⟨{ h with inner := s }, by simp only [Hm.write, w, bind, Except.bind, pure, Except.pure],
    by simpa using r, hh.plain, hh.saved⟩

theorem hmac_eq (m : List Byte) : hmac H key m =
    H ((padKey H key).map (· ^^^ 0x5c) ++ H ((padKey H key).map (· ^^^ 0x36) ++ m)) := rfl

theorem hm_sum (hI : Serves I H R) {h : Hm σ} {m : List Byte} (hh : HmInv I H R key h m) (inp : List Byte) :
    ∃ h', h.sum I inp = .ok (h', inp ++ hmac H key m) ∧ HmInv I H R key h' m := by
  obtain ⟨i1, w1, r1⟩ := hI.sum _ _ inp hh.inner
  cases hm : h.marshaled with
  | true =>
    obtain ⟨ma, un, e, _, ho⟩ := hh.saved hm
    obtain ⟨o1, w2, r2⟩ := ho h.outer
    obtain ⟨o2, w3, r3⟩ := hI.write _ _ (H ((padKey H key).map (· ^^^ 0x36) ++ m)) r2
    obtain ⟨o3, w4, _⟩ := hI.sum _ _ inp r3
    refine ⟨{ h with inner := i1, outer := o3 }, ?_, r1, hh.plain, hh.saved⟩
    simp only [Hm.sum, w1, hm, e, w2, List.drop_left, List.take_left, w3, w4, bind, Except.bind, pure, Except.pure,
      if_true, hmac_eq]
  | false =>
    obtain ⟨o1, w2, r2⟩ := hI.write _ _ h.opad (hI.reset h.outer)
    rw [(hh.plain hm).2, List.nil_append] at r2
    obtain ⟨o2, w3, r3⟩ := hI.write _ _ (H ((padKey H key).map (· ^^^ 0x36) ++ m)) r2
    obtain ⟨o3, w4, _⟩ := hI.sum _ _ inp r3
    refine ⟨{ h with inner := i1, outer := o3 }, ?_, r1, hh.plain, hh.saved⟩
    simp only [Hm.sum, w1, hm, w2, List.drop_left, List.take_left, w3, w4, bind, Except.bind, pure, Except.pure,
      Bool.false_eq_true, if_false, hmac_eq]

theorem hm_reset (hI : Serves I H R) {h : Hm σ} {m : List Byte} (hh : HmInv I H R key h m) :
    ∃ h', h.reset I = .ok h' ∧ HmInv I H R key h' [] := by
  cases hm : h.marshaled with
  | true =>
    obtain ⟨ma, un, e, hi, _⟩ := hh.saved hm
    obtain ⟨i1, w, r⟩ := hi h.inner
    refine ⟨{ h with inner := i1 }, ?_, by simpa using r, hh.plain, hh.saved⟩
    simp only [Hm.reset, e, hm, w, bind, Except.bind, pure, Except.pure]
  | false =>
    obtain ⟨i1, w1, r1⟩ := hI.write _ _ h.ipad (hI.reset h.inner)
    rw [(hh.plain hm).1, List.nil_append] at r1
    cases e : I.marshal with
    | none =>
      refine ⟨{ h with inner := i1 }, ?_, by simpa using r1, hh.plain, hh.saved⟩
      simp only [Hm.reset, e, hm, w1, bind, Except.bind, pure, Except.pure]
    | some x =>
      obtain ⟨ma, un⟩ := x
      obtain ⟨i2, b1, w2, r2, hb1⟩ := hI.marshal ma un e _ _ r1
      obtain ⟨o1, w3, r3⟩ := hI.write _ _ h.opad (hI.reset h.outer)
      rw [(hh.plain hm).2, List.nil_append] at r3
      obtain ⟨o2, b2, w4, r4, hb2⟩ := hI.marshal ma un e _ _ r3
      refine ⟨⟨b2, b1, o2, i2, true⟩, ?_, by simpa using r2, by simp, fun _ => ⟨ma, un, e, hb1, hb2⟩⟩
      simp only [Hm.reset, e, hm, w1, w2, w3, w4, bind, Except.bind, pure, Except.pure]

theorem hm_run (hI : Serves I H R) (ops : List HmOp) {h : Hm σ} {m : List Byte} (hh : HmInv I H R key h m) :
    ∃ h', h.run I ops = .ok (h', hmacResults H key m ops) := by
  induction ops generalizing h m with
  | nil => exact ⟨h, rfl⟩
  | cons op ops ih =>
    cases op with
    | write p =>
      obtain ⟨h1, w, hh1⟩ := hm_write hI hh p
      obtain ⟨h2, r⟩ := ih hh1
      exact ⟨h2, by simp only [Hm.run, w, r, bind, Except.bind, pure, Except.pure, hmacResults]⟩
    | sum inp =>
      obtain ⟨h1, w, hh1⟩ := hm_sum hI hh inp
      obtain ⟨h2, r⟩ := ih hh1
      exact ⟨h2, by simp only [Hm.run, w, r, bind, Except.bind, pure, Except.pure, hmacResults]⟩
    | reset =>
      obtain ⟨h1, w, hh1⟩ := hm_reset hI hh
      obtain ⟨h2, r⟩ := ih hh1
      exact ⟨h2, by simp only [Hm.run, w, r, bind, Except.bind, pure, Except.pure, hmacResults]⟩

end

/-- An object holds `m`, whatever its flag. -/
def HoldsUpToFlag (d : Digest) (m : List Byte) : Prop := ∃ c, HeldBy d { Held.message goVerdict m with col := c }

theorem goHash_serves (B : Build) : Serves (goHash B) (fun m => (safeHash goVerdict m).1) HoldsUpToFlag where
  blockSize := rfl
  short m := by
    have : (safeHash goVerdict m).1.length = 20 := rfl
    omega
  new := ⟨false, by
    rw [show { Held.message goVerdict [] with col := false } = Held.new by
      simp [(C60_messages goVerdict []).1, Held.message, blocks, chunks, safeChain]]
    exact heldBy_reset Digest.zero⟩
  reset s := ⟨false, by
    rw [show { Held.message goVerdict [] with col := false } = Held.new by
      simp [(C60_messages goVerdict []).1, Held.message, blocks, chunks, safeChain]]
    exact heldBy_reset s⟩
  write s m p := by
    rintro ⟨c, hc⟩
    obtain ⟨s', w, hi, hl, ha⟩ := write_spec B.block goVerdict (build_impl B) s hc.1 p
    have hw := (C60_messages goVerdict m).2.2.1 p
    rw [hc.2.1] at ha
    rw [hc.2.2] at hl
    refine ⟨s', w, (absD s').col, hi, ?_, ?_⟩
    · rw [← hw]
      rw [ha]
      rfl
    · rw [← hw, hl]
      rfl
  sum s m inp := by
    rintro ⟨c, hc⟩
    refine ⟨s, ?_, c, hc⟩
    have h1 := sum_spec B.block goVerdict (build_impl B) s hc.1 inp
    rw [hc.sum goVerdict] at h1
    rw [← (C60_messages goVerdict m).2.1]
    exact h1
  marshal ma un e s m := by
    rintro ⟨c, hc⟩
    cases e
    have hm := hc.call (build_impl B) .marshalBinary
    obtain ⟨d', e1, hd'⟩ := hm
    simp only [Digest.call, bind, Except.bind, pure, Except.pure] at e1
    cases hmb : s.marshalBinary with
    | error x => rw [hmb] at e1; cases e1
    | ok x =>
      obtain ⟨s', b⟩ := x
      rw [hmb] at e1
      simp only [Held.result, Except.ok.injEq, Prod.mk.injEq, Out.marshalBinary.injEq, and_true] at e1
      obtain ⟨rfl, hb⟩ := e1
      refine ⟨s', b, ?_, ⟨c, hd'⟩, fun e => ?_⟩
      · change (do let (d, b) ← s.marshalBinary; pure (d, b, none)) = _
        rw [hmb]
        rfl
      · have hpl : (Held.message goVerdict m).pend.length = m.length % 64 := by
          simp only [Held.message, List.length_drop]
          omega
        have hx := (checkpoint_eq_encode H0 (Held.message goVerdict m).pend (by omega) 0).2
        have hr := (C60_messages goVerdict m).2.2.2 ⟨e.h, [], 0, e.col⟩
        rw [(checkpoint_eq_encode _ _ (by omega) _).1] at hr hb
        rw [restore_encode _ _ _ hx] at hr
        rw [hb]
        refine ⟨_, unmarshal_encode e _ _ _ hx, e.col, rfl, ?_, rfl⟩
        have hp := congrArg Held.pend hr
        simp only at hp
        simp only [absD, BitVec.toNat_umod]
        rw [show (64 : Word64).toNat = 64 from rfl, hp]

theorem cgoHash_serves (cfg : C.Cfg) : Serves (cgoHash cfg) (fun m => (safeHash (verdict Detected) m).1) HoldsCgo where
  blockSize := rfl
  short m := by
    have : (safeHash (verdict Detected) m).1.length = 20 := rfl
    omega
  new := holdsCgo_new
  reset s := holdsCgo_reset s
  write s m p h := h.write cfg p
  sum s m inp h := ⟨s, h.sum cfg inp, h⟩
  marshal ma un e := by cases e

/-- C61: crypto/hmac around a hash of package sha1cd, in every build, for every key and every history of calls: `New`
succeeds, nothing panics, and each `Sum` appends the HMAC of RFC 2104 of the bytes written since the last `Reset`, with
the digests of sha1cd for the hash. -/
theorem C61_hmac (B : Build) (key : List Byte) (ops : List HmOp) :
    ∃ h h', Hm.new (goHash B) key = .ok h ∧
      h.run (goHash B) ops = .ok (h', hmacResults (fun m => (safeHash goVerdict m).1) key [] ops) := by
  obtain ⟨h, e, hh⟩ := hm_new (goHash_serves B) key
  obtain ⟨h', r⟩ := hm_run (goHash_serves B) ops hh
  exact ⟨h, h', e, r⟩

/-- C61 for package cgo, whose hash has no checkpoints. -/
theorem C61_cgo_hmac (cfg : C.Cfg) (key : List Byte) (ops : List HmOp) :
    ∃ h h', Hm.new (cgoHash cfg) key = .ok h ∧
      h.run (cgoHash cfg) ops = .ok (h', hmacResults (fun m => (safeHash (verdict Detected) m).1) key [] ops) := by
  obtain ⟨h, e, hh⟩ := hm_new (cgoHash_serves cfg) key
  obtain ⟨h', r⟩ := hm_run (cgoHash_serves cfg) ops hh
  exact ⟨h, h', e, r⟩

/-- C61: it is HMAC-SHA1 if none of the (two or, for a long key, three) hashed strings is flagged. -/
theorem C61_unflagged_is_hmac_sha1 (det : Regs → Block → Bool) (key m : List Byte)
    (hk : key.length > 64 → (safeHash det key).2 = false)
    (hi : (safeHash det ((padKey sha1 key).map (· ^^^ 0x36) ++ m)).2 = false)
    (ho : (safeHash det ((padKey sha1 key).map (· ^^^ 0x5c) ++
      sha1 ((padKey sha1 key).map (· ^^^ 0x36) ++ m))).2 = false) :
    hmac (fun m => (safeHash det m).1) key m = hmac sha1 key m := by
  have hpk : padKey (fun m => (safeHash det m).1) key = padKey sha1 key := by
    unfold padKey
    by_cases h : key.length > 64
    · simp only [if_pos h, safeHash_unflagged det key (hk h)]
    · simp only [if_neg h]
  rw [hmac_eq, hmac_eq, hpk, safeHash_unflagged det _ hi, safeHash_unflagged det _ ho]

/-- A short key (RFC 2202, test case 2): the key. -/
def jefeKey : List Byte := [0x4a, 0x65, 0x66, 0x65]

/-- The text. -/
def jefeText : List Byte :=
  [0x77, 0x68, 0x61, 0x74, 0x20, 0x64, 0x6f, 0x20, 0x79, 0x61, 0x20, 0x77, 0x61, 0x6e, 0x74, 0x20,
    0x66, 0x6f, 0x72, 0x20, 0x6e, 0x6f, 0x74, 0x68, 0x69, 0x6e, 0x67, 0x3f]

/-- Its HMAC-SHA1 according to RFC 2202. -/
def jefeMac : List Byte :=
  [0xef, 0xfc, 0xdf, 0x6a, 0xe5, 0xeb, 0x2f, 0xa2, 0xd2, 0x74, 0x16, 0xd5, 0xf1, 0x84, 0xdf, 0x9c, 0x25, 0x9a, 0x7c, 0x79]

theorem jefe_instance :
    ((jefeKey.length > 64 → (safeHash goVerdict jefeKey).2 = false) ∧
      (safeHash goVerdict ((padKey sha1 jefeKey).map (· ^^^ 0x36) ++ jefeText)).2 = false ∧
      (safeHash goVerdict ((padKey sha1 jefeKey).map (· ^^^ 0x5c) ++
        sha1 ((padKey sha1 jefeKey).map (· ^^^ 0x36) ++ jefeText))).2 = false) ∧
    hmac sha1 jefeKey jefeText = jefeMac := by
  have hp : padKey sha1 jefeKey =
      [0x4a, 0x65, 0x66, 0x65, 0x00, 0x00, 0x00, 0x00, 0x00, 0x00, 0x00, 0x00, 0x00, 0x00, 0x00, 0x00,
    0x00, 0x00, 0x00, 0x00, 0x00, 0x00, 0x00, 0x00, 0x00, 0x00, 0x00, 0x00, 0x00, 0x00, 0x00, 0x00,
    0x00, 0x00, 0x00, 0x00, 0x00, 0x00, 0x00, 0x00, 0x00, 0x00, 0x00, 0x00, 0x00, 0x00, 0x00, 0x00,
    0x00, 0x00, 0x00, 0x00, 0x00, 0x00, 0x00, 0x00, 0x00, 0x00, 0x00, 0x00, 0x00, 0x00, 0x00, 0x00] := by
    decide +kernel
  have hi : safeHash goVerdict ((padKey sha1 jefeKey).map (· ^^^ 0x36) ++ jefeText) =
      ([0x98, 0x85, 0x12, 0x44, 0x3a, 0xf9, 0x1c, 0x57, 0xa3, 0x8c, 0xe2, 0xdc, 0x8e, 0xc3, 0x87, 0x96, 0x6c, 0x08, 0xde, 0xc4], false) := by
    rw [hp, go_eval 2 _ (by decide +kernel)]; decide +kernel
  have hi' := safeHash_unflagged goVerdict _ (congrArg Prod.snd hi)
  rw [hi] at hi'
  have ho : safeHash goVerdict ((padKey sha1 jefeKey).map (· ^^^ 0x5c) ++
      sha1 ((padKey sha1 jefeKey).map (· ^^^ 0x36) ++ jefeText)) = (jefeMac, false) := by
    rw [← hi', hp, go_eval 2 _ (by decide +kernel)]; decide +kernel
  have ho' := safeHash_unflagged goVerdict _ (congrArg Prod.snd ho)
  rw [ho] at ho'
  exact ⟨⟨fun h => absurd h (by decide), by rw [hi], by rw [ho]⟩, by rw [hmac_eq, ← ho']⟩

/-- A key that is hashed first (RFC 2202, test case 6): the key. -/
def longKey : List Byte := List.replicate 80 0xaa

/-- The text. -/
def longText : List Byte :=
  [0x54, 0x65, 0x73, 0x74, 0x20, 0x55, 0x73, 0x69, 0x6e, 0x67, 0x20, 0x4c, 0x61, 0x72, 0x67, 0x65,
    0x72, 0x20, 0x54, 0x68, 0x61, 0x6e, 0x20, 0x42, 0x6c, 0x6f, 0x63, 0x6b, 0x2d, 0x53, 0x69, 0x7a,
    0x65, 0x20, 0x4b, 0x65, 0x79, 0x20, 0x2d, 0x20, 0x48, 0x61, 0x73, 0x68, 0x20, 0x4b, 0x65, 0x79,
    0x20, 0x46, 0x69, 0x72, 0x73, 0x74]

/-- Its HMAC-SHA1 according to RFC 2202. -/
def longMac : List Byte :=
  [0xaa, 0x4a, 0xe5, 0xe1, 0x52, 0x72, 0xd0, 0x0e, 0x95, 0x70, 0x56, 0x37, 0xce, 0x8a, 0x3b, 0x55, 0xed, 0x40, 0x21, 0x12]

theorem long_instance :
    ((longKey.length > 64 → (safeHash goVerdict longKey).2 = false) ∧
      (safeHash goVerdict ((padKey sha1 longKey).map (· ^^^ 0x36) ++ longText)).2 = false ∧
      (safeHash goVerdict ((padKey sha1 longKey).map (· ^^^ 0x5c) ++
        sha1 ((padKey sha1 longKey).map (· ^^^ 0x36) ++ longText))).2 = false) ∧
    hmac sha1 longKey longText = longMac := by
  have hk : safeHash goVerdict longKey =
      ([0x4c, 0xa0, 0xef, 0x38, 0xf1, 0x79, 0x4b, 0x28, 0xa8, 0xf8, 0xee, 0x11, 0x0e, 0xe7, 0x9d, 0x48, 0xce, 0x13, 0xbe, 0x25], false) := by
    rw [go_eval 2 _ (by decide +kernel)]; decide +kernel
  have hk' : sha1 longKey = (safeHash goVerdict longKey).1 := (safeHash_unflagged goVerdict _ (by rw [hk])).symm
  have hp : padKey sha1 longKey =
      [0x4c, 0xa0, 0xef, 0x38, 0xf1, 0x79, 0x4b, 0x28, 0xa8, 0xf8, 0xee, 0x11, 0x0e, 0xe7, 0x9d, 0x48,
    0xce, 0x13, 0xbe, 0x25, 0x00, 0x00, 0x00, 0x00, 0x00, 0x00, 0x00, 0x00, 0x00, 0x00, 0x00, 0x00,
    0x00, 0x00, 0x00, 0x00, 0x00, 0x00, 0x00, 0x00, 0x00, 0x00, 0x00, 0x00, 0x00, 0x00, 0x00, 0x00,
    0x00, 0x00, 0x00, 0x00, 0x00, 0x00, 0x00, 0x00, 0x00, 0x00, 0x00, 0x00, 0x00, 0x00, 0x00, 0x00] := by
    unfold padKey
    rw [if_pos (by decide), hk', hk]
    decide +kernel
  have hi : safeHash goVerdict ((padKey sha1 longKey).map (· ^^^ 0x36) ++ longText) =
      ([0x80, 0xfe, 0x60, 0xe0, 0xe4, 0xb4, 0xd3, 0x58, 0xbf, 0xda, 0xae, 0x8d, 0x4c, 0x9b, 0x5d, 0xab, 0x46, 0xff, 0xa0, 0xef], false) := by
    rw [hp, go_eval 2 _ (by decide +kernel)]; decide +kernel
  have hi' := safeHash_unflagged goVerdict _ (congrArg Prod.snd hi)
  rw [hi] at hi'
  have ho : safeHash goVerdict ((padKey sha1 longKey).map (· ^^^ 0x5c) ++
      sha1 ((padKey sha1 longKey).map (· ^^^ 0x36) ++ longText)) = (longMac, false) := by
    rw [← hi', hp, go_eval 2 _ (by decide +kernel)]; decide +kernel
  have ho' := safeHash_unflagged goVerdict _ (congrArg Prod.snd ho)
  rw [ho] at ho'
  exact ⟨⟨fun h => by rw [hk], by rw [hi], by rw [ho]⟩, by rw [hmac_eq, ← ho']⟩

/-- C61: through the whole stack, in every build: two sums around a `Reset`, after which the MAC restores checkpoints. -/
theorem C61_rfc2202 (B : Build) (inp : List Byte) :
    ∃ h h', Hm.new (goHash B) jefeKey = .ok h ∧
      h.run (goHash B) [.write [1, 2, 3], .reset, .write jefeText, .sum inp, .reset, .write jefeText, .sum inp] =
        .ok (h', [.write 3 none, .reset, .write 28 none, .sum (inp ++ jefeMac), .reset, .write 28 none,
          .sum (inp ++ jefeMac)]) := by
  obtain ⟨h, h', e, r⟩ := C61_hmac B jefeKey
    [.write [1, 2, 3], .reset, .write jefeText, .sum inp, .reset, .write jefeText, .sum inp]
  refine ⟨h, h', e, ?_⟩
  rw [r]
  obtain ⟨⟨hk, hi, ho⟩, hm⟩ := jefe_instance
  simp only [hmacResults, List.nil_append, C61_unflagged_is_hmac_sha1 goVerdict _ _ hk hi ho, hm]
  rfl

end Verif.Props
