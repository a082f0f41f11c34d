import Verif.Model.Cpp
import Verif.Proofs.CSponge
import Verif.Props.Cgo

/-!
C44: the byte order for which cgo/sha1.c is compiled.
-/

namespace Verif.Props

open Verif Verif.Model Verif.Model.C Verif.Spec Verif.C

/-- The macros that gcc (since 4.6) and clang (since 3.2) predefine tell the byte order of the machine. -/
def Truthful (machineBE : Bool) (e : Macros) : Prop :=
  ∃ x y, e "__BYTE_ORDER__" = some x ∧ e "__ORDER_BIG_ENDIAN__" = some y ∧ (x = y ↔ machineBE = true)

/-- Nobody has overridden the detection. -/
def NotForced (e : Macros) : Prop :=
  e "SHA1DC_BIGENDIAN" = none ∧ e "SHA1DC_FORCE_LITTLEENDIAN" = none ∧ e "SHA1DC_FORCE_BIGENDIAN" = none

theorem macroBE_truthful {machineBE : Bool} {e : Macros} (ht : Truthful machineBE e) (hf : NotForced e) :
    macroBE e = machineBE := by
  obtain ⟨x, y, hx, hy, h⟩ := ht
  obtain ⟨h1, h2, h3⟩ := hf
  unfold macroBE detectBE Macros.isDef Macros.val
  simp only [h1, h2, h3, hx, hy, Option.isSome_none, Option.isSome_some, Option.getD_some, Bool.false_or,
    Bool.and_self, if_true, Bool.false_and, Bool.false_eq_true, if_false]
  cases machineBE
  · simpa using h
  · simpa using h

theorem platOf_cfg {machineBE : Bool} {e : Macros} (h : macroBE e = machineBE) :
    platOf machineBE e = (⟨machineBE, macroUnaligned e⟩ : Cfg) := by
  unfold platOf Cfg.plat
  rw [h]

/-- C44: with such a compiler, whatever other macros are defined, every history of calls on a cgo hash returns what
the specification prescribes, and so does `Sum`. -/
theorem C44_byte_order (machineBE : Bool) (e : Macros) (ht : Truthful machineBE e) (hf : NotForced e) :
    (∀ ops, ∃ d, Cgo.new.run (platOf machineBE e) ops =
      .ok (d, results (verdict Detected) [] (ops.map Cgo.Op.toGo))) ∧
    (∀ m, Cgo.sumPkg (platOf machineBE e) m = .ok (safeHash (verdict Detected) m)) := by
  rw [platOf_cfg (macroBE_truthful ht hf)]
  exact ⟨fun ops => C33_cgo_refines _ ops, fun m => cgo_sumPkg _ m⟩

/-- Instance: gcc for 64-bit big-endian PowerPC, and for 64-bit x86. -/
example : Cgo.sumPkg (platOf true fun x => if x = "__BYTE_ORDER__" then some 4321
      else if x = "__ORDER_BIG_ENDIAN__" then some 4321 else if x = "__powerpc64__" then some 1 else none) abc =
      .ok (abcDigest, false) ∧
    Cgo.sumPkg (platOf false fun x => if x = "__BYTE_ORDER__" then some 1234
      else if x = "__ORDER_BIG_ENDIAN__" then some 4321 else if x = "__amd64__" then some 1 else none) shattered1 =
      .ok (shatteredDigest1, true) := by
  constructor
  · rw [(C44_byte_order true _ ⟨4321, 4321, rfl, rfl, by decide⟩ ⟨rfl, rfl, rfl⟩).2, abc_hash_c]
  · rw [(C44_byte_order false _ ⟨1234, 4321, rfl, rfl, by decide⟩ ⟨rfl, rfl, rfl⟩).2, shattered1_hash_c]

/-! ### Platforms with the wrong macro -/

/-- The padded empty message. -/
def emptyPad : List Byte := 0x80 :: List.replicate 63 0

theorem final_empty (pl : Plat) (c0 : Ctx) : ∃ c', SHA1DCFinal pl (SHA1DCInit c0) =
      .ok (c', digestBytes (Options.default.next H0 (blockOf pl emptyPad)), c'.found_collision) ∧
    c'.found_collision = if verdict Options.default.Flags H0 (blockOf pl emptyPad) then 1 else 0 := by
  have hup : ∃ b : Buf, b.1.take 56 = emptyPad.take 56 ∧
      SHA1DCUpdate pl (SHA1DCInit c0) (sha1_padding.take 56) =
      .ok { SHA1DCInit c0 with total := 56, buffer := b } := by
    have hl : (sha1_padding.take 56).length = 56 := by decide
    obtain ⟨b, hb, hc⟩ : ∃ b : Buf, memcpyBuf c0.buffer 0 (sha1_padding.take 56) = .ok b ∧
        b.1.take 56 = emptyPad.take 56 := by
      refine ⟨⟨sha1_padding.take 56 ++ c0.buffer.1.drop 56, by have := c0.buffer.2; simp [hl]; omega⟩, ?_, ?_⟩
      · unfold memcpyBuf
        rw [dif_pos (by rw [hl]; decide)]
        simp [hl, pure, Except.pure]
      · exact List.take_left' hl
    refine ⟨b, hc, ?_⟩
    unfold SHA1DCUpdate
    rw [if_neg (by rw [hl]; decide)]
    have h1 : updFill pl (SHA1DCInit c0) (sha1_padding.take 56) =
        .ok (SHA1DCInit c0, sha1_padding.take 56, 0) := by
      unfold updFill
      have h0 : ((SHA1DCInit c0).total &&& 63).toNat = 0 := show ((0 : Word64) &&& 63).toNat = 0 by decide
      simp only [h0]
      rw [if_neg (fun h => h.1 rfl)]
      rfl
    have h2 : updBulk pl (SHA1DCInit c0) (sha1_padding.take 56) = .ok (SHA1DCInit c0, sha1_padding.take 56) := by
      unfold updBulk
      rw [if_neg (by rw [hl]; decide)]
      rfl
    simp only [h1, h2, bind, Except.bind]
    unfold updTail
    rw [if_pos (by rw [hl]; decide)]
    simp only [SHA1DCInit] at hb ⊢
    simp only [hb, bind, Except.bind, hl, pure, Except.pure]
    rfl
  obtain ⟨b, hb, hu⟩ := hup
  obtain ⟨y, hy, hy2⟩ := memcpyBuf_full b 56 (List.replicate 8 0) (by simp)
  have hy3 : y.1 = emptyPad := by
    rw [hy2, hb]; decide
  obtain ⟨c', r, -, i, f⟩ := process_plat pl { SHA1DCInit c0 with total := 56, buffer := y } y.1
    (by rw [y.2]; exact Nat.le_refl _)
  refine ⟨c', ?_, ?_⟩
  · unfold SHA1DCFinal
    have ht : (SHA1DCInit c0).total = 0 := rfl
    simp only [ht]
    have hu' : SHA1DCUpdate pl (SHA1DCInit c0) (sha1_padding.take
        (if (((0 : Word64) &&& 63).setWidth 32 : Word) < 56 then 56 - ((0 : Word64) &&& 63).setWidth 32
          else 120 - ((0 : Word64) &&& 63).setWidth 32 : Word).toNat) = _ := hu
    rw [if_pos (by decide)]
    simp only [hu', bind, Except.bind]
    have hy' : memcpyBuf b 56 _ = .ok y := hy
    rw [show ∀ t : Word64, t = 0 → [((t <<< 3) >>> 56).setWidth 8, ((t <<< 3) >>> 48).setWidth 8,
      ((t <<< 3) >>> 40).setWidth 8, ((t <<< 3) >>> 32).setWidth 8, ((t <<< 3) >>> 24).setWidth 8,
      ((t <<< 3) >>> 16).setWidth 8, ((t <<< 3) >>> 8).setWidth 8, (t <<< 3).setWidth 8] =
      (List.replicate 8 0 : List Byte) from fun t h => by subst h; decide]
    · simp only [hy', r, out32_eq, pure, Except.pure]
      rw [i, hy3]
      rfl
    · decide
  · rw [f, hy3]
    rfl

theorem sum_empty (pl : Plat) : Cgo.sumPkg pl [] =
    .ok (digestBytes (safeCompress (verdict Detected) H0 (blockOf pl emptyPad)),
      verdict Detected H0 (blockOf pl emptyPad)) := by
  obtain ⟨c', r, f⟩ := final_empty pl Cgo.Digest.zero.ctx
  rw [next_default] at r
  rw [flags_default] at f
  unfold Cgo.sumPkg Cgo.Digest.sum0
  have hw : Cgo.Digest.write pl Cgo.Digest.zero.reset [] = .ok (Cgo.Digest.zero.reset, 0, none) := rfl
  have hr : SHA1DCFinal pl Cgo.Digest.zero.reset.ctx = _ := r
  simp only [hw, hr, bind, Except.bind, f]
  cases verdict Detected H0 (blockOf pl emptyPad) <;> rfl

theorem empty_hash_c : safeHash (verdict Detected) [] = (sha1 [], false) := by
  rw [detected_eval 1 [] (by decide), ← evalSha1_spec 1 [] (by decide)]; decide +kernel

/-- The digest of the empty message on a platform with the wrong macro. -/
def emptyWrong : List Byte := digestBytes (evalCompress (schedL (wordsL (swappedBlock emptyPad))) H0)

theorem emptyWrong_ne : emptyWrong ≠ sha1 [] := by
  rw [← evalSha1_spec 1 [] (by decide)]; decide +kernel

/-- Where the macro does not tell the byte order of the machine, `Sum` of the empty message is a wrong digest,
without a flag. -/
theorem C44_wrong_macro (pl : Plat) (h : pl.bigEndian ≠ pl.machineBE) :
    ∃ D, Cgo.sumPkg pl [] = .ok (D, false) ∧ D ≠ sha1 [] := by
  refine ⟨emptyWrong, ?_, emptyWrong_ne⟩
  have hb : blockOf pl emptyPad = swappedBlock emptyPad := if_neg h
  have hv : verdict Detected H0 (swappedBlock emptyPad) = false := by
    rw [← evalDet_detected]; decide +kernel
  rw [sum_empty, hb, hv]
  unfold safeCompress emptyWrong
  rw [hv, evalCompress_eq]
  rfl

/-- C44, exactly: `Sum` is right for all messages iff the macro tells the byte order of the machine. -/
theorem C44_exact (pl : Plat) :
    (∀ m, Cgo.sumPkg pl m = .ok (safeHash (verdict Detected) m)) ↔ pl.bigEndian = pl.machineBE := by
  constructor
  · intro h
    refine Decidable.byContradiction fun hne => ?_
    obtain ⟨D, h1, h2⟩ := C44_wrong_macro pl hne
    rw [h [], empty_hash_c] at h1
    cases h1
    exact h2 rfl
  · intro h m
    have : pl = (⟨pl.machineBE, pl.unaligned⟩ : Cfg) := by
      obtain ⟨a, b, c⟩ := pl
      cases h
      rfl
    rw [this]
    exact cgo_sumPkg _ m

/-! ### Other compilers -/

/-- What the macros that cgo/sha1.c knows mean, by the documentation that its comments refer to, on a machine of the given
byte order: the three pairs, where they are defined, compare equal on big-endian machines only; the processors and
operating systems listed are big-endian; x86 processors are not. -/
structure Honest (machineBE : Bool) (e : Macros) : Prop where
  gcc : ∀ x y, e "__BYTE_ORDER__" = some x → e "__ORDER_BIG_ENDIAN__" = some y → (x = y ↔ machineBE = true)
  glibc : ∀ x y, e "__BYTE_ORDER" = some x → e "__BIG_ENDIAN" = some y → (x = y ↔ machineBE = true)
  bsd : ∀ x y z, e "_BYTE_ORDER" = some x → e "_BIG_ENDIAN" = some y → e "_LITTLE_ENDIAN" = some z →
    (x = y ↔ machineBE = true)
  cpu : (e "__ARMEB__" ≠ none ∨ e "__THUMBEB__" ≠ none ∨ e "__AARCH64EB__" ≠ none ∨ e "__MIPSEB__" ≠ none ∨
    e "__MIPSEB" ≠ none ∨ e "_MIPSEB" ≠ none ∨ e "__sparc" ≠ none) → machineBE = true
  os : e "_AIX" ≠ none ∨ e "__hpux" ≠ none → machineBE = true
  x86 : e "SHA1DC_ON_INTEL_LIKE_PROCESSOR" ≠ none ∨
    (∃ x ∈ ["__amd64__", "__amd64", "__x86_64__", "__x86_64", "i386", "__i386", "__i386__", "__i486__", "__i586__",
      "__i686__", "_M_IX86", "__X86__", "_X86_", "__THW_INTEL__", "__I86__", "__INTEL__", "__386", "_M_X64",
      "_M_AMD64"], e x ≠ none) → machineBE = false

/-- At least one of the macros above that can tell a big-endian machine is there. -/
def Informed (e : Macros) : Prop :=
  (e "__BYTE_ORDER__" ≠ none ∧ e "__ORDER_BIG_ENDIAN__" ≠ none) ∨ (e "__BYTE_ORDER" ≠ none ∧ e "__BIG_ENDIAN" ≠ none) ∨
  (e "_BYTE_ORDER" ≠ none ∧ e "_BIG_ENDIAN" ≠ none ∧ e "_LITTLE_ENDIAN" ≠ none) ∨
  (e "__ARMEB__" ≠ none ∨ e "__THUMBEB__" ≠ none ∨ e "__AARCH64EB__" ≠ none ∨ e "__MIPSEB__" ≠ none ∨
    e "__MIPSEB" ≠ none ∨ e "_MIPSEB" ≠ none ∨ e "__sparc" ≠ none) ∨ e "_AIX" ≠ none ∨ e "__hpux" ≠ none

theorem pair_eq {b : Bool} {x y : Option Int} (h : ∀ a c, x = some a → y = some c → (a = c ↔ b = true))
    (hx : x ≠ none) (hy : y ≠ none) : (x.getD 0 == y.getD 0) = b := by
  obtain ⟨a, rfl⟩ := Option.ne_none_iff_exists'.mp hx
  obtain ⟨c, rfl⟩ := Option.ne_none_iff_exists'.mp hy
  have := h a c rfl rfl
  rw [Option.getD_some, Option.getD_some, Bool.eq_iff_iff, beq_iff_eq, this]

/-- C44 for all compilers and C libraries whose macros mean what they are documented to mean: the byte order is detected
right on every little-endian machine, and on a big-endian machine exactly if one of them is there to tell. -/
theorem C44_detected_iff (machineBE : Bool) (e : Macros) (hh : Honest machineBE e) (hf : NotForced e) :
    macroBE e = machineBE ↔ (machineBE = true → Informed e) := by
  obtain ⟨f1, f2, f3⟩ := hf
  have isDef_iff : ∀ x, (e x).isSome = true ↔ e x ≠ none := fun x => Option.isSome_iff_ne_none
  unfold macroBE detectBE Macros.isDef Macros.val
  simp only [f1, f2, f3, Option.isSome_none, Bool.false_or, Bool.false_and, Bool.false_eq_true, if_false]
  unfold Informed bigEndianCpus
  simp only [Bool.and_eq_true, Bool.or_eq_true, isDef_iff, List.any_cons, List.any_nil, Bool.or_false]
  by_cases h1 : e "__BYTE_ORDER__" ≠ none ∧ e "__ORDER_BIG_ENDIAN__" ≠ none
  · rw [if_pos h1, pair_eq hh.gcc h1.1 h1.2]
    exact ⟨fun _ _ => .inl h1, fun _ => rfl⟩
  rw [if_neg h1]
  by_cases h2 : e "__BYTE_ORDER" ≠ none ∧ e "__BIG_ENDIAN" ≠ none
  · rw [if_pos h2, pair_eq hh.glibc h2.1 h2.2]
    exact ⟨fun _ _ => .inr (.inl h2), fun _ => rfl⟩
  rw [if_neg h2]
  by_cases h3 : (e "_BYTE_ORDER" ≠ none ∧ e "_BIG_ENDIAN" ≠ none) ∧ e "_LITTLE_ENDIAN" ≠ none
  · obtain ⟨z, hz⟩ := Option.ne_none_iff_exists'.mp h3.2
    rw [if_pos h3, pair_eq (fun x y a b => hh.bsd x y z a b hz) h3.1.1 h3.1.2]
    exact ⟨fun _ _ => .inr (.inr (.inl ⟨h3.1.1, h3.1.2, h3.2⟩)), fun _ => rfl⟩
  rw [if_neg h3]
  have h3' : ¬ (e "_BYTE_ORDER" ≠ none ∧ e "_BIG_ENDIAN" ≠ none ∧ e "_LITTLE_ENDIAN" ≠ none) :=
    fun h => h3 ⟨⟨h.1, h.2.1⟩, h.2.2⟩
  by_cases h4 : e "__ARMEB__" ≠ none ∨ e "__THUMBEB__" ≠ none ∨ e "__AARCH64EB__" ≠ none ∨ e "__MIPSEB__" ≠ none ∨
    e "__MIPSEB" ≠ none ∨ e "_MIPSEB" ≠ none ∨ e "__sparc" ≠ none
  · rw [if_pos h4, hh.cpu h4]
    exact ⟨fun _ _ => .inr (.inr (.inr (.inl h4))), fun _ => rfl⟩
  rw [if_neg h4]
  by_cases h5 : e "_AIX" ≠ none ∨ e "__hpux" ≠ none
  · rw [if_pos h5, hh.os h5]
    exact ⟨fun _ _ => .inr (.inr (.inr (.inr h5))), fun _ => rfl⟩
  rw [if_neg h5, ite_self]
  cases machineBE
  · exact ⟨fun _ h => (nomatch h), fun _ => rfl⟩
  · refine ⟨fun h => (nomatch h), fun h => ?_⟩
    rcases h rfl with h | h | h | h | h
    · exact absurd h h1
    · exact absurd h h2
    · exact absurd h h3'
    · exact absurd h h4
    · exact absurd h h5

/-- C44 for them, on digests: `Sum` is right for all messages iff the byte order can be told. -/
theorem C44_sum_iff (machineBE : Bool) (e : Macros) (hh : Honest machineBE e) (hf : NotForced e) :
    (∀ m, Cgo.sumPkg (platOf machineBE e) m = .ok (safeHash (verdict Detected) m)) ↔
      (machineBE = true → Informed e) :=
  (C44_exact _).trans (C44_detected_iff machineBE e hh hf)

/-- Instances: the compiler of HP-UX, which defines none of the pairs; a compiler for x86 that defines nothing but the
processor. -/
example : (∀ m, Cgo.sumPkg (platOf true fun x => if x = "__hpux" then some 1 else none) m =
      .ok (safeHash (verdict Detected) m)) ∧
    (∀ m, Cgo.sumPkg (platOf false fun x => if x = "_M_IX86" then some 600 else none) m =
      .ok (safeHash (verdict Detected) m)) := by
  constructor
  · refine (C44_sum_iff true _ ?_ ⟨rfl, rfl, rfl⟩).mpr fun _ => .inr (.inr (.inr (.inr (.inr (by decide)))))
    exact ⟨fun _ _ h => (nomatch h), fun _ _ h => (nomatch h), fun _ _ _ h => (nomatch h), fun _ => rfl, fun _ => rfl,
      fun h => by revert h; decide⟩
  · refine (C44_sum_iff false _ ?_ ⟨rfl, rfl, rfl⟩).mpr fun h => nomatch h
    exact ⟨fun _ _ h => (nomatch h), fun _ _ h => (nomatch h), fun _ _ _ h => (nomatch h), fun h => by revert h; decide,
      fun h => by revert h; decide, fun _ => rfl⟩

/-- Instance of the failure: a big-endian machine whose compiler defines none of the macros that cgo/sha1.c looks
at; and one on which the detection is overridden. -/
example : (∃ D, Cgo.sumPkg (platOf true fun _ => none) [] = .ok (D, false) ∧ D ≠ sha1 []) ∧
    ∀ e : Macros, (e "SHA1DC_FORCE_BIGENDIAN").isSome →
      ∃ D, Cgo.sumPkg (platOf false e) [] = .ok (D, false) ∧ D ≠ sha1 [] := by
  refine ⟨C44_wrong_macro _ (by decide), fun e h => C44_wrong_macro _ ?_⟩
  show macroBE e ≠ false
  unfold macroBE Macros.isDef
  rw [h]
  simp only [Bool.true_and]
  generalize (if ((e "SHA1DC_FORCE_LITTLEENDIAN").isSome && detectBE e) = true then false else detectBE e) = b
  cases b <;> decide

end Verif.Props
