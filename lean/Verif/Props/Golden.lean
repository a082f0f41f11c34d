import Verif.Props.Held
import Verif.Props.Cgo
import Verif.Proofs.GoldenData

/-!
The unit tests of /repo/sha1cd_test.go on the model: what they expect of the code is what the model computes, in every
build.  These are instances (of C01–C07, C09, C33, C60), and they check the model, the checkpoints and the constants of the
rounds included, against expectations that are not ours.
-/

namespace Verif.Props

open Verif Verif.Model Verif.Spec

/-- A case evaluated. -/
def goldenEval (g : GoldenCase) : Bool :=
  let m := g.inp.take (g.inp.length / 2)
  evalHash rotGo ((pad g.inp).length / 64) g.inp == (g.out, false) &&
    checkpoint (evalChain rotGo H0 false (blocksN (m.length / 64) m)).1 (m.drop (64 * (m.length / 64)))
      (BitVec.ofNat 64 m.length) == g.half && restoreError g.half == none

theorem golden_eval : golden.all goldenEval = true := by decide +kernel

theorem golden_spec {g : GoldenCase} (hg : g ∈ golden) :
    safeHash goVerdict g.inp = (g.out, false) ∧
    let s := Held.message goVerdict (g.inp.take (g.inp.length / 2))
    checkpoint s.H s.pend s.len = g.half ∧ restoreError g.half = none := by
  have h := List.all_eq_true.1 golden_eval g hg
  simp only [goldenEval, Bool.and_eq_true, beq_iff_eq] at h
  refine ⟨by rw [go_eval _ _ rfl]; exact h.1.1, ?_, h.2⟩
  rw [← h.1.2]
  have e := evalChain_spec rotGo goVerdict evalDet_go (blocks (g.inp.take (g.inp.length / 2))) H0 false
  rw [blocksN_spec _ _ rfl] at e
  simp only [Held.message]
  rw [blocksN_spec _ _ rfl, e]

/-- TestGolden, sha1cd_test.go:60-93: the one-shot function, and one object used three times, the third time with a
`Sum` in the middle. -/
theorem test_golden (B : Build) {g : GoldenCase} (hg : g ∈ golden) :
    sumPkg B.block .callFirst g.inp = .ok (g.out, false) ∧
    ∃ d mid, new.run B.block [.write g.inp, .sum [], .reset, .write g.inp, .sum [], .reset,
        .write (g.inp.take (g.inp.length / 2)), .sum [], .write (g.inp.drop (g.inp.length / 2)), .sum [], .reset] =
      .ok (d, [.write g.inp.length none, .sum g.out, .reset, .write g.inp.length none, .sum g.out, .reset,
        .write (g.inp.length / 2) none, .sum mid, .write (g.inp.length - g.inp.length / 2) none, .sum g.out, .reset]) := by
  obtain ⟨h1, _⟩ := golden_spec hg
  refine ⟨by rw [sumPkg_call (build_impl B), h1], ?_⟩
  obtain ⟨d, r⟩ := C60_every_history B [.write g.inp, .sum [], .reset, .write g.inp, .sum [], .reset,
    .write (g.inp.take (g.inp.length / 2)), .sum [], .write (g.inp.drop (g.inp.length / 2)), .sum [], .reset]
  refine ⟨d, (safeHash goVerdict (g.inp.take (g.inp.length / 2))).1, r.trans ?_⟩
  have hnew := (C60_messages goVerdict []).1
  have hw : ∀ m p, (Held.message goVerdict m).write goVerdict p = Held.message goVerdict (m ++ p) :=
    fun m => (C60_messages goVerdict m).2.2.1
  have hs : ∀ m, (Held.message goVerdict m).sum goVerdict = safeHash goVerdict m := fun m => (C60_messages goVerdict m).2.1
  simp only [Held.results, Held.result, Held.after, hnew, hw, hs, List.nil_append, List.take_append_drop, h1,
    List.length_take, List.length_drop, show min (g.inp.length / 2) g.inp.length = g.inp.length / 2 by omega]

/-- TestGoldenMarshal, sha1cd_test.go:95-132: the checkpoint after half of the message, and an object restored from it. -/
theorem test_golden_marshal (B : Build) {g : GoldenCase} (hg : g ∈ golden) :
    (∃ d, new.run B.block [.write (g.inp.take (g.inp.length / 2)), .marshalBinary,
        .write (g.inp.drop (g.inp.length / 2)), .sum []] =
      .ok (d, [.write (g.inp.length / 2) none, .marshalBinary g.half none,
        .write (g.inp.length - g.inp.length / 2) none, .sum g.out])) ∧
    ∃ d, new.run B.block [.unmarshalBinary g.half, .write (g.inp.drop (g.inp.length / 2)), .sum []] =
      .ok (d, [.unmarshalBinary none, .write (g.inp.length - g.inp.length / 2) none, .sum g.out]) := by
  obtain ⟨h1, h2, he⟩ := golden_spec hg
  have hnew := (C60_messages goVerdict []).1
  have hw : ∀ m p, (Held.message goVerdict m).write goVerdict p = Held.message goVerdict (m ++ p) :=
    fun m => (C60_messages goVerdict m).2.2.1
  have hs : ∀ m, (Held.message goVerdict m).sum goVerdict = safeHash goVerdict m := fun m => (C60_messages goVerdict m).2.1
  constructor
  · obtain ⟨d, r⟩ := C60_every_history B [.write (g.inp.take (g.inp.length / 2)), .marshalBinary,
        .write (g.inp.drop (g.inp.length / 2)), .sum []]
    refine ⟨d, r.trans ?_⟩
    simp only [Held.results, Held.result, Held.after, hnew, hw, hs, List.nil_append, List.take_append_drop, h1, h2,
      List.length_take, List.length_drop, show min (g.inp.length / 2) g.inp.length = g.inp.length / 2 by omega]
  · obtain ⟨d, r⟩ := C60_every_history B [.unmarshalBinary g.half, .write (g.inp.drop (g.inp.length / 2)), .sum []]
    refine ⟨d, r.trans ?_⟩
    have hr := (C60_messages goVerdict (g.inp.take (g.inp.length / 2))).2.2.2 Held.new
    rw [h2] at hr
    simp only [Held.results, Held.result, Held.after, hr, he, List.nil_append, List.length_drop]
    have hx : ∀ (m p : List Byte) (c : Bool), (({ Held.message goVerdict m with col := c }.write goVerdict p).sum goVerdict).1 =
        (((Held.message goVerdict m).write goVerdict p).sum goVerdict).1 := fun _ _ _ => rfl
    rw [hx, hw, hs, List.take_append_drop, h1]

/-- TestLargeHashes, sha1cd_test.go:150-208: checkpoints of objects that hold more than 2^32 bytes. -/
theorem test_large (B : Build) {t : List Byte × List Byte} (ht : t = large0 ∨ t = large1) :
    ∃ d, new.run B.block [.unmarshalBinary t.1, .sum []] = .ok (d, [.unmarshalBinary none, .sum t.2]) := by
  obtain ⟨d, r⟩ := C60_every_history B [.unmarshalBinary t.1, .sum []]
  refine ⟨d, r.trans ?_⟩
  have key : restoreError t.1 = none ∧ ((Held.new.restore t.1).sum goVerdict).1 = t.2 := by
    have hev : ∀ s : Held, ∀ n, (s.pend ++ 0x80 :: List.replicate (zeroPad s.len.toNat) 0 ++ word64Bytes (8 * s.len)).length / 64 = n →
        (s.sum goVerdict).1 = digestBytes (evalChain rotGo s.H false (blocksN n
          (s.pend ++ 0x80 :: List.replicate (zeroPad s.len.toNat) 0 ++ word64Bytes (8 * s.len)))).1 := by
      intro s n hn
      unfold Held.sum
      rw [evalChain_spec rotGo goVerdict evalDet_go, blocksN_spec n _ hn]
    rw [hev _ 1]
    · rcases ht with rfl | rfl <;> decide +kernel
    · rcases ht with rfl | rfl <;> decide +kernel
  simp only [Held.results, Held.result, Held.after, key.1, key.2, List.nil_append]

/-- The first state of TestRectifyCompressionState, sha1cd_test.go:245-262. -/
def rectify0 : (Fin 80 → Word) × (Fin 3 → Regs) × (Fin 3 → Regs) :=
  (fun i => BitVec.ofNat 32 (i + 1),
   fun j => ([⟨0x67452301, 0xEFCDAB89, 0x98BADCFE, 0x10325476, 0xC3D2E1F0⟩,
     ⟨0x12345678, 0x9ABCDEF0, 0x11111111, 0x22222222, 0x33333333⟩,
     ⟨0xAAAAAAAA, 0xBBBBBBBB, 0xCCCCCCCC, 0xDDDDDDDD, 0xEEEEEEEE⟩] : List Regs)[j],
   fun j => ([⟨0x67452301, 0xEFCDAB89, 0x98BADCFE, 0x10325476, 0xC3D2E1F0⟩,
     ⟨0x24AD25B3, 0x1B09D17A, 0x048D159E, 0x26AF37BC, 0x11111111⟩,
     ⟨0xB951B104, 0xAAAAAAAA, 0xEEEEEEEE, 0xCCCCCCCC, 0xDDDDDDDD⟩] : List Regs)[j])

/-- The second one, sha1cd_test.go:263-275. -/
def rectify1 : (Fin 80 → Word) × (Fin 3 → Regs) × (Fin 3 → Regs) :=
  (fun _ => 0, fun _ => ⟨0, 0, 0, 0, 0⟩,
   fun j => ([⟨0, 0, 0, 0, 0⟩, ⟨0x7293586D, 0x8F1BBCDC, 0, 0, 0⟩, ⟨0xCA62C1D6, 0, 0, 0, 0⟩] : List Regs)[j])

/-- TestRectifyCompressionState, sha1cd_test.go:236-298; the call with a nil pointer is left out. -/
theorem test_rectify (j : Fin 3) :
    rectifyCompressionState rectify0.1 rectify0.2.1 j = rectify0.2.2 j ∧
    rectifyCompressionState rectify1.1 rectify1.2.1 j = rectify1.2.2 j := by
  revert j; decide +kernel

end Verif.Props
