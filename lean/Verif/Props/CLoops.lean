import Verif.Proofs.CLoops
import Verif.Props.Options
import Verif.Props.Cpp

/-!
Termination and work of the C code and of package cgo: C50.  Alignment: C52.

The C code is run as written in `Model/CLoops`: `unsigned` has 32 bits, `size_t` has as many bits as the platform gives
it, every index, shift count and `memcpy` is checked when it is executed, and every iteration of every loop and every
call of `sha1_process`, `ubc_check`, `sha1_recompression_step` and `sha1_compression_W` uses up one unit of a budget.
Addresses are arbitrary; on a processor that faults on misaligned words (`strict`) the context must be aligned, as Go
and C see to, and the code must have been compiled without `SHA1DC_ALLOW_UNALIGNED_ACCESS` (C52).
-/

namespace Verif.Props

open Verif Verif.Model Verif.Model.C Verif.Spec Verif.C

/-- With any budget of at least `k`, `x` ends with the result `r` and has used `k`. -/
theorem costs_budget {α : Type} {x : Loops.M α} {r : α} {k : Nat} (h : LoopProofs.Costs x r k) (budget : Nat)
    (hb : k ≤ budget) : x budget = .ok (r, budget - k) := by
  have := h (budget - k)
  rwa [Nat.sub_add_cancel hb] at this

/-- What "no fault" says: an index outside an array, an entry behind the table, a `memcpy` that reads or writes too far, and on a
strict processor a word at an odd address, are faults, whatever the budget. -/
theorem C50_faults {k : Nat} {α : Type} (a : Fin k → α) (i : Nat) (v : α) (dvs : List DvInfoT) (j : Word) (c : Ctx) (off : Nat)
    (p : List Byte) (n : Nat) (w : CLoops.Where) (addr budget : Nat) :
    (k ≤ i → CLoops.ldA a i budget = .error (.panic .fault) ∧ CLoops.stA a i v budget = .error (.panic .fault)) ∧
    (dvs.length ≤ j.toNat → CLoops.ldDv dvs j budget = .error (.panic .fault)) ∧
    (p.length < n ∨ (n ≤ p.length ∧ 64 < off + n) → CLoops.memcpy c off p n budget = .error (.panic .fault)) ∧
    (w.strict = true → addr % 4 ≠ 0 → CLoops.words w addr budget = .error (.panic .fault)) := by
  refine ⟨fun h => ⟨?_, ?_⟩, fun h => ?_, fun h => ?_, fun h1 h2 => ?_⟩
  · unfold CLoops.ldA; rw [dif_neg (by omega)]; rfl
  · unfold CLoops.stA; rw [dif_neg (by omega)]; rfl
  · unfold CLoops.ldDv; rw [dif_neg (by omega)]; rfl
  · unfold CLoops.memcpy
    rcases h with h | ⟨h1, h2⟩
    · rw [if_neg (by omega)]; rfl
    · rw [if_pos h1]
      have e : memcpyBuf c.buffer off (p.take n) = .error .fault := by
        unfold memcpyBuf
        rw [dif_neg (by rw [List.length_take]; omega)]; rfl
      rw [e]; rfl
  · unfold CLoops.words
    rw [h1, if_pos (by simpa using h2)]; rfl

/-- C50: on a context with arbitrary contents and options, `sha1_process` on at least 64 readable bytes ends without a
fault, with the result of `Model/CSha1`, in 1 to 2628 steps. -/
theorem C50_process (w : CLoops.Where) (addr : Nat) (ha : w.strict = true → addr % 4 = 0) (cfg : Cfg) (c : Ctx)
    (p : List Byte) (hp : 64 ≤ p.length) :
    ∃ c' k, sha1_process cfg c p = .ok c' ∧ 1 ≤ k ∧ k ≤ 2628 ∧
      ∀ budget, k ≤ budget → CLoops.process w cfg c addr p budget = .ok (c', budget - k) := by
  obtain ⟨c', r, _⟩ := C.process_spec cfg c p hp
  obtain ⟨k, k1, k2, x⟩ := CLoopProofs.process_costs w addr ha cfg c c' p r
  exact ⟨c', k, r, k1, k2, fun budget hb => costs_budget x budget hb⟩

/-- A context on which every option is on and a collision was found before. -/
example (cfg : Cfg) (c : Ctx) (_ : c.detect_coll = 1 ∧ c.ubc_check = 0 ∧ c.found_collision = 1) :
    ∃ c' k, k ≤ 2628 ∧ CLoops.process ⟨true, 4096, 1, 3⟩ cfg c 4124 (List.replicate 64 0xFF) k = .ok (c', 0) := by
  obtain ⟨c', k, _, _, u, w⟩ := C50_process ⟨true, 4096, 1, 3⟩ 4124 (fun _ => by decide) cfg c (List.replicate 64 0xFF) (by simp)
  have w := w k (Nat.le_refl k)
  rw [Nat.sub_self] at w
  exact ⟨c', k, u, w⟩

/-- C50: `SHA1DCUpdate(ctx, buf, len)` on a context with arbitrary contents, where `buf` points at `len` or more readable
bytes, ends without a fault, having used the first `len` bytes only; with `r` bytes pending it processes exactly
`(r + len) / 64` blocks, at 1 to 2629 steps each. -/
theorem C50_update (n : Nat) (hn : n = 32 ∨ n = 64) (w : CLoops.Where) (addr : Nat) (cfg : Cfg)
    (hw : w.strict = true → w.ctx % 4 = 0 ∧ cfg.unaligned = false) (c : Ctx) (buf : List Byte) (len : BitVec n)
    (hl : len.toNat ≤ buf.length) :
    ∃ c' k, SHA1DCUpdate cfg c (buf.take len.toNat) = .ok c' ∧ c'.total = c.total + len.setWidth 64 ∧
      (c.total.toNat % 64 + len.toNat) / 64 ≤ k ∧ k ≤ 2629 * ((c.total.toNat % 64 + len.toNat) / 64) ∧
      ∀ budget, k ≤ budget → CLoops.update w cfg c addr buf len budget = .ok (c', budget - k) := by
  obtain ⟨c', r, _, t, _⟩ := C.update_spec cfg c (buf.take len.toNat)
  obtain ⟨k, x, k1, k2⟩ := CLoopProofs.update_costs hn w cfg hw addr c c' buf len hl r
  refine ⟨c', k, r, ?_, k1, k2, fun budget hb => costs_budget x budget hb⟩
  rw [t, CLoopProofs.width64, List.length_take, Nat.min_eq_left hl]

/-- On a context with 60 bytes pending, ten bytes of a longer string complete one block. -/
example (cfg : Cfg) (c : Ctx) (h : c.total = 188) : ∃ c' k, SHA1DCUpdate cfg c (List.replicate 10 7) = .ok c' ∧
    c'.total = 198 ∧ 1 ≤ k ∧ k ≤ 2629 ∧
    CLoops.update ⟨false, 8, 1, 3⟩ cfg c 1 (List.replicate 1000 7) (10 : BitVec 32) k = .ok (c', 0) := by
  obtain ⟨c', k, r, t, l, u, w⟩ := C50_update 32 (.inl rfl) ⟨false, 8, 1, 3⟩ 1 cfg (fun h => nomatch h) c (List.replicate 1000 7) 10
    (by rw [List.length_replicate]; decide)
  have e : (10 : BitVec 32).toNat = 10 := rfl
  rw [h] at t l u
  rw [e] at r l u
  rw [List.take_replicate] at r
  have w := w k (Nat.le_refl k)
  rw [Nat.sub_self] at w
  exact ⟨c', k, r, t, l, u, w⟩

/-- The bytes a call of the C library may cause to be hashed: those given to `SHA1DCUpdate`; two blocks of pending bytes
and padding in `SHA1DCFinal`, plus 8 because a context that is used again has 56 pending bytes. -/
def libBytes : Option Call → Nat
  | some (.update p) => p.length
  | some .init => 0
  | some (.setSafeHash _) => 0
  | some (.setUseUBC _) => 0
  | some (.setUseDetectColl _) => 0
  | some (.setDetectReducedRoundCollision _) => 0
  | none => 136

/-- C50: every sequence of calls of the C library on a context with arbitrary contents, `SHA1DCFinal` (`none`) included
at any point, ends without a fault, with the results of `Model/CSha1`, after at most 2629/64 steps (less than 42) for
each byte handed to it and each of at most 63 bytes pending at the start. -/
theorem C50_library (n : Nat) (hn : n = 32 ∨ n = 64) (cfg : Cfg) (c : Ctx) (ops : List (CLoops.Where × Option Call))
    (hw : ∀ x ∈ ops, x.1.strict = true → x.1.ctx % 4 = 0 ∧ cfg.unaligned = false)
    (hf : ∀ w p, (w, some (Call.update p)) ∈ ops → p.length < 2 ^ n) :
    ∃ c' rs k, c.runAll cfg (ops.map Prod.snd) = .ok (c', rs) ∧
      64 * k ≤ 2629 * (c.total.toNat % 64 + (ops.map fun x => libBytes x.2).sum) ∧
      ∀ budget, k ≤ budget → CLoops.runAll n cfg c ops budget = .ok ((c', rs), budget - k) := by
  obtain ⟨c', rs, r, _⟩ := C36_c_library_total cfg c (ops.map Prod.snd)
  obtain ⟨k, w, u⟩ := CLoopProofs.runAll_costs hn cfg ops c c' rs
    (fun x ho => ⟨by
      obtain ⟨w, op⟩ := x
      unfold CLoopProofs.LibFits
      dsimp only
      split
      · exact hf _ _ ho
      · trivial, hw x ho⟩) r
  have e : ops.map (CLoopProofs.libWork ∘ Prod.snd) = ops.map fun x => libBytes x.2 :=
    List.map_congr_left fun x _ => by
      rcases x with ⟨w, _ | op⟩
      · rfl
      · cases op <;> rfl
  rw [e] at u
  exact ⟨c', rs, k, r, by omega, fun budget hb => costs_budget w budget hb⟩

/-- A context that was never initialised, with any number of pending bytes, used after `SHA1DCFinal`. -/
example (cfg : Cfg) (c : Ctx) : ∃ c' rs k, c.runAll cfg [none, some (.setUseUBC 0), some (.update shattered1), none] = .ok (c', rs) ∧
    64 * k ≤ 2629 * (63 + 272 + shattered1.length) ∧
    CLoops.runAll 64 cfg c [(⟨false, 8, 1, 3⟩, none), (⟨false, 8, 1, 3⟩, some (.setUseUBC 0)),
      (⟨false, 8, 7, 3⟩, some (.update shattered1)), (⟨false, 8, 1, 3⟩, none)] k = .ok ((c', rs), 0) := by
  have hs : shattered1.length < 2 ^ 64 := by decide +kernel
  generalize shattered1 = m at hs
  obtain ⟨c', rs, k, r, u, w⟩ := C50_library 64 (.inr rfl) cfg c
    [(⟨false, 8, 1, 3⟩, none), (⟨false, 8, 1, 3⟩, some (.setUseUBC 0)),
      (⟨false, 8, 7, 3⟩, some (.update m)), (⟨false, 8, 1, 3⟩, none)] (fun x hx => by
      simp at hx
      rcases hx with rfl | rfl | rfl | rfl <;> intro h <;> cases h) (fun w p hp => by
      simp at hp
      rw [hp.2]
      exact hs)
  refine ⟨c', rs, k, r, ?_, by simpa using w k (Nat.le_refl k)⟩
  simp only [List.map_cons, List.map_nil, libBytes, List.sum_cons, List.sum_nil] at u
  omega

/-- The bytes a method call of package cgo may cause to be hashed. -/
def cgoBytes : Cgo.Op → Nat
  | .write p => p.length
  | .sum _ => 128
  | .collisionResistantSum _ => 128
  | .reset => 0
  | .size => 0
  | .blockSize => 0

/-- C50: every history of calls on an object returned by package cgo's `New`, with slices whose lengths `size_t` can
represent, ends without a fault, with the results that the message-level specification prescribes, after at most
2629/64 steps for each byte. -/
theorem C50_history (n : Nat) (hn : n = 32 ∨ n = 64) (cfg : Cfg) (ops : List (CLoops.Where × Cgo.Op))
    (hw : ∀ x ∈ ops, x.1.strict = true → x.1.ctx % 4 = 0 ∧ cfg.unaligned = false)
    (hf : ∀ w p, (w, Cgo.Op.write p) ∈ ops → p.length < 2 ^ n) :
    ∃ d k, Cgo.new.run cfg (ops.map Prod.snd) =
        .ok (d, results (verdict Detected) [] ((ops.map Prod.snd).map Cgo.Op.toGo)) ∧
      64 * k ≤ 2629 * (ops.map fun x => cgoBytes x.2).sum ∧
      ∀ budget, k ≤ budget → CLoops.run n cfg Cgo.new ops budget =
        .ok ((d, results (verdict Detected) [] ((ops.map Prod.snd).map Cgo.Op.toGo)), budget - k) := by
  obtain ⟨d, r⟩ := C33_cgo_refines cfg (ops.map Prod.snd)
  obtain ⟨k, w, u⟩ := CLoopProofs.run_costs hn cfg ops _ _ _
    (fun x ho => ⟨by
      obtain ⟨w, op⟩ := x
      unfold CLoopProofs.Fits
      dsimp only
      split
      · exact hf _ _ ho
      · trivial, hw x ho⟩) r
  have e : ops.map (CLoopProofs.opWork ∘ Prod.snd) = ops.map fun x => cgoBytes x.2 :=
    List.map_congr_left fun x _ => by rcases x with ⟨w, op⟩; cases op <;> rfl
  have z : Cgo.new.ctx.total.toNat % 64 = 0 := rfl
  rw [e, z, Nat.zero_add] at u
  exact ⟨d, k, r, by omega, fun budget hb => costs_budget w budget hb⟩

/-- Writing a SHAttered prefix and looking at the sum twice. -/
example (cfg : Cfg) : ∃ d outs k,
    Cgo.new.run cfg [.write shattered1, .sum [], .collisionResistantSum [1], .reset] = .ok (d, outs) ∧
    64 * k ≤ 2629 * (shattered1.length + 256) ∧
    CLoops.run 32 cfg Cgo.new [(⟨false, 8, 7, 3⟩, .write shattered1), (⟨false, 8, 7, 3⟩, .sum []),
      (⟨false, 8, 7, 3⟩, .collisionResistantSum [1]), (⟨false, 8, 7, 3⟩, .reset)] k = .ok ((d, outs), 0) := by
  have hs : shattered1.length < 2 ^ 32 := by decide +kernel
  generalize shattered1 = m at hs
  obtain ⟨d, k, r, u, w⟩ := C50_history 32 (.inl rfl) cfg [(⟨false, 8, 7, 3⟩, .write m), (⟨false, 8, 7, 3⟩, .sum []),
      (⟨false, 8, 7, 3⟩, .collisionResistantSum [1]), (⟨false, 8, 7, 3⟩, .reset)] (fun x hx => by
      simp at hx
      rcases hx with rfl | rfl | rfl | rfl <;> intro h <;> cases h) (fun w p hp => by
      simp at hp
      rw [hp.2]
      exact hs)
  exact ⟨d, _, k, r, by simpa [cgoBytes] using u, by simpa using w k (Nat.le_refl k)⟩

/-- C50: package cgo's `Sum(data)` processes exactly the `(len(data) + 72) / 64` blocks of the padded message, at 1 to 2629
steps each. -/
theorem C50_sum (n : Nat) (hn : n = 32 ∨ n = 64) (w : CLoops.Where) (cfg : Cfg)
    (hw : w.strict = true → w.ctx % 4 = 0 ∧ cfg.unaligned = false) (data : List Byte) (hd : data.length < 2 ^ n) :
    ∃ k, (data.length + 72) / 64 ≤ k ∧ k ≤ 2629 * ((data.length + 72) / 64) ∧
      ∀ budget, k ≤ budget → CLoops.sumPkg n w cfg data budget = .ok (safeHash (verdict Detected) data, budget - k) := by
  obtain ⟨k, x, l, u⟩ := CLoopProofs.sumPkg_costs hn w cfg hw data hd _ (cgo_sumPkg cfg data)
  exact ⟨k, l, u, fun budget hb => costs_budget x budget hb⟩

/-- A message of 56 bytes is two blocks. -/
example (cfg : Cfg) : ∃ r k, 2 ≤ k ∧ k ≤ 5258 ∧ CLoops.sumPkg 32 ⟨false, 8, 7, 3⟩ cfg (List.replicate 56 0) k = .ok (r, 0) := by
  obtain ⟨k, l, u, h⟩ := C50_sum 32 (.inl rfl) ⟨false, 8, 7, 3⟩ cfg (fun h => nomatch h) (List.replicate 56 0) (by simp)
  simp only [List.length_replicate] at l u
  exact ⟨_, k, l, u, by simpa using h k (Nat.le_refl k)⟩

/-! ### C52: alignment -/

/-- C52: the code is compiled to read words from the caller's bytes iff a macro asks for it or one of the names that
compilers for x86 processors predefine is defined, and alignment is not asked for. -/
theorem C52_macro (e : Macros) : macroUnaligned e = true ↔ e "SHA1DC_ALLOW_UNALIGNED_ACCESS" ≠ none ∨
    (e "SHA1DC_FORCE_ALIGNED_ACCESS" = none ∧
      (e "SHA1DC_FORCE_UNALIGNED_ACCESS" ≠ none ∨ e "SHA1DC_ON_INTEL_LIKE_PROCESSOR" ≠ none ∨
        ∃ x ∈ ["__amd64__", "__amd64", "__x86_64__", "__x86_64", "i386", "__i386", "__i386__", "__i486__", "__i586__",
          "__i686__", "_M_IX86", "__X86__", "_X86_", "__THW_INTEL__", "__I86__", "__INTEL__", "__386", "_M_X64",
          "_M_AMD64"], e x ≠ none)) := by
  unfold macroUnaligned onIntel Macros.isDef intelNames
  simp only [Bool.or_eq_true, Bool.and_eq_true, Bool.not_eq_true', List.any_eq_true, Option.isSome_iff_ne_none,
    Option.isSome_eq_false_iff, Option.isNone_iff_eq_none]

/-- Instance: gcc for 64-bit ARM and for x86. -/
example : macroUnaligned (fun x => if x = "__aarch64__" then some 1 else none) = false ∧
    macroUnaligned (fun x => if x = "__x86_64__" then some 1 else none) = true := by decide

/-- C52: on a processor that faults on every word that is not at a multiple of 4, and for which the macros above do not
allow such reads, no history of calls on an object of package cgo faults, wherever the slices of the caller are, as long
as the objects themselves are at multiples of 4; the results are those prescribed. -/
theorem C52_no_fault (machineBE : Bool) (e : Macros) (ht : Truthful machineBE e) (hf : NotForced e)
    (hu : macroUnaligned e = false) (n : Nat) (hn : n = 32 ∨ n = 64) (ops : List (CLoops.Where × Cgo.Op))
    (hw : ∀ x ∈ ops, x.1.ctx % 4 = 0) (hl : ∀ w p, (w, Cgo.Op.write p) ∈ ops → p.length < 2 ^ n) :
    ∃ d k, ∀ budget, k ≤ budget → CLoops.run n (platOf machineBE e) Cgo.new ops budget =
      .ok ((d, results (verdict Detected) [] ((ops.map Prod.snd).map Cgo.Op.toGo)), budget - k) := by
  rw [platOf_cfg (macroBE_truthful ht hf)]
  obtain ⟨d, k, _, _, h⟩ := C50_history n hn ⟨machineBE, macroUnaligned e⟩ ops (fun x hx _ => ⟨hw x hx, hu⟩) hl
  exact ⟨d, k, h⟩

/-- Instance: a slice at an odd address, on 64-bit ARM. -/
example (m : List Byte) (hm : m.length < 2 ^ 64) : ∃ d k, ∀ budget, k ≤ budget →
    CLoops.run 64 (platOf false fun x => if x = "__BYTE_ORDER__" then some 1234
      else if x = "__ORDER_BIG_ENDIAN__" then some 4321 else if x = "__aarch64__" then some 1 else none) Cgo.new
      [(⟨true, 4096, 77777, 3⟩, .write m), (⟨true, 8192, 0, 3⟩, .sum [])] budget =
    .ok ((d, results (verdict Detected) [] [.write m, .sum []]), budget - k) :=
  C52_no_fault false _ ⟨1234, 4321, rfl, rfl, by decide⟩ ⟨rfl, rfl, rfl⟩ (by decide) 64 (.inr rfl) _
    (fun x hx => by simp at hx; rcases hx with rfl | rfl <;> first | exact (by decide : 4096 % 4 = 0) | exact (by decide : 8192 % 4 = 0))
    (fun w p hp => by
      simp at hp
      rw [hp.2]
      exact hm)

/-- C52, the condition is needed: compiled with unaligned access for a processor that faults on it, `SHA1DCUpdate` faults on
every call that gives it 64 bytes or more at an address that is not a multiple of 4, if no bytes are pending. -/
theorem C52_faults (n : Nat) (hn : n = 32 ∨ n = 64) (w : CLoops.Where) (hs : w.strict = true) (addr : Nat)
    (ha : addr % 4 ≠ 0) (cfg : Plat) (hu : cfg.unaligned = true) (c : Ctx) (hc : c.total.toNat % 64 = 0)
    (buf : List Byte) (len : BitVec n) (hl : 64 ≤ len.toNat) (budget : Nat) :
    CLoops.update w cfg c addr buf len (budget + 2) = .error (.panic .fault) := by
  have e64 : (64 : BitVec n).toNat = 64 := by rcases hn with rfl | rfl <;> rfl
  have h0 : ¬ len = 0 := fun h => by rw [h] at hl; simp at hl
  have hleft : ((c.total &&& 63).setWidth 32 : Word) = 0 := by
    apply BitVec.eq_of_toNat_eq
    rw [CLoopProofs.left_toNat, hc]; rfl
  unfold CLoops.update CLoops.updFill
  rw [if_neg h0]
  dsimp only
  rw [if_neg (fun h => h.1 hleft)]
  have hcond : decide (len ≥ 64) = true := decide_eq_true (by rw [ge_iff_le, BitVec.le_def, e64]; exact hl)
  have hg : (w.strict && addr % 4 != 0) = true := by rw [hs]; simpa using ha
  have hb : CLoops.bulkBody w cfg (⟨c, addr, buf, len, (c.total &&& 63).setWidth 32⟩ : CLoops.Upd n) (budget + 1) =
      .error (.panic .fault) := by
    unfold CLoops.bulkBody CLoops.process CLoops.words
    dsimp only
    rw [if_pos hu, if_pos hg]
    rfl
  have hf : Loops.whileFuel (fun s : CLoops.Upd n => decide (s.len ≥ 64)) (CLoops.bulkBody w cfg) (budget + 2)
      ⟨c, addr, buf, len, (c.total &&& 63).setWidth 32⟩ (budget + 2) = .error (.panic .fault) := by
    unfold Loops.whileFuel
    dsimp only
    rw [if_pos hcond]
    show (do let s ← CLoops.bulkBody w cfg _; Loops.whileFuel _ _ _ s : Loops.M _) (budget + 1) = _
    show Except.bind (CLoops.bulkBody w cfg _ (budget + 1)) _ = _
    rw [hb]
    rfl
  show Except.bind (Loops.whileFuel _ _ (budget + 2) _ (budget + 2)) _ = _
  rw [hf]
  rfl

end Verif.Props
