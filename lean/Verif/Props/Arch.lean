import Verif.Props.Stream

/-!
The assembly block functions: C16, C17, C18, C30.
-/

namespace Verif.Props

open Verif Verif.Model Verif.Spec

/-- A block function is determined by the verdict it implements. -/
theorem blockImpl_unique {b1 b2 : BlockFn} {det : Regs → Block → Bool} (h1 : BlockImpl b1 det)
    (h2 : BlockImpl b2 det) : b1 = b2 := by
  funext c p
  rw [h1 c p, h2 c p]

/-- All builds have the same block function. -/
theorem build_block_eq (B B' : Build) : B.block = B'.block :=
  blockImpl_unique (build_impl B) (build_impl B')

/-! ### C16: amd64 -/

/-- C16: the SHA-NI block function maps every chaining value, flag and input to what the portable one maps
it to, whatever the registers and the stack frame contain before each call of the assembly.  (The frame
must not wrap around the end of the address space.) -/
theorem C16_amd64_block (s : Nat → Amd64.St) (hs : ∀ k, (s k).frame.toNat + 80 ≤ 2 ^ 64) (c : Core)
    (p : List Byte) : Amd64.block s sha1Dvs c p = blockNoasm c p :=
  congrFun (congrFun (build_block_eq (.amd64 false true s hs) .noasm) c) p

/-- C16 for the API: the same objects and results for every history of calls on every object, and the same
`Sum`, with any setting of `forceGeneric` and any CPU. -/
theorem C16_amd64_api (fg hs : Bool) (s : Nat → Amd64.St) (ok : ∀ k, (s k).frame.toNat + 80 ≤ 2 ^ 64) :
    (∀ (d : Digest) (ops : List Op), d.run (blockAmd64Build fg hs s sha1Dvs) ops = d.run blockNoasm ops) ∧
    (∀ o m, sumPkg (blockAmd64Build fg hs s sha1Dvs) o m = sumPkg blockNoasm o m) := by
  have : blockAmd64Build fg hs s sha1Dvs = blockNoasm := build_block_eq (.amd64 fg hs s ok) .noasm
  rw [this]
  exact ⟨fun _ _ => rfl, fun _ _ => rfl⟩

/-- The machine with every register and every stack byte zero, and its frame at address 4096. -/
def zeroAmd64 : Amd64.St :=
  { x := fun _ => ⟨0, 0, 0, 0⟩, g := fun _ => .int 0, r12 := 0,
    mem := ⟨fun _ => 0, [], fun _ => 0, fun _ => 0, fun _ => ⟨0, 0, 0, 0⟩⟩, plen := 0, frame := 4096 }

/-- Instance: the hypothesis holds and the SHA-NI path flags the first SHAttered file. -/
example : ∃ s : Nat → Amd64.St, (∀ k, (s k).frame.toNat + 80 ≤ 2 ^ 64) ∧
    sumPkg (blockAmd64Build false true s sha1Dvs) .callFirst shattered1 = .ok (shatteredDigest1, true) := by
  have ok : ∀ k : Nat, ((fun _ => zeroAmd64) k).frame.toNat + 80 ≤ 2 ^ 64 := fun _ => by
    show zeroAmd64.frame.toNat + 80 ≤ 2 ^ 64
    decide
  refine ⟨fun _ => zeroAmd64, ok, ?_⟩
  rw [(C16_amd64_api false true _ ok).2]
  exact (sumPkg_call (build_impl .noasm) _).trans (by rw [shattered1_hash])

/-! ### C17: arm64 -/

/-- C17 for all register contents but those of one register: the arm64 block function maps every chaining
value, flag and input to what the portable one maps it to, provided that no call finds one of the 64 largest
values in R16.  Missing: those values, for which the claim is false (`C17_skipped`): the assembly computes the
end of its input as R16 + len(p) although nothing has been put into R16. -/
theorem C17_arm64_block_partial (s : Nat → Arm64.St) (r16 : Nat → Word64)
    (ok : ∀ k, (r16 k).toNat + 64 < 2 ^ 64) (c : Core) (p : List Byte) :
    Arm64.block s r16 sha1Dvs c p = blockNoasm c p :=
  congrFun (congrFun (build_block_eq (.arm64 false true s r16 ok) .noasm) c) p

/-- C17 for the API, with the same restriction. -/
theorem C17_arm64_api_partial (fg hs : Bool) (s : Nat → Arm64.St) (r16 : Nat → Word64)
    (ok : ∀ k, (r16 k).toNat + 64 < 2 ^ 64) :
    (∀ (d : Digest) (ops : List Op), d.run (blockArm64Build fg hs s r16 sha1Dvs) ops = d.run blockNoasm ops) ∧
    (∀ o m, sumPkg (blockArm64Build fg hs s r16 sha1Dvs) o m = sumPkg blockNoasm o m) := by
  have : blockArm64Build fg hs s r16 sha1Dvs = blockNoasm := build_block_eq (.arm64 fg hs s r16 ok) .noasm
  rw [this]
  exact ⟨fun _ _ => rfl, fun _ _ => rfl⟩

/-- The machine with every register zero. -/
def zeroArm64 : Arm64.St :=
  { v := fun _ => ⟨0, 0, 0, 0⟩, g := fun _ => .int 0,
    mem := ⟨fun _ => 0, [], fun _ => 0, fun _ => 0, fun _ => ⟨0, 0, 0, 0⟩⟩, plen := 0 }

/-- Instance: the hypothesis holds for R16 = 0 and the arm64 path flags the first SHAttered file. -/
example : sumPkg (blockArm64Build false true (fun _ => zeroArm64) (fun _ => 0) sha1Dvs) .callFirst shattered1 =
    .ok (shatteredDigest1, true) := by
  rw [(C17_arm64_api_partial false true _ _ (fun _ => by decide)).2]
  exact (sumPkg_call (build_impl .noasm) _).trans (by rw [shattered1_hash])

theorem zero_mask : Ubc.calculateDvMask (some fun _ => 0) = 0 := by decide +kernel

theorem skip_loop (s : Nat → Arm64.St) (r16 : Nat → Word64) (bad : ∀ k, 2 ^ 64 ≤ (r16 k).toNat + 64)
    (dvs : List DvInfo) (n : Nat) : ∀ (k : Nat) (cs : Fin 3 → Regs) (c : Core) (p : List Byte), p.length ≤ n →
    simdLoop (fun k => Arm64.blockARM64 (s k) (r16 k)) dvs k (fun _ => 0) cs c p = .ok c := by
  induction n with
  | zero =>
    intro k cs c p hp
    rw [simdLoop, if_neg (by omega)]
    rfl
  | succ n ih =>
    intro k cs c p hp
    rw [simdLoop]
    split
    · rename_i h
      simp only [Arm64.blockARM64_skip (s k) (r16 k) (bad k) c.h (p.take 64) (by simp; omega), bind_ok,
        checkCollision, zero_mask, ne_eq, not_true_eq_false, if_false, pure_ok, Bool.false_eq_true]
      exact ih _ _ _ _ (by simp; omega)
    · rfl

/-- With one of the 64 largest values in R16, the arm64 block function does nothing. -/
theorem C17_block_skipped (s : Nat → Arm64.St) (r16 : Nat → Word64)
    (bad : ∀ k, 2 ^ 64 ≤ (r16 k).toNat + 64) (c : Core) (p : List Byte) :
    Arm64.block s r16 sha1Dvs c p = .ok c := skip_loop s r16 bad _ p.length _ _ _ _ (Nat.le_refl _)

/-- A block function that does nothing. -/
def Idle (block : BlockFn) : Prop := ∀ c p, block c p = .ok c

theorem idle_callBlock {b0 b : BlockFn} (h0 : Idle b0) {d d' : Digest} {p : List Byte}
    (h : d.callBlock b p = .ok d') (H : Regs) (c : Bool) :
    Digest.callBlock b0 { d with h := H, col := c } p = .ok { d' with h := H, col := c } := by
  unfold Digest.callBlock at h ⊢
  rw [h0, bind_ok]
  cases hb : b ⟨d.h, d.col⟩ p with
  | error e => rw [hb] at h; cases h
  | ok v => rw [hb] at h; cases h; rfl

theorem idle_fill {b0 b : BlockFn} (h0 : Idle b0) {d : Digest} {p : List Byte} {r : Digest × List Byte}
    (h : d.writeFill b p = .ok r) (H : Regs) (c : Bool) :
    Digest.writeFill b0 { d with h := H, col := c } p = .ok ({ r.1 with h := H, col := c }, r.2) := by
  unfold Digest.writeFill at h ⊢
  by_cases h1 : d.nx > 0
  · by_cases h2 : d.nx ≤ 64
    · simp only [h1, h2, if_true, dif_pos] at h ⊢
      by_cases h3 : d.nx + min (64 - d.nx) p.length = Chunk
      · simp only [h3, if_true] at h ⊢
        generalize hd : ({ d with x := copyAt d.x d.nx h2 p, nx := Chunk } : Digest) = e at h
        have hx : copyAt d.x d.nx h2 p = e.x := by rw [← hd]
        rw [hx] at h ⊢
        cases hb : e.callBlock b e.x.1 with
        | error e => rw [hb] at h; cases h
        | ok v =>
          rw [hb] at h
          cases h
          have := idle_callBlock h0 hb H c
          have he : ({ e with h := H, col := c } : Digest) =
              { h := H, x := e.x, nx := Chunk, len := d.len, col := c } := by rw [← hd]
          rw [he] at this
          rw [this]
          rfl
      · simp only [h3, if_false] at h ⊢
        cases h
        rfl
    · simp only [h1, h2, if_true] at h
      cases h
  · simp only [h1, if_false] at h ⊢
    cases h
    rfl

theorem idle_bulk {b0 b : BlockFn} (h0 : Idle b0) {d : Digest} {p : List Byte} {r : Digest × List Byte}
    (h : d.writeBulk b p = .ok r) (H : Regs) (c : Bool) :
    Digest.writeBulk b0 { d with h := H, col := c } p = .ok ({ r.1 with h := H, col := c }, r.2) := by
  unfold Digest.writeBulk at h ⊢
  split at h
  · rename_i h1
    rw [if_pos h1]
    simp only at h ⊢
    cases hb : d.callBlock b (p.take (p.length - (p.length &&& (Chunk - 1)))) with
    | error e => rw [hb] at h; cases h
    | ok v =>
      rw [hb] at h
      cases h
      rw [idle_callBlock h0 hb H c]
      rfl
  · rename_i h1
    rw [if_neg h1]
    cases h
    rfl

theorem idle_tail (d : Digest) (p : List Byte) (H : Regs) (c : Bool) :
    Digest.writeTail { d with h := H, col := c } p = { d.writeTail p with h := H, col := c } := by
  unfold Digest.writeTail
  split <;> rfl

theorem idle_write {b0 b : BlockFn} (h0 : Idle b0) {d : Digest} {p : List Byte} {r : Digest × Nat × Option Err}
    (h : d.write b p = .ok r) (H : Regs) (c : Bool) :
    Digest.write b0 { d with h := H, col := c } p = .ok ({ r.1 with h := H, col := c }, r.2) := by
  unfold Digest.write at h ⊢
  split at h
  · rename_i h1
    rw [if_pos h1]
    cases h
    rfl
  · rename_i h1
    rw [if_neg h1]
    simp only at h ⊢
    cases h2 : Digest.writeFill b { d with len := d.len + BitVec.ofNat 64 p.length } p with
    | error e => rw [h2] at h; cases h
    | ok v =>
      rw [h2, bind_ok] at h
      rw [idle_fill h0 h2 H c, bind_ok]
      simp only at h ⊢
      cases h3 : v.1.writeBulk b v.2 with
      | error e => rw [h3] at h; cases h
      | ok w =>
        rw [h3] at h
        cases h
        rw [idle_bulk h0 h3 H c, bind_ok]
        simp only [idle_tail]
        rfl

theorem idle_sum (b0 : BlockFn) (h0 : Idle b0) (m : List Byte) :
    sumPkg b0 .callFirst m = .ok (digestBytes H0, false) := by
  obtain ⟨d1, w1, i1, _, _⟩ := write_spec blockNoasm _ blockNoasm_impl new new_inv m
  obtain ⟨d2, w2, i2, l2, _⟩ := write_spec blockNoasm _ blockNoasm_impl d1 i1 (padTail d1.len)
  have hn : d2.nx = 0 := by
    rw [i2, l2, toNat_len_add, padTail_length]
    have : zeroPad d1.len.toNat + 9 = (if d1.len.toNat % 64 < 56 then 56 - d1.len.toNat % 64
      else 120 - d1.len.toNat % 64) + 8 := by unfold zeroPad; split <;> omega
    rw [this]
    split <;> omega
  have e1 := idle_write h0 w1 H0 false
  have e2 := idle_write h0 w2 H0 false
  unfold sumPkg
  have e1' : Digest.write b0 Digest.zero.reset m = .ok ({ d1 with h := H0, col := false }, m.length, none) := e1
  simp only [e1', bind_ok, Digest.checkSum, padding_spec]
  simp only [e2, bind_ok, hn, ne_eq, not_true_eq_false, if_false]
  rfl

/-- C17 is false without the restriction: if every call finds one of the 64 largest values in R16, `Sum`
returns SHA-1's initial value for every message, and never reports a collision. -/
theorem C17_skipped (s : Nat → Arm64.St) (r16 : Nat → Word64)
    (bad : ∀ k, 2 ^ 64 ≤ (r16 k).toNat + 64) (m : List Byte) :
    sumPkg (blockArm64Build false true s r16 sha1Dvs) .callFirst m = .ok (digestBytes H0, false) :=
  idle_sum _ (C17_block_skipped s r16 bad) m

/-- C17 as stated fails: there are register contents with which the arm64 path and the portable path give
different digests and flags. -/
theorem C17_refuted : ∃ (s : Nat → Arm64.St) (r16 : Nat → Word64) (D : List Byte),
    sumPkg (blockArm64Build false true s r16 sha1Dvs) .callFirst shattered1 = .ok (D, false) ∧
    sumPkg blockNoasm .callFirst shattered1 = .ok (shatteredDigest1, true) ∧ D ≠ shatteredDigest1 := by
  refine ⟨fun _ => zeroArm64, fun _ => BitVec.allOnes 64, digestBytes H0, ?_, ?_, ?_⟩
  · exact C17_skipped _ _ (fun _ => by decide) _
  · exact (sumPkg_call (build_impl .noasm) _).trans (by rw [shattered1_hash])
  · decide +kernel

/-! ### C18: the rectified states -/

/-- C18: from the states before steps 56 and 64 of any eighty words, `rectifyCompressionState` makes those
before steps 58 and 65. -/
theorem C18_rectify (W : Nat → Word) (H : Regs) (cs : Fin 3 → Regs) (h1 : cs 1 = steps W 56 H)
    (h2 : cs 2 = steps W 64 H) :
    rectifyCompressionState (fun i => W i) cs 0 = cs 0 ∧
    rectifyCompressionState (fun i => W i) cs 1 = steps W 58 H ∧
    rectifyCompressionState (fun i => W i) cs 2 = steps W 65 H := by
  rw [rectify_raw _ _ _ _ cs rfl h1 h2]
  refine ⟨rfl, ?_, ?_⟩
  · rw [steps_succ W 57, steps_succ W 56]; rfl
  · rw [steps_succ W 64]; rfl

/-- C18 on amd64: after each call of the assembly and the rectification, `m1` is the message expansion and
`cs` the chaining value and the states before steps 58 and 65. -/
theorem C18_amd64 (s : Amd64.St) (hs : s.frame.toNat + 80 ≤ 2 ^ 64) (H : Regs) (p : List Byte)
    (hp : p.length = 64) (m1 : Fin 80 → Word) (cs : Fin 3 → Regs) :
    ∃ o, Amd64.blockAMD64 s H p m1 cs = .ok o ∧ o.h = compress H (toBlock p) ∧
      (∀ i : Fin 80, o.m1 i = sched (toBlock p) i) ∧
      rectifyCompressionState o.m1 o.cs 0 = H ∧
      rectifyCompressionState o.m1 o.cs 1 = steps (sched (toBlock p)) 58 H ∧
      rectifyCompressionState o.m1 o.cs 2 = steps (sched (toBlock p)) 65 H :=
  ⟨_, Amd64.blockAMD64_ok s hs H p hp m1 cs, rfl, fun _ => rfl, C18_rectify _ H _ rfl rfl⟩

/-- C18 on arm64, for the same values of R16 as in C17. -/
theorem C18_arm64_partial (s : Arm64.St) (r16 : Word64) (hr : r16.toNat + 64 < 2 ^ 64) (H : Regs)
    (p : List Byte) (hp : p.length = 64) (m1 : Fin 80 → Word) (cs : Fin 3 → Regs) :
    ∃ o, Arm64.blockARM64 s r16 H p m1 cs = .ok o ∧ o.h = compress H (toBlock p) ∧
      (∀ i : Fin 80, o.m1 i = sched (toBlock p) i) ∧
      rectifyCompressionState o.m1 o.cs 0 = H ∧
      rectifyCompressionState o.m1 o.cs 1 = steps (sched (toBlock p)) 58 H ∧
      rectifyCompressionState o.m1 o.cs 2 = steps (sched (toBlock p)) 65 H :=
  ⟨_, Arm64.blockARM64_ok s r16 hr H p hp m1 cs, rfl, fun _ => rfl, C18_rectify _ H _ rfl rfl⟩

/-- C18 as stated fails: with one of the 64 largest values in R16 the arm64 function leaves `m1` and `cs` as they
were, so what is handed to the detector has nothing to do with the block. -/
theorem C18_refuted (s : Arm64.St) (r16 : Word64) (bad : 2 ^ 64 ≤ r16.toNat + 64) (H : Regs)
    (p : List Byte) (hp : p.length = 64) (m1 : Fin 80 → Word) (cs : Fin 3 → Regs) :
    Arm64.blockARM64 s r16 H p m1 cs = .ok ⟨H, m1, cs⟩ :=
  Arm64.blockARM64_skip s r16 bad H p hp m1 cs

/-- Instance of the hypotheses. -/
example : zeroAmd64.frame.toNat + 80 ≤ 2 ^ 64 ∧ (7 : Word64).toNat + 64 < 2 ^ 64 ∧
    (shattered1.take 64).length = 64 := by decide +kernel

/-! ### C30: switching -/

/-- A history in which each call of a method uses the block function that its entry chooses.  The choice may
even depend on the arguments of the block function, so that it can differ between the calls of the block
function within one method. -/
def runEach (d : Digest) : List ((Core → List Byte → Build) × Op) → GoM (Digest × List Out)
  | [] => pure (d, [])
  | (pick, op) :: ops => do
    let (d, o) ← d.call (fun c p => (pick c p).block c p) op
    let (d, os) ← runEach d ops
    pure (d, o :: os)

/-- C30: however the block function is chosen from call to call, every history on every object gives the
same objects and results as with the portable block function throughout.  Missing: arm64 calls that find one of
the 64 largest values in R16, for which it is false (`C17_skipped`). -/
theorem C30_switching_partial (d : Digest) (ops : List ((Core → List Byte → Build) × Op)) :
    runEach d ops = d.run blockNoasm (ops.map (·.2)) := by
  induction ops generalizing d with
  | nil => rfl
  | cons x ops ih =>
    obtain ⟨pick, op⟩ := x
    have : (fun c p => (pick c p).block c p) = blockNoasm := by
      funext c p
      rw [build_block_eq (pick c p) .noasm]
      rfl
    simp only [runEach, List.map_cons, Digest.run, this, ih]

/-- C30 as stated fails: with the largest value in R16, a history in which the block function is the arm64 one
differs from the same history with the portable one. -/
theorem C30_refuted : ∃ (s : Nat → Arm64.St) (r16 : Nat → Word64) (D : List Byte),
    sumPkg (blockArm64Build false true s r16 sha1Dvs) .callFirst shattered1 = .ok (D, false) ∧
    sumPkg (blockArm64Build true true s r16 sha1Dvs) .callFirst shattered1 = .ok (shatteredDigest1, true) ∧
    D ≠ shatteredDigest1 := by
  obtain ⟨s, r16, D, h1, h2, h3⟩ := C17_refuted
  exact ⟨s, r16, D, h1, h2, h3⟩

/-- Instance: SHA-NI for the first piece, then the arm64 path, then the portable one; the digest of "abc" comes
out. -/
example : ∃ d, runEach new
    [(fun _ _ => .amd64 false true (fun _ => zeroAmd64) (fun _ => by show zeroAmd64.frame.toNat + 80 ≤ 2 ^ 64; decide),
        .write [0x61]),
     (fun _ _ => .arm64 false true (fun _ => zeroArm64) (fun _ => 0) (fun _ => by decide), .write [0x62, 0x63]),
     (fun _ _ => .noasm, .collisionResistantSum [])] =
    .ok (d, [.write 1 none, .write 2 none, .collisionResistantSum abcDigest false]) := by
  rw [C30_switching_partial]
  obtain ⟨d, h⟩ := object_refines .noasm [.write [0x61], .write [0x62, 0x63], .collisionResistantSum []]
    (by simp [isRestore])
  refine ⟨d, h.trans ?_⟩
  simp only [results, result, msgAfter, List.nil_append, List.cons_append, show [0x61, 0x62, 0x63] = abc from rfl,
    abc_hash]
  rfl

end Verif.Props
