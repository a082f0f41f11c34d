import Verif.Props.Arch

/-!
C48: the assembly block functions on a flat memory.

The statements below speak about `Model/Flat` only: a memory of bytes with permissions, arrays at any addresses, the
arguments in the frame of the caller, the constants of the assembly code where the linker put them.
-/

namespace Verif.Props

open Verif Verif.Model Verif.Spec
open Verif.Model.Flat (FMem Layout Area Allowed Given ArgOff argAt argVal regsAt wordAt bytesAt Env Consts)

/-- `q` is a byte of the area `a`. -/
def inArea (fr : Nat) (L : Layout) (a : Area) (q : Word64) : Prop :=
  (L a).toNat ≤ q.toNat ∧ q.toNat < (L a).toNat + a.size fr

/-- What one call leaves in memory when the block has been processed: the next chaining value, the message schedule, and
the chaining value and the states before steps 56 and 64. -/
structure Compressed (L : Layout) (m m' : FMem) : Prop where
  h : regsAt m' (L .h) = compress (regsAt m (L .h)) (toBlock (bytesAt m (L .p) 64))
  m1 : ∀ i, i < 80 → wordAt m' (L .m1) i = sched (toBlock (bytesAt m (L .p) 64)) i
  cs0 : regsAt m' (L .cs) = regsAt m (L .h)
  cs1 : regsAt m' (L .cs + 20) = steps (sched (toBlock (bytesAt m (L .p) 64))) 56 (regsAt m (L .h))
  cs2 : regsAt m' (L .cs + 40) = steps (sched (toBlock (bytesAt m (L .p) 64))) 64 (regsAt m (L .h))

theorem outside_of {fr : Nat} {L : Layout} {q : Word64} (h : ∀ a : Area, a.written = true → ¬ inArea fr L a q)
    (a : Area) (ha : a.written = true) : q.toNat < (L a).toNat ∨ (L a).toNat + a.size fr ≤ q.toNat := by
  have := h a ha
  unfold inArea at this
  omega

theorem compressed_of {fr : Nat} {L : Layout} {m m' : FMem} {mem : Mem} (r : Flat.MemRel fr L 64 m mem m')
    (h1 : unflat5 mem.h = compress (regsAt m (L .h)) (toBlock (bytesAt m (L .p) 64)))
    (h2 : mem.m1 = fun i : Fin 80 => sched (toBlock (bytesAt m (L .p) 64)) i)
    (h3 : unflat15 mem.cs = rawCs (regsAt m (L .h)) (toBlock (bytesAt m (L .p) 64))) : Compressed L m m' where
  h := (Flat.regsAt_h r.h).trans h1
  m1 i hi := (r.m1.at ⟨i, hi⟩).trans (congrFun h2 ⟨i, hi⟩)
  cs0 := by
    have := Flat.regsAt_cs r.cs 0
    rw [h3] at this
    rwa [show L .cs + BitVec.ofNat 64 (20 * (0 : Fin 3).val) = L .cs from BitVec.add_zero _] at this
  cs1 := (Flat.regsAt_cs r.cs 1).trans (by rw [h3]; rfl)
  cs2 := (Flat.regsAt_cs r.cs 2).trans (by rw [h3]; rfl)

/-- C48, amd64: wherever the arrays lie and whatever the registers and the rest of the memory hold, a call with a
64-byte chunk ends without a fault; the results are right; no byte outside `h`, `m1`, `cs` and the frame has changed, and
SP is what it was.  The bound `n + 1` on the number of iterations of the loop is reached by the first. -/
theorem C48_amd64 (L : Layout) (t : Flat.Amd64.FSt) (ok : L.Ok 80) (al : Allowed 80 L t.mem)
    (args : ∀ a : ArgOff, argAt t.mem t.fp a = argVal L 64 a) (hfp : t.fp = L .args) (hsp : t.g .sp = L .frame)
    (consts : Consts 80 L t.mem.b) (hsym : t.sym = Flat.Amd64.symAt L) (n : Nat) :
    ∃ t', Flat.Amd64.run (n + 1) t = .ok t' ∧ Compressed L t.mem t'.mem ∧
      (∀ q, (∀ a : Area, a.written = true → ¬ inArea 80 L a q) → t'.mem.b q = t.mem.b q) ∧
      t'.g .sp = t.g .sp := by
  obtain ⟨t', mem, e, r, sp, _, h1, h2, h3⟩ := Flat.Amd64.run_flat L t ⟨ok, al, hfp ▸ args, consts⟩ hfp hsp hsym n
  exact ⟨t', e, compressed_of r h1 h2 h3, fun q hq => r.outside q (outside_of hq), sp⟩

/-- C48, arm64, with no assumption on the registers: no fault, and no byte outside `h`, `m1` and `cs` changes.  The
results are right unless R16 holds one of the 64 largest values; then the three arrays keep their contents (see C17). -/
theorem C48_arm64 (L : Layout) (t : Flat.Arm64.FSt) (ok : L.Ok 0) (al : Allowed 0 L t.mem)
    (args : ∀ a : ArgOff, argAt t.mem t.fp a = argVal L 64 a) (hfp : t.fp = L .args) (consts : Consts 0 L t.mem.b)
    (hks : t.ks = L .k0) :
    ∃ t', Flat.Arm64.run t = .ok t' ∧
      ((t.g .r16).toNat + 64 < 2 ^ 64 → Compressed L t.mem t'.mem) ∧
      (2 ^ 64 ≤ (t.g .r16).toNat + 64 → regsAt t'.mem (L .h) = regsAt t.mem (L .h) ∧
        (∀ i, i < 80 → wordAt t'.mem (L .m1) i = wordAt t.mem (L .m1) i) ∧
        (∀ i, i < 15 → wordAt t'.mem (L .cs) i = wordAt t.mem (L .cs) i)) ∧
      (∀ q, (∀ a : Area, a.written = true → ¬ inArea 0 L a q) → t'.mem.b q = t.mem.b q) := by
  obtain ⟨t', mem, e, r, _, h1, h2⟩ := Flat.Arm64.run_flat L t ⟨ok, al, hfp ▸ args, consts⟩ hfp hks
  refine ⟨t', e, fun hr => ?_, fun hr => ?_, fun q hq => r.outside q (outside_of hq)⟩
  · obtain ⟨a, b, c⟩ := h1 hr
    exact compressed_of r a b c
  · obtain ⟨a, b, c⟩ := h2 hr
    exact ⟨(Flat.regsAt_h r.h).trans a, fun i hi => (r.m1.at ⟨i, hi⟩).trans (congrFun b ⟨i, hi⟩),
      fun i hi => (r.cs.at ⟨i, hi⟩).trans (congrFun c ⟨i, hi⟩)⟩

instance (fr : Nat) (L : Layout) (a : Area) (q : Word64) : Decidable (inArea fr L a q) :=
  inferInstanceAs (Decidable (_ ∧ _))

/-- The permissions that let a call read the areas and nothing else. -/
def exactRd (fr : Nat) (L : Layout) (q : Word64) : Bool :=
  [Area.h, .p, .m1, .cs, .frame, .args, .k0, .k1].any fun a => inArea fr L a q

/-- And write to `h`, `m1`, `cs` and the frame, and nothing else. -/
def exactWr (fr : Nat) (L : Layout) (q : Word64) : Bool := [Area.h, .m1, .cs, .frame].any fun a => inArea fr L a q

theorem exact_allowed {fr : Nat} {L : Layout} (ok : L.Ok fr) {m : FMem} (hr : m.canRd = exactRd fr L)
    (hw : m.canWr = exactWr fr L) : Allowed fr L m where
  rd a i hi := by
    rw [hr]
    unfold exactRd
    rw [List.any_eq_true]
    refine ⟨a, by cases a <;> simp, decide_eq_true ?_⟩
    unfold inArea
    rw [Flat.toNat_at L ok a i hi]
    omega
  wr a i ha hi := by
    rw [hw]
    unfold exactWr
    rw [List.any_eq_true]
    refine ⟨a, by cases a <;> simp [Area.written] at ha ⊢, decide_eq_true ?_⟩
    unfold inArea
    rw [Flat.toNat_at L ok a i hi]
    omega

/-- C48, memory safety on amd64: there is no fault even if the memory is such that nothing but the four arrays, the
frame, the arguments and the two constants can be read, and nothing but `h`, `m1`, `cs` and the frame can be written. -/
theorem C48_amd64_exact (L : Layout) (t : Flat.Amd64.FSt) (ok : L.Ok 80) (hr : t.mem.canRd = exactRd 80 L)
    (hw : t.mem.canWr = exactWr 80 L) (args : ∀ a : ArgOff, argAt t.mem t.fp a = argVal L 64 a) (hfp : t.fp = L .args)
    (hsp : t.g .sp = L .frame) (consts : Consts 80 L t.mem.b) (hsym : t.sym = Flat.Amd64.symAt L) (n : Nat) :
    ∃ t', Flat.Amd64.run (n + 1) t = .ok t' ∧ Compressed L t.mem t'.mem := by
  obtain ⟨t', e, c, _⟩ := C48_amd64 L t ok (exact_allowed ok hr hw) args hfp hsp consts hsym n
  exact ⟨t', e, c⟩

/-- C48, memory safety on arm64; no part of the frame is used. -/
theorem C48_arm64_exact (L : Layout) (t : Flat.Arm64.FSt) (ok : L.Ok 0) (hr : t.mem.canRd = exactRd 0 L)
    (hw : t.mem.canWr = exactWr 0 L) (args : ∀ a : ArgOff, argAt t.mem t.fp a = argVal L 64 a) (hfp : t.fp = L .args)
    (consts : Consts 0 L t.mem.b) (hks : t.ks = L .k0) :
    ∃ t', Flat.Arm64.run t = .ok t' := by
  obtain ⟨t', e, _⟩ := C48_arm64 L t ok (exact_allowed ok hr hw) args hfp consts hks
  exact ⟨t', e⟩

/-- C48 for the API, amd64: the same objects, results and verdicts as with the portable code, if at each call of the
assembly the arrays do not overlap, wherever they lie. -/
theorem C48_amd64_api (fg hs : Bool) (e : Nat → Flat.Amd64.Entry) (ok : ∀ k, (e k).env.Ok 80) :
    (∀ (d : Digest) (ops : List Op), d.run (blockAmd64Flat fg hs e sha1Dvs) ops = d.run blockNoasm ops) ∧
    (∀ o m, sumPkg (blockAmd64Flat fg hs e sha1Dvs) o m = sumPkg blockNoasm o m) := by
  have : blockAmd64Flat fg hs e sha1Dvs = blockNoasm := build_block_eq (.amd64Flat fg hs e ok) .noasm
  rw [this]
  exact ⟨fun _ _ => rfl, fun _ _ => rfl⟩

/-- C48 for the API, arm64, with the restriction of C17 on R16. -/
theorem C48_arm64_api (fg hs : Bool) (e : Nat → Flat.Arm64.Entry) (ok : ∀ k, (e k).env.Ok 0)
    (r16 : ∀ k, ((e k).g .r16).toNat + 64 < 2 ^ 64) :
    (∀ (d : Digest) (ops : List Op), d.run (blockArm64Flat fg hs e sha1Dvs) ops = d.run blockNoasm ops) ∧
    (∀ o m, sumPkg (blockArm64Flat fg hs e sha1Dvs) o m = sumPkg blockNoasm o m) := by
  have : blockArm64Flat fg hs e sha1Dvs = blockNoasm := build_block_eq (.arm64Flat fg hs e ok r16) .noasm
  rw [this]
  exact ⟨fun _ _ => rfl, fun _ _ => rfl⟩

/-! ### A concrete memory -/

/-- The chunk directly behind the chaining value, at an odd address; a frame that is not a multiple of sixteen; the
arguments directly behind the frame. -/
def exLayout : Layout
  | .h => 0x10001
  | .p => 0x10015
  | .m1 => 0x20000
  | .cs => 0x20140
  | .frame => 0xfffffffffffffe08
  | .args => 0xfffffffffffffe58
  | .k0 => 0x480010
  | .k1 => 0x480000

theorem exLayout_ok : exLayout.Ok 80 where
  fits a := by cases a <;> decide
  apart a b := by cases a <;> cases b <;> decide

/-- The constants at their places and all other bytes 0xa5. -/
def exBytes (fr : Nat) (L : Layout) (q : Word64) : Byte :=
  if (q - L .k0).toNat < 16 then (Flat.constVal fr .k0).byte (q - L .k0).toNat
  else if (q - L .k1).toNat < 16 then (Flat.constVal fr .k1).byte (q - L .k1).toNat
  else 0xa5

/-- That memory with the least permissions. -/
def exEnv : Env := ⟨exLayout, exBytes 80 exLayout, exactRd 80 exLayout, exactWr 80 exLayout⟩

theorem exEnv_ok : exEnv.Ok 80 where
  ok := exLayout_ok
  al := exact_allowed exLayout_ok rfl rfl
  apart a b := by cases a <;> cases b <;> decide
  consts :=
    { aligned := by decide
      val := fun a i ha hi => by
        have key : ∀ i : Fin 16, exBytes 80 exLayout (exLayout .k0 + BitVec.ofNat 64 i) = (Flat.constVal 80 .k0).byte i ∧
            exBytes 80 exLayout (exLayout .k1 + BitVec.ofNat 64 i) = (Flat.constVal 80 .k1).byte i := by decide
        rcases ha with rfl | rfl
        · exact (key ⟨i, hi⟩).1
        · exact (key ⟨i, hi⟩).2 }

/-- Instance: the hypotheses of `C48_amd64_exact` hold of a memory with a chunk of 64 times "a". -/
example : ∃ (L : Layout) (t : Flat.Amd64.FSt), L.Ok 80 ∧ t.mem.canRd = exactRd 80 L ∧ t.mem.canWr = exactWr 80 L ∧
    (∀ a : ArgOff, argAt t.mem t.fp a = argVal L 64 a) ∧ t.fp = L .args ∧ t.g .sp = L .frame ∧
    Consts 80 L t.mem.b ∧ t.sym = Flat.Amd64.symAt L ∧ regsAt t.mem (L .h) = H0 :=
  ⟨exLayout, ⟨fun _ => ⟨1, 2, 3, 4⟩, fun q => if q = .sp then exLayout .frame else 7, 9,
      exEnv.mem H0 (List.replicate 64 0x61) (fun _ => 5) (fun _ => ⟨1, 1, 1, 1, 1⟩), exLayout .args,
      Flat.Amd64.symAt exLayout⟩,
    exLayout_ok, rfl, rfl, (Flat.given exEnv_ok _ _ _ _).args, rfl, rfl, (Flat.given exEnv_ok _ _ _ _).consts, rfl, Flat.start_h (E := exEnv) _ _ _ _⟩

/-- That memory, except that `upper_mask` is one byte higher. -/
def exShifted : Env :=
  { exEnv with
    lay := fun a => if a = .k0 then 0x480011 else exLayout a
    bytes := exBytes 80 fun a => if a = .k0 then 0x480011 else exLayout a
    canRd := fun _ => true }

/-- The alignment of the constants in `Consts` is necessary: the call faults if a mask lies at an odd address. -/
theorem C48_alignment : (Flat.Amd64.call exShifted (fun _ => ⟨1, 2, 3, 4⟩) (fun _ => 7) 9 H0 (List.replicate 64 0x61)
    (fun _ => 5) fun _ => ⟨1, 1, 1, 1, 1⟩) = .error .fault := by
  rfl

/-- What "no fault" says: an access of `n` bytes faults as soon as one of them is not allowed. -/
theorem C48_fault (m : FMem) (n i : Nat) (a : Word64) (v : Nat → Byte) (hi : i < n) :
    (m.canRd (a + BitVec.ofNat 64 i) = false → m.rd n a = .error .fault) ∧
    (m.canWr (a + BitVec.ofNat 64 i) = false → m.wr n a v = .error .fault) := by
  constructor
  · intro h
    unfold FMem.rd
    exact if_neg fun c => by have := c ⟨i, hi⟩; simp [h] at this
  · intro h
    unfold FMem.wr
    exact if_neg fun c => by have := c ⟨i, hi⟩; simp [h] at this

/-- So the permissions of `exactRd` and `exactWr` cannot be less: the call faults if the last byte of the chunk cannot be read,
and if the last byte of `cs` cannot be written. -/
theorem C48_all_of_it :
    (Flat.Amd64.call { exEnv with canRd := fun q => exEnv.canRd q && q != 0x10054 } (fun _ => ⟨1, 2, 3, 4⟩) (fun _ => 7) 9 H0
      (List.replicate 64 0x61) (fun _ => 5) fun _ => ⟨1, 1, 1, 1, 1⟩) = .error .fault ∧
    (Flat.Amd64.call { exEnv with canWr := fun q => exEnv.canWr q && q != 0x2017b } (fun _ => ⟨1, 2, 3, 4⟩) (fun _ => 7) 9 H0
      (List.replicate 64 0x61) (fun _ => 5) fun _ => ⟨1, 1, 1, 1, 1⟩) = .error .fault := by
  have key : ∀ {α : Type} (x : GoM α), (match x with | .error .fault => true | _ => false) = true → x = .error .fault := by
    intro α x h
    match x, h with
    | .error .fault, _ => rfl
  exact ⟨key _ (by decide +kernel), key _ (by decide +kernel)⟩

/-- Instance: the first SHAttered file is flagged through that memory. -/
example : sumPkg (blockAmd64Flat false true
      (fun k => ⟨exEnv, fun _ => ⟨BitVec.ofNat 32 k, 2, 3, 4⟩, fun _ => 7, 9⟩) sha1Dvs) .callFirst shattered1 =
    .ok (shatteredDigest1, true) := by
  rw [(C48_amd64_api false true _ fun _ => exEnv_ok).2]
  exact (sumPkg_call (build_impl .noasm) _).trans (by rw [shattered1_hash])

/-- The same places for arm64; the constant may lie at any address there. -/
def exLayout0 : Layout := fun a => if a = .frame then 0 else if a = .k0 then 0x480013 else exLayout a

theorem exLayout0_ok : exLayout0.Ok 0 where
  fits a := by cases a <;> decide
  apart a b := by cases a <;> cases b <;> decide

/-- That memory with the least permissions. -/
def exEnv0 : Env := ⟨exLayout0, exBytes 0 exLayout0, exactRd 0 exLayout0, exactWr 0 exLayout0⟩

theorem exEnv0_ok : exEnv0.Ok 0 where
  ok := exLayout0_ok
  al := exact_allowed exLayout0_ok rfl rfl
  apart a b := by cases a <;> cases b <;> decide
  consts :=
    { aligned := fun h => absurd rfl h
      val := fun a i ha hi => by
        have key : ∀ i : Fin 16, exBytes 0 exLayout0 (exLayout0 .k0 + BitVec.ofNat 64 i) = (Flat.constVal 0 .k0).byte i := by
          decide
        rcases ha with rfl | rfl
        · exact key ⟨i, hi⟩
        · exact absurd hi (Nat.not_lt_zero i) }

/-- Instance: and flagged on arm64, with an address in R16. -/
example : sumPkg (blockArm64Flat false true
      (fun k => ⟨exEnv0, fun _ => ⟨BitVec.ofNat 32 k, 2, 3, 4⟩, fun _ => 0x10001⟩) sha1Dvs) .callFirst shattered1 =
    .ok (shatteredDigest1, true) := by
  rw [(C48_arm64_api false true _ (fun _ => exEnv0_ok) (fun _ => show (0x10001 : Word64).toNat + 64 < 2 ^ 64 by decide)).2]
  exact (sumPkg_call (build_impl .noasm) _).trans (by rw [shattered1_hash])

/-- Instance: with R16 = 2^64 - 1 the call of arm64 returns the chaining value it was given. -/
example (H : Regs) (p : List Byte) (m1 : Fin 80 → Word) (cs : Fin 3 → Regs) :
    Flat.Arm64.call exEnv0 (fun _ => ⟨0, 0, 0, 0⟩) (fun _ => -1) H p m1 cs = .ok ⟨H, m1, cs⟩ :=
  Flat.Arm64.call_skip exEnv0 exEnv0_ok _ _ (by decide) H p m1 cs

end Verif.Props
