import Verif.Proofs.AsmText
import Verif.Props.Flat

/-!
C65: what is said of the assembly code holds of the text of its files.

`Source/AsmText` has the two files character by character, `Source/AsmRead` reads them, `Source/AsmRun` runs what was read.
-/

namespace Verif.Props

open Verif Verif.Model Verif.Spec
open Verif.Model.Flat (FMem Layout Area Allowed ArgOff argAt argVal regsAt wordAt bytesAt Env Consts)
open Verif.Source (amd64Lines arm64Lines)

/-- The constants of the file lie in memory, each at its offset from the address of its symbol. -/
def Source.DataAmd64 (f : Source.File Amd64.Instr) (t : Flat.Amd64.FSt) : Prop :=
  ∀ d ∈ f.data, ∃ c, Source.Amd64.symOf d.name 0 = some c ∧ d.At (t.sym c) t.mem.b

/-- The constants of the file lie in memory at `·sha1Ks`. -/
def Source.DataArm64 (f : Source.File Arm64.Instr) (t : Flat.Arm64.FSt) : Prop :=
  ∀ d ∈ f.data, d.name = chars! "·sha1Ks" ∧ d.At t.ks t.mem.b

theorem consts_amd64 {L : Layout} {t : Flat.Amd64.FSt} (h : Source.DataAmd64 Source.Amd64.file t) (hsym : t.sym = Flat.Amd64.symAt L)
    (al : (L .k0).toNat % 16 = 0 ∧ (L .k1).toNat % 16 = 0) : Consts 80 L t.mem.b where
  aligned _ := al
  val a i ha hi := by
    have at' (d : Source.Data) (hd : d ∈ Source.Amd64.file.data) (c : Amd64.Sym) (hc : Source.Amd64.symOf d.name 0 = some c) :
        d.At (Flat.Amd64.symAt L c) t.mem.b := by
      obtain ⟨c', hc', h⟩ := h d hd
      rw [hc] at hc'
      cases hc'
      rwa [hsym] at h
    rcases ha with rfl | rfl
    · have h0 := at' ⟨chars! "upper_mask", 0, 8, 0⟩ (by decide) .upperMask rfl
      have h1 := at' ⟨chars! "upper_mask", 8, 8, 0xffffffff00000000⟩ (by decide) .upperMask rfl
      change i < 16 at hi
      by_cases c : i < 8
      · have := h0 i c
        rw [Nat.zero_add] at this
        refine this.trans ?_
        clear this
        revert c; revert i; decide
      · have := h1 (i - 8) (by change i - 8 < 8; omega)
        change t.mem.b (L .k0 + BitVec.ofNat 64 (8 + (i - 8))) = _ at this
        rw [show 8 + (i - 8) = i by omega] at this
        refine this.trans ?_
        clear this
        revert c; revert i; decide
    · have h0 := at' ⟨chars! "shuffle_mask", 0, 8, 0x08090a0b0c0d0e0f⟩ (by decide) .shuffleMask rfl
      have h1 := at' ⟨chars! "shuffle_mask", 8, 8, 0x0001020304050607⟩ (by decide) .shuffleMask rfl
      change i < 16 at hi
      by_cases c : i < 8
      · have := h0 i c
        rw [Nat.zero_add] at this
        refine this.trans ?_
        clear this
        revert c; revert i; decide
      · have := h1 (i - 8) (by change i - 8 < 8; omega)
        change t.mem.b (L .k1 + BitVec.ofNat 64 (8 + (i - 8))) = _ at this
        rw [show 8 + (i - 8) = i by omega] at this
        refine this.trans ?_
        clear this
        revert c; revert i; decide

/-- C65, amd64: sha1cdblock_amd64.s can be read; it has a function `blockAMD64` with a frame of 80 bytes and 96 bytes of arguments.  Called as C48
describes, with the constants in memory as the `DATA` lines of the text say, the function that the text describes ends, within 220 statements,
without a fault and with the right results. -/
theorem C65_amd64 : ∃ f, Source.Amd64.read amd64Lines = some f ∧ f.func = chars! "·blockAMD64" ∧ f.frame = 80 ∧ f.args = 96 ∧
    ∀ (L : Layout) (t : Flat.Amd64.FSt), L.Ok f.frame → Allowed f.frame L t.mem →
      (∀ a : ArgOff, argAt t.mem t.fp a = argVal L 64 a) → t.fp = L .args → t.g .sp = L .frame →
      t.sym = Flat.Amd64.symAt L → Source.DataAmd64 f t → (L .k0).toNat % 16 = 0 ∧ (L .k1).toNat % 16 = 0 →
      ∃ t', (∀ n, 220 ≤ n → Source.amd64.run f n t = .ok t') ∧ Compressed L t.mem t'.mem ∧
        (∀ q, (∀ a : Area, a.written = true → ¬ inArea f.frame L a q) → t'.mem.b q = t.mem.b q) ∧ t'.g .sp = t.g .sp := by
  refine ⟨_, Source.Amd64.read_text, rfl, rfl, rfl, fun L t ok al args hfp hsp hsym hd ha => ?_⟩
  obtain ⟨t', e, r⟩ := C48_amd64 L t ok al args hfp hsp (consts_amd64 hd hsym ha) hsym 0
  exact ⟨t', fun n hn => Source.Amd64.run_fuel _ _ _ _ e (Nat.le_trans (by decide +kernel) hn), r⟩

/-- C65: from any state, whatever the length of the chunk, the text of sha1cdblock_amd64.s ends with a state iff the model does. -/
theorem C65_amd64_model (f : Source.File Amd64.Instr) (hf : Source.Amd64.read amd64Lines = some f) (s t : Flat.Amd64.FSt) :
    (∃ n, Source.amd64.run f n s = .ok t) ↔ ∃ n, Flat.Amd64.run n s = .ok t := by
  rw [Source.Amd64.read_text] at hf
  cases hf
  exact Source.Amd64.text_run s t

theorem consts_arm64 {L : Layout} {t : Flat.Arm64.FSt} (h : Source.DataArm64 Source.Arm64.file t) (hks : t.ks = L .k0) :
    Consts 0 L t.mem.b where
  aligned c := absurd rfl c
  val a i ha hi := by
    rcases ha with rfl | rfl
    · have at' (d : Source.Data) (hd : d ∈ Source.Arm64.file.data) (hi : d.off ≤ i ∧ i < d.off + d.width) :
          t.mem.b (L .k0 + BitVec.ofNat 64 i) = BitVec.ofNat 8 (d.val / 256 ^ (i - d.off)) := by
        have := (h d hd).2 (i - d.off) (by omega)
        rwa [show d.off + (i - d.off) = i by omega, hks] at this
      have h0 := at' ⟨chars! "·sha1Ks", 0, 4, 0x5A827999⟩ (by decide)
      have h1 := at' ⟨chars! "·sha1Ks", 4, 4, 0x6ED9EBA1⟩ (by decide)
      have h2 := at' ⟨chars! "·sha1Ks", 8, 4, 0x8F1BBCDC⟩ (by decide)
      have h3 := at' ⟨chars! "·sha1Ks", 12, 4, 0xCA62C1D6⟩ (by decide)
      change i < 16 at hi
      clear at'
      by_cases c3 : 12 ≤ i
      · rw [h3 ⟨c3, hi⟩]; clear h0 h1 h2 h3; revert c3; revert i; decide
      by_cases c2 : 8 ≤ i
      · rw [h2 ⟨c2, by simpa using c3⟩]; clear h0 h1 h2 h3; revert c3 c2; revert i; decide
      by_cases c1 : 4 ≤ i
      · rw [h1 ⟨c1, by simpa using c2⟩]; clear h0 h1 h2 h3 c3; revert c2 c1; revert i; decide
      · rw [h0 ⟨Nat.zero_le _, by simpa using c1⟩]; clear h0 h1 h2 h3 c3 c2; revert c1; revert i; decide
    · exact absurd hi (by simp [Area.size])

/-- C65, arm64: sha1cdblock_arm64.s can be read; it has a function `blockARM64` with 96 bytes of arguments.  Called as C48 describes, with the
constants in memory as the `DATA` lines of the text say, the function that the text describes ends, within 180 statements, without a fault, with the
right results unless R16 holds one of the 64 largest values (see C17). -/
theorem C65_arm64 : ∃ f, Source.Arm64.read arm64Lines = some f ∧ f.func = chars! "·blockARM64" ∧ f.args = 96 ∧
    ∀ (L : Layout) (t : Flat.Arm64.FSt), L.Ok 0 → Allowed 0 L t.mem →
      (∀ a : ArgOff, argAt t.mem t.fp a = argVal L 64 a) → t.fp = L .args → t.ks = L .k0 → Source.DataArm64 f t →
      ∃ t', (∀ n, 180 ≤ n → Source.arm64.run f n t = .ok t') ∧
        ((t.g .r16).toNat + 64 < 2 ^ 64 → Compressed L t.mem t'.mem) ∧
        (2 ^ 64 ≤ (t.g .r16).toNat + 64 → regsAt t'.mem (L .h) = regsAt t.mem (L .h)) ∧
        (∀ q, (∀ a : Area, a.written = true → ¬ inArea 0 L a q) → t'.mem.b q = t.mem.b q) := by
  refine ⟨_, Source.Arm64.read_text, rfl, rfl, fun L t ok al args hfp hks hd => ?_⟩
  obtain ⟨t', e, r, r', o⟩ := C48_arm64 L t ok al args hfp (consts_arm64 hd hks) hks
  exact ⟨t', fun n hn => Source.Arm64.run_fuel _ _ _ e (Nat.le_trans (by decide +kernel) hn), r, fun h => (r' h).1, o⟩

/-- C65: from any state, whatever the length of the chunk, the text of sha1cdblock_arm64.s ends with a state iff the model does. -/
theorem C65_arm64_model (f : Source.File Arm64.Instr) (hf : Source.Arm64.read arm64Lines = some f) (s t : Flat.Arm64.FSt) :
    (∃ n, Source.arm64.run f n s = .ok t) ↔ Flat.Arm64.run s = .ok t := by
  rw [Source.Arm64.read_text] at hf
  cases hf
  exact Source.Arm64.text_run s t

theorem callAmd64_ok {n : Nat} (hn : 220 ≤ n) {E : Env} {x : Amd64.X → Vec} {g : Amd64.G → Word64} {r12 : Word} {h : Regs} {p : List Byte}
    {m1 : Fin 80 → Word} {cs : Fin 3 → Regs} {o : AsmOut} (e : Flat.Amd64.call E x g r12 h p m1 cs = .ok o) :
    Source.callAmd64 amd64Lines n E x g r12 h p m1 cs = .ok o := by
  unfold Flat.Amd64.call at e
  unfold Source.callAmd64
  rw [Source.Amd64.read_text]
  generalize (⟨x, _, r12, _, _, _⟩ : Flat.Amd64.FSt) = s at e ⊢
  cases c : Flat.Amd64.run 1 s with
  | error _ => rw [c] at e; cases e
  | ok t =>
    rw [c] at e
    change (Source.amd64.run Source.Amd64.file n s >>= fun s => pure (E.out s.mem)) = _
    rw [Source.Amd64.run_fuel _ _ _ _ c (Nat.le_trans (by decide +kernel) hn)]
    exact e

theorem callArm64_ok {n : Nat} (hn : 180 ≤ n) {E : Env} {v : Arm64.V → Vec} {g : Arm64.G → Word64} {h : Regs} {p : List Byte}
    {m1 : Fin 80 → Word} {cs : Fin 3 → Regs} {o : AsmOut} (e : Flat.Arm64.call E v g h p m1 cs = .ok o) :
    Source.callArm64 arm64Lines n E v g h p m1 cs = .ok o := by
  unfold Flat.Arm64.call at e
  unfold Source.callArm64
  rw [Source.Arm64.read_text]
  generalize (⟨v, g, _, _, _⟩ : Flat.Arm64.FSt) = s at e ⊢
  cases c : Flat.Arm64.run s with
  | error _ => rw [c] at e; cases e
  | ok t =>
    rw [c] at e
    change (Source.arm64.run Source.Arm64.file n s >>= fun s => pure (E.out s.mem)) = _
    rw [Source.Arm64.run_fuel _ _ _ c (Nat.le_trans (by decide +kernel) hn)]
    exact e

/-- C65 for the API, amd64: with the assembly function as its text describes it, the objects, results and verdicts are those of the portable code. -/
theorem C65_amd64_api (e : Nat → Flat.Amd64.Entry) (ok : ∀ k, (e k).env.Ok 80) :
    let b := simdBlock (fun k => Source.callAmd64 amd64Lines 220 (e k).env (e k).x (e k).g (e k).r12) sha1Dvs
    (∀ (d : Digest) (ops : List Op), d.run b ops = d.run blockNoasm ops) ∧ (∀ o m, sumPkg b o m = sumPkg blockNoasm o m) := by
  have : simdBlock (fun k => Source.callAmd64 amd64Lines 220 (e k).env (e k).x (e k).g (e k).r12) sha1Dvs = blockNoasm :=
    blockImpl_unique (simdBlock_table sha1Dvs_impl _ fun k H p m1 cs hp =>
      callAmd64_ok (Nat.le_refl _) (Flat.Amd64.call_ok _ (ok k) (e k).x (e k).g (e k).r12 H p hp m1 cs)) blockNoasm_impl
  intro b
  rw [show b = blockNoasm from this]
  exact ⟨fun _ _ => rfl, fun _ _ => rfl⟩

/-- C65 for the API, arm64, with the restriction of C17 on R16. -/
theorem C65_arm64_api (e : Nat → Flat.Arm64.Entry) (ok : ∀ k, (e k).env.Ok 0) (r16 : ∀ k, ((e k).g .r16).toNat + 64 < 2 ^ 64) :
    let b := simdBlock (fun k => Source.callArm64 arm64Lines 180 (e k).env (e k).v (e k).g) sha1Dvs
    (∀ (d : Digest) (ops : List Op), d.run b ops = d.run blockNoasm ops) ∧ (∀ o m, sumPkg b o m = sumPkg blockNoasm o m) := by
  have : simdBlock (fun k => Source.callArm64 arm64Lines 180 (e k).env (e k).v (e k).g) sha1Dvs = blockNoasm :=
    blockImpl_unique (simdBlock_table sha1Dvs_impl _ fun k H p m1 cs hp =>
      callArm64_ok (Nat.le_refl _) (Flat.Arm64.call_ok _ (ok k) (e k).v (e k).g (r16 k) H p hp m1 cs)) blockNoasm_impl
  intro b
  rw [show b = blockNoasm from this]
  exact ⟨fun _ _ => rfl, fun _ _ => rfl⟩

/-! ### Instances -/

theorem data_amd64 {L : Layout} {t : Flat.Amd64.FSt} (hsym : t.sym = Flat.Amd64.symAt L) (h : Consts 80 L t.mem.b) :
    Source.DataAmd64 Source.Amd64.file t := by
  have h0 (i : Nat) (hi : i < 16) := h.val .k0 i (.inl rfl) hi
  have h1 (i : Nat) (hi : i < 16) := h.val .k1 i (.inr rfl) hi
  intro d hd
  change d ∈ [_, _, _, _] at hd
  simp only [List.mem_cons, List.not_mem_nil, or_false] at hd
  rcases hd with rfl | rfl | rfl | rfl
  · refine ⟨.upperMask, rfl, fun i hi => ?_⟩
    rw [hsym]
    change i < 8 at hi
    refine (h0 _ (by simp only []; omega)).trans ?_
    clear h0 h1; revert i; decide
  · refine ⟨.upperMask, rfl, fun i hi => ?_⟩
    rw [hsym]
    change i < 8 at hi
    refine (h0 _ (by simp only []; omega)).trans ?_
    clear h0 h1; revert i; decide
  · refine ⟨.shuffleMask, rfl, fun i hi => ?_⟩
    rw [hsym]
    change i < 8 at hi
    refine (h1 _ (by simp only []; omega)).trans ?_
    clear h0 h1; revert i; decide
  · refine ⟨.shuffleMask, rfl, fun i hi => ?_⟩
    rw [hsym]
    change i < 8 at hi
    refine (h1 _ (by simp only []; omega)).trans ?_
    clear h0 h1; revert i; decide

theorem data_arm64 {L : Layout} {t : Flat.Arm64.FSt} (hks : t.ks = L .k0) (h : Consts 0 L t.mem.b) :
    Source.DataArm64 Source.Arm64.file t := by
  have h0 (i : Nat) (hi : i < 16) := h.val .k0 i (.inl rfl) hi
  intro d hd
  change d ∈ [_, _, _, _] at hd
  simp only [List.mem_cons, List.not_mem_nil, or_false] at hd
  rcases hd with rfl | rfl | rfl | rfl <;>
  · refine ⟨rfl, fun i hi => ?_⟩
    rw [hks]
    change i < 4 at hi
    refine (h0 _ (by simp only []; omega)).trans ?_
    clear h0; revert i; decide

/-- Instance: the hypotheses of `C65_amd64` hold of the memory of C48 with a chunk of 64 times "a". -/
example : ∃ (f : Source.File Amd64.Instr) (L : Layout) (t : Flat.Amd64.FSt), Source.Amd64.read amd64Lines = some f ∧ L.Ok f.frame ∧
    Allowed f.frame L t.mem ∧ (∀ a : ArgOff, argAt t.mem t.fp a = argVal L 64 a) ∧ t.fp = L .args ∧ t.g .sp = L .frame ∧
    t.sym = Flat.Amd64.symAt L ∧ Source.DataAmd64 f t ∧ ((L .k0).toNat % 16 = 0 ∧ (L .k1).toNat % 16 = 0) ∧ regsAt t.mem (L .h) = H0 :=
  ⟨_, exLayout, ⟨fun _ => ⟨1, 2, 3, 4⟩, fun q => if q = .sp then exLayout .frame else 7, 9,
      exEnv.mem H0 (List.replicate 64 0x61) (fun _ => 5) (fun _ => ⟨1, 1, 1, 1, 1⟩), exLayout .args, Flat.Amd64.symAt exLayout⟩,
    Source.Amd64.read_text, exLayout_ok, (Flat.given exEnv_ok _ _ _ _).al, (Flat.given exEnv_ok _ _ _ _).args, rfl, rfl, rfl,
    data_amd64 rfl (Flat.given exEnv_ok _ _ _ _).consts, by decide, Flat.start_h (E := exEnv) _ _ _ _⟩

/-- Instance: the hypotheses of `C65_arm64` hold of such a memory. -/
example : ∃ (f : Source.File Arm64.Instr) (L : Layout) (t : Flat.Arm64.FSt), Source.Arm64.read arm64Lines = some f ∧ L.Ok 0 ∧
    Allowed 0 L t.mem ∧ (∀ a : ArgOff, argAt t.mem t.fp a = argVal L 64 a) ∧ t.fp = L .args ∧ t.ks = L .k0 ∧
    Source.DataArm64 f t ∧ (t.g .r16).toNat + 64 < 2 ^ 64 ∧ regsAt t.mem (L .h) = H0 :=
  ⟨_, exLayout0, ⟨fun _ => ⟨1, 2, 3, 4⟩, fun _ => 0x10001,
      exEnv0.mem H0 (List.replicate 64 0x61) (fun _ => 5) (fun _ => ⟨1, 1, 1, 1, 1⟩), exLayout0 .args, exLayout0 .k0⟩,
    Source.Arm64.read_text, exLayout0_ok, (Flat.given exEnv0_ok _ _ _ _).al, (Flat.given exEnv0_ok _ _ _ _).args, rfl, rfl,
    data_arm64 rfl (Flat.given exEnv0_ok _ _ _ _).consts, show (0x10001 : Word64).toNat + 64 < 2 ^ 64 by decide,
    Flat.start_h (E := exEnv0) _ _ _ _⟩

/-- Instance: the first SHAttered file is flagged by the text of the assembly code. -/
example : sumPkg (simdBlock (fun k => Source.callAmd64 amd64Lines 220 exEnv (fun _ => ⟨BitVec.ofNat 32 k, 2, 3, 4⟩) (fun _ => 7) 9) sha1Dvs)
    .callFirst shattered1 = .ok (shatteredDigest1, true) := by
  rw [(C65_amd64_api (fun k => ⟨exEnv, fun _ => ⟨BitVec.ofNat 32 k, 2, 3, 4⟩, fun _ => 7, 9⟩) fun _ => exEnv_ok).2]
  exact (sumPkg_call (build_impl .noasm) _).trans (by rw [shattered1_hash])

/-- Line `n` of a text replaced. -/
def Source.change (ls : List (List Nat)) (n : Nat) (l : List Nat) : List (List Nat) := ls.set (n - 1) l

/-- C65: the text matters.  A rotation by another number, a jump to another label, another byte of a mask are all read as another program;
an unknown register is not read at all; another comment or other blanks make no difference. -/
theorem C65_text_matters :
    Source.Amd64.read (Source.change amd64Lines 181 (chars! "\tROLL $29, R12")) ≠ Source.Amd64.read amd64Lines ∧
    Source.Amd64.read (Source.change amd64Lines 258 (chars! "\tJNE  done")) ≠ Source.Amd64.read amd64Lines ∧
    Source.Amd64.read (Source.change amd64Lines 18 (chars! "\tVMOVDQU X8, ((index*24)+0)(target); \\")) ≠ Source.Amd64.read amd64Lines ∧
    Source.Amd64.read (Source.change amd64Lines 269 (chars! "DATA upper_mask<>+8(SB)/8, $0xfffffffe00000000")) ≠ Source.Amd64.read amd64Lines ∧
    Source.Amd64.read (Source.change amd64Lines 27 (chars! "TEXT ·blockAMD64(SB), NOSPLIT, $64-96")) ≠ Source.Amd64.read amd64Lines ∧
    Source.Amd64.read (Source.change amd64Lines 181 (chars! "\tROLL $30, R11")) = none ∧
    Source.Amd64.read (Source.change amd64Lines 181 (chars! "  ROLL  $30 ,R12 // as above")) = Source.Amd64.read amd64Lines ∧
    Source.Arm64.read (Source.change arm64Lines 48 (chars! "\tBLS     loop")) ≠ Source.Arm64.read arm64Lines ∧
    Source.Arm64.read (Source.change arm64Lines 21 (chars! "\tSHA1M\tV16.S4, V1, V2 \\")) ≠ Source.Arm64.read arm64Lines ∧
    Source.Arm64.read (Source.change arm64Lines 57 (chars! "\tMOVD  $·sha1Ks(SB), R23")) = none := by
  decide +kernel

end Verif.Props
