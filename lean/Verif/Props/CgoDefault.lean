import Verif.Model.CgoDefault
import Verif.Spec.CgoDefault
import Verif.Props.Options

/-!
C63: the default of the safe hash is chosen when the C code is compiled.
-/

namespace Verif.Props

open Verif Verif.Model Verif.Model.C Verif.Spec Verif.C

/-- The settings after `SHA1DCInit` if the macro is `v`. -/
def optWith (v : Word) : Options := { Options.default with safe := v != 0 }

/-- The object holds `m`. -/
def HoldsW (v : Word) (d : Cgo.Digest) (m : List Byte) : Prop :=
  HoldsO d.ctx ⟨optWith v, ((optWith v).chain H0 (blocks m)).1, ((optWith v).chain H0 (blocks m)).2, m⟩

theorem holdsW_reset (v : Word) (d : Cgo.Digest) : HoldsW v (d.resetWith v) [] := by
  have hb : blocks ([] : List Byte) = [] := blocks_lt _ (by simp)
  refine ⟨?_, rfl, ?_⟩
  · simp [optOf, optWith, Cgo.Digest.resetWith, Cgo.initWith, Options.default]
  · simp [absC, Cgo.Digest.resetWith, Cgo.initWith, hb, Options.chain, H0, rem64]

theorem HoldsW.write {v : Word} {d : Cgo.Digest} {m : List Byte} (cfg : Cfg) (h : HoldsW v d m) (p : List Byte) :
    ∃ d', d.write cfg p = .ok (d', p.length, none) ∧ HoldsW v d' (m ++ p) := by
  unfold Cgo.Digest.write
  by_cases h0 : p.length = 0
  · rw [if_pos h0]
    have : p = [] := List.eq_nil_of_length_eq_zero h0
    subst this
    exact ⟨d, rfl, by simpa using h⟩
  · rw [if_neg h0]
    obtain ⟨c', r, h'⟩ := HoldsO.call cfg h (.update p)
    have r' : SHA1DCUpdate cfg d.ctx p = .ok c' := r
    simp only [r', bind, Except.bind, pure, Except.pure]
    refine ⟨_, rfl, ?_⟩
    have := fold_updates [p] ⟨optWith v, ((optWith v).chain H0 (blocks m)).1, ((optWith v).chain H0 (blocks m)).2, m⟩ rfl rfl
    simp only [List.map_cons, List.map_nil, List.foldl_cons, List.foldl_nil, List.flatten_cons, List.flatten_nil,
      List.append_nil] at this
    unfold HoldsW
    rw [← this]
    exact h'

theorem HoldsW.sum0 {v : Word} {d : Cgo.Digest} {m : List Byte} (cfg : Cfg) (h : HoldsW v d m) :
    ∃ d', d.sum0 cfg = .ok (d', ((optWith v).hash m).1, ((optWith v).hash m).2) := by
  obtain ⟨c', w, r, f⟩ := HoldsO.final cfg h
  rw [final_of_chain _ rfl rfl] at r f
  unfold Cgo.Digest.sum0
  simp only [r, bind, Except.bind, pure, Except.pure]
  by_cases hw : w ≠ 0
  · rw [if_pos hw, f.mp hw]; exact ⟨_, rfl⟩
  · rw [if_neg hw, show ((optWith v).hash m).2 = false from Bool.eq_false_iff.mpr fun c => hw (f.mpr c)]; exact ⟨_, rfl⟩

theorem HoldsW.crs {v : Word} {d : Cgo.Digest} {m : List Byte} (cfg : Cfg) (h : HoldsW v d m) (inp : List Byte) :
    d.collisionResistantSum cfg inp = .ok (d, inp ++ ((optWith v).hash m).1, ((optWith v).hash m).2) := by
  obtain ⟨d', r⟩ := h.sum0 cfg
  unfold Cgo.Digest.collisionResistantSum
  simp only [r, bind, Except.bind, pure, Except.pure]

theorem HoldsW.sum {v : Word} {d : Cgo.Digest} {m : List Byte} (cfg : Cfg) (h : HoldsW v d m) (inp : List Byte) :
    d.sum cfg inp = .ok (d, inp ++ ((optWith v).hash m).1) := by
  unfold Cgo.Digest.sum
  simp only [h.crs cfg inp, bind, Except.bind, pure, Except.pure]

theorem HoldsW.call {v : Word} {d : Cgo.Digest} {m : List Byte} (cfg : Cfg) (h : HoldsW v d m) (op : Cgo.Op) :
    ∃ d', d.callWith v cfg op = .ok (d', resultOf (optWith v).hash m op) ∧ HoldsW v d' (heldAfter m op) := by
  cases op with
  | write p =>
    obtain ⟨d', r, h'⟩ := h.write cfg p
    exact ⟨d', by simp [Cgo.Digest.callWith, Cgo.Digest.call, r, bind, Except.bind, pure, Except.pure, resultOf], h'⟩
  | sum inp =>
    exact ⟨d, by simp [Cgo.Digest.callWith, Cgo.Digest.call, h.sum cfg, bind, Except.bind, pure, Except.pure, resultOf], h⟩
  | collisionResistantSum inp =>
    exact ⟨d, by simp [Cgo.Digest.callWith, Cgo.Digest.call, h.crs cfg, bind, Except.bind, pure, Except.pure, resultOf], h⟩
  | reset => exact ⟨_, rfl, holdsW_reset v d⟩
  | size => exact ⟨d, rfl, h⟩
  | blockSize => exact ⟨d, rfl, h⟩

theorem HoldsW.run {v : Word} {d : Cgo.Digest} {m : List Byte} (cfg : Cfg) (ops : List Cgo.Op) (h : HoldsW v d m) :
    ∃ d', d.runWith v cfg ops = .ok (d', resultsOf (optWith v).hash m ops) := by
  induction ops generalizing d m with
  | nil => exact ⟨d, rfl⟩
  | cons op ops ih =>
    obtain ⟨d1, r1, h1⟩ := h.call cfg op
    obtain ⟨d2, r2⟩ := ih h1
    exact ⟨d2, by simp [Cgo.Digest.runWith, r1, r2, bind, Except.bind, pure, Except.pure, resultsOf]⟩

theorem sumPkgWith_eq (v : Word) (cfg : Cfg) (m : List Byte) : Cgo.sumPkgWith v cfg m = .ok ((optWith v).hash m) := by
  obtain ⟨d, r, h⟩ := (holdsW_reset v Cgo.Digest.zero).write cfg m
  obtain ⟨d', r'⟩ := h.sum0 cfg
  unfold Cgo.sumPkgWith
  simp only [r, r', bind, Except.bind, pure, Except.pure, List.nil_append]

theorem optWith_hash_on {v : Word} (hv : v ≠ 0) : (optWith v).hash = safeHash (verdict Detected) := by
  have : optWith v = Options.default := by
    unfold optWith
    rw [show (v != 0) = true from bne_iff_ne.mpr hv]
    rfl
  funext m
  rw [this, C37_default]

theorem optWith_hash_off (m : List Byte) : (optWith 0).hash m = (sha1 m, (safeHash (verdict Detected) m).2) := by
  rw [← C37_default]
  refine Prod.ext ?_ ?_
  · show digestBytes _ = sha1 m
    rw [chain_plain _ (.inl (by decide))]
    rfl
  · exact chain_flag_safe Options.default _ H0 _

/-- C63: if the macro is 0, every history of calls on a hash of package cgo, and its `Sum`, return the plain SHA-1 digest of the
bytes written since the last reset, and report exactly the collisions that they report by default. -/
theorem C63_off (cfg : Cfg) :
    (∀ ops, ∃ d, (Cgo.newWith 0).runWith 0 cfg ops =
      .ok (d, resultsOf (fun m => (sha1 m, (safeHash (verdict Detected) m).2)) [] ops)) ∧
    ∀ m, ∃ D c, Cgo.sumPkg cfg m = .ok (D, c) ∧ Cgo.sumPkgWith 0 cfg m = .ok (sha1 m, c) := by
  have e : (optWith 0).hash = fun m => (sha1 m, (safeHash (verdict Detected) m).2) := funext optWith_hash_off
  constructor
  · intro ops
    rw [← e]
    exact (holdsW_reset 0 _).run cfg ops
  · intro m
    exact ⟨_, _, cgo_sumPkg cfg m, by rw [sumPkgWith_eq, optWith_hash_off]; rfl⟩

/-- C63: if the macro is anything else, all results are those of the package as it is. -/
theorem C63_on (v : Word) (hv : v ≠ 0) (cfg : Cfg) :
    (∀ ops, ∃ d d' outs, (Cgo.newWith v).runWith v cfg ops = .ok (d, outs) ∧ Cgo.new.run cfg ops = .ok (d', outs)) ∧
    ∀ m, Cgo.sumPkgWith v cfg m = Cgo.sumPkg cfg m := by
  constructor
  · intro ops
    obtain ⟨d, h⟩ := (holdsW_reset v Cgo.Digest.zero).run cfg ops
    obtain ⟨d', h', _⟩ := holdsCgo_new.run cfg ops
    refine ⟨d, d', _, h, h'.trans ?_⟩
    rw [optWith_hash_on hv]
    have key : ∀ (ops : List Cgo.Op) (m : List Byte),
        results cVerdict m (ops.map Cgo.Op.toGo) = resultsOf (safeHash (verdict Detected)) m ops := by
      intro ops
      induction ops with
      | nil => intro m; rfl
      | cons op ops ih =>
        intro m
        rw [List.map_cons, results, resultsOf, ih]
        cases op <;> rfl
    rw [key]
  · intro m
    rw [sumPkgWith_eq, optWith_hash_on hv, cgo_sumPkg]

/-- C63: so a package compiled with the macro 0 gives the two files of the published attack the same digest, and says of both that
they are colliding. -/
theorem C63_off_shattered (cfg : Cfg) : ∃ D, Cgo.sumPkgWith 0 cfg shattered1 = .ok (D, true) ∧
    Cgo.sumPkgWith 0 cfg shattered2 = .ok (D, true) ∧ shattered1 ≠ shattered2 := by
  refine ⟨sha1 shattered1, ?_, ?_, shattered_ne⟩
  · rw [sumPkgWith_eq, optWith_hash_off, shattered1_hash_c]
  · rw [sumPkgWith_eq, optWith_hash_off, shattered2_hash_c, shattered_sha1]

/-- Instance: a history with a reset, under the macro 0. -/
example (cfg : Cfg) : ∃ d, (Cgo.newWith 0).runWith 0 cfg [.write shattered1, .sum [1], .reset, .write abc, .collisionResistantSum []] =
    .ok (d, [.write 320 none, .sum (1 :: sha1 shattered1), .reset, .write 3 none, .collisionResistantSum (sha1 abc) false]) := by
  have key : ∀ x y : List Byte, (safeHash (verdict Detected) y).2 = false →
      resultsOf (fun m => (sha1 m, (safeHash (verdict Detected) m).2)) [] [.write x, .sum [1], .reset, .write y, .collisionResistantSum []] =
      [.write x.length none, .sum (1 :: sha1 x), .reset, .write y.length none, .collisionResistantSum (sha1 y) false] := by
    intro x y h
    simp only [resultsOf, resultOf, heldAfter, List.nil_append, List.cons_append, h]
  have hl : shattered1.length = 320 := by decide +kernel
  have := key shattered1 abc (congrArg Prod.snd abc_hash_c)
  rw [hl] at this
  obtain ⟨d, h⟩ := (C63_off cfg).1 [.write shattered1, .sum [1], .reset, .write abc, .collisionResistantSum []]
  rw [this] at h
  exact ⟨d, h⟩

end Verif.Props
