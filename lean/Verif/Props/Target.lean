import Verif.Model.Target

/-! Builds and CPUs: C40, C41, C42, C51. -/

namespace Verif.Props

open Verif.Model Verif.Model.Target

/-! ### C40: one block function -/

theorem select_sha1cd (t : Target) : select t sha1cdFiles =
    if t.tag "noasm" || (!t.tag "amd64" && !t.tag "arm64") then [detectionGo, sha1cdGo, genericGo, noasmGo]
    else if !t.tag "gc" || (t.tag "amd64" && t.tag "arm64") then [detectionGo, sha1cdGo, genericGo]
    else if t.tag "amd64" then [detectionGo, sha1cdGo, amd64Go, amd64S, genericGo]
    else [detectionGo, sha1cdGo, arm64Go, arm64S, genericGo] := by
  simp [select, sha1cdFiles, detectionGo, sha1cdGo, amd64Go, amd64S, arm64Go, arm64S, genericGo, noasmGo,
    File.selected, File.nameOk, knownArch, knownOS, Constr.eval, List.filter_cons]
  generalize t.tag "noasm" = n
  generalize t.tag "gc" = g
  generalize t.tag "amd64" = a
  generalize t.tag "arm64" = b
  cases n <;> cases g <;> cases a <;> cases b <;> rfl

theorem links_congr (t : Target) (p fs : List File) (h : select t p = fs) :
    Links t p ↔ (fs.flatMap File.decls).Nodup ∧ (∀ f ∈ fs, ∀ s ∈ f.uses, s ∈ fs.flatMap File.decls) ∧
      (∀ f ∈ fs, ∀ s ∈ f.bodyless, ∃ g ∈ fs, s ∈ g.texts) ∧
      (∀ f ∈ fs, f.isC = true → t.cgo = true ∧ ∃ g ∈ fs, g.isC = false ∧ g.needsCgo = true) := by
  subst h; rfl

/-- C40, exactly: the names of package sha1cd are declared once, all those used are declared and all assembly
functions are present, iff the target asks for the portable code or is a `gc` target for one of the two
architectures and not both. -/
theorem C40_links_iff (t : Target) :
    Links t sha1cdFiles ↔ t.tag "noasm" ∨ (¬ t.tag "amd64" ∧ ¬ t.tag "arm64") ∨
      (t.tag "gc" ∧ ¬ (t.tag "amd64" ∧ t.tag "arm64")) := by
  rw [links_congr t _ _ (select_sha1cd t)]
  generalize t.cgo = c
  generalize t.tag "noasm" = n
  generalize t.tag "gc" = g
  generalize t.tag "amd64" = a
  generalize t.tag "arm64" = b
  cases c <;> cases n <;> cases g <;> cases a <;> cases b <;> decide

/-- C40 for the compiler gc: with any operating system, any architecture, with or without cgo, and with any tags but
the names of the two architectures, exactly one selected file declares `block` and the package links.  Missing: other
compilers (`C40_gccgo_refuted`). -/
theorem C40_gc_partial (t : Target) (hgc : t.compiler = "gc") (hos : t.goos ≠ "amd64" ∧ t.goos ≠ "arm64")
    (hu : "amd64" ∉ t.user ∧ "arm64" ∉ t.user) :
    Links t sha1cdFiles ∧
      (select t sha1cdFiles).filter (fun f => f.decls.contains "block") =
        [if t.tag "noasm" then noasmGo else if t.goarch = "amd64" then amd64Go
         else if t.goarch = "arm64" then arm64Go else noasmGo] := by
  have e1 : t.tag "gc" = true := by simp [Target.tag, hgc]
  have e2 : t.tag "amd64" = decide (t.goarch = "amd64") := by
    have h : ("amd64" == t.goos) = false := beq_eq_false_iff_ne.mpr hos.1.symm
    simp [Target.tag, hgc, h, hu.1]
    exact decide_eq_decide.mpr eq_comm
  have e3 : t.tag "arm64" = decide (t.goarch = "arm64") := by
    have h : ("arm64" == t.goos) = false := beq_eq_false_iff_ne.mpr hos.2.symm
    simp [Target.tag, hgc, h, hu.2]
    exact decide_eq_decide.mpr eq_comm
  constructor
  · rw [C40_links_iff, e1, e2, e3]
    refine .inr (.inr ⟨rfl, ?_⟩)
    simp only [decide_eq_true_eq]
    rintro ⟨h1, h2⟩
    rw [h1] at h2
    revert h2; decide
  · rw [select_sha1cd, e1, e2, e3]
    generalize t.tag "noasm" = n
    by_cases h1 : t.goarch = "amd64"
    · have h2 : t.goarch ≠ "arm64" := by rw [h1]; decide
      simp only [h1]
      cases n <;> simp [amd64Go, amd64S, detectionGo, sha1cdGo, genericGo, noasmGo]
    · by_cases h2 : t.goarch = "arm64"
      · simp only [h2]
        cases n <;> simp [arm64Go, arm64S, detectionGo, sha1cdGo, genericGo, noasmGo]
      · simp only [h1, h2]
        cases n <;> simp [detectionGo, sha1cdGo, genericGo, noasmGo]

/-- Instances: linux on amd64, and on riscv64, without any tags. -/
example : let t : Target := ⟨"linux", "amd64", "gc", true, []⟩
    (select t sha1cdFiles).filter (fun f => f.decls.contains "block") = [amd64Go] :=
  (C40_gc_partial ⟨"linux", "amd64", "gc", true, []⟩ rfl (by decide) (by decide)).2

example : let t : Target := ⟨"linux", "riscv64", "gc", false, []⟩
    (select t sha1cdFiles).filter (fun f => f.decls.contains "block") = [noasmGo] :=
  (C40_gc_partial ⟨"linux", "riscv64", "gc", false, []⟩ rfl (by decide) (by decide)).2

/-- C40 fails for gccgo on amd64 and arm64: unless the tag `noasm` is given, no selected file declares `block`, which
sha1cd.go uses. -/
theorem C40_gccgo_refuted (t : Target) (ha : t.goarch = "amd64" ∨ t.goarch = "arm64") (hn : ¬ t.tag "noasm")
    (hg : ¬ t.tag "gc") : ¬ Links t sha1cdFiles ∧ "block" ∉ declared t sha1cdFiles := by
  have hab : (t.tag "amd64" || t.tag "arm64") = true := by
    rcases ha with h | h <;> simp [Target.tag, h]
  unfold declared
  rw [C40_links_iff, select_sha1cd]
  revert hn hg hab
  generalize t.tag "noasm" = n
  generalize t.tag "gc" = g
  generalize t.tag "amd64" = a
  generalize t.tag "arm64" = b
  cases n <;> cases g <;> cases a <;> cases b <;> decide

/-- Instance. -/
example : let t : Target := ⟨"linux", "amd64", "gccgo", true, []⟩
    t.goarch = "amd64" ∧ ¬ t.tag "noasm" ∧ ¬ t.tag "gc" := by decide

/-! ### C41: the names of package cgo -/

theorem select_cgo (t : Target) (h : t.tag "cgo" = t.cgo) : select t cgoFiles =
    if t.cgo then [cgoSha1Go, cgoUbcGo, cgoSha1C, cgoUbcC] else [fallbackGo] := by
  simp [select, cgoFiles, fallbackGo, cgoSha1Go, cgoUbcGo, cgoSha1C, cgoUbcC,
    File.selected, File.nameOk, knownArch, knownOS, Constr.eval, List.filter_cons, h]
  generalize t.cgo = c
  cases c <;> rfl

/-- C41 for the functions: with cgo enabled or not, package cgo links and offers `New`, `Sum` and `CalculateDvMask`.
Missing: the constants `Size` and `BlockSize` (`C41_constants_refuted`), and the parameter of `CalculateDvMask`, an
array with cgo and a pointer without. -/
theorem C41_cgo_functions_partial (t : Target) (h : t.tag "cgo" = t.cgo) :
    Links t cgoFiles ∧ ∀ s ∈ ["New", "Sum", "CalculateDvMask"], s ∈ exported t cgoFiles := by
  unfold exported declared
  rw [links_congr t _ _ (select_cgo t h), select_cgo t h]
  generalize t.cgo = c
  cases c <;> decide

/-- C41 fails for the constants: they exist only with cgo. -/
theorem C41_constants_refuted (t : Target) (h : t.tag "cgo" = t.cgo) :
    ("Size" ∈ exported t cgoFiles ↔ t.cgo = true) ∧ ("BlockSize" ∈ exported t cgoFiles ↔ t.cgo = true) := by
  unfold exported declared
  rw [select_cgo t h]
  generalize t.cgo = c
  cases c <;> decide

/-- Instance: the hypothesis holds for a target without tags. -/
example (c : Bool) : let t : Target := ⟨"linux", "arm64", "gc", c, []⟩
    t.tag "cgo" = t.cgo := by cases c <;> decide

/-! ### C51: the module and its interfaces -/

theorem select_cgo' (t : Target) : select t cgoFiles =
    (if t.tag "cgo" then [] else [fallbackGo]) ++ if t.cgo then [cgoSha1Go, cgoUbcGo, cgoSha1C, cgoUbcC] else [] := by
  simp [select, cgoFiles, fallbackGo, cgoSha1Go, cgoUbcGo, cgoSha1C, cgoUbcC,
    File.selected, File.nameOk, knownArch, knownOS, Constr.eval, List.filter_cons]
  generalize t.cgo = c
  generalize t.tag "cgo" = k
  cases c <;> cases k <;> rfl

theorem select_ubc (t : Target) : select t ubcFiles = ubcFiles := by
  simp [select, ubcFiles, ubcConstGo, ubcGo, File.selected, File.nameOk, Constr.eval]

theorem select_internal (t : Target) : select t internalFiles = internalFiles := by
  simp [select, internalFiles, internalConstGo, File.selected, File.nameOk, Constr.eval]

/-- A target that has cgo satisfies its tag. -/
theorem tag_cgo (t : Target) (h : t.cgo = true) : t.tag "cgo" = true := by simp [Target.tag, h]

/-- What `Builds` asks of one package, for packages of which the files are already selected. -/
def PkgOk (c : Bool) (m : List (String × List File)) (p : String × List File) : Prop :=
  (∃ f ∈ p.2, f.isC = false ∧ f.isAsm = false) ∧
    ((p.2.flatMap File.decls).Nodup ∧ (∀ f ∈ p.2, ∀ s ∈ f.uses, s ∈ p.2.flatMap File.decls) ∧
      (∀ f ∈ p.2, ∀ s ∈ f.bodyless, ∃ g ∈ p.2, s ∈ g.texts) ∧
      (∀ f ∈ p.2, f.isC = true → c = true ∧ ∃ g ∈ p.2, g.isC = false ∧ g.needsCgo = true)) ∧
    ((p.2.flatMap File.methods).map fun x => (x.1, x.2.1)).Nodup ∧
    (∀ x ∈ p.2.flatMap File.methods, x.1 ∈ p.2.flatMap File.decls) ∧
    (p.2.flatMap File.cdefs).Nodup ∧ (∀ f ∈ p.2, ∀ s ∈ f.cuses, s ∈ p.2.flatMap File.cdefs) ∧
    ∀ f ∈ p.2, ∀ i ∈ f.imports, ∃ q ∈ m, q.1 = i.1 ∧
      ∀ s ∈ i.2, s ∈ (q.2.flatMap File.decls).filter fun s => s.toList.head?.any Char.isUpper

set_option synthInstance.maxHeartbeats 200000 in
set_option synthInstance.maxSize 1000 in
instance (c : Bool) (m : List (String × List File)) (p : String × List File) : Decidable (PkgOk c m p) := by
  unfold PkgOk
  infer_instance

/-- `Builds` for packages of which the files are already selected. -/
def BuildsOf (c : Bool) (m : List (String × List File)) : Prop :=
  (∀ p ∈ m, PkgOk c m p) ∧
  ∃ rank : String → Nat, ∀ p ∈ m, ∀ f ∈ p.2, ∀ i ∈ f.imports, rank i.1 < rank p.1

theorem exists_mem_map' {α β : Type} (l : List α) (g : α → β) (P : β → Prop) :
    (∃ q ∈ l.map g, P q) ↔ ∃ q ∈ l, P (g q) := by
  simp only [List.mem_map]
  exact ⟨fun ⟨_, ⟨a, ha, e⟩, h⟩ => ⟨a, ha, e ▸ h⟩, fun ⟨a, ha, h⟩ => ⟨_, ⟨a, ha, rfl⟩, h⟩⟩

theorem builds_of (t : Target) (m : List (String × List File)) :
    Builds t m ↔ BuildsOf t.cgo (m.map fun p => (p.1, select t p.2)) := by
  unfold Builds BuildsOf PkgOk Links exported methods cdefined declared
  simp only [List.forall_mem_map, exists_mem_map']

/-- An order in which the packages can be compiled. -/
def order (s : String) : Nat := if s = "cgo" then 2 else if s = "sha1cd" then 1 else 0

/-- The module with given files for packages sha1cd and cgo. -/
def moduleOf (r c : List File) : List (String × List File) :=
  [("sha1cd", r), ("ubc", ubcFiles), ("internal", internalFiles), ("cgo", c)]

theorem ok_ubc (c : Bool) (m : List (String × List File)) : PkgOk c m ("ubc", ubcFiles) := by
  have h : PkgOk false [] ("ubc", ubcFiles) := by decide +kernel
  obtain ⟨h1, h2, h3, h4, h5, h6, h7⟩ := h
  refine ⟨h1, ⟨h2.1, h2.2.1, h2.2.2.1, ?_⟩, h3, h4, h5, h6, ?_⟩ <;> simp [ubcFiles, ubcConstGo, ubcGo]

theorem ok_internal (c : Bool) (m : List (String × List File)) : PkgOk c m ("internal", internalFiles) := by
  have h : PkgOk false [] ("internal", internalFiles) := by decide +kernel
  obtain ⟨h1, h2, h3, h4, h5, h6, h7⟩ := h
  refine ⟨h1, ⟨h2.1, h2.2.1, h2.2.2.1, ?_⟩, h3, h4, h5, h6, ?_⟩ <;> simp [internalFiles, internalConstGo]

theorem builds_moduleOf (c : Bool) (r g : List File) (hr : PkgOk c (moduleOf r g) ("sha1cd", r))
    (hg : PkgOk c (moduleOf r g) ("cgo", g))
    (ho : ∀ p ∈ moduleOf r g, ∀ f ∈ p.2, ∀ i ∈ f.imports, order i.1 < order p.1) : BuildsOf c (moduleOf r g) := by
  refine ⟨?_, order, ho⟩
  show ∀ p ∈ [_, _, _, _], _
  simp only [List.forall_mem_cons]
  exact ⟨hr, ok_ubc _ _, ok_internal _ _, hg, List.forall_mem_nil _⟩

theorem builds_good (c : Bool) : ∀ r ∈ [[detectionGo, sha1cdGo, genericGo, noasmGo],
      [detectionGo, sha1cdGo, amd64Go, amd64S, genericGo], [detectionGo, sha1cdGo, arm64Go, arm64S, genericGo]],
    BuildsOf c (moduleOf r (if c then [cgoSha1Go, cgoUbcGo, cgoSha1C, cgoUbcC] else [fallbackGo])) := by
  simp only [List.forall_mem_cons]
  cases c <;>
    exact ⟨builds_moduleOf _ _ _ (by decide +kernel) (by decide +kernel) (by decide +kernel),
      builds_moduleOf _ _ _ (by decide +kernel) (by decide +kernel) (by decide +kernel),
      builds_moduleOf _ _ _ (by decide +kernel) (by decide +kernel) (by decide +kernel), List.forall_mem_nil _⟩

theorem builds_block (c : Bool) (g : List File) : ¬ BuildsOf c (moduleOf [detectionGo, sha1cdGo, genericGo] g) := by
  intro h
  have := (h.1 ("sha1cd", [detectionGo, sha1cdGo, genericGo]) (by simp [moduleOf])).2.1.2.1 sha1cdGo (by simp) "block"
    (by decide)
  revert this
  decide

theorem builds_empty (c : Bool) (r : List File) : ¬ BuildsOf c (moduleOf r []) := by
  intro h
  obtain ⟨f, hf, _⟩ := (h.1 ("cgo", []) (by simp [moduleOf])).1
  cases hf

/-- C51, exactly: the whole module builds iff package sha1cd has one block function and the tag `cgo` is not given to a
build without cgo. -/
theorem C51_builds_iff (t : Target) :
    Builds t modulePkgs ↔ (t.tag "noasm" ∨ (¬ t.tag "amd64" ∧ ¬ t.tag "arm64") ∨
      (t.tag "gc" ∧ ¬ (t.tag "amd64" ∧ t.tag "arm64"))) ∧ (t.tag "cgo" → t.cgo) := by
  have e : (modulePkgs.map fun p => (p.1, select t p.2)) = moduleOf (select t sha1cdFiles) (select t cgoFiles) := by
    simp only [modulePkgs, moduleOf, List.map_cons, List.map_nil, select_ubc, select_internal]
  rw [builds_of, e, select_sha1cd, select_cgo']
  have hk := tag_cgo t
  have good := builds_good t.cgo
  simp only [List.forall_mem_cons] at good
  obtain ⟨g1, g2, g3, _⟩ := good
  have bad := builds_block t.cgo
  have emp := builds_empty t.cgo
  revert hk g1 g2 g3 bad emp
  generalize t.cgo = c
  generalize t.tag "cgo" = k
  generalize t.tag "noasm" = n
  generalize t.tag "gc" = g
  generalize t.tag "amd64" = a
  generalize t.tag "arm64" = b
  intro hk g1 g2 g3 bad emp
  cases c <;> cases k <;> (first | exact absurd (hk rfl) (by decide) | skip) <;>
    cases n <;> cases g <;> cases a <;> cases b <;>
    first
    | exact ⟨fun _ => by decide, fun _ => g1⟩
    | exact ⟨fun _ => by decide, fun _ => g2⟩
    | exact ⟨fun _ => by decide, fun _ => g3⟩
    | exact ⟨fun h => absurd h (bad _), fun h => absurd h (by decide)⟩
    | exact ⟨fun h => absurd h (emp _), fun h => absurd h (by decide)⟩

/-- C51 for the compiler gc: with any operating system, architecture and tags but the names of the two architectures
and `cgo`, with or without cgo, the whole module builds.  For other compilers and those tags see `C51_builds_iff`. -/
theorem C51_gc (t : Target) (hgc : t.compiler = "gc")
    (hos : t.goos ≠ "amd64" ∧ t.goos ≠ "arm64" ∧ t.goos ≠ "cgo") (ha : t.goarch ≠ "cgo")
    (hu : "amd64" ∉ t.user ∧ "arm64" ∉ t.user ∧ "cgo" ∉ t.user) : Builds t modulePkgs := by
  rw [C51_builds_iff]
  refine ⟨(C40_links_iff t).mp (C40_gc_partial t hgc ⟨hos.1, hos.2.1⟩ ⟨hu.1, hu.2.1⟩).1, fun h => ?_⟩
  simpa [Target.tag, hgc, hos.2.2.symm, ha.symm, hu.2.2] using h

/-- Instance: windows on arm64 without cgo. -/
example : Builds ⟨"windows", "arm64", "gc", false, ["purego"]⟩ modulePkgs :=
  C51_gc _ rfl (by decide) (by decide) (by decide)

/-- C51 for the interfaces: whenever the module builds, what `New` of either package returns satisfies `hash.Hash`, so
that the function compiles, and `sha1cd.CollisionResistantHash`, so that the type assertion in the package's `Sum`
without cgo, and every user's, succeeds. -/
theorem C51_collisionResistant (t : Target) (h : Builds t modulePkgs) :
    ∀ p ∈ [sha1cdFiles, cgoFiles], ∃ ty, newType t p = some ty ∧
      implements (methodSet t modulePkgs ty) ifaceHash ∧ implements (methodSet t modulePkgs ty) ifaceCRH := by
  rw [C51_builds_iff] at h
  have hk := tag_cgo t
  unfold newType methodSet methods modulePkgs
  simp only [List.flatMap_cons, List.flatMap_nil, List.forall_mem_cons, select_sha1cd, select_ubc, select_internal,
    select_cgo']
  revert hk h
  generalize t.cgo = c
  generalize t.tag "cgo" = k
  generalize t.tag "noasm" = n
  generalize t.tag "gc" = g
  generalize t.tag "amd64" = a
  generalize t.tag "arm64" = b
  intro h hk
  cases c <;> cases k <;> (first | exact absurd (hk rfl) (by decide) | exact absurd (h.2 rfl) (by decide) | skip) <;>
    cases n <;> cases g <;> cases a <;> cases b <;>
    (first | exact absurd h (by decide) | skip) <;>
    refine ⟨⟨_, rfl, by decide +kernel, by decide +kernel⟩, ⟨_, rfl, by decide +kernel, by decide +kernel⟩,
      List.forall_mem_nil _⟩

/-- C51 for checkpoints: whenever the module builds, the hash of package sha1cd can be marshalled and unmarshalled; that
of package cgo can iff cgo is disabled, so that code which checkpoints it compiles and runs in one setting and fails in
the other; none offers `AppendBinary`. -/
theorem C51_checkpoint (t : Target) (h : Builds t modulePkgs) :
    (∃ ty, newType t sha1cdFiles = some ty ∧ implements (methodSet t modulePkgs ty) ifaceMarshaler = true ∧
      implements (methodSet t modulePkgs ty) ifaceUnmarshaler = true ∧
      implements (methodSet t modulePkgs ty) ifaceAppender = false) ∧
    (∃ ty, newType t cgoFiles = some ty ∧ implements (methodSet t modulePkgs ty) ifaceMarshaler = !t.cgo ∧
      implements (methodSet t modulePkgs ty) ifaceUnmarshaler = !t.cgo ∧
      implements (methodSet t modulePkgs ty) ifaceAppender = false) := by
  rw [C51_builds_iff] at h
  have hk := tag_cgo t
  unfold newType methodSet methods modulePkgs
  simp only [List.flatMap_cons, List.flatMap_nil, select_sha1cd, select_ubc, select_internal, select_cgo']
  revert hk h
  generalize t.cgo = c
  generalize t.tag "cgo" = k
  generalize t.tag "noasm" = n
  generalize t.tag "gc" = g
  generalize t.tag "amd64" = a
  generalize t.tag "arm64" = b
  intro h hk
  cases c <;> cases k <;> (first | exact absurd (hk rfl) (by decide) | exact absurd (h.2 rfl) (by decide) | skip) <;>
    cases n <;> cases g <;> cases a <;> cases b <;>
    (first | exact absurd h (by decide) | skip) <;>
    refine ⟨⟨_, rfl, by decide +kernel, by decide +kernel, by decide +kernel⟩,
      ⟨_, rfl, by decide +kernel, by decide +kernel, by decide +kernel⟩⟩

/-- The usage shown in README.md:20, 33 does not compile: whatever the target, package sha1cd exports no
`CollisionResistantSum`, and its `Sum` has two results. -/
theorem C51_readme_refuted (t : Target) : "CollisionResistantSum" ∉ exported t sha1cdFiles ∧
    ∀ ty, ("Sum", ty) ∈ api t sha1cdFiles → ty = "func([]byte) ([20]byte, bool)" := by
  have e : ∀ L ∈ [[detectionGo, sha1cdGo, genericGo, noasmGo], [detectionGo, sha1cdGo, genericGo],
      [detectionGo, sha1cdGo, amd64Go, amd64S, genericGo], [detectionGo, sha1cdGo, arm64Go, arm64S, genericGo]],
      "CollisionResistantSum" ∉ (L.flatMap File.decls).filter (fun s => s.toList.head?.any Char.isUpper) ∧
      ∀ x ∈ L.flatMap File.funcs, x.1 = "Sum" → x.2 = "func([]byte) ([20]byte, bool)" := by decide +kernel
  have hm : select t sha1cdFiles ∈ [[detectionGo, sha1cdGo, genericGo, noasmGo], [detectionGo, sha1cdGo, genericGo],
      [detectionGo, sha1cdGo, amd64Go, amd64S, genericGo], [detectionGo, sha1cdGo, arm64Go, arm64S, genericGo]] := by
    rw [select_sha1cd]
    split
    · exact List.mem_cons_self
    · split
      · exact .tail _ List.mem_cons_self
      · split
        · exact .tail _ (.tail _ List.mem_cons_self)
        · exact .tail _ (.tail _ (.tail _ List.mem_cons_self))
  exact ⟨(e _ hm).1, fun ty h => (e _ hm).2 _ h rfl⟩

/-- Not vacuous: `Sum` is there. -/
example (t : Target) : ("Sum", "func([]byte) ([20]byte, bool)") ∈ api t sha1cdFiles := by
  unfold api
  rw [select_sha1cd]
  split
  · decide
  · split
    · decide
    · split <;> decide

/-- C41 with types: `New` and `Sum` have the same type with and without cgo; `CalculateDvMask` has not. -/
theorem C41_types (t : Target) (h : t.tag "cgo" = t.cgo) :
    ("New", "func() hash.Hash") ∈ api t cgoFiles ∧ ("Sum", "func([]byte) ([]byte, bool)") ∈ api t cgoFiles ∧
    ("CalculateDvMask", if t.cgo then "func([80]uint32) uint32" else "func(*[80]uint32) uint32") ∈ api t cgoFiles ∧
    ((api t cgoFiles).map Prod.fst).Nodup := by
  unfold api
  rw [select_cgo t h]
  generalize t.cgo = c
  cases c <;> decide +kernel

/-! ### C42: CPU features -/

/-- C42 on arm64: where `hasSHA1` holds the CPU has every instruction that `blockARM64` uses. -/
theorem C42_arm64_features (goarch : String) (supports : Feature → Bool) (h : hasSHA1 goarch supports = true) :
    ∀ i ∈ Arm64.program, ∀ f ∈ i.needs, supports f = true := by
  have hs : supports .SHA1 = true := by
    simp only [hasSHA1, Bool.and_eq_true] at h; exact h.2
  have key : ∀ i ∈ Arm64.program, ∀ f ∈ i.needs, f = .SHA1 := by decide +kernel
  intro i hi f hf
  rw [key i hi f hf, hs]

/-- C42 on amd64 for CPUs that have SSE2, as all amd64 CPUs do, and SSSE3 if they have AVX: where `hasSHANI` holds the
CPU has every instruction that `blockAMD64` uses.  Missing: a CPU that reports AVX without SSSE3
(`C42_ssse3_refuted`), since `hasSHANI` asks for SSE3 and not for SSSE3. -/
theorem C42_amd64_features_partial (goarch : String) (supports : Feature → Bool)
    (h : hasSHANI goarch supports = true) (h2 : supports .SSE2 = true)
    (h3 : supports .AVX = true → supports .SSSE3 = true) :
    ∀ i ∈ Amd64.program, ∀ f ∈ i.needs, supports f = true := by
  simp only [hasSHANI, Bool.and_eq_true] at h
  obtain ⟨⟨⟨⟨_, ha⟩, hs⟩, _⟩, h4⟩ := h
  have key : ∀ i ∈ Amd64.program, ∀ f ∈ i.needs,
      f = .SSE2 ∨ f = .AVX ∨ f = .SHA ∨ f = .SSE4 ∨ f = .SSSE3 := by decide +kernel
  intro i hi f hf
  rcases key i hi f hf with rfl | rfl | rfl | rfl | rfl
  · exact h2
  · exact ha
  · exact hs
  · exact h4
  · exact h3 ha

/-- What `hasSHANI` does not ask for. -/
theorem C42_ssse3_refuted : ∃ supports : Feature → Bool, hasSHANI "amd64" supports = true ∧
    supports .SSE2 = true ∧ ∃ i ∈ Amd64.program, ∃ f ∈ i.needs, supports f = false := by
  refine ⟨fun f => f != .SSSE3, by decide, by decide, ?_⟩
  have key : (Amd64.program.any fun i => i.needs.contains .SSSE3) = true := by decide +kernel
  obtain ⟨i, hi, hn⟩ := List.any_eq_true.mp key
  exact ⟨i, hi, .SSSE3, by simpa using hn, by decide⟩

/-- Every one of these features but SSE3, which `hasSHANI` asks for, is needed by the program. -/
theorem C42_amd64_needed : (∀ f, f ≠ .SHA1 → f ≠ .SSE3 → ∃ i ∈ Amd64.program, f ∈ i.needs) ∧
    ∀ i ∈ Amd64.program, Feature.SSE3 ∉ i.needs := by
  have key : ∀ f ∈ [Feature.SSE2, .SSSE3, .SSE4, .AVX, .SHA], (Amd64.program.any fun i => i.needs.contains f) = true := by
    decide +kernel
  refine ⟨fun f h1 h3 => ?_, by decide +kernel⟩
  have hf : f ∈ [Feature.SSE2, .SSSE3, .SSE4, .AVX, .SHA] := by cases f <;> first | decide | contradiction
  obtain ⟨i, hi, hn⟩ := List.any_eq_true.mp (key f hf)
  exact ⟨i, hi, by simpa using hn⟩

/-- The check is not needlessly strict on arm64: it binds the assembly exactly on the CPUs that have all its
instructions. -/
theorem C42_arm64_exact (supports : Feature → Bool) :
    hasSHA1 "arm64" supports = true ↔ ∀ i ∈ Arm64.program, ∀ f ∈ i.needs, supports f = true := by
  refine ⟨C42_arm64_features _ _, fun h => ?_⟩
  have key : (Arm64.program.any fun i => i.needs.contains .SHA1) = true := by decide +kernel
  obtain ⟨i, hi, hn⟩ := List.any_eq_true.mp key
  have := h i hi .SHA1 (by simpa using hn)
  simp [hasSHA1, this]

/-- On amd64 a CPU that has all the instructions, and SSE3, which the program does not use, gets the assembly. -/
theorem C42_amd64_used (supports : Feature → Bool) (h : ∀ i ∈ Amd64.program, ∀ f ∈ i.needs, supports f = true)
    (h3 : supports .SSE3 = true) : hasSHANI "amd64" supports = true := by
  have key : ∀ f, f ≠ .SHA1 → f ≠ .SSE3 → supports f = true := fun f h1 h2 => by
    obtain ⟨i, hi, hf⟩ := C42_amd64_needed.1 f h1 h2
    exact h i hi f hf
  simp [hasSHANI, h3, key .AVX (by decide) (by decide), key .SHA (by decide) (by decide),
    key .SSE4 (by decide) (by decide)]

/-- Instance: a CPU with all features meets the hypotheses. -/
example : hasSHANI "amd64" (fun _ => true) = true ∧ hasSHA1 "arm64" (fun _ => true) = true := by decide

end Verif.Props
