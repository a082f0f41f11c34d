import Verif.Proofs.CLibrary
import Verif.Props.Options

/-!
The C library from the text of its files (C67).
-/

namespace Verif.Props

open Verif Verif.Model Verif.Model.C Verif.Spec Verif.Source Verif.Source.C

/-- Processors for which the text of the C files is read (cgo/sha1.c:48-133). -/
inductive Machine where
  | amd64
  | arm64
  | s390x
  | s390xUnaligned

/-- What the compiler predefines. -/
def Machine.macros : Machine → List (Nat × Nat)
  | .amd64 => amd64Macros
  | .arm64 => arm64Macros
  | .s390x => s390xMacros
  | .s390xUnaligned => Forced.forcedMacros

/-- The order of the bytes of a word. -/
def Machine.bigEndian : Machine → Bool
  | .amd64 => false
  | .arm64 => false
  | .s390x => true
  | .s390xUnaligned => true

/-- The C files are read without an error, and a program that calls the functions that were read gets what the model
gives. -/
theorem read_run (t : Machine) : ∃ g u, read t.macros = some g ∧ ∀ (N d : Nat) (cb : Go.Val) (c : Ctx) (o : List Byte)
    (ops : List (Option Call)) (c' : Ctx) (rs : List (List Byte × Word)), 80 < N → 5 ≤ d → o.length = 20 →
    (∀ p, some (Call.update p) ∈ ops → p.length < 2 ^ 64 ∧ p.length / 64 < N) →
    c.runAll (⟨t.bigEndian, u⟩ : Cfg) ops = .ok (c', rs) →
    g.run t.bigEndian N d (ctxV cb c) o ops = .ok (shown rs) := by
  have key : ∀ (g : Prog) (be u : Bool), g.env = env5 → HasApi (g.program be) be u → ∀ (N d : Nat) (cb : Go.Val) (c : Ctx) (o : List Byte)
      (ops : List (Option Call)) (c' : Ctx) (rs : List (List Byte × Word)), 80 < N → 5 ≤ d → o.length = 20 →
      (∀ p, some (Call.update p) ∈ ops → p.length < 2 ^ 64 ∧ p.length / 64 < N) →
      c.runAll (⟨be, u⟩ : Cfg) ops = .ok (c', rs) → g.run be N d (ctxV cb c) o ops = .ok (shown rs) := by
    intro g be u hg hA N d cb c o ops c' rs hN hd ho hs h
    obtain ⟨k, rfl⟩ : ∃ k, d = k + 5 := ⟨d - 5, by omega⟩
    obtain ⟨c2, rs2, h2, _, hl⟩ := C36_c_library_total ⟨be, u⟩ c ops
    have := Except.ok.inj (h2.symm.trans h)
    simp only [Prod.mk.injEq] at this
    exact run_runAll hg hA hN cb c ho hs h (by rw [← this.2]; exact hl)
  cases t with
  | amd64 => exact ⟨Amd64.prog, true, Amd64.read_eq, key _ _ _ rfl api_amd64⟩
  | arm64 => exact ⟨Arm64.prog, false, Arm64.read_eq, key _ _ _ rfl api_arm64⟩
  | s390x => exact ⟨S390x.prog, false, S390x.read_eq, key _ _ _ rfl api_s390x⟩
  | s390xUnaligned => exact ⟨Forced.prog, true, Forced.read_eq, key _ _ _ rfl api_forced⟩

/-- C67: the text of cgo/ubc_check.c and cgo/sha1.c is a program, and a program that makes any calls of the library at all,
on a context with arbitrary contents, gets from the functions as they are written what the model of the library gives:
no call stops, and every `SHA1DCFinal` leaves the bytes and returns the number. -/
theorem C67_calls (t : Machine) : ∃ g u, read t.macros = some g ∧ ∀ (N d : Nat) (cb : Go.Val) (c : Ctx) (o : List Byte)
    (ops : List (Option Call)), 80 < N → 5 ≤ d → o.length = 20 →
    (∀ p, some (Call.update p) ∈ ops → p.length < 2 ^ 64 ∧ p.length / 64 < N) →
    ∃ c' rs, c.runAll (⟨t.bigEndian, u⟩ : Cfg) ops = .ok (c', rs) ∧ g.run t.bigEndian N d (ctxV cb c) o ops = .ok (shown rs) := by
  obtain ⟨g, u, h1, h2⟩ := read_run t
  refine ⟨g, u, h1, fun N d cb c o ops hN hd ho hs => ?_⟩
  obtain ⟨c', rs, r, _⟩ := C36_c_library_total ⟨t.bigEndian, u⟩ c ops
  exact ⟨c', rs, r, h2 N d cb c o ops c' rs hN hd ho hs r⟩

theorem runAll_append (cfg : Plat) (ops ops' : List (Option Call)) : ∀ (c c1 c2 : Ctx) (rs rs' : List (List Byte × Word)),
    c.runAll cfg ops = .ok (c1, rs) → c1.runAll cfg ops' = .ok (c2, rs') →
    c.runAll cfg (ops ++ ops') = .ok (c2, rs ++ rs') := by
  induction ops with
  | nil =>
    intro c c1 c2 rs rs' h h'
    have := Except.ok.inj h
    simp only [Prod.mk.injEq] at this
    obtain ⟨rfl, rfl⟩ := this
    exact h'
  | cons op ops ih =>
    intro c c1 c2 rs rs' h h'
    cases op with
    | some op =>
      obtain ⟨c3, r3, h⟩ := goInv h
      simp only [List.cons_append, Ctx.runAll, r3, bind, Except.bind]
      exact ih _ _ _ _ _ h h'
    | none =>
      obtain ⟨⟨c3, D, v⟩, r3, h⟩ := goInv h
      obtain ⟨⟨c4, rs4⟩, r4, h⟩ := goInv h
      have := Except.ok.inj h
      simp only [Prod.mk.injEq] at this
      obtain ⟨rfl, rfl⟩ := this
      simp only [List.cons_append, Ctx.runAll, r3, bind, Except.bind, ih _ _ _ _ _ r4 h']
      rfl

theorem runAll_calls (cfg : Plat) (ops : List Call) : ∀ (c c1 c2 : Ctx) (D : List Byte) (v : Word),
    c.run cfg ops = .ok c1 → SHA1DCFinal cfg c1 = .ok (c2, D, v) →
    c.runAll cfg (ops.map some ++ [none]) = .ok (c2, [(D, v)]) := by
  induction ops with
  | nil =>
    intro c c1 c2 D v h h'
    cases Except.ok.inj h
    simp only [List.map_nil, List.nil_append, Ctx.runAll, h', bind, Except.bind]
    rfl
  | cons op ops ih =>
    intro c c1 c2 D v h h'
    obtain ⟨c3, r3, h⟩ := goInv h
    simp only [List.map_cons, List.cons_append, Ctx.runAll, r3, bind, Except.bind]
    exact ih _ _ _ _ _ h h'

/-- C67: after any calls whatever, `SHA1DCInit`, settings and bytes in any order and `SHA1DCFinal`, each as it is written in
the C files, give the digest and the flag that the specification gives. -/
theorem C67_digest (t : Machine) : ∃ g, read t.macros = some g ∧ ∀ (N d : Nat) (cb : Go.Val) (c : Ctx) (o : List Byte)
    (before : List (Option Call)) (ops : List Call), 80 < N → 5 ≤ d → o.length = 20 →
    (∀ p, some (Call.update p) ∈ before ∨ Call.update p ∈ ops → p.length < 2 ^ 64 ∧ p.length / 64 < N) →
    ∃ rs v, g.run t.bigEndian N d (ctxV cb c) o (before ++ some .init :: (ops.map some ++ [none])) =
        .ok (rs ++ [(ops.foldl OptState.after .init).final.1.map Go.Val.u8 ++ [.u32 v]]) ∧
      rs.length = before.countP Option.isNone ∧ (v ≠ 0 ↔ (ops.foldl OptState.after .init).final.2 = true) := by
  obtain ⟨g, u, h1, h2⟩ := read_run t
  refine ⟨g, h1, fun N d cb c o before ops hN hd ho hs => ?_⟩
  obtain ⟨c', rs, r, hl, _⟩ := C36_c_library_total ⟨t.bigEndian, u⟩ c before
  obtain ⟨c1, c2, D, v, r1, r2, hD, hv⟩ := C37_settings ⟨t.bigEndian, u⟩ c' ops
  have r3 : c'.runAll (⟨t.bigEndian, u⟩ : Cfg) (some .init :: (ops.map some ++ [none])) = .ok (c2, [(D, v)]) :=
    runAll_calls _ ops _ _ _ _ _ r1 r2
  have := h2 N d cb c o _ _ _ hN hd ho (fun p hp => hs p (by
    rcases List.mem_append.1 hp with hp | hp
    · exact .inl hp
    · rcases List.mem_cons.1 hp with hp | hp
      · cases hp
      · rcases List.mem_append.1 hp with hp | hp
        · obtain ⟨x, hx, e⟩ := List.mem_map.1 hp
          cases e
          exact .inr hx
        · simp at hp)) (runAll_append _ _ _ _ _ _ _ _ r r3)
  refine ⟨shown rs, v, this.trans ?_, by simp [shown, hl], hv⟩
  simp [shown, hD]

/-- C67: with the settings that `SHA1DCInit` makes, the digest of a message given in pieces is the one of the specification:
SHA-1, with the blocks of a detected collision processed twice more. -/
theorem C67_default (t : Machine) : ∃ g, read t.macros = some g ∧ ∀ (N d : Nat) (cb : Go.Val) (c : Ctx) (o : List Byte)
    (ps : List (List Byte)), 80 < N → 5 ≤ d → o.length = 20 → (∀ p ∈ ps, p.length < 2 ^ 64 ∧ p.length / 64 < N) →
    ∃ v, g.run t.bigEndian N d (ctxV cb c) o (some .init :: (ps.map (fun p => some (.update p)) ++ [none])) =
        .ok [(safeHash (verdict Detected) ps.flatten).1.map Go.Val.u8 ++ [.u32 v]] ∧
      (v ≠ 0 ↔ (safeHash (verdict Detected) ps.flatten).2 = true) := by
  obtain ⟨g, u, h1, h2⟩ := read_run t
  refine ⟨g, h1, fun N d cb c o ps hN hd ho hs => ?_⟩
  obtain ⟨c1, c2, D, v, r1, r2, hD, hv⟩ := C37_settings_first ⟨t.bigEndian, u⟩ c [] (by simp) ps
  simp only [List.foldl_nil, List.nil_append, OptState.init] at hD hv r1
  rw [C37_default] at hD hv
  have r3 : c.runAll (⟨t.bigEndian, u⟩ : Cfg) (some .init :: (ps.map (fun p => some (.update p)) ++ [none])) = .ok (c2, [(D, v)]) := by
    have := runAll_calls (⟨t.bigEndian, u⟩ : Cfg) (ps.map .update) _ _ _ _ _ r1 r2
    rw [List.map_map] at this
    exact this
  have := h2 N d cb c o _ _ _ hN hd ho (fun p hp => hs p (by
    rcases List.mem_cons.1 hp with hp | hp
    · cases hp
    · rcases List.mem_append.1 hp with hp | hp
      · obtain ⟨x, hx, e⟩ := List.mem_map.1 hp
        cases e
        exact hx
      · simp at hp)) r3
  exact ⟨v, by rw [this, hD]; rfl, hv⟩

/-- C67: a callback is never noticed.  Calls of `SHA1DCSetCallback` with anything as the function that is passed, wherever
they stand among other calls, change nothing of what the program gets. -/
theorem C67_callback (t : Machine) : ∃ g, read t.macros = some g ∧ ∀ (N d : Nat) (cb : Go.Val) (c : Ctx) (o : List Byte)
    (ops : List (Go.Val ⊕ Option Call)), 80 < N → 5 ≤ d → o.length = 20 →
    (∀ p, .inr (some (Call.update p)) ∈ ops → p.length < 2 ^ 64 ∧ p.length / 64 < N) →
    ∃ rs, g.runAny t.bigEndian N d (ctxV cb c) o ops = .ok rs ∧
      g.run t.bigEndian N d (ctxV cb c) o (ops.filterMap Sum.getRight?) = .ok rs := by
  have key : ∀ (g : Prog) (be u : Bool), g.env = env5 → HasApi (g.program be) be u → ∀ (N d : Nat) (cb : Go.Val) (c : Ctx) (o : List Byte)
      (ops : List (Go.Val ⊕ Option Call)), 80 < N → 5 ≤ d → o.length = 20 →
      (∀ p, .inr (some (Call.update p)) ∈ ops → p.length < 2 ^ 64 ∧ p.length / 64 < N) →
      ∃ rs, g.runAny be N d (ctxV cb c) o ops = .ok rs ∧ g.run be N d (ctxV cb c) o (ops.filterMap Sum.getRight?) = .ok rs := by
    intro g be u hg hA N d cb c o ops hN hd ho hs
    obtain ⟨k, rfl⟩ : ∃ k, d = k + 5 := ⟨d - 5, by omega⟩
    obtain ⟨c2, rs, h, _, hl⟩ := C36_c_library_total ⟨be, u⟩ c (ops.filterMap Sum.getRight?)
    refine ⟨_, runAny_runAll hg hA hN cb c ho hs h hl, run_runAll hg hA hN cb c ho (fun p hp => hs p ?_) h hl⟩
    obtain ⟨x, hx, e⟩ := List.mem_filterMap.1 hp
    cases x with
    | inl f => cases e
    | inr y => cases e; exact hx
  cases t with
  | amd64 => exact ⟨Amd64.prog, Amd64.read_eq, key _ _ _ rfl api_amd64⟩
  | arm64 => exact ⟨Arm64.prog, Arm64.read_eq, key _ _ _ rfl api_arm64⟩
  | s390x => exact ⟨S390x.prog, S390x.read_eq, key _ _ _ rfl api_s390x⟩
  | s390xUnaligned => exact ⟨Forced.prog, Forced.read_eq, key _ _ _ rfl api_forced⟩

/-- Instance: `abc` in two pieces, on a context never initialised before, for every processor. -/
theorem abc_read (t : Machine) (c : Ctx) : ∃ g, read t.macros = some g ∧ g.run t.bigEndian 100 5 (ctxV .null c) (List.replicate 20 7)
    [some .init, some (.update [0x61, 0x62]), some (.update [0x63]), none] = .ok [abcDigest.map Go.Val.u8 ++ [.u32 0]] := by
  obtain ⟨g, h1, h2⟩ := C67_default t
  obtain ⟨v, h3, h4⟩ := h2 100 5 .null c (List.replicate 20 7) [[0x61, 0x62], [0x63]] (by omega) (by omega) (by simp)
    (by simp)
  refine ⟨g, h1, ?_⟩
  have e : [[(0x61 : Byte), 0x62], [0x63]].flatten = abc := rfl
  rw [e, abc_hash_c] at h3 h4
  have : v = 0 := by simpa using h4
  rw [this] at h3
  exact h3

/-- Instance: `abc` in two pieces with a callback set in between. -/
example (t : Machine) (c : Ctx) (l : Go.Loc) : ∃ g, read t.macros = some g ∧ g.runAny t.bigEndian 100 5 (ctxV .null c) (List.replicate 20 7)
    [.inr (some .init), .inr (some (.update [0x61, 0x62])), .inl (.ptr l), .inr (some (.update [0x63])), .inr none] =
      .ok [abcDigest.map Go.Val.u8 ++ [.u32 0]] := by
  obtain ⟨g, h1, h2⟩ := C67_callback t
  obtain ⟨g', h1', h2'⟩ := abc_read t c
  rw [h1] at h1'
  cases h1'
  obtain ⟨rs, h3, h4⟩ := h2 100 5 .null c (List.replicate 20 7) [.inr (some .init), .inr (some (.update [0x61, 0x62])),
    .inl (.ptr l), .inr (some (.update [0x63])), .inr none] (by omega) (by omega) (by simp) (by simp)
  refine ⟨g, h1, h3.trans (h4.symm.trans h2')⟩

end Verif.Props
