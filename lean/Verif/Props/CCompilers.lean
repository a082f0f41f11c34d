import Verif.Proofs.CEvery
import Verif.Props.CSource

/-!
The C library for other compilers (C67): what else a compiler predefines makes no difference.
-/

namespace Verif.Props

open Verif Verif.Model Verif.Model.C Verif.Spec Verif.Source Verif.Source.C Verif.Source.C.Detect

/-- C67: a compiler that defines any macros at all beforehand reads the same program, as long as it agrees with one of the
four machines on the names that occur in the files, or are such a name followed by digits. -/
theorem C67_macros (t : Machine) (ms : List Macro) (h : ∀ x, Named x → findMacro x ms = findMacro x (numbers t.macros)) :
    readWith ms = read t.macros := readWith_eq h

/-- C67: with such a compiler the digest of a message given in pieces is the one of the specification. -/
theorem C67_compilers (t : Machine) (ms : List Macro) (h : ∀ x, Named x → findMacro x ms = findMacro x (numbers t.macros)) :
    ∃ g, readWith ms = some g ∧ ∀ (N d : Nat) (cb : Go.Val) (c : Ctx) (o : List Byte) (ps : List (List Byte)), 80 < N → 5 ≤ d →
      o.length = 20 → (∀ p ∈ ps, p.length < 2 ^ 64 ∧ p.length / 64 < N) →
      ∃ v, g.run t.bigEndian N d (ctxV cb c) o (some .init :: (ps.map (fun p => some (.update p)) ++ [none])) =
          .ok [(safeHash (verdict Detected) ps.flatten).1.map Go.Val.u8 ++ [.u32 v]] ∧
        (v ≠ 0 ↔ (safeHash (verdict Detected) ps.flatten).2 = true) := by
  obtain ⟨g, h1, h2⟩ := C67_default t
  exact ⟨g, (C67_macros t ms h).trans h1, h2⟩

/-- A name that does not occur in the files and does not end in a digit asks for nothing. -/
theorem not_named {x : Nat} (h : x % 256 < 48 ∨ 57 < x % 256)
    (hx : (ubcHLexed ++ sha1HLexed ++ ubcLexed ++ sha1Lexed).all (fun l => l.all fun t => match t with
      | .id y => !Nat.beq y x
      | _ => true) = true) : ¬ Named x := by
  intro hn
  cases hn with
  | written hl hi =>
    rename_i l
    unfold allLines at hl
    rw [lexed_ubcH, lexed_sha1H, lexed_ubc, lexed_sha1] at hl
    have := List.all_eq_true.1 (List.all_eq_true.1 hx l hl) _ hi
    simp at this
  | digit hn hk => omega

/-- Some more of what gcc for riscv64 under Linux defines. -/
def riscvMore : List Macro :=
  [⟨name! "__riscv", none, [.num 1]⟩, ⟨name! "__riscv_xlen", none, [.num 64]⟩, ⟨name! "__linux__", none, [.num 1]⟩,
   ⟨name! "linux", none, [.num 1]⟩, ⟨name! "__GNUC__", none, [.num 12]⟩,
   ⟨name! "__SIZE_TYPE__", none, [.id (name! "long"), .id (name! "unsigned"), .id (name! "int")]⟩,
   ⟨name! "__INTMAX_C", some [name! "c"], [.id (name! "c"), .op (name! "##"), .id (name! "L")]⟩]

/-- All of it. -/
def riscvMacros : List Macro :=
  riscvMore ++ numbers [(name! "__unix__", 1), (name! "__BYTE_ORDER__", 1234), (name! "__ORDER_BIG_ENDIAN__", 4321),
   (name! "__BYTE_ORDER", 1234), (name! "__BIG_ENDIAN", 4321)]

theorem find_more {x : Nat} : ∀ {ms ns : List Macro}, (∀ m ∈ ms, m.name ≠ x) → findMacro x (ms ++ ns) = findMacro x ns
  | [], _, _ => rfl
  | m :: ms, ns, h => by
    have e : Nat.beq m.name x = false := by
      cases f : Nat.beq m.name x with
      | false => rfl
      | true => exact absurd (Nat.eq_of_beq_eq_true f) (h m (List.mem_cons_self ..))
    have i := find_more (x := x) (ms := ms) (ns := ns) fun m hm => h m (List.mem_cons_of_mem _ hm)
    rw [← i, List.cons_append, findMacro, e, cond_false]

/-- Instance: riscv64 agrees with arm64 on all that the files ask for. -/
theorem riscv_reads : readWith riscvMacros = read arm64Macros := by
  refine C67_macros .arm64 _ fun x hx => ?_
  have no : ∀ m ∈ riscvMore ++ [⟨name! "__aarch64__", none, [.num 1]⟩], m.name ≠ x := by
    rintro m hm rfl
    refine not_named ?_ ?_ hx
    · have key : ∀ m ∈ riscvMore ++ [⟨name! "__aarch64__", none, [.num 1]⟩], m.name % 256 < 48 ∨ 57 < m.name % 256 := by decide
      exact key m hm
    · have key : (riscvMore ++ [(⟨name! "__aarch64__", none, [.num 1]⟩ : Macro)]).all (fun m =>
          (ubcHLexed ++ sha1HLexed ++ ubcLexed ++ sha1Lexed).all (fun l => l.all fun t => match t with
            | .id y => !Nat.beq y m.name
            | _ => true)) = true := by decide +kernel
      exact List.all_eq_true.1 key m hm
  have e1 : findMacro x riscvMacros = findMacro x (numbers [(name! "__unix__", 1), (name! "__BYTE_ORDER__", 1234),
      (name! "__ORDER_BIG_ENDIAN__", 4321), (name! "__BYTE_ORDER", 1234), (name! "__BIG_ENDIAN", 4321)]) :=
    find_more fun m hm => no m (List.mem_append_left _ hm)
  have e2 : Nat.beq (name! "__aarch64__") x = false := by
    cases f : Nat.beq (name! "__aarch64__") x with
    | false => rfl
    | true => exact absurd (Nat.eq_of_beq_eq_true f) (no _ (List.mem_append_right _ (List.mem_cons_self ..)))
  rw [e1]
  simp only [Machine.macros, arm64Macros, numbers, List.map_cons, List.map_nil, findMacro, e2, cond_false]

/-- C44, C67: the detection of the byte order and of unaligned access, as it is written, for any macros at all: the lines of
cgo/sha1.c:31-133 leave no tokens, and the two macros are defined afterwards exactly when the model of them says so. -/
theorem C44_text (ms : List Macro) : ∃ d, (∀ (n : Nat) (b : List (List Go.GTok)) (out : List Go.GTok),
      preprocess headers (n + 33) ⟨defsOf ms, []⟩ (((lines sha1CLines).drop 17).take 33 ++ b) out = preprocess headers n ⟨d, []⟩ b out) ∧
    (d.find (name! "SHA1DC_BIGENDIAN")).isSome = macroBE (macrosOf (defsOf ms)) ∧
    (d.find (name! "SHA1DC_ALLOW_UNALIGNED_ACCESS")).isSome = macroUnaligned (macrosOf (defsOf ms)) := by
  refine ⟨d5 (defsOf ms), fun n b out => ?_, macroBE_eq (defsOf_macros ms).2, macroUnaligned_eq (defsOf_macros ms).2⟩
  rw [detectLines_eq]
  exact detect_run _ headers n out b

/-- The machine that stands for all with this byte order and access. -/
def machineOf (be unaligned : Bool) : Machine :=
  bif be then (bif unaligned then .s390xUnaligned else .s390x) else bif unaligned then .amd64 else .arm64

theorem machine_quiet (t : Machine) : ∀ x, Code x → findMacro x (numbers t.macros) = none := by
  cases t <;> exact quiet_of (by decide +kernel)

theorem machine_is (t : Machine) : machineOf (macroBE (macrosOf (defsOf (numbers t.macros))))
    (macroUnaligned (macrosOf (defsOf (numbers t.macros)))) = t := by
  have h : ∀ t : Machine, macroBE (macrosOf (defsOf (numbers t.macros))) = t.bigEndian ∧
      macroUnaligned (macrosOf (defsOf (numbers t.macros))) =
        (match t with | .amd64 => true | .s390xUnaligned => true | _ => false) := by
    intro t
    cases t <;> constructor <;> decide +kernel
  obtain ⟨h1, h2⟩ := h t
  rw [h1, h2]
  cases t <;> rfl

/-- C67: every compiler, whatever macros it defines beforehand, reads one of the four programs: the one of its byte order and
access as the model finds them.  It must not define names that occur in the code outside of the detection. -/
theorem C67_every_compiler (ms : List Macro) (q : ∀ x, Code x → findMacro x ms = none) :
    readWith ms = read (machineOf (macroBE (macrosOf (defsOf ms))) (macroUnaligned (macrosOf (defsOf ms)))).macros := by
  have key : ∀ t : Machine, macroBE (macrosOf (defsOf ms)) = macroBE (macrosOf (defsOf (numbers t.macros))) →
      macroUnaligned (macrosOf (defsOf ms)) = macroUnaligned (macrosOf (defsOf (numbers t.macros))) →
      readWith ms = read (machineOf (macroBE (macrosOf (defsOf ms))) (macroUnaligned (macrosOf (defsOf ms)))).macros := by
    intro t h1 h2
    rw [h1, h2, machine_is t]
    exact readWith_same q (machine_quiet t) h1 h2
  have amd : macroBE (macrosOf (defsOf (numbers Machine.amd64.macros))) = false ∧
      macroUnaligned (macrosOf (defsOf (numbers Machine.amd64.macros))) = true := by constructor <;> decide +kernel
  have arm : macroBE (macrosOf (defsOf (numbers Machine.arm64.macros))) = false ∧
      macroUnaligned (macrosOf (defsOf (numbers Machine.arm64.macros))) = false := by constructor <;> decide +kernel
  have s390 : macroBE (macrosOf (defsOf (numbers Machine.s390x.macros))) = true ∧
      macroUnaligned (macrosOf (defsOf (numbers Machine.s390x.macros))) = false := by constructor <;> decide +kernel
  have forced : macroBE (macrosOf (defsOf (numbers Machine.s390xUnaligned.macros))) = true ∧
      macroUnaligned (macrosOf (defsOf (numbers Machine.s390xUnaligned.macros))) = true := by constructor <;> decide +kernel
  cases hb : macroBE (macrosOf (defsOf ms)) <;> cases hu : macroUnaligned (macrosOf (defsOf ms))
  · have := key .arm64 (hb.trans arm.1.symm) (hu.trans arm.2.symm)
    rw [hb, hu] at this
    exact this
  · have := key .amd64 (hb.trans amd.1.symm) (hu.trans amd.2.symm)
    rw [hb, hu] at this
    exact this
  · have := key .s390x (hb.trans s390.1.symm) (hu.trans s390.2.symm)
    rw [hb, hu] at this
    exact this
  · have := key .s390xUnaligned (hb.trans forced.1.symm) (hu.trans forced.2.symm)
    rw [hb, hu] at this
    exact this

/-- C67: with every such compiler, on a machine of the byte order that is found, the digest of a message given in pieces is the
one of the specification. -/
theorem C67_everywhere (ms : List Macro) (q : ∀ x, Code x → findMacro x ms = none) :
    ∃ g, readWith ms = some g ∧ ∀ (N d : Nat) (cb : Go.Val) (c : Ctx) (o : List Byte) (ps : List (List Byte)), 80 < N → 5 ≤ d →
      o.length = 20 → (∀ p ∈ ps, p.length < 2 ^ 64 ∧ p.length / 64 < N) →
      ∃ v, g.run (macroBE (macrosOf (defsOf ms))) N d (ctxV cb c) o (some .init :: (ps.map (fun p => some (.update p)) ++ [none])) =
          .ok [(safeHash (verdict Detected) ps.flatten).1.map Go.Val.u8 ++ [.u32 v]] ∧
        (v ≠ 0 ↔ (safeHash (verdict Detected) ps.flatten).2 = true) := by
  obtain ⟨g, h1, h2⟩ := C67_default (machineOf (macroBE (macrosOf (defsOf ms))) (macroUnaligned (macrosOf (defsOf ms))))
  refine ⟨g, (C67_every_compiler ms q).trans h1, ?_⟩
  have e : (machineOf (macroBE (macrosOf (defsOf ms))) (macroUnaligned (macrosOf (defsOf ms)))).bigEndian =
      macroBE (macrosOf (defsOf ms)) := by
    cases macroBE (macrosOf (defsOf ms)) <;> cases macroUnaligned (macrosOf (defsOf ms)) <;> rfl
  rw [e] at h2
  exact h2

/-- Instance: a compiler for AIX, which does not tell the byte order, reads the big-endian program. -/
example : readWith [⟨name! "__xlC__", none, [.num 3329]⟩, ⟨name! "_AIX", none, []⟩, ⟨name! "__64BIT__", none, [.num 1]⟩] = read s390xMacros := by
  have hb : macroBE (macrosOf (defsOf [⟨name! "__xlC__", none, [.num 3329]⟩, ⟨name! "_AIX", none, []⟩, ⟨name! "__64BIT__", none, [.num 1]⟩])) = true := by
    decide +kernel
  have hu : macroUnaligned (macrosOf (defsOf [⟨name! "__xlC__", none, [.num 3329]⟩, ⟨name! "_AIX", none, []⟩, ⟨name! "__64BIT__", none, [.num 1]⟩])) = false := by
    decide +kernel
  have := C67_every_compiler [⟨name! "__xlC__", none, [.num 3329]⟩, ⟨name! "_AIX", none, []⟩, ⟨name! "__64BIT__", none, [.num 1]⟩]
    (quiet_of (by decide +kernel))
  rw [hb, hu] at this
  exact this

end Verif.Props
