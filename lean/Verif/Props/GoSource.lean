import Verif.Proofs.GoClient
import Verif.Props.Held
import Verif.Props.Source

/-!
C66: what is said of the Go code holds of the text of its files.

`Source/GoText` has the files character by character, `Source/GoLex` and `Source/GoParse` read them, `Source/GoSem` runs what was read,
`Source/GoClient` are the programs that use the package.
-/

namespace Verif.Props

open Verif Verif.Model Verif.Spec
open Verif.Source (constLines ubcConstLines ubcLines sha1cdLines genericLines blockNoasmLines)
open Verif.Source.Go

/-- The files of the build without assembly, package by package. -/
def goFiles : List (List (List (List Nat))) :=
  [[constLines], [ubcConstLines, ubcLines], [sha1cdLines, genericLines], [blockNoasmLines]]

theorem readAll_cons {g g' : Prog} {files : List (List (List Nat))} {ts : List (List GTok)} (ht : files.map tokens = ts)
    (h : addPackage g ts = some g') (rest : List (List (List (List Nat)))) : readAll g (files :: rest) = readAll g' rest := by
  subst ht
  rw [readAll, h]

theorem map_tokens1 {a : List (List Nat)} {x : List GTok} (ha : tokens a = x) : [a].map tokens = [x] := by rw [← ha]; rfl

theorem map_tokens2 {a b : List (List Nat)} {x y : List GTok} (ha : tokens a = x) (hb : tokens b = y) : [a, b].map tokens = [x, y] := by
  rw [← ha, ← hb]; rfl

/-- C66: the files can be read. -/
theorem C66_read : readAll Prog.empty goFiles = some progNoasm :=
  (readAll_cons (map_tokens1 tokens_const) add_shared _).trans
    ((readAll_cons (map_tokens2 tokens_ubcConst tokens_ubc) add_ubc _).trans
      ((readAll_cons (map_tokens2 tokens_sha1cd tokens_generic) add_sha1cd _).trans
        (readAll_cons (map_tokens1 tokens_noasm) add_noasm _)))

theorem noasm_all (asm : Nat → List Source.Go.Val → M (List Source.Go.Val)) (room : Nat → Nat) {N : Nat} (hN : 33 < N) :
    HasAll (progNoasm.program asm room) N startVars (blockGeneric sha1Dvs) where
  sums := noasm_sums asm room
  marshal := ⟨by by_kernel, by by_kernel, by by_kernel⟩
  unmarshal := ⟨by by_kernel, by by_kernel, by by_kernel⟩
  calls d := noasm_calls asm room hN d (show HasTable startVars from rfl)

theorem noasm_total : Total (blockGeneric sha1Dvs) where
  run ops := by
    obtain ⟨d, h⟩ := C60_every_history .noasm ops
    exact ⟨_, h⟩
  pkg data := ⟨_, sumPkg_call (build_impl .noasm) data⟩

/-- What the invariant says of what the program has seen. -/
theorem inv_seen {G : List Source.Go.Val} {c : Client} {m : Source.Go.Mem} {es : List Ev} (I : Source.Go.Inv G (blockGeneric sha1Dvs) c m es) :
    (∀ o, outsOf o es = Held.new.results goVerdict (opsOf o es)) ∧
      ∀ data h b, .sumPkg data h b ∈ es → (h, b) = safeHash goVerdict data := by
  refine ⟨fun o => ?_, fun data h b hm => ?_⟩
  · by_cases ho : o < c.objs.length
    · obtain ⟨k, D, _, _, _, _, hr⟩ := I.objs o _ (List.getElem?_eq_getElem ho)
      obtain ⟨D', hr'⟩ := C60_every_history .noasm (opsOf o es)
      exact (Prod.mk.inj (Except.ok.inj (hr.symm.trans hr'))).2
    · obtain ⟨h1, h2⟩ := I.none o (by omega)
      rw [h1, h2]
      rfl
  · have := (I.pkg data h b hm).symm.trans (sumPkg_call (build_impl .noasm) data)
    cases this
    rfl

/-- Every program, from the memory at the start. -/
theorem every_program {P : Program} {N d : Nat} {G : List Source.Go.Val} {m0 : Source.Go.Mem} (A : HasAll P N G (blockGeneric sha1Dvs)) (hN : 33 < N) (hd : 8 ≤ d)
    (I : Source.Go.Inv G (blockGeneric sha1Dvs) ⟨[], []⟩ m0 []) (ss : List Step) : ∃ c es m, (Client.mk [] []).run P N d ss m0 = .ok ((c, es), m) ∧
        (∀ o, outsOf o es = Held.new.results goVerdict (opsOf o es)) ∧
        ∀ data h b, .sumPkg data h b ∈ es → (h, b) = safeHash goVerdict data := by
  obtain ⟨d, rfl⟩ : ∃ k, d = k + 8 := ⟨d - 8, by omega⟩
  obtain ⟨c, es, m, e, I'⟩ := run_ok (d := d) A noasm_total hN ss I
  rw [List.nil_append] at I'
  exact ⟨c, es, m, e, inv_seen I'⟩

/-- C66: whatever a program does with the package that the text describes - any number of objects, slices that are parts of the same array, bytes
overwritten between the calls, results used as arguments - no call panics or runs forever, the results of the calls on each object are the specified
ones, and so are the results of the package function `Sum`. -/
theorem C66_every_program (asm : Nat → List Source.Go.Val → M (List Source.Go.Val)) (room : Nat → Nat) (N d : Nat) (hN : 33 < N) (hd : 8 ≤ d) (ss : List Step) :
    ∃ g m0, readAll Prog.empty goFiles = some g ∧ g.start ((g.program asm room).world N d) = .ok m0 ∧
      ∃ c es m, (Client.mk [] []).run (g.program asm room) N d ss m0 = .ok ((c, es), m) ∧
        (∀ o, outsOf o es = Held.new.results goVerdict (opsOf o es)) ∧
        ∀ data h b, .sumPkg data h b ∈ es → (h, b) = safeHash goVerdict data :=
  ⟨progNoasm, startMem, C66_read, noasm_start _, every_program (noasm_all asm room hN) hN hd
    ⟨rfl, Nat.le_refl _, startMem_boot, by simp, by simp, by simp [opsOf, outsOf], by simp, by simp⟩ ss⟩

/-- What a program sees that is compiled with the given files; `none` if they cannot be read or something panics. -/
def textEvents (files : List (List (List (List Nat)))) (N d : Nat) (ss : List Step) : Option (List Ev) :=
  match readAll Prog.empty files with
  | none => none
  | some g =>
    let P := g.program (fun _ _ => stop .stuck) fun _ => 3
    match g.start (P.world N d) with
    | .error _ => none
    | .ok m0 => match (Client.mk [] []).run P N d ss m0 with
      | .ok ((_, es), _) => some es
      | .error _ => none

/-- A program that overwrites the array after writing a part of it. -/
def exSteps : List Step :=
  [.new, .make [0x61, 0x62, 0x63, 0x64], .reslice 0 0 3, .call1 0 .write 1, .poke 0 0 0x7a, .null, .call1 0 .sum 2]

/-- Instance: the program writes "abc", as read from the text, and gets the SHA-1 hash. -/
theorem exSteps_events : textEvents goFiles 34 8 exSteps =
    some [.call 0 (.write [0x61, 0x62, 0x63]) (.write 3 none), .call 0 (.sum []) (.sum
      [0xa9, 0x99, 0x3e, 0x36, 0x47, 0x06, 0x81, 0x6a, 0xba, 0x3e, 0x25, 0x71, 0x78, 0x50, 0xc2, 0x6c, 0x9c, 0xd0, 0xd8, 0x9d])] := by
  rw [textEvents, C66_read]
  by_kernel

/-- Another line 58 of sha1cdblock_generic.go. -/
def rotLines : List (List Nat) := Source.change genericLines 58 (chars! "\t\t\ta, b, c, d, e = t, a, bits.RotateLeft32(b, 29), c, d")

/-- Its tokens. -/
def rotToks : List GTok := evaluated! tokens rotLines

/-- The program with it. -/
def progRot : Prog := evaluated! (addPackage progUbc [sha1cdToks, rotToks]).getD Prog.empty

/-- And `block`. -/
def progRotNoasm : Prog := evaluated! (addPackage progRot [noasmToks]).getD Prog.empty

theorem tokens_rot : tokens rotLines = rotToks := eq_of_sameToks (by decide +kernel)
theorem add_rot : addPackage progUbc [sha1cdToks, rotToks] = some progRot := by decide +kernel
theorem add_rotNoasm : addPackage progRot [noasmToks] = some progRotNoasm := by decide +kernel

/-- What the program sees with it. -/
theorem rot_events : textEvents [[constLines], [ubcConstLines, ubcLines], [sha1cdLines, rotLines], [blockNoasmLines]] 34 8 exSteps =
    some [.call 0 (.write [0x61, 0x62, 0x63]) (.write 3 none), .call 0 (.sum []) (.sum
      [0x0e, 0x61, 0x2a, 0x6f, 0x9d, 0xfe, 0xd5, 0x1f, 0x57, 0x69, 0xad, 0x38, 0x9c, 0x43, 0x33, 0x78, 0xc7, 0x42, 0x33, 0x2c])] := by
  rw [textEvents, readAll_cons (map_tokens1 tokens_const) add_shared,
    readAll_cons (map_tokens2 tokens_ubcConst tokens_ubc) add_ubc, readAll_cons (map_tokens2 tokens_sha1cd tokens_rot) add_rot,
    readAll_cons (map_tokens1 tokens_noasm) add_rotNoasm]
  by_kernel

/-- C66: the text matters.  With another rotation in line 58 of sha1cdblock_generic.go the hash of "abc" is another; with another comparison in
line 148 of sha1cd.go the files are read as another program, with a name that is not declared they are not read at all; another comment or other
blanks make no difference. -/
theorem C66_text_matters :
    textEvents [[constLines], [ubcConstLines, ubcLines],
        [sha1cdLines, Source.change genericLines 58 (chars! "\t\t\ta, b, c, d, e = t, a, bits.RotateLeft32(b, 29), c, d")], [blockNoasmLines]] 34 8 exSteps ≠ textEvents goFiles 34 8 exSteps ∧
    addPackage progUbc [tokens (Source.change sha1cdLines 148 (chars! "\tif len(p) > shared.Chunk {")), tokens genericLines] ≠
      addPackage progUbc [tokens sha1cdLines, tokens genericLines] ∧
    addPackage progUbc [tokens (Source.change sha1cdLines 148 (chars! "\tif len(q) >= shared.Chunk {")), tokens genericLines] = none ∧
    tokens (Source.change sha1cdLines 148 (chars! "  if len(p)>=shared . Chunk{// whole blocks")) = tokens sha1cdLines := by
  refine ⟨?_, ?_, ?_, ?_⟩
  · rw [exSteps_events]
    exact fun h => absurd (rot_events.symm.trans h) (by decide)
  · rw [tokens_sha1cd, tokens_generic, add_sha1cd]
    decide +kernel
  · rw [tokens_generic]
    decide +kernel
  · rw [tokens_sha1cd]
    exact eq_of_sameToks (by decide +kernel)

end Verif.Props
