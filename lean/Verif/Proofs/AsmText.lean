import Verif.Source.AsmRun
import Verif.Proofs.FlatAmd64
import Verif.Proofs.FlatArm64

/-!
The text of the assembly files, read and run, does what `Model/Flat` does.
-/

namespace Verif.Source

open Verif Verif.Model

deriving instance DecidableEq for Verif.Model.Amd64.Instr
deriving instance DecidableEq for Verif.Model.Arm64.Instr

/-! ### Control flow -/

section
variable {I S : Type} (M : Machine I S) (prog : List (Item I))

/-- Running from `pc` ends with `t`. -/
def Ends (pc : List (Item I)) (fl : Option (Word64 × Word64)) (s t : S) : Prop := ∃ n, M.go prog n pc fl s = .ok t

/-- Straight-line code. -/
def execs : S → List I → GoM S
  | s, [] => pure s
  | s, i :: is => do
    let s ← M.exec s i
    execs s is

theorem go_mono (n k : Nat) (pc : List (Item I)) (fl : Option (Word64 × Word64)) (s t : S)
    (h : M.go prog n pc fl s = .ok t) : M.go prog (n + k) pc fl s = .ok t := by
  induction n generalizing pc fl s with
  | zero => simp [Machine.go, throw, throwThe, MonadExceptOf.throw] at h
  | succ n ih =>
    rw [Nat.add_right_comm]
    match pc with
    | [] => simp [Machine.go, throw, throwThe, MonadExceptOf.throw] at h
    | .instr i :: pc =>
      simp only [Machine.go] at h ⊢
      cases e : M.exec s i with
      | error _ => rw [e] at h; cases h
      | ok s1 => rw [e] at h; exact ih _ _ _ h
    | .label _ :: pc => exact ih _ _ _ h
    | .cmp a b :: pc =>
      simp only [Machine.go] at h ⊢
      split at h
      · exact ih _ _ _ h
      · cases h
    | .jump c l :: pc =>
      simp only [Machine.go] at h ⊢
      split at h
      · cases h
      · split at h
        · exact ih _ _ _ h
        · exact ih _ _ _ h
        · cases h
    | .ret :: _ => exact h

/-- There is at most one outcome. -/
theorem go_det {n n' : Nat} {pc : List (Item I)} {fl : Option (Word64 × Word64)} {s t t' : S}
    (h : M.go prog n pc fl s = .ok t) (h' : M.go prog n' pc fl s = .ok t') : t = t' := by
  have a := go_mono M prog n n' pc fl s t h
  have b := go_mono M prog n' n pc fl s t' h'
  rw [Nat.add_comm] at b
  exact Except.ok.inj (a.symm.trans b)

variable {M prog}

theorem ends_of_succ {pc : List (Item I)} {fl : Option (Word64 × Word64)} {s t : S} {P : Prop}
    (h : ∀ n, M.go prog (n + 1) pc fl s = .ok t → P) : Ends M prog pc fl s t → P := by
  rintro ⟨n, hn⟩
  cases n with
  | zero => cases hn
  | succ n => exact h n hn

theorem ends_ret {pc : List (Item I)} {fl : Option (Word64 × Word64)} {s t : S} :
    Ends M prog (.ret :: pc) fl s t ↔ s = t :=
  ⟨ends_of_succ fun _ h => Except.ok.inj h, fun h => ⟨1, congrArg Except.ok h⟩⟩

theorem ends_label {l : List Nat} {pc : List (Item I)} {fl : Option (Word64 × Word64)} {s t : S} :
    Ends M prog (.label l :: pc) fl s t ↔ Ends M prog pc none s t :=
  ⟨ends_of_succ fun n h => ⟨n, h⟩, fun ⟨n, h⟩ => ⟨n + 1, h⟩⟩

theorem ends_instrs {is : List I} {pc : List (Item I)} {s t : S} :
    Ends M prog (is.map .instr ++ pc) none s t ↔ ∃ s1, execs M s is = .ok s1 ∧ Ends M prog pc none s1 t := by
  induction is generalizing s with
  | nil => exact ⟨fun h => ⟨s, rfl, h⟩, fun ⟨s1, h, h'⟩ => by cases h; exact h'⟩
  | cons i is ih =>
    constructor
    · refine ends_of_succ fun n h => ?_
      simp only [List.map_cons, List.cons_append, Machine.go] at h
      cases e : M.exec s i with
      | error _ => rw [e] at h; cases h
      | ok s1 =>
        rw [e] at h
        obtain ⟨s2, a, b⟩ := ih.1 ⟨n, h⟩
        exact ⟨s2, by simp only [execs, e]; exact a, b⟩
    · rintro ⟨s2, a, b⟩
      simp only [execs] at a
      cases e : M.exec s i with
      | error _ => rw [e] at a; cases a
      | ok s1 =>
        rw [e] at a
        obtain ⟨n, h⟩ := ih.2 ⟨s2, a, b⟩
        exact ⟨n + 1, by simp only [List.map_cons, List.cons_append, Machine.go, e]; exact h⟩

theorem go_instrs {n : Nat} {is : List I} {pc : List (Item I)} {s t : S} (h : M.go prog n (is.map .instr ++ pc) none s = .ok t) :
    ∃ s1 m, execs M s is = .ok s1 ∧ m + is.length = n ∧ M.go prog m pc none s1 = .ok t := by
  induction is generalizing s n with
  | nil => exact ⟨s, n, rfl, rfl, h⟩
  | cons i is ih =>
    cases n with
    | zero => cases h
    | succ n =>
      simp only [List.map_cons, List.cons_append, Machine.go] at h
      cases e : M.exec s i with
      | error _ => rw [e] at h; cases h
      | ok s1 =>
        rw [e] at h
        obtain ⟨s2, m, a, b, c⟩ := ih h
        exact ⟨s2, m, by simp only [execs, e]; exact a, by simp only [List.length_cons]; omega, c⟩

theorem go_instrs_of {n : Nat} {is : List I} {pc : List (Item I)} {s s1 : S} (h : execs M s is = .ok s1) :
    M.go prog (n + is.length) (is.map .instr ++ pc) none s = M.go prog n pc none s1 := by
  induction is generalizing s with
  | nil => cases h; rfl
  | cons i is ih =>
    simp only [execs] at h
    cases e : M.exec s i with
    | error _ => rw [e] at h; cases h
    | ok s2 =>
      rw [e] at h
      simp only [List.length_cons, ← Nat.add_assoc, List.map_cons, List.cons_append, Machine.go, e]
      exact ih h

theorem go_branch_of {n : Nat} {a b : Opnd} {c l : List Nat} {pc pc' : List (Item I)} {s : S} {x y : Word64} {k : Bool}
    (ha : M.val s a = some x) (hb : M.val s b = some y) (hk : M.taken c x y = some k) (hl : after l prog = some pc') :
    M.go prog (n + 2) (.cmp a b :: .jump c l :: pc) none s = M.go prog n (if k then pc' else pc) none s := by
  simp only [Machine.go, ha, hb, hk, hl]
  cases k <;> rfl

theorem go_branch {a b : Opnd} {c l : List Nat} {pc pc' : List (Item I)} {s t : S} {x y : Word64} {k : Bool}
    (ha : M.val s a = some x) (hb : M.val s b = some y) (hk : M.taken c x y = some k) (hl : after l prog = some pc') {n : Nat}
    (h : M.go prog n (.cmp a b :: .jump c l :: pc) none s = .ok t) :
    ∃ m, m < n ∧ M.go prog m (if k then pc' else pc) none s = .ok t := by
  match n with
  | 0 => cases h
  | 1 => simp only [Machine.go, ha, hb] at h; cases h
  | n + 2 =>
    refine ⟨n, by omega, ?_⟩
    rw [← h]
    simp only [Machine.go, ha, hb, hk, hl]
    cases k <;> rfl

/-- A comparison and a jump. -/
theorem ends_branch {a b : Opnd} {c l : List Nat} {pc pc' : List (Item I)} {s t : S} {x y : Word64} {k : Bool}
    (ha : M.val s a = some x) (hb : M.val s b = some y) (hk : M.taken c x y = some k) (hl : after l prog = some pc') :
    Ends M prog (.cmp a b :: .jump c l :: pc) none s t ↔ Ends M prog (if k then pc' else pc) none s t := by
  have e (n : Nat) : M.go prog (n + 2) (.cmp a b :: .jump c l :: pc) none s = M.go prog n (if k then pc' else pc) none s :=
    go_branch_of ha hb hk hl
  constructor
  · rintro ⟨n, h⟩
    obtain ⟨m, _, h⟩ := go_branch ha hb hk hl h
    exact ⟨m, h⟩
  · rintro ⟨n, h⟩
    exact ⟨n + 2, (e n).trans h⟩

end

/-! ### amd64 -/

namespace Amd64

open Verif.Model.Amd64

/-- The file as the model has it. -/
def file : File Instr where
  func := chars! "·blockAMD64"
  frame := 80
  args := 96
  items := argLoads.map .instr ++ .cmp (.reg (chars! "DX")) (.imm 0) :: .jump (chars! "JEQ") (chars! "done") ::
    (setup.map .instr ++ .label (chars! "loop") ::
      (body.map .instr ++ .cmp (.reg (chars! "SI")) (.reg (chars! "DX")) :: .jump (chars! "JNE") (chars! "loop") ::
        (writeBack.map .instr ++ [.label (chars! "done"), .ret])))
  data := [⟨chars! "upper_mask", 0, 8, 0⟩, ⟨chars! "upper_mask", 8, 8, 0xffffffff00000000⟩,
    ⟨chars! "shuffle_mask", 0, 8, 0x08090a0b0c0d0e0f⟩, ⟨chars! "shuffle_mask", 8, 8, 0x0001020304050607⟩]

theorem read_text : read amd64Lines = some file := by decide +kernel

theorem execs_eq (s : Flat.Amd64.FSt) (is : List Instr) : Source.execs amd64 s is = Flat.Amd64.execs s is := by
  induction is generalizing s with
  | nil => rfl
  | cons i is ih =>
    simp only [Source.execs, Flat.Amd64.execs, ih]
    rfl

/-- The statements after the loop. -/
def tail : List (Item Instr) := writeBack.map .instr ++ [.label (chars! "done"), .ret]

/-- The loop and what follows. -/
def fromLoop : List (Item Instr) :=
  body.map .instr ++ .cmp (.reg (chars! "SI")) (.reg (chars! "DX")) :: .jump (chars! "JNE") (chars! "loop") :: tail

theorem after_loop : after (chars! "loop") file.items = some fromLoop := by decide +kernel

theorem after_done : after (chars! "done") file.items = some [.ret] := by decide +kernel

theorem ends_tail (s t : Flat.Amd64.FSt) : Ends amd64 file.items tail none s t ↔ Flat.Amd64.execs s writeBack = .ok t := by
  rw [tail, ends_instrs, execs_eq]
  constructor
  · rintro ⟨s1, h, e⟩
    rw [ends_label, ends_ret] at e
    rw [h, e]
  · exact fun h => ⟨t, h, ends_label.2 (ends_ret.2 rfl)⟩

/-- Once through the loop. -/
theorem ends_iter (s t : Flat.Amd64.FSt) : Ends amd64 file.items fromLoop none s t ↔ ∃ s1, Flat.Amd64.execs s body = .ok s1 ∧
    Ends amd64 file.items (if s1.g .si = s1.g .dx then tail else fromLoop) none s1 t := by
  rw [fromLoop, ends_instrs, ← fromLoop, execs_eq]
  refine exists_congr fun s1 => and_congr_right fun _ => ?_
  rw [ends_branch (x := s1.g .si) (y := s1.g .dx) (k := decide (s1.g .si ≠ s1.g .dx)) rfl rfl rfl after_loop]
  by_cases h : s1.g .si = s1.g .dx <;> simp [h]

theorem loop_fuel (m n : Nat) (s s1 t : Flat.Amd64.FSt) (h : Flat.Amd64.loop n s = .ok s1)
    (e : amd64.go file.items m tail none s1 = .ok t) : amd64.go file.items (m + n * (body.length + 2)) fromLoop none s = .ok t := by
  induction n generalizing s with
  | zero => cases h
  | succ n ih =>
    rw [Flat.Amd64.loop] at h
    cases e2 : Flat.Amd64.execs s body with
    | error _ => rw [e2] at h; cases h
    | ok s2 =>
      rw [e2] at h
      rw [show m + (n + 1) * (body.length + 2) = m + n * (body.length + 2) + 2 + body.length by rw [Nat.add_mul]; omega, fromLoop,
        go_instrs_of ((execs_eq _ _).trans e2),
        go_branch_of (x := s2.g .si) (y := s2.g .dx) (k := decide (s2.g .si ≠ s2.g .dx)) rfl rfl rfl after_loop]
      change (if s2.g .si = s2.g .dx then pure s2 else Flat.Amd64.loop n s2) = Except.ok s1 at h
      split at h
      · next c =>
        cases h
        rw [if_neg (by simp [c])]
        exact go_mono _ _ _ _ _ _ _ _ e
      · next c =>
        rw [if_pos (by simp [c])]
        exact ih s2 h

/-- The number of statements that `n` iterations take. -/
def cost (n : Nat) : Nat :=
  writeBack.length + 2 + n * (body.length + 2) + 1 + setup.length + 2 + argLoads.length

theorem run_fuel (n k : Nat) (s t : Flat.Amd64.FSt) (h : Flat.Amd64.run n s = .ok t) (hk : cost n ≤ k) :
    amd64.run file k s = .ok t := by
  obtain ⟨d, rfl⟩ := Nat.exists_eq_add_of_le hk
  refine go_mono _ _ _ _ _ _ _ _ ?_
  rw [Flat.Amd64.run] at h
  cases e : Flat.Amd64.execs s argLoads with
  | error _ => rw [e] at h; cases h
  | ok s1 =>
    rw [e] at h
    change (if s1.g .dx = 0 then pure s1 else Flat.Amd64.execs s1 setup >>= fun s => Flat.Amd64.loop n s >>= fun s =>
      Flat.Amd64.execs s writeBack) = Except.ok t at h
    unfold cost
    rw [file, go_instrs_of ((execs_eq _ _).trans e), ← file,
      go_branch_of (x := s1.g .dx) (y := 0) (k := decide (s1.g .dx = 0)) rfl rfl rfl after_done]
    by_cases c : s1.g .dx = 0
    · rw [if_pos c] at h
      cases h
      rw [if_pos (decide_eq_true c), show writeBack.length + 2 + n * (body.length + 2) + 1 + setup.length =
        (writeBack.length + 1 + n * (body.length + 2) + 1 + setup.length) + 1 by omega]
      rfl
    · rw [if_neg c] at h
      rw [if_neg (by simpa using c)]
      cases e2 : Flat.Amd64.execs s1 setup with
      | error _ => rw [e2] at h; cases h
      | ok s2 =>
        rw [e2] at h
        rw [go_instrs_of ((execs_eq _ _).trans e2), Machine.go]
        change amd64.go file.items (writeBack.length + 2 + n * (body.length + 2)) fromLoop none s2 = _
        change (Flat.Amd64.loop n s2 >>= fun s => Flat.Amd64.execs s writeBack) = _ at h
        cases e3 : Flat.Amd64.loop n s2 with
        | error _ => rw [e3] at h; cases h
        | ok s3 =>
          rw [e3] at h
          refine loop_fuel _ _ _ s3 _ e3 ?_
          rw [tail, Nat.add_comm, go_instrs_of ((execs_eq _ _).trans h)]
          rfl

/-- Straight-line code is run to its end before anything else, so a run from the loop goes through it as often as the model says. -/
theorem loop_of_ends (s t : Flat.Amd64.FSt) (h : Ends amd64 file.items fromLoop none s t) :
    ∃ n s1, Flat.Amd64.loop n s = .ok s1 ∧ Ends amd64 file.items tail none s1 t := by
  obtain ⟨k, h⟩ := h
  induction k using Nat.strongRecOn generalizing s with
  | _ k ih =>
    obtain ⟨s2, e2, n2, hn2, h2⟩ : ∃ s2, Flat.Amd64.execs s body = .ok s2 ∧ ∃ n2, n2 < k ∧
        amd64.go file.items n2 (if s2.g .si = s2.g .dx then tail else fromLoop) none s2 = .ok t := by
      rw [fromLoop] at h
      obtain ⟨s2, m, e2, hm, h⟩ := go_instrs h
      obtain ⟨m', hm', h⟩ := go_branch (x := s2.g .si) (y := s2.g .dx) (k := decide (s2.g .si ≠ s2.g .dx)) rfl rfl rfl after_loop h
      refine ⟨s2, (execs_eq _ _).symm.trans e2, m', by omega, ?_⟩
      rw [← h]
      by_cases c : s2.g .si = s2.g .dx <;> simp [c]
    by_cases c : s2.g .si = s2.g .dx
    · rw [if_pos c] at h2
      exact ⟨1, s2, by rw [Flat.Amd64.loop, e2]; exact if_pos c, n2, h2⟩
    · rw [if_neg c] at h2
      obtain ⟨n, s1, e, r⟩ := ih n2 hn2 s2 h2
      exact ⟨n + 1, s1, by rw [Flat.Amd64.loop, e2]; exact (if_neg c).trans e, r⟩

/-- Running the text is what `Flat.Amd64.run` does, from any state. -/
theorem text_run (s t : Flat.Amd64.FSt) : (∃ n, amd64.run file n s = .ok t) ↔ ∃ n, Flat.Amd64.run n s = .ok t := by
  refine ⟨fun ⟨n, h⟩ => ?_, fun ⟨n, h⟩ => ⟨cost n, run_fuel n _ s t h (Nat.le_refl _)⟩⟩
  simp only [Flat.Amd64.run]
  rw [Machine.run, file] at h
  obtain ⟨s1, m, e, hm, h⟩ := go_instrs h
  rw [execs_eq] at e
  rw [← file] at h
  obtain ⟨m', _, h⟩ := go_branch (x := s1.g .dx) (y := 0) (k := decide (s1.g .dx = 0)) rfl rfl rfl after_done h
  rw [e]
  change ∃ n, (if s1.g .dx = 0 then pure s1 else Flat.Amd64.execs s1 setup >>= fun s => Flat.Amd64.loop n s >>= fun s =>
      Flat.Amd64.execs s writeBack) = Except.ok t
  by_cases c : s1.g .dx = 0
  · rw [if_pos (decide_eq_true c)] at h
    exact ⟨0, by rw [if_pos c]; exact congrArg Except.ok (ends_ret.1 ⟨m', h⟩)⟩
  · rw [if_neg (by simpa using c)] at h
    obtain ⟨s2, m2, e2, _, h⟩ := go_instrs h
    rw [execs_eq] at e2
    obtain ⟨n, s3, e3, r⟩ := loop_of_ends _ _ (ends_label.1 ⟨m2, h⟩)
    refine ⟨n, ?_⟩
    rw [if_neg c, e2]
    change (Flat.Amd64.loop n s2 >>= fun s => Flat.Amd64.execs s writeBack) = _
    rw [e3]
    exact (ends_tail _ _).1 r

end Amd64

namespace Arm64

open Verif.Model.Arm64

/-- The file as the model has it. -/
def file : File Instr where
  func := chars! "·blockARM64"
  frame := 80
  args := 96
  items := argLoads.map .instr ++ (setup.map .instr ++ .label (chars! "loop") ::
    .cmp (.reg (chars! "R16")) (.reg (chars! "R21")) :: .jump (chars! "BLS") (chars! "end") ::
      (body.map .instr ++ .label (chars! "end") :: (writeBack.map .instr ++ [.ret])))
  data := [⟨chars! "·sha1Ks", 0, 4, 0x5A827999⟩, ⟨chars! "·sha1Ks", 4, 4, 0x6ED9EBA1⟩,
    ⟨chars! "·sha1Ks", 8, 4, 0x8F1BBCDC⟩, ⟨chars! "·sha1Ks", 12, 4, 0xCA62C1D6⟩]

theorem read_text : read arm64Lines = some file := by decide +kernel

theorem execs_eq (s : Flat.Arm64.FSt) (is : List Instr) : Source.execs arm64 s is = Flat.Arm64.execs s is := by
  induction is generalizing s with
  | nil => rfl
  | cons i is ih =>
    simp only [Source.execs, Flat.Arm64.execs, ih]
    rfl

/-- The statements after the jump. -/
def tail : List (Item Instr) := writeBack.map .instr ++ [.ret]

theorem after_end : after (chars! "end") file.items = some tail := by decide +kernel

theorem ends_tail (s t : Flat.Arm64.FSt) : Ends arm64 file.items tail none s t ↔ Flat.Arm64.execs s writeBack = .ok t := by
  rw [tail, ends_instrs, execs_eq]
  constructor
  · rintro ⟨s1, h, e⟩
    rw [ends_ret] at e
    rw [h, e]
  · exact fun h => ⟨t, h, ends_ret.2 rfl⟩

/-- The number of statements. -/
def cost : Nat := writeBack.length + 1 + 1 + body.length + 2 + 1 + setup.length + argLoads.length

theorem run_fuel (k : Nat) (s t : Flat.Arm64.FSt) (h : Flat.Arm64.run s = .ok t) (hk : cost ≤ k) : arm64.run file k s = .ok t := by
  obtain ⟨d, hd⟩ := Nat.exists_eq_add_of_le hk
  rw [hd]
  refine go_mono _ _ _ _ _ _ _ _ ?_
  simp only [Flat.Arm64.run] at h
  cases e : Flat.Arm64.execs s argLoads with
  | error _ => rw [e] at h; cases h
  | ok s1 =>
    rw [e] at h
    change (Flat.Arm64.execs s1 setup >>= fun s => if (s.g .r21).toNat ≤ (s.g .r16).toNat then Flat.Arm64.execs s writeBack
      else Flat.Arm64.execs s body >>= fun s => Flat.Arm64.execs s writeBack) = _ at h
    cases e2 : Flat.Arm64.execs s1 setup with
    | error _ => rw [e2] at h; cases h
    | ok s2 =>
      rw [e2] at h
      change (if (s2.g .r21).toNat ≤ (s2.g .r16).toNat then Flat.Arm64.execs s2 writeBack
        else Flat.Arm64.execs s2 body >>= fun s => Flat.Arm64.execs s writeBack) = _ at h
      unfold cost
      rw [file, go_instrs_of ((execs_eq _ _).trans e), go_instrs_of ((execs_eq _ _).trans e2), ← file,
        Machine.go]
      refine (go_branch_of (x := s2.g .r16) (y := s2.g .r21) (k := decide ((s2.g .r21).toNat ≤ (s2.g .r16).toNat)) rfl rfl rfl after_end).trans ?_
      have fin (s3 : Flat.Arm64.FSt) (h : Flat.Arm64.execs s3 writeBack = .ok t) :
          arm64.go file.items (writeBack.length + 1) tail none s3 = .ok t := by
        rw [tail, Nat.add_comm, go_instrs_of ((execs_eq _ _).trans h)]
        rfl
      by_cases c : (s2.g .r21).toNat ≤ (s2.g .r16).toNat
      · rw [if_pos c] at h
        rw [if_pos (decide_eq_true c), Nat.add_assoc]
        exact go_mono _ _ _ _ _ _ _ _ (fin _ h)
      · rw [if_neg c] at h
        rw [if_neg (by simpa using c)]
        cases e3 : Flat.Arm64.execs s2 body with
        | error _ => rw [e3] at h; cases h
        | ok s3 =>
          rw [e3] at h
          rw [go_instrs_of ((execs_eq _ _).trans e3)]
          exact fin _ h

/-- Running the text is what `Flat.Arm64.run` does, from any state. -/
theorem text_run (s t : Flat.Arm64.FSt) : (∃ n, arm64.run file n s = .ok t) ↔ Flat.Arm64.run s = .ok t := by
  refine ⟨fun ⟨n, h⟩ => ?_, fun h => ⟨cost, run_fuel _ s t h (Nat.le_refl _)⟩⟩
  simp only [Flat.Arm64.run]
  rw [Machine.run, file] at h
  obtain ⟨s1, _, e, _, h⟩ := go_instrs h
  obtain ⟨s2, m2, e2, _, h⟩ := go_instrs h
  rw [execs_eq] at e e2
  rw [← file] at h
  obtain ⟨m3, h⟩ := ends_label.1 ⟨m2, h⟩
  obtain ⟨m, _, h⟩ := go_branch (x := s2.g .r16) (y := s2.g .r21) (k := decide ((s2.g .r21).toNat ≤ (s2.g .r16).toNat)) rfl rfl rfl after_end h
  rw [e]
  change (Flat.Arm64.execs s1 setup >>= fun s => if (s.g .r21).toNat ≤ (s.g .r16).toNat then Flat.Arm64.execs s writeBack
    else Flat.Arm64.execs s body >>= fun s => Flat.Arm64.execs s writeBack) = _
  rw [e2]
  change (if (s2.g .r21).toNat ≤ (s2.g .r16).toNat then Flat.Arm64.execs s2 writeBack
    else Flat.Arm64.execs s2 body >>= fun s => Flat.Arm64.execs s writeBack) = _
  by_cases c : (s2.g .r21).toNat ≤ (s2.g .r16).toNat
  · rw [if_pos (decide_eq_true c)] at h
    rw [if_pos c]
    exact (ends_tail _ _).1 ⟨m, h⟩
  · rw [if_neg (by simpa using c)] at h
    obtain ⟨s3, m3, e3, _, h⟩ := go_instrs h
    rw [execs_eq] at e3
    rw [if_neg c, e3]
    exact (ends_tail _ _).1 (ends_label.1 ⟨m3, h⟩)

end Arm64

end Verif.Source
