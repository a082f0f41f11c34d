import Verif.Source.CEvaluated

/-!
The lines of the C files as tokens, written out, and that they are the tokens of the text.
-/

namespace Verif.Source.C

open Verif.Source
open Verif.Source.Go (GTok sameToks eq_of_sameToks)

/-- What `lexLines` has when it has read some lines: the lines of tokens, backwards, the beginning of a continued line,
whether it is inside a comment. -/
def lexTo (done : List (List GTok)) (cur : List GTok) (c : Bool) :
    List (List Nat) → List (List GTok) × List GTok × Bool
  | [] => (done, cur, c)
  | l :: ls => match lexLine cur (bif c then .comment else .idle) l with
    | ⟨ts, false, true⟩ => lexTo done ts false ls
    | ⟨ts, c, _⟩ => lexTo (addLine ts done) [] c ls

theorem lexLines_append : ∀ (a b : List (List Nat)) (done : List (List GTok)) (cur : List GTok) (c : Bool),
    lexLines done cur c (a ++ b) = lexLines (lexTo done cur c a).1 (lexTo done cur c a).2.1 (lexTo done cur c a).2.2 b := by
  intro a
  induction a with
  | nil => intros; rfl
  | cons l ls ih =>
    intro b done cur c
    rcases h : lexLine cur (bif c then .comment else .idle) l with ⟨ts, c', more⟩
    simp only [List.cons_append, lexLines, lexTo, h]
    cases c' <;> cases more <;> exact ih ..

theorem addLine_append (l : List GTok) (d : List (List GTok)) : addLine l d = addLine l [] ++ d := by
  cases l <;> simp [addLine]

theorem lexTo_done : ∀ (a : List (List Nat)) (done : List (List GTok)) (cur : List GTok) (c : Bool),
    lexTo done cur c a = ((lexTo [] cur c a).1 ++ done, (lexTo [] cur c a).2.1, (lexTo [] cur c a).2.2) := by
  intro a
  induction a with
  | nil => intros; rfl
  | cons l ls ih =>
    intro done cur c
    rcases h : lexLine cur (bif c then .comment else .idle) l with ⟨ts, c', more⟩
    simp only [lexTo, h]
    cases c' <;> cases more
    case false.true => exact ih ..
    all_goals
      simp only
      rw [ih (addLine _ done), ih (addLine _ []), addLine_append]
      simp

/-- The same lines of tokens. -/
def sameLines : List (List GTok) → List (List GTok) → Bool
  | [], [] => true
  | a :: as, b :: bs => bif sameToks a b then sameLines as bs else false
  | _, _ => false

theorem eq_of_sameLines : ∀ {a b : List (List GTok)}, sameLines a b = true → a = b := by
  intro a
  induction a with
  | nil =>
    intro b h
    cases b with
    | nil => rfl
    | cons _ _ => cases h
  | cons x xs ih =>
    intro b h
    cases b with
    | nil => cases h
    | cons y ys =>
      rw [sameLines] at h
      cases hs : sameToks x y with
      | true => rw [hs] at h; rw [eq_of_sameToks hs, ih h]
      | false => rw [hs] at h; cases h

/-- Some lines give some lines of tokens, and nothing is left open at their end. -/
def lexed (a : List (List Nat)) (b : List (List GTok)) : Bool :=
  match lexTo [] [] false a with
  | (d, [], false) => sameLines d.reverse b
  | _ => false

theorem lines_append {a : List (List Nat)} {b : List (List GTok)} (h : lexed a b = true) (rest : List (List Nat)) :
    lines (a ++ rest) = b ++ lines rest := by
  unfold lexed at h
  split at h
  · rename_i d hd
    have := eq_of_sameLines h
    subst this
    unfold lines
    rw [lexLines_append, hd]
    have key : ∀ (r : List (List Nat)) (d : List (List GTok)) (cur : List GTok) (c : Bool),
        lexLines d cur c r = lexLines [] cur c r ++ d := by
      intro r
      induction r with
      | nil => intro d cur c; exact addLine_append _ _
      | cons l ls ih =>
        intro d cur c
        rcases h : lexLine cur (bif c then .comment else .idle) l with ⟨ts, c', more⟩
        simp only [lexLines, h]
        cases c' <;> cases more
        case false.true => exact ih ..
        all_goals
          simp only
          rw [ih (addLine _ d), ih (addLine _ []), addLine_append]
          simp
    simp only
    rw [key rest d, List.reverse_append]
  · cases h

theorem lines_nil : lines [] = [] := rfl

/-- Lines that are read in two parts. -/
theorem lines_cut {a : List (List Nat)} {n : Nat} {b c : List (List GTok)} (h : lexed (a.take n) b = true)
    (h' : lines (a.drop n) = c) : lines a = b ++ c := by
  conv => lhs; rw [← List.take_append_drop n a]
  rw [lines_append h, h']

/-- Lines that are read as one part. -/
theorem lines_all {a : List (List Nat)} {b : List (List GTok)} (h : lexed a b = true) : lines a = b := by
  have := lines_append h []
  rwa [List.append_nil, lines_nil, List.append_nil] at this

/-- The lines of sha1.c from line 552 on (cgo/sha1.c:552-2144). -/
def sha1C2 : List (List Nat) := sha1CLines.drop 551
/-- The lines of sha1.c from line 871 on (cgo/sha1.c:871-2144). -/
def sha1C3 : List (List Nat) := sha1C2.drop 319
/-- The lines of sha1.c from line 1211 on (cgo/sha1.c:1211-2144). -/
def sha1C4 : List (List Nat) := sha1C3.drop 340

evaluated_list! ubcHLexed : List GTok := lines ubcHeaderLines
evaluated_list! sha1HLexed : List GTok := lines sha1HeaderLines
evaluated_list! ubcLexed : List GTok := lines ubcCLines
evaluated_list! sha1Lexed1 : List GTok := lines (sha1CLines.take 551)
evaluated_list! sha1Lexed2 : List GTok := lines (sha1C2.take 319)
evaluated_list! sha1Lexed3 : List GTok := lines (sha1C3.take 340)
evaluated_list! sha1Lexed4 : List GTok := lines sha1C4

theorem lexed_ubcH : lines ubcHeaderLines = ubcHLexed := lines_all (by decide +kernel)
theorem lexed_sha1H : lines sha1HeaderLines = sha1HLexed := lines_all (by decide +kernel)
theorem lexed_ubc : lines ubcCLines = ubcLexed := lines_all (by decide +kernel)
theorem lexed_4 : lines sha1C4 = sha1Lexed4 := lines_all (by decide +kernel)
theorem lexed_3 : lexed (sha1C3.take 340) sha1Lexed3 = true := by decide +kernel
theorem lexed_2 : lexed (sha1C2.take 319) sha1Lexed2 = true := by decide +kernel
theorem lexed_1 : lexed (sha1CLines.take 551) sha1Lexed1 = true := by decide +kernel

/-- The tokens of sha1.c by lines (cgo/sha1.c:1-2144). -/
noncomputable def sha1Lexed : List (List GTok) := sha1Lexed1 ++ (sha1Lexed2 ++ (sha1Lexed3 ++ sha1Lexed4))

theorem lexed_sha1 : lines sha1CLines = sha1Lexed := lines_cut lexed_1 (lines_cut lexed_2 (lines_cut lexed_3 lexed_4))

end Verif.Source.C
