import Verif.Proofs.CDetect

/-!
Every compiler reads one of a few programs: the macros count only for the byte order and for unaligned access.
-/

namespace Verif.Source.C.Detect

open Verif.Source Verif.Source.Go Verif.Source.C

theorem preTo_same {K : Nat → Prop} (hK : ∀ n k, K n → k ≤ 9 → K (256 * n + (48 + k))) {files : List (List Nat × List (List GTok))}
    (hf : ∀ f ∈ files, ∀ l ∈ f.2, In K l) : ∀ (n : Nat) {p p' : Pre} (ls : List (List GTok)) (out : List GTok), SamePre K p p' →
    (∀ l ∈ ls, In K l) → ∀ n1 q out1, preTo files n p ls out = some (n1, q, out1) →
      ∃ q', preTo files n p' ls out = some (n1, q', out1) ∧ SamePre K q q' := by
  intro n
  induction n with
  | zero =>
    intro p p' ls out h hl n1 q out1 e
    cases ls with
    | nil => cases e; exact ⟨p', rfl, h⟩
    | cons l ls => cases e
  | succ n ih =>
    intro p p' ls out h hl n1 q out1 e
    cases ls with
    | nil => cases e; exact ⟨p', rfl, h⟩
    | cons l ls =>
      unfold preTo at e ⊢
      rcases line_same hK hf h (hl l (List.mem_cons_self ..)) with ⟨a, b⟩ | ⟨r, r', inc, ts, a, b, c, f⟩
      · rw [a] at e; cases e
      · rw [a] at e
        rw [b]
        refine ih _ _ c (fun x hx => ?_) _ _ _ e
        rcases List.mem_append.1 hx with hx | hx
        · exact f x hx
        · exact hl x (List.mem_cons_of_mem _ hx)

theorem macroOf_name {ts : List GTok} {m : Macro} (h : macroOf ts = some m) : .id m.name ∈ ts := by
  unfold macroOf at h
  split at h
  · rename_i x o ts
    cases e : Nat.beq o (name! "(") with
    | true =>
      rw [e] at h
      simp only [cond_true] at h
      split at h
      · cases h; exact List.mem_cons_self ..
      · cases h
    | false => rw [e] at h; cases h; exact List.mem_cons_self ..
  · cases h; exact List.mem_cons_self ..
  · cases h

/-- What a line leaves of a name that does not occur in it. -/
def Kept (files : List (List Nat × List (List GTok))) (x : Nat) (p : Pre) (r : LineIs) : Prop :=
  ∀ p' inc ts, r = some (p', inc, ts) → Covered p'.defs ∧ p'.defs.find x = p.defs.find x ∧ (inc = [] ∨ ∃ s, fileOf s files = some inc)

section
variable {files : List (List Nat × List (List GTok))} {x : Nat} {p : Pre}

theorem Kept.no : Kept files x p none := fun _ _ _ h => by cases h
theorem Kept.put (h : Covered p.defs) {ps : List Part} {ts : List GTok} : Kept files x p (some (⟨p.defs, ps⟩, [], ts)) := fun _ _ _ e => by
  cases e
  exact ⟨h, rfl, .inl rfl⟩

theorem instruction_kept (h : Covered p.defs) (w : Nat) {ts : List GTok} (hx : .id x ∉ ts) : Kept files x p (instruction files p w ts) := by
  unfold instruction
  cases Nat.beq w (name! "ifdef") with
  | true =>
    simp only [cond_true]
    split
    · exact .put h
    · exact .no
  | false =>
  cases Nat.beq w (name! "ifndef") with
  | true =>
    simp only [cond_true, cond_false]
    split
    · exact .put h
    · exact .no
  | false =>
  cases Nat.beq w (name! "if") with
  | true =>
    simp only [cond_true, cond_false]
    split
    · exact .put h
    · exact .no
  | false =>
  cases Nat.beq w (name! "elif") with
  | true =>
    simp only [cond_true, cond_false]
    split
    · exact .put h
    · split
      · exact .put h
      · exact .no
    · exact .put h
    · exact .no
  | false =>
  cases Nat.beq w (name! "else") with
  | true =>
    simp only [cond_true, cond_false]
    split
    · exact .put h
    · exact .put h
    · exact .put h
    · exact .no
  | false =>
  cases Nat.beq w (name! "endif") with
  | true =>
    simp only [cond_true, cond_false]
    split
    · exact .put h
    · exact .no
  | false =>
  cases live p.parts with
  | false => exact .put h
  | true =>
  cases Nat.beq w (name! "define") with
  | true =>
    simp only [cond_true, cond_false]
    cases e : macroOf ts with
    | none => exact .no
    | some m =>
      rintro _ _ _ ⟨⟩
      refine ⟨covered_add h m, ?_, .inl rfl⟩
      refine (find_add h m x).trans ?_
      cases f : Nat.beq m.name x with
      | false => rfl
      | true => exact absurd (Nat.eq_of_beq_eq_true f ▸ macroOf_name e) hx
  | false =>
  cases Nat.beq w (name! "undef") with
  | true =>
    simp only [cond_true, cond_false]
    split
    · rename_i y
      rintro _ _ _ ⟨⟩
      refine ⟨covered_drop h y, (find_drop h y x).trans (if_neg ?_), .inl rfl⟩
      rintro rfl
      exact hx (List.mem_cons_self ..)
    · exact .no
  | false =>
  cases Nat.beq w (name! "include") with
  | true =>
    simp only [cond_true, cond_false]
    split
    · rename_i s
      cases e : fileOf s files with
      | none => exact .no
      | some inc =>
        rintro _ _ _ ⟨⟩
        exact ⟨h, rfl, .inr ⟨s, e⟩⟩
    · rename_i a _
      cases Nat.beq a (name! "<") with
      | true => exact .put h
      | false => exact .no
    · exact .no
  | false => exact .no

theorem plainLine_kept (h : Covered p.defs) (l : List GTok) : Kept files x p (plainLine p l) := by
  unfold plainLine
  cases live p.parts with
  | false => exact .put h
  | true =>
    simp only [cond_true]
    split
    · exact .put h
    · exact .no

theorem line_kept (h : Covered p.defs) {l : List GTok} (hx : .id x ∉ l) : Kept files x p (line files p l) := by
  unfold line
  split
  · rename_i o rest
    cases Nat.beq o (name! "#") with
    | true =>
      simp only [cond_true]
      split
      · exact instruction_kept h _ fun hm => hx (List.mem_cons_of_mem _ (List.mem_cons_of_mem _ hm))
      · exact .no
    | false => exact plainLine_kept h _
  · exact plainLine_kept h _

end

theorem fileOf_mem {s : List Nat} : ∀ {files : List (List Nat × List (List GTok))} {inc : List (List GTok)},
    fileOf s files = some inc → ∃ f ∈ files, f.2 = inc
  | [], _, h => by cases h
  | (n, ls) :: rest, inc, h => by
    unfold fileOf at h
    split at h
    · cases h; exact ⟨_, List.mem_cons_self .., rfl⟩
    · obtain ⟨f, hf, e⟩ := fileOf_mem h
      exact ⟨f, List.mem_cons_of_mem _ hf, e⟩

theorem preTo_kept {files : List (List Nat × List (List GTok))} {x : Nat} (hf : ∀ f ∈ files, ∀ l ∈ f.2, .id x ∉ l) :
    ∀ (n : Nat) {p : Pre} (ls : List (List GTok)) (out : List GTok), Covered p.defs → (∀ l ∈ ls, .id x ∉ l) →
    ∀ n1 q out1, preTo files n p ls out = some (n1, q, out1) → q.defs.find x = p.defs.find x := by
  intro n
  induction n with
  | zero =>
    intro p ls out h hl n1 q out1 e
    cases ls with
    | nil => cases e; rfl
    | cons l ls => cases e
  | succ n ih =>
    intro p ls out h hl n1 q out1 e
    cases ls with
    | nil => cases e; rfl
    | cons l ls =>
      unfold preTo at e
      cases f : line files p l with
      | none => rw [f] at e; cases e
      | some r =>
        obtain ⟨p', inc, ts⟩ := r
        rw [f] at e
        obtain ⟨k1, k2, k3⟩ := line_kept h (hl l (List.mem_cons_self ..)) _ _ _ f
        refine (ih _ _ k1 (fun y hy => ?_) _ _ _ e).trans k2
        rcases List.mem_append.1 hy with hy | hy
        · rcases k3 with rfl | ⟨s, hs⟩
          · cases hy
          · obtain ⟨g, hg, rfl⟩ := fileOf_mem hs
            exact hf g hg y hy
        · exact hl y (List.mem_cons_of_mem _ hy)

theorem covered_empty : Covered .empty := fun _ h => by cases h

/-- The names in the code are not macros beforehand. -/
def Quiet (d : Defs) : Prop := ∀ x, Code x → d.find x = none

theorem quiet_same {d d' : Defs} (h : Covered d) (h' : Covered d') (q : Quiet d) (q' : Quiet d') : Same Code d d' := by
  refine ⟨h, h', fun x hx => ?_, fun x m hx hm => ?_⟩
  · rw [← find_eq h, ← find_eq h', q x hx, q' x hx]
  · rw [← find_eq h, q x hx] at hm
    cases hm

theorem quiet_empty : Quiet .empty := fun x _ => find_eq covered_empty x

/-- The lines of sha1.c that include the other files (cgo/sha1.c:20-29). -/
def midLines : List (List GTok) := ((lines sha1CLines).drop 9).take 8

theorem code_files : ∀ f ∈ headers, ∀ l ∈ f.2, In Code l := by
  intro f hf l hl y hy
  refine .written (l := l) ?_ hy
  simp only [headers, List.mem_cons, List.not_mem_nil, or_false] at hf
  rcases hf with rfl | rfl
  · exact List.mem_append_left _ (List.mem_append_left _ (List.mem_append_left _ hl))
  · exact List.mem_append_left _ (List.mem_append_left _ (List.mem_append_right _ hl))

theorem code_mid : ∀ l ∈ midLines, In Code l := by
  intro l hl y hy
  refine .written (l := l) ?_ hy
  refine List.mem_append_right _ (List.mem_append_left _ (List.mem_append_right _ ?_))
  have e : ((lines sha1CLines).drop 7).take 10 = (((lines sha1CLines).drop 7).take 10).take 2 ++ midLines := by
    conv => lhs; rw [← List.take_append_drop 2 (((lines sha1CLines).drop 7).take 10)]
    rw [List.drop_take, List.drop_drop]
    rfl
  rw [e]
  exact List.mem_append_right _ hl

theorem code_rest : ∀ l ∈ (lines sha1CLines).drop 50, In Code l := fun l hl _ hy =>
  .written (l := l) (List.mem_append_right _ (List.mem_append_right _ hl)) hy

theorem code_ubc : ∀ l ∈ lines ubcCLines, In Code l := fun l hl _ hy =>
  .written (l := l) (List.mem_append_left _ (List.mem_append_right _ hl)) hy

theorem sha1_split : lines sha1CLines = (lines sha1CLines).take 9 ++ (midLines ++ (detectLines ++ (lines sha1CLines).drop 50)) := by
  have h1 : (lines sha1CLines).drop 17 = detectLines ++ (lines sha1CLines).drop 50 := by
    conv => lhs; rw [← List.take_append_drop 33 ((lines sha1CLines).drop 17)]
    rw [detectLines_eq, List.drop_drop]
  have h2 : (lines sha1CLines).drop 9 = midLines ++ (lines sha1CLines).drop 17 := by
    conv => lhs; rw [← List.take_append_drop 8 ((lines sha1CLines).drop 9)]
    rw [List.drop_drop]
    rfl
  rw [← h1, ← h2, List.take_append_drop]

/-- The first lines (cgo/sha1.c:10-18). -/
def headLines : List (List GTok) := evaluated! (lines sha1CLines).take 9

theorem headLines_eq : (lines sha1CLines).take 9 = headLines := by
  rw [lexed_sha1]
  by_kernel

theorem block0 (d : Defs) (files : List (List Nat × List (List GTok))) (n : Nat) (out : List GTok) :
    preTo files (n + 9) ⟨d, []⟩ headLines out = some (n, ⟨d, []⟩, out) := by
  show preTo files (n + 8) ⟨d, [bif !(d.find (name! "SHA1DC_NO_STANDARD_INCLUDES")).isSome then .on else .off]⟩ (headLines.drop 1) out = _
  cases (d.find (name! "SHA1DC_NO_STANDARD_INCLUDES")).isSome with
  | true => exact preTo_nil files n out _
  | false =>
  show preTo files (n + 3) ⟨d, [bif (d.find (name! "__unix__")).isSome then .on else .off, .on]⟩ (headLines.drop 6) out = _
  cases (d.find (name! "__unix__")).isSome <;> exact preTo_nil files n out _

/-- Whether what the preprocessor has can go on with the detection. -/
def goesOn : Option (Nat × Pre × List GTok) → Bool
  | some (n, ⟨_, []⟩, _) => Nat.ble 33 n
  | _ => false

theorem mid_goes : goesOn (preTo headersLexed 4991 ⟨.empty, []⟩ ((sha1Lexed.drop 9).take 8) []) = true := by decide +kernel

theorem mid_empty : ∃ n1 d0 out0, preTo headers 4991 ⟨.empty, []⟩ midLines [] = some (n1 + 33, ⟨d0, []⟩, out0) := by
  have h := mid_goes
  unfold midLines
  rw [headers_eq, lexed_sha1]
  generalize preTo headersLexed 4991 ⟨.empty, []⟩ ((sha1Lexed.drop 9).take 8) [] = r at h
  match r, h with
  | some (n, ⟨d0, []⟩, out0), h =>
    have : 33 ≤ n := Nat.le_of_ble_eq_true h
    exact ⟨n - 33, d0, out0, by rw [Nat.sub_add_cancel this]⟩

/-- Whether a name occurs in some lines. -/
def occurs (x : Nat) (ls : List (List GTok)) : Bool := ls.any fun l => l.any fun t => match t with
  | .id y => Nat.beq y x
  | _ => false

theorem not_occurs {x : Nat} {ls : List (List GTok)} (h : occurs x ls = false) : ∀ l ∈ ls, .id x ∉ l := by
  intro l hl hx
  have := List.any_eq_false.1 h l hl
  refine this (List.any_eq_true.2 ⟨_, hx, ?_⟩)
  exact Nat.beq_refl x

theorem quiet_run : ∃ n1 d0 out0, ∀ d, Covered d → Quiet d → ∃ d1, Same Code d1 d0 ∧
    preprocess headers 5000 ⟨d, []⟩ (lines sha1CLines) [] = preprocess headers n1 ⟨d5 d1, []⟩ ((lines sha1CLines).drop 50) out0 ∧
    ∀ x, occurs x (ubcHLexed ++ sha1HLexed ++ (sha1Lexed.drop 9).take 8) = false → d1.find x = d.find x := by
  obtain ⟨n1, d0, out0, h⟩ := mid_empty
  refine ⟨n1, d0, out0, fun d hc hq => ?_⟩
  have hs : SamePre Code ⟨.empty, []⟩ ⟨d, []⟩ := ⟨quiet_same covered_empty hc quiet_empty hq, rfl⟩
  obtain ⟨⟨d1, ps⟩, e, hd, hp⟩ := preTo_same (fun _ _ a b => .digit a b) code_files 4991 midLines [] hs code_mid _ _ _ h
  cases hp
  have hd : Same Code d0 d1 := hd
  refine ⟨d1, ?_, ?_, fun x hx => ?_⟩
  · refine ⟨hd.right, hd.left, fun x hx => (hd.find x hx).symm, fun x m hx hm => hd.body x m hx ((hd.find x hx).trans hm)⟩
  · conv => lhs; rw [sha1_split, headLines_eq]
    rw [preprocess_append _ (block0 d headers 4991 []), preprocess_append _ e]
    exact detect_run d1 headers n1 out0 _
  · have hn := not_occurs hx
    refine preTo_kept (p := ⟨d, []⟩) (fun f hf l hl => hn l ?_) 4991 midLines [] hc (fun l hl => hn l ?_) _ _ _ e
    · simp only [headers, List.mem_cons, List.not_mem_nil, or_false] at hf
      rcases hf with rfl | rfl
      · rw [← lexed_ubcH]; exact List.mem_append_left _ (List.mem_append_left _ hl)
      · rw [← lexed_sha1H]; exact List.mem_append_left _ (List.mem_append_right _ hl)
    · refine List.mem_append_right _ ?_
      rw [← lexed_sha1]
      exact hl

section
variable {d : Defs} (h : Covered d)
include h

theorem find_bif_or (b : Bool) (m : Macro) : (bif b then d.add m else d).find m.name = some m ∨
    (bif b then d.add m else d).find m.name = d.find m.name := by
  cases b
  · exact .inr rfl
  · exact .inl ((find_add h m m.name).trans (by rw [Nat.beq_refl]; rfl))

theorem cov5 : Covered (d5 d) := by
  unfold d5
  cases cAligned (d4 d)
  · exact covered_bif (cov4 h) _ _
  · exact cov4 h

theorem shapeBE (hn : d.find (name! "SHA1DC_BIGENDIAN") = none) :
    (d5 d).find (name! "SHA1DC_BIGENDIAN") = some beM ∨ (d5 d).find (name! "SHA1DC_BIGENDIAN") = none := by
  have e5 : (d5 d).find (name! "SHA1DC_BIGENDIAN") = (d4 d).find (name! "SHA1DC_BIGENDIAN") := by
    unfold d5
    cases cAligned (d4 d)
    · exact find_bif (cov4 h) _ unalM rfl
    · rfl
  rw [e5]
  have e1 : (d1 d).find (name! "SHA1DC_BIGENDIAN") = none := (find_bif h _ intelM rfl).trans hn
  have e2 : (d2 d).find (name! "SHA1DC_BIGENDIAN") = some beM ∨ (d2 d).find (name! "SHA1DC_BIGENDIAN") = none :=
    (find_bif_or (cov1 h) _ beM).imp id fun e => e.trans e1
  have e3 : (d3 d).find (name! "SHA1DC_BIGENDIAN") = some beM ∨ (d3 d).find (name! "SHA1DC_BIGENDIAN") = none := by
    unfold d3
    cases cLittle (d2 d)
    · exact e2
    · exact .inr ((find_drop (cov2 h) _ _).trans (if_pos rfl))
  rcases find_bif_or (cov3 h) (cBig (d3 d)) beM with e | e
  · exact .inl e
  · exact e3.imp (fun a => e.trans a) (fun a => e.trans a)

theorem shapeU (hn : d.find (name! "SHA1DC_ALLOW_UNALIGNED_ACCESS") = none) :
    (d5 d).find (name! "SHA1DC_ALLOW_UNALIGNED_ACCESS") = some unalM ∨ (d5 d).find (name! "SHA1DC_ALLOW_UNALIGNED_ACCESS") = none := by
  have e4 : (d4 d).find (name! "SHA1DC_ALLOW_UNALIGNED_ACCESS") = none := (find4 h rfl rfl).trans hn
  unfold d5
  cases cAligned (d4 d)
  · exact (find_bif_or (cov4 h) _ unalM).imp id fun e => e.trans e4
  · exact .inr e4

theorem find5 {x : Nat} (h1 : Nat.beq (name! "SHA1DC_BIGENDIAN") x = false)
    (h2 : Nat.beq (name! "SHA1DC_ON_INTEL_LIKE_PROCESSOR") x = false)
    (h3 : Nat.beq (name! "SHA1DC_ALLOW_UNALIGNED_ACCESS") x = false) : (d5 d).find x = d.find x := by
  refine Eq.trans ?_ (find4 h h1 h2)
  unfold d5
  cases cAligned (d4 d)
  · exact find_bif (cov4 h) _ unalM h3
  · rfl

end

/-- The names in the code, written out. -/
noncomputable def codeLexed : List (List GTok) :=
  ubcHLexed ++ sha1HLexed ++ ubcLexed ++ (sha1Lexed.take 5 ++ (sha1Lexed.drop 7).take 10 ++ sha1Lexed.drop 50)

theorem codeLexed_eq : codeLines = codeLexed := by
  unfold codeLines codeLexed
  rw [lexed_ubcH, lexed_sha1H, lexed_ubc, lexed_sha1]

/-- A name that does not occur, nor what is left of it without digits at its end. -/
noncomputable def clean : Nat → Nat → Bool
  | 0, _ => false
  | k + 1, x => !occurs x codeLexed && (bif Nat.ble 48 (x % 256) && Nat.ble (x % 256) 57 then clean k (x / 256) else true)

theorem not_code : ∀ {k x : Nat}, clean k x = true → ¬ Code x
  | 0, _, h, _ => by cases h
  | k + 1, x, h, hx => by
    unfold clean at h
    rw [Bool.and_eq_true] at h
    cases hx with
    | written hl hi =>
      rw [codeLexed_eq] at hl
      have h1 : occurs x codeLexed = false := by simpa using h.1
      exact not_occurs h1 _ hl hi
    | @digit n j hn hj =>
      have e1 : (256 * n + (48 + j)) % 256 = 48 + j := by omega
      have e2 : (256 * n + (48 + j)) / 256 = n := by omega
      have h2 := h.2
      rw [e1, e2] at h2
      have b1 : Nat.ble 48 (48 + j) = true := Nat.ble_eq_true_of_le (by omega)
      have b2 : Nat.ble (48 + j) 57 = true := Nat.ble_eq_true_of_le (by omega)
      rw [b1, b2] at h2
      exact not_code h2 hn

theorem clean_intel : clean 1 (name! "SHA1DC_ON_INTEL_LIKE_PROCESSOR") = true := by decide +kernel

theorem d5_same {d d' d0 : Defs} (s : Same Code d d0) (s' : Same Code d' d0)
    (nb : d.find (name! "SHA1DC_BIGENDIAN") = none) (nb' : d'.find (name! "SHA1DC_BIGENDIAN") = none)
    (nu : d.find (name! "SHA1DC_ALLOW_UNALIGNED_ACCESS") = none) (nu' : d'.find (name! "SHA1DC_ALLOW_UNALIGNED_ACCESS") = none)
    (hb : ((d5 d).find (name! "SHA1DC_BIGENDIAN")).isSome = ((d5 d').find (name! "SHA1DC_BIGENDIAN")).isSome)
    (hu : ((d5 d).find (name! "SHA1DC_ALLOW_UNALIGNED_ACCESS")).isSome = ((d5 d').find (name! "SHA1DC_ALLOW_UNALIGNED_ACCESS")).isSome) :
    Same Code (d5 d) (d5 d') := by
  have h := s.left
  have h' := s'.left
  have key : ∀ x, Code x → (d5 d).find x = (d5 d').find x ∧ ∀ m, (d5 d).find x = some m → In Code m.body := by
    intro x hx
    cases e1 : Nat.beq (name! "SHA1DC_BIGENDIAN") x with
    | true =>
      cases Nat.eq_of_beq_eq_true e1
      rcases shapeBE h nb with a | a <;> rcases shapeBE h' nb' with b | b <;> rw [a, b] at hb <;>
        first
        | (cases hb; done)
        | (rw [a, b]; exact ⟨rfl, fun m hm => by cases hm <;> exact .nil⟩)
    | false =>
    cases e2 : Nat.beq (name! "SHA1DC_ALLOW_UNALIGNED_ACCESS") x with
    | true =>
      cases Nat.eq_of_beq_eq_true e2
      rcases shapeU h nu with a | a <;> rcases shapeU h' nu' with b | b <;> rw [a, b] at hu <;>
        first
        | (cases hu; done)
        | (rw [a, b]; exact ⟨rfl, fun m hm => by cases hm <;> exact .nil⟩)
    | false =>
    cases e3 : Nat.beq (name! "SHA1DC_ON_INTEL_LIKE_PROCESSOR") x with
    | true =>
      cases Nat.eq_of_beq_eq_true e3
      exact absurd hx (not_code clean_intel)
    | false =>
    rw [find5 h e1 e3 e2, find5 h' e1 e3 e2]
    refine ⟨?_, fun m hm => s.bodyOf hx hm⟩
    rw [s.eq hx, s'.eq hx]
  refine ⟨cov5 h, cov5 h', fun x hx => ?_, fun x m hx hm => ?_⟩
  · rw [← find_eq (cov5 h), ← find_eq (cov5 h')]
    exact (key x hx).1
  · rw [← find_eq (cov5 h)] at hm
    exact (key x hx).2 m hm

/-- The names that the detection asks for (cgo/sha1.c:31-133). -/
def detNames : List String :=
  ["SHA1DC_ON_INTEL_LIKE_PROCESSOR", "SHA1DC_BIGENDIAN", "SHA1DC_ALLOW_UNALIGNED_ACCESS", "SHA1DC_FORCE_LITTLEENDIAN",
   "SHA1DC_FORCE_BIGENDIAN", "SHA1DC_FORCE_ALIGNED_ACCESS", "SHA1DC_FORCE_UNALIGNED_ACCESS", "__BYTE_ORDER__",
   "__ORDER_BIG_ENDIAN__", "__BYTE_ORDER", "__BIG_ENDIAN", "_BYTE_ORDER", "_BIG_ENDIAN", "_LITTLE_ENDIAN", "_AIX", "__hpux"] ++
  Model.C.intelNames ++ Model.C.bigEndianCpus

open Verif.Model.C in
theorem det_congr {e e' : Macros} (h : ∀ s ∈ detNames, e s = e' s) :
    macroBE e = macroBE e' ∧ macroUnaligned e = macroUnaligned e' := by
  have hi : ∀ s ∈ detNames, e.isDef s = e'.isDef s := fun s hs => by unfold Macros.isDef; rw [h s hs]
  have hv : ∀ s ∈ detNames, e.val s = e'.val s := fun s hs => by unfold Macros.val; rw [h s hs]
  have a : ∀ {ss : List String}, (∀ s ∈ ss, s ∈ detNames) → ss.any e.isDef = ss.any e'.isDef := by
    intro ss hs
    induction ss with
    | nil => rfl
    | cons s ss ih =>
      rw [List.any_cons, List.any_cons, hi s (hs s (List.mem_cons_self ..)), ih fun s h => hs s (List.mem_cons_of_mem _ h)]
  have a1 := a (ss := intelNames) fun s hs => List.mem_append_left _ (List.mem_append_right _ hs)
  have a2 := a (ss := bigEndianCpus) fun s hs => List.mem_append_right _ hs
  unfold macroUnaligned macroBE detectBE onIntel
  rw [a1, a2, hi "SHA1DC_ON_INTEL_LIKE_PROCESSOR" (by decide), hi "SHA1DC_BIGENDIAN" (by decide),
    hi "SHA1DC_ALLOW_UNALIGNED_ACCESS" (by decide), hi "SHA1DC_FORCE_LITTLEENDIAN" (by decide), hi "SHA1DC_FORCE_BIGENDIAN" (by decide),
    hi "SHA1DC_FORCE_ALIGNED_ACCESS" (by decide), hi "SHA1DC_FORCE_UNALIGNED_ACCESS" (by decide), hi "__BYTE_ORDER__" (by decide),
    hi "__ORDER_BIG_ENDIAN__" (by decide), hi "__BYTE_ORDER" (by decide), hi "__BIG_ENDIAN" (by decide), hi "_BYTE_ORDER" (by decide),
    hi "_BIG_ENDIAN" (by decide), hi "_LITTLE_ENDIAN" (by decide), hi "_AIX" (by decide), hi "__hpux" (by decide),
    hv "__BYTE_ORDER__" (by decide), hv "__ORDER_BIG_ENDIAN__" (by decide), hv "__BYTE_ORDER" (by decide),
    hv "__BIG_ENDIAN" (by decide), hv "_BYTE_ORDER" (by decide), hv "_BIG_ENDIAN" (by decide)]
  exact ⟨rfl, rfl⟩

theorem det_kept : detNames.all (fun s => !occurs (code s) (ubcHLexed ++ sha1HLexed ++ (sha1Lexed.drop 9).take 8)) = true := by
  decide +kernel

theorem det_of {d d1 : Defs} (h : ∀ x, occurs x (ubcHLexed ++ sha1HLexed ++ (sha1Lexed.drop 9).take 8) = false → d1.find x = d.find x) :
    ∀ s ∈ detNames, d1.find (code s) = d.find (code s) := fun s hs => h _ (by
  have := List.all_eq_true.1 det_kept s hs
  simpa using this)

open Verif.Model.C in
/-- Two compilers that agree on the byte order and on unaligned access, and define no name of the code, read the same tokens. -/
theorem sha1_same {d d' : Defs} (h : Covered d) (h' : Covered d') (q : Quiet d) (q' : Quiet d')
    (nb : d.find (name! "SHA1DC_BIGENDIAN") = none) (nb' : d'.find (name! "SHA1DC_BIGENDIAN") = none)
    (nu : d.find (name! "SHA1DC_ALLOW_UNALIGNED_ACCESS") = none) (nu' : d'.find (name! "SHA1DC_ALLOW_UNALIGNED_ACCESS") = none)
    (hb : macroBE (macrosOf d) = macroBE (macrosOf d')) (hu : macroUnaligned (macrosOf d) = macroUnaligned (macrosOf d')) :
    preprocess headers 5000 ⟨d, []⟩ (lines sha1CLines) [] = preprocess headers 5000 ⟨d', []⟩ (lines sha1CLines) [] := by
  obtain ⟨n1, d0, out0, hr⟩ := quiet_run
  obtain ⟨a, s, e, k⟩ := hr d h q
  obtain ⟨a', s', e', k'⟩ := hr d' h' q'
  have m : ∀ {d d1 : Defs}, (∀ s ∈ detNames, d1.find (code s) = d.find (code s)) → ∀ s ∈ detNames, macrosOf d1 s = macrosOf d s := by
    intro d d1 hk s hs
    unfold macrosOf Defs.value
    rw [hk s hs]
  have c := det_congr (m (det_of k))
  have c' := det_congr (m (det_of k'))
  have fb : ∀ {d d1 : Defs}, (∀ s ∈ detNames, d1.find (code s) = d.find (code s)) →
      d1.find (name! "SHA1DC_BIGENDIAN") = d.find (name! "SHA1DC_BIGENDIAN") ∧
      d1.find (name! "SHA1DC_ALLOW_UNALIGNED_ACCESS") = d.find (name! "SHA1DC_ALLOW_UNALIGNED_ACCESS") :=
    fun hk => ⟨hk "SHA1DC_BIGENDIAN" (by decide), hk "SHA1DC_ALLOW_UNALIGNED_ACCESS" (by decide)⟩
  rw [e, e']
  refine preprocess_same (fun _ _ a b => .digit a b) code_files n1 _ _ ⟨d5_same s s' ((fb (det_of k)).1.trans nb)
    ((fb (det_of k')).1.trans nb') ((fb (det_of k)).2.trans nu) ((fb (det_of k')).2.trans nu') ?_ ?_, rfl⟩ code_rest
  · rw [macroBE_eq s.left, macroBE_eq s'.left, c.1, c'.1, hb]
  · rw [macroUnaligned_eq s.left, macroUnaligned_eq s'.left, c.2, c'.2, hu]

theorem occurs_code {x : Nat} (h : occurs x codeLexed = true) : Code x := by
  obtain ⟨l, hl, ht⟩ := List.any_eq_true.1 h
  obtain ⟨t, ht, he⟩ := List.any_eq_true.1 ht
  rw [← codeLexed_eq] at hl
  cases t with
  | id y => exact .written hl (Nat.eq_of_beq_eq_true he ▸ ht)
  | num => cases he
  | str => cases he
  | op => cases he

theorem code_be : Code (name! "SHA1DC_BIGENDIAN") := occurs_code (by decide +kernel)
theorem code_unal : Code (name! "SHA1DC_ALLOW_UNALIGNED_ACCESS") := occurs_code (by decide +kernel)

theorem findMacro_none {x : Nat} : ∀ {ms : List Macro}, (∀ m ∈ ms, m.name ≠ x) → findMacro x ms = none
  | [], _ => rfl
  | m :: ms, h => by
    have e : Nat.beq m.name x = false := by
      cases f : Nat.beq m.name x with
      | false => rfl
      | true => exact absurd (Nat.eq_of_beq_eq_true f) (h m (List.mem_cons_self ..))
    rw [findMacro, e, cond_false]
    exact findMacro_none fun m hm => h m (List.mem_cons_of_mem _ hm)

/-- Macros whose names do not occur in the code are quiet. -/
theorem quiet_of {ms : List Macro} (h : ms.all (fun m => clean 4 m.name) = true) : ∀ x, Code x → findMacro x ms = none := by
  intro x hx
  refine findMacro_none ?_
  rintro m hm rfl
  exact not_code (List.all_eq_true.1 h m hm) hx

theorem quiet_defsOf {ms : List Macro} (h : ∀ x, Code x → findMacro x ms = none) : Quiet (defsOf ms) := fun x hx => by
  rw [find_eq (defsOf_macros ms).2, (defsOf_macros ms).1, h x hx]

open Verif.Model.C in
/-- Two compilers that agree on the byte order and on unaligned access, and define no name of the code, read the same program. -/
theorem readWith_same {ms : List Macro} {pre : List (Nat × Nat)} (q : ∀ x, Code x → findMacro x ms = none)
    (q' : ∀ x, Code x → findMacro x (numbers pre) = none)
    (hb : macroBE (macrosOf (defsOf ms)) = macroBE (macrosOf (defsOf (numbers pre))))
    (hu : macroUnaligned (macrosOf (defsOf ms)) = macroUnaligned (macrosOf (defsOf (numbers pre)))) : readWith ms = read pre := by
  have k := quiet_defsOf q
  have k' := quiet_defsOf q'
  have c := (defsOf_macros ms).2
  have c' := (defsOf_macros (numbers pre)).2
  have e1 := sha1_same c c' k k' (k _ code_be) (k' _ code_be) (k _ code_unal) (k' _ code_unal) hb hu
  have e2 := preprocess_same (fun _ _ a b => .digit a b) code_files 5000 (lines ubcCLines) []
    (p := ⟨defsOf ms, []⟩) (p' := ⟨defsOf (numbers pre), []⟩) ⟨quiet_same c c' k k', rfl⟩ code_ubc
  have t1 : tokensWith headers ms (lines sha1CLines) = tokens headers pre (lines sha1CLines) := by
    unfold tokensWith tokens
    rw [predefined_eq, e1]
    generalize preprocess headers 5000 ⟨defsOf (numbers pre), []⟩ (lines sha1CLines) [] = r
    cases r <;> rfl
  have t2 : tokensWith headers ms (lines ubcCLines) = tokens headers pre (lines ubcCLines) := by
    unfold tokensWith tokens
    rw [predefined_eq, e2]
    generalize preprocess headers 5000 ⟨defsOf (numbers pre), []⟩ (lines ubcCLines) [] = r
    cases r <;> rfl
  unfold readWith read
  rw [t1, t2]

end Verif.Source.C.Detect
