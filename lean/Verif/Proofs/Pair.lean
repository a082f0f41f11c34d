import Verif.Proofs.Check

/-! Both halves of a pair: the difference is nonzero and the bit conditions are symmetric. -/

namespace Verif

open Verif.Model Verif.Spec

theorem TableOk.get {k : Nat} {dvs : List DV} {es : List DvInfo} (h : TableOk k dvs es) :
    ∀ {j : Nat} {dv : DV}, dvs[j]? = some dv → ∃ e, es[j]? = some e ∧ EntryOk (k + j) dv e := by
  induction h with
  | nil => intro j dv h; simp at h
  | cons k dv e dvs es he _ ih =>
    intro j dv' h
    cases j with
    | zero => simp at h; subst h; exact ⟨e, rfl, he⟩
    | succ j =>
      obtain ⟨e', h1, h2⟩ := ih (j := j) (by simpa using h)
      exact ⟨e', by simpa using h1, by rwa [show k + (j + 1) = k + 1 + j by omega]⟩

theorem entry_of {k : Nat} {dv : DV} (h : dvList[k]? = some dv) :
    ∃ e, sha1Dvs[k]? = some e ∧ EntryOk k dv e := by
  obtain ⟨e, h1, h2⟩ := sha1Dvs_ok.get h
  exact ⟨e, h1, by rwa [Nat.zero_add] at h2⟩

theorem dv_facts {k : Nat} {dv : DV} (h : dvList[k]? = some dv) :
    (dv.T = 58 ∨ dv.T = 65) ∧ dv.K + 16 ≤ 80 := dvList_T dv (List.mem_of_getElem? h)

theorem dv_lt {k : Nat} {dv : DV} (h : dvList[k]? = some dv) : k < 32 := by
  have := (List.getElem?_eq_some_iff.mp h).1
  rwa [dvList_length] at this

/-- Every difference of the table changes one of the sixteen message words. -/
def checkNonzero : Bool :=
  (sha1Dvs.take 32).all fun e => (List.range 16).any fun i => !(ext80 e.Dm i == 0)

theorem checkNonzero_ok : checkNonzero = true := by decide +kernel

theorem diff_nonzero {k : Nat} {dv : DV} (h : dvList[k]? = some dv) {δ : Nat → Word} (hδ : IsDiff dv δ) :
    ∃ i, i < 16 ∧ δ i ≠ 0 := by
  obtain ⟨e, he, hok⟩ := entry_of h
  have hmem : e ∈ sha1Dvs.take 32 := by
    have hk := dv_lt h
    have : (sha1Dvs.take 32)[k]? = some e := by rw [List.getElem?_take, if_pos hk, he]
    exact List.mem_of_getElem? this
  have hc := checkNonzero_ok
  unfold checkNonzero at hc
  simp only [List.all_eq_true, List.any_eq_true, List.mem_range, Bool.not_eq_true', beq_eq_false_iff_ne] at hc
  obtain ⟨i, hi, hne⟩ := hc e hmem
  exact ⟨i, hi, by rw [hδ.unique (dv_facts h).2 hok.diff i (by omega)]; exact hne⟩

theorem xorBlock_ne {k : Nat} {dv : DV} (h : dvList[k]? = some dv) {δ : Nat → Word} (hδ : IsDiff dv δ)
    (M : Block) : xorBlock M δ ≠ M := by
  intro he
  obtain ⟨i, hi, hne⟩ := diff_nonzero h hδ
  have := congrFun he ⟨i, hi⟩
  simp only [xorBlock] at this
  apply hne
  have h2 := congrArg (M ⟨i, hi⟩ ^^^ ·) this
  simpa [← BitVec.xor_assoc] using h2

theorem xorBlock_invol (M : Block) (δ : Nat → Word) : xorBlock (xorBlock M δ) δ = M := by
  funext i; simp [xorBlock, BitVec.xor_assoc]

/-- The difference of the `k`-th table entry flips both or neither of the two bits of each condition. -/
def checkSymm : List (List BitCond) → List DvInfo → Bool
  | cs :: css, e :: es =>
    (cs.all fun q => (ext80 e.Dm q.w).getLsbD q.i == (ext80 e.Dm q.v).getLsbD q.j &&
      Nat.blt q.w 80 && Nat.blt q.v 80) && checkSymm css es
  | [], _ => true
  | _ :: _, [] => false

theorem checkSymm_ok : checkSymm ubcTable sha1Dvs = true := by decide +kernel

theorem checkSymm_get : ∀ (css : List (List BitCond)) (es : List DvInfo), checkSymm css es = true →
    ∀ (k : Nat) (e : DvInfo) (q : BitCond), es[k]? = some e → q ∈ css.getD k [] →
      (ext80 e.Dm q.w).getLsbD q.i = (ext80 e.Dm q.v).getLsbD q.j ∧ q.w < 80 ∧ q.v < 80
  | [], _, _, k, e, q, _, hq => by simp at hq
  | _ :: _, [], h, _, _, _, _, _ => by simp [checkSymm] at h
  | cs :: css, e0 :: es, h, k, e, q, he, hq => by
    unfold checkSymm at h
    simp only [Bool.and_eq_true, List.all_eq_true, beq_iff_eq, Nat.blt_eq] at h
    cases k with
    | zero =>
      simp at he hq; subst he
      have := h.1 q hq
      exact ⟨this.1.1, this.1.2, this.2⟩
    | succ k => exact checkSymm_get css es h.2 k e q (by simpa using he) (by simpa using hq)

/-- The bit conditions hold for both blocks of a pair or for neither. -/
theorem ubc_symm {k : Nat} {dv : DV} (h : dvList[k]? = some dv) {δ : Nat → Word} (hδ : IsDiff dv δ)
    (M : Block) : ubcHolds k (sched (xorBlock M δ)) = ubcHolds k (sched M) := by
  obtain ⟨e, he, hok⟩ := entry_of h
  unfold ubcHolds
  have : ∀ q ∈ ubcTable.getD k [], q.holds (sched (xorBlock M δ)) = q.holds (sched M) := by
    intro q hq
    obtain ⟨hb, hw, hv⟩ := checkSymm_get _ _ checkSymm_ok k e q he hq
    unfold BitCond.holds
    rw [sched_xor hδ M _ hw, sched_xor hδ M _ hv, hδ.unique (dv_facts h).2 hok.diff _ hw,
      hδ.unique (dv_facts h).2 hok.diff _ hv]
    simp only [BitVec.getLsbD_xor]
    rw [hb]
    congr 1
    cases (sched M q.w).getLsbD q.i <;> cases (sched M q.v).getLsbD q.j <;>
      cases (ext80 e.Dm q.v).getLsbD q.j <;> rfl
  rw [List.all_eq, List.all_eq]
  congr 1
  apply propext
  constructor
  · intro h x hx; rw [← this x hx]; exact h x hx
  · intro h x hx; rw [this x hx]; exact h x hx

/-- A sibling relation read from the other side. -/
theorem sibling_symm {dv : DV} {H H' : Regs} {M : Block} {δ : Nat → Word} (hδ : IsDiff dv δ)
    (h1 : steps (sched (xorBlock M δ)) dv.T H' = steps (sched M) dv.T H)
    (h2 : compress H' (xorBlock M δ) = compress H M) : Sibling dv H' (xorBlock M δ) :=
  ⟨δ, H, hδ, by rw [xorBlock_invol]; exact h1.symm, by rw [xorBlock_invol]; exact h2.symm⟩

/-- Moving five registers by two places fixes them only if they are all equal. -/
theorem shift2_fix (s : Regs) : shift2 s = s ↔ s.a = s.b ∧ s.b = s.c ∧ s.c = s.d ∧ s.d = s.e := by
  obtain ⟨a, b, c, d, e⟩ := s
  simp only [shift2, Regs.mk.injEq]
  constructor
  · rintro ⟨h1, h2, h3, h4, h5⟩; subst h1; subst h3; subst h5; subst h2; simp
  · rintro ⟨h1, h2, h3, h4⟩; subst h1; subst h2; subst h3; subst h4; simp

theorem regs_add_cancel {x y z : Regs} (h : x.add z = y.add z) : x = y := by
  obtain ⟨a, b, c, d, e⟩ := x
  obtain ⟨a', b', c', d', e'⟩ := y
  simp only [Regs.add, Regs.mk.injEq, BitVec.add_left_inj] at h ⊢
  exact h

end Verif
