import Verif.Proofs.CPure
import Verif.Proofs.GoUbc

/-!
Calls of the functions of `Proofs/CPure`: what the caller sees of a function that changes only what its parameters point to.
-/

namespace Verif.Source.Go

open Verif Verif.Source

/-- The memory with other contents of the frames. -/
def Mem.having (m : Mem) (fr : Nat → List Val) : Mem :=
  { m with cur := fr m.id, old := fun g => if g = m.id then m.old g else fr g }

theorem Mem.having_frame (m : Mem) (fr : Nat → List Val) : (m.having fr).frame = fr := by
  funext g
  by_cases h : g = m.id <;> simp [Mem.having, Mem.frame, h]

theorem Mem.having_self (m : Mem) : m.having m.frame = m := by
  cases m with
  | mk id cur old next =>
    simp only [Mem.having, Mem.frame, if_true, Mem.mk.injEq, true_and, and_true]
    funext g
    by_cases h : g = id <;> simp [h]

theorem Mem.having_having (m : Mem) (fr fr' : Nat → List Val) : (m.having fr).having fr' = m.having fr' := by
  cases m with
  | mk id cur old next =>
    simp only [Mem.having, Mem.mk.injEq, true_and, and_true]
    funext g
    by_cases h : g = id <;> simp [h]

theorem Mem.enter_old (m : Mem) (as : List Val) : (m.enter as).old = m.frame := by
  funext g
  simp [Mem.enter, Mem.frame]

theorem leave_having (m : Mem) (C : List Val) (fr : Nat → List Val) :
    m.leave ⟨m.next, C, fr, m.next + 1⟩ false = m.having fr := by
  simp [Mem.leave, Mem.having]

/-- A function that changes only what its parameters point to. -/
theorem runFunc_leaf {X : World} {F : Nat → Nat → List Val → Option (List Val)} (hr : Rights X F) {N : Nat} {f : Func}
    {b : Stmt} {vs C' : List Val} {D D' : List (Option Val)} {B : Nat → Loc} {m : Mem} (hb : f.body = some b)
    (hlen : ¬vs.length < f.params.length) (hp : passed f.params vs = vs) (hn : f.named = false) (hres : f.results = [])
    (ha : b.addrs = false) (h : rexec F b (D, vs) = some (D', C')) (hpl : Places D B m.frame m.next) (hpt : Points D B vs)
    (hold : ∀ k v, view D k = some v → look m.frame (B k) = .ok v) :
    runFunc X N f vs m = .ok ([], m.having (puts B D' m.frame)) := by
  have hx := (exec_rexec (next := m.next + 1) (B := B) (fr := m.frame) (i := m.next) hr N b (D, vs) (D', C') h ⟨hpl, hpt⟩).1
  have he : m.enter (passed f.params vs ++ (if f.named then f.results.map zero else [])) =
      memOf B m.frame m.next (m.next + 1) (D, vs) := by
    rw [hp, hn]
    simp only [Bool.false_eq_true, if_false, List.append_nil, memOf, puts_self hold]
    rw [← Mem.enter_old m vs]
    rfl
  rw [← he] at hx
  rw [runFunc_of hb hlen hx (by rw [hres]; rfl), ha]
  exact congrArg (fun x => Except.ok (([] : List Val), x)) (leave_having m C' _)

end Verif.Source.Go
