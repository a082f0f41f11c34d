import Verif.Proofs.Sim
import Verif.Spec.Object

namespace Verif

open Verif.Model Verif.Spec

theorem verdict_iff (P : Regs → Block → Prop) (H : Regs) (M : Block) :
    verdict P H M = true ↔ P H M := by
  unfold verdict; exact @decide_eq_true_iff _ (Classical.propDecidable _)

theorem detGo_eq : detGo = verdict GoDetected := by
  funext H M
  rw [Bool.eq_iff_iff, detGo_iff, verdict_iff]

theorem encode_checkpoint (H : Regs) (p : List Byte) (n : Nat) (hn : p.length = n) (len : Word64) :
    encode H (p ++ List.replicate (64 - n) 0) len = checkpoint H p len := by
  subst hn
  simp [encode, checkpoint, Magic]

theorem Holds.call {det : Regs → Block → Bool} {block : BlockFn} (hb : BlockImpl block det)
    {d : Digest} {m : List Byte} (h : Holds det d m) (op : Op) (hop : isRestore op = false) :
    ∃ d', d.call block op = .ok (d', result det m op) ∧ Holds det d' (msgAfter m op) := by
  cases op with
  | write p =>
    obtain ⟨d', w, h'⟩ := h.write hb p
    exact ⟨d', by simp [Digest.call, w, bind, Except.bind, pure, Except.pure, result], h'⟩
  | sum inp =>
    refine ⟨d, ?_, h⟩
    simp [Digest.call, sum_spec block det hb d h.1, bind, Except.bind, pure, Except.pure, result, h.finish]
  | collisionResistantSum inp =>
    refine ⟨d, ?_, h⟩
    simp [Digest.call, crs_spec block det hb d h.1, bind, Except.bind, pure, Except.pure, result, h.finish]
  | reset => exact ⟨d.reset, rfl, holds_reset det d⟩
  | size => exact ⟨d, rfl, h⟩
  | blockSize => exact ⟨d, rfl, h⟩
  | marshalBinary =>
    refine ⟨d, ?_, h⟩
    have hlt := h.1.lt
    have hH : d.h = (safeChain det H0 (blocks m)).1 := by
      have := congrArg Sp.h h.2.2
      simpa [Sp.absorb, absD] using this
    have hbuf : (absD d).buf = m.drop (64 * (m.length / 64)) := by
      have := congrArg Sp.buf h.2.2
      simpa [Sp.absorb, rem64] using this
    simp only [Digest.call, marshal_spec d (Nat.le_of_lt hlt), bind, Except.bind, pure, Except.pure, result]
    rw [encode_checkpoint _ _ _ (absD_buf_length d (Nat.le_of_lt hlt)), hH, hbuf, h.2.1]
  | unmarshalBinary b => simp [isRestore] at hop

theorem Holds.run {det : Regs → Block → Bool} {block : BlockFn} (hb : BlockImpl block det)
    (ops : List Op) (hops : ∀ op ∈ ops, isRestore op = false) {d : Digest} {m : List Byte}
    (h : Holds det d m) :
    ∃ d', d.run block ops = .ok (d', results det m ops) ∧ Holds det d' (ops.foldl msgAfter m) := by
  induction ops generalizing d m with
  | nil => exact ⟨d, rfl, h⟩
  | cons op ops ih =>
    obtain ⟨d1, c, h1⟩ := h.call hb op (hops op (by simp))
    obtain ⟨d2, r, h2⟩ := ih (fun o ho => hops o (by simp [ho])) h1
    refine ⟨d2, ?_, h2⟩
    simp [Digest.run, c, r, bind, Except.bind, pure, Except.pure, results]

/-- Where a flag comes from. -/
theorem safeChain_flag (det : Regs → Block → Bool) (H : Regs) (Ms : List Block) :
    (safeChain det H Ms).2 = true ↔
      ∃ pre M post, Ms = pre ++ M :: post ∧ det (safeChain det H pre).1 M = true := by
  induction Ms generalizing H with
  | nil => simp [safeChain]
  | cons N Ns ih =>
    simp only [safeChain, Bool.or_eq_true, ih]
    constructor
    · rintro (h | ⟨pre, M, post, e, h⟩)
      · exact ⟨[], N, Ns, rfl, by simpa [safeChain] using h⟩
      · exact ⟨N :: pre, M, post, by rw [e]; rfl, by simpa [safeChain] using h⟩
    · rintro ⟨pre, M, post, e, h⟩
      cases pre with
      | nil => simp only [List.nil_append, List.cons.injEq] at e; left; rw [e.1]; simpa [safeChain] using h
      | cons P pre =>
        simp only [List.cons_append, List.cons.injEq] at e
        right
        refine ⟨pre, M, post, e.2, ?_⟩
        rw [e.1]; simpa [safeChain] using h

theorem safeChain_unflagged (det : Regs → Block → Bool) (H : Regs) (Ms : List Block)
    (h : (safeChain det H Ms).2 = false) : (safeChain det H Ms).1 = Ms.foldl compress H := by
  induction Ms generalizing H with
  | nil => rfl
  | cons N Ns ih =>
    simp only [safeChain, Bool.or_eq_false_iff] at h
    have hs : safeCompress det H N = compress H N := by simp [safeCompress, h.1]
    rw [hs] at h
    simp only [safeChain, hs, List.foldl_cons]
    exact ih _ h.2

theorem safeHash_unflagged (det : Regs → Block → Bool) (m : List Byte)
    (h : (safeHash det m).2 = false) : (safeHash det m).1 = sha1 m := by
  unfold safeHash sha1 at *
  simp only at *
  rw [safeChain_unflagged det H0 _ h]

theorem blocks_pad_prefix (m : List Byte) : ∃ tail, blocks (pad m) = blocks m ++ tail := by
  rw [pad_eq]
  exact ⟨_, blocks_append_rem m _⟩

end Verif
