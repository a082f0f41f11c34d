import Verif.Spec.Par
import Verif.Proofs.Conc
import Verif.Proofs.Memory
import Verif.Proofs.CLoops
import Verif.Proofs.Object

/-! Interleaved accesses to objects of both packages, byte arrays and the table. -/

namespace Verif.Par

open Verif Verif.Model Verif.Model.C Verif.Model.Par Verif.Spec Verif.Spec.Par

/-! ### Running alone -/

/-- The code run without interference. -/
def alone {α : Type} (M : Memory) : Prog α → GoM (Memory × α)
  | .ret a => .ok (M, a)
  | .panic e => .error e
  | .rd l k => alone M (k (M.get l))
  | .wr l v k => alone (M.put l v) k

theorem alone_bind {α β : Type} (p : Prog α) (g : α → Prog β) : ∀ M : Memory,
    alone M (p >>= g) = alone M p >>= fun r => alone r.1 (g r.2) := by
  show ∀ M, alone M (p.bind g) = _
  induction p with
  | ret a => intro M; rfl
  | panic e => intro M; rfl
  | rd l k ih => intro M; exact ih _ _
  | wr l v k ih => intro M; exact ih _

theorem bind_ok {α β : Type} {p : Prog α} {M M' : Memory} {a : α} (h : alone M p = .ok (M', a)) (g : α → Prog β) :
    alone M (p >>= g) = alone M' (g a) := by
  rw [alone_bind, h]; rfl

theorem alone_pure {α : Type} (M : Memory) (a : α) : alone M (pure a : Prog α) = .ok (M, a) := rfl

theorem alone_rd (M : Memory) (l : Loc) : alone M (rd l) = .ok (M, M.get l) := rfl

theorem alone_wr (M : Memory) (l : Loc) (v : l.ty) : alone M (wr l v) = .ok (M.put l v, ()) := rfl

theorem alone_lift {α : Type} (M : Memory) (m : GoM α) : alone M (lift m) = m >>= fun a => .ok (M, a) := by
  cases m <;> rfl

/-- The code of package sha1cd. -/
theorem alone_embed {α : Type} (p : Conc.Prog α) : ∀ M : Memory,
    alone M (embed p) = Verif.Conc.alone M.go p >>= fun r => .ok ({ M with go := r.1 }, r.2) := by
  induction p with
  | ret a => intro M; rfl
  | panic e => intro M; rfl
  | rd o f k ih => intro M; exact ih _ _
  | wr o f v k ih => intro M; exact ih _

/-! ### Bytes and the table -/

/-- The memory as the specification sees its arrays. -/
def bytesOf (M : Memory) (a off n : Nat) : List Byte := (List.range n).map fun j => M.arr a (off + j)

theorem bytesOf_length (M : Memory) (a off n : Nat) : (bytesOf M a off n).length = n := by simp [bytesOf]

theorem bytesOf_succ (M : Memory) (a off n : Nat) : bytesOf M a off (n + 1) = M.arr a off :: bytesOf M a (off + 1) n := by
  unfold bytesOf
  rw [List.range_succ_eq_map, List.map_cons, List.map_map]
  refine congrArg (M.arr a off :: ·) (List.map_congr_left fun j _ => ?_)
  show M.arr a (off + (j + 1)) = M.arr a (off + 1 + j)
  congr 1; omega

theorem alone_rdBytes (M : Memory) (a n : Nat) : ∀ off, alone M (rdBytes a off n) = .ok (M, bytesOf M a off n) := by
  induction n with
  | zero => intro off; rfl
  | succ n ih =>
    intro off
    unfold rdBytes
    rw [bind_ok (alone_rd _ _), bind_ok (ih _), bytesOf_succ]
    rfl

theorem alone_rdSl (M : Memory) (s : Sl) : alone M (rdSl s) = .ok (M, bytesOf M s.arr s.off s.len) :=
  alone_rdBytes M _ _ _

theorem bytesOf_take (M : Memory) (a off n k : Nat) (h : k ≤ n) : (bytesOf M a off n).take k = bytesOf M a off k := by
  unfold bytesOf
  rw [← List.map_take, List.take_range, Nat.min_eq_left h]

theorem bytesOf_drop (M : Memory) (a n k : Nat) : ∀ off, (bytesOf M a off n).drop k = bytesOf M a (off + k) (n - k) := by
  induction k generalizing n with
  | zero => intro off; rfl
  | succ k ih =>
    intro off
    cases n with
    | zero => rw [Nat.zero_sub]; rfl
    | succ n =>
      rw [bytesOf_succ, List.drop_succ_cons, ih, Nat.succ_sub_succ]
      congr 1; omega

/-- `bs` stored in array `a` from position `off`. -/
def stored (M : Memory) (a off : Nat) (bs : List Byte) : Memory :=
  { M with arr := fun b j => if b = a ∧ off ≤ j ∧ j < off + bs.length then bs.getD (j - off) 0 else M.arr b j }

theorem stored_nil (M : Memory) (a off : Nat) : stored M a off [] = M := by
  unfold stored
  have : (fun b j => if b = a ∧ off ≤ j ∧ j < off + ([] : List Byte).length then ([] : List Byte).getD (j - off) 0
      else M.arr b j) = M.arr := by
    funext b j
    rw [if_neg]
    rintro ⟨_, h1, h2⟩
    simp at h2
    omega
  rw [this]

theorem stored_cons (M : Memory) (a off : Nat) (b : Byte) (bs : List Byte) :
    stored (M.put (.byte a off) b) a (off + 1) bs = stored M a off (b :: bs) := by
  unfold stored Memory.put
  simp only [Memory.mk.injEq, true_and, and_true]
  funext b' j
  by_cases hb : b' = a
  · subst hb
    by_cases hj : j = off
    · subst hj
      simp
      omega
    · by_cases h : off + 1 ≤ j ∧ j < off + 1 + bs.length
      · rw [if_pos ⟨rfl, h⟩, if_pos ⟨rfl, by simp; omega⟩]
        obtain ⟨k, hk⟩ : ∃ k, j - off = k + 1 := ⟨j - off - 1, by omega⟩
        rw [hk, show j - (off + 1) = k by omega]
        rfl
      · rw [if_neg (fun e => h e.2), if_neg (fun e => hj e.2), if_neg]
        rintro ⟨_, h1, h2⟩
        simp at h2
        omega
  · rw [if_neg (fun e => hb e.1), if_neg (fun e => hb e.1), if_neg (fun e => hb e.1)]

theorem alone_wrBytes (bs : List Byte) : ∀ (M : Memory) (a off : Nat),
    alone M (wrBytes a off bs) = .ok (stored M a off bs, ()) := by
  induction bs with
  | nil => intro M a off; rw [stored_nil]; rfl
  | cons b bs ih =>
    intro M a off
    unfold wrBytes
    rw [bind_ok (alone_wr _ _ _), ih, stored_cons]

theorem alone_rdDvs (M : Memory) (n : Nat) : ∀ i,
    alone M (rdDvs i n) = .ok (M, (List.range n).map fun j => M.dv (i + j)) := by
  induction n with
  | zero => intro i; rfl
  | succ n ih =>
    intro i
    unfold rdDvs
    rw [bind_ok (alone_rd _ _), bind_ok (ih _), List.range_succ_eq_map, List.map_cons, List.map_map]
    refine congrArg (fun l => Except.ok (M, M.dv i :: l)) (List.map_congr_left fun j _ => ?_)
    show M.dv (i + 1 + j) = M.dv (i + (j + 1))
    congr 1; omega

/-- The table is as it is in the source. -/
def TableOk (M : Memory) : Prop := ∀ i e, sha1Dvs[i]? = some e → M.dv i = e

theorem alone_rdTable {M : Memory} (h : TableOk M) : alone M rdTable = .ok (M, sha1Dvs) := by
  unfold rdTable
  rw [alone_rdDvs]
  congr 2
  refine List.ext_getElem (by simp) fun i h1 h2 => ?_
  rw [List.getElem_map, List.getElem_range, Nat.zero_add]
  exact h i _ (List.getElem?_eq_getElem h2)

/-- The memory and the slice after `append`. -/
def appended (M : Memory) (s : Sl) (bs : List Byte) (grow fresh : Nat) : Memory × Sl :=
  if s.len + bs.length ≤ s.cap then
    (stored M s.arr (s.off + s.len) bs, { s with len := s.len + bs.length })
  else
    (stored M fresh 0 (bytesOf M s.arr s.off s.len ++ bs ++ List.replicate grow 0),
      ⟨fresh, 0, s.len + bs.length, s.len + bs.length + grow⟩)

theorem alone_append (M : Memory) (s : Sl) (bs : List Byte) (grow fresh : Nat) :
    alone M (append s bs grow fresh) = .ok ((appended M s bs grow fresh).1, (appended M s bs grow fresh).2) := by
  unfold append appended
  split
  · rw [bind_ok (alone_wrBytes _ _ _ _)]; rfl
  · rw [bind_ok (alone_rdSl _ _), bind_ok (alone_wrBytes _ _ _ _)]; rfl

/-! ### Package cgo -/

/-- A changed object. -/
def setD (M : Memory) (o : Nat) (d : Cgo.Digest) : Memory := { M with cgo := fun q => if q = o then d else M.cgo q }

theorem setD_get (M : Memory) (o : Nat) (d : Cgo.Digest) : (setD M o d).cgo o = d := if_pos rfl

theorem setD_setD (M : Memory) (o : Nat) (d d' : Cgo.Digest) : setD (setD M o d) o d' = setD M o d' := by
  unfold setD
  simp only [Memory.mk.injEq, true_and, and_true]
  funext q
  split <;> rfl

theorem setD_self (M : Memory) (o : Nat) : setD M o (M.cgo o) = M := by
  unfold setD
  have : (fun q => if q = o then M.cgo o else M.cgo q) = M.cgo := by
    funext q
    split
    · rename_i h; rw [h]
    · rfl
  rw [this]

theorem setD_bytes (M : Memory) (o : Nat) (d : Cgo.Digest) (a off n : Nat) :
    bytesOf (setD M o d) a off n = bytesOf M a off n := rfl

theorem put_cgo (M : Memory) (o : Nat) (f : CField) (v : f.ty) :
    M.put (.cgo o f) v = setD M o (cput (M.cgo o) f v) := rfl

/-- A changed context. -/
def setC (M : Memory) (o : Nat) (c : Ctx) : Memory := setD M o { M.cgo o with ctx := c }

theorem setC_ctx (M : Memory) (o : Nat) (c : Ctx) : ((setC M o c).cgo o).ctx = c := by
  unfold setC; rw [setD_get]

theorem setC_setC (M : Memory) (o : Nat) (c c' : Ctx) : setC (setC M o c) o c' = setC M o c' := by
  unfold setC; rw [setD_setD, setD_get]

theorem setC_self (M : Memory) (o : Nat) : setC M o (M.cgo o).ctx = M := setD_self M o

theorem setC_bytes (M : Memory) (o : Nat) (c : Ctx) (a off n : Nat) :
    bytesOf (setC M o c) a off n = bytesOf M a off n := rfl

theorem alone_rdCtx (M : Memory) (o : Nat) : alone M (rdCtx o) = .ok (M, (M.cgo o).ctx) := rfl

theorem alone_wrCtx (M : Memory) (o : Nat) (c : Ctx) : alone M (wrCtx o c) = .ok (setC M o c, ()) := by
  unfold wrCtx setC
  simp only [bind_ok (alone_wr _ _ _), alone_wr, put_cgo, setD_setD, setD_get, cput]

theorem alone_process (cfg : Plat) (M : Memory) (o : Nat) (b : List Byte) :
    alone M (process cfg o b) = sha1_process cfg (M.cgo o).ctx b >>= fun c => .ok (setC M o c, ()) := by
  unfold process
  rw [bind_ok (alone_rdCtx _ _), alone_bind, alone_lift]
  cases sha1_process cfg (M.cgo o).ctx b with
  | error e => rfl
  | ok c => exact alone_wrCtx M o c

theorem alone_memcpy (M : Memory) (o off : Nat) (p : Sl) (n : Nat) (h : n ≤ p.len) :
    alone M (memcpy o off p n) = memcpyBuf (M.cgo o).ctx.buffer off ((bytesOf M p.arr p.off p.len).take n) >>= fun b =>
      .ok (setC M o { (M.cgo o).ctx with buffer := b }, ()) := by
  unfold memcpy
  rw [if_pos h, bind_ok (alone_rdBytes _ _ _ _), bind_ok (alone_rd _ _), alone_bind, alone_lift, bytesOf_take _ _ _ _ _ h]
  show (memcpyBuf (M.cgo o).ctx.buffer off _ >>= _) >>= _ = _
  cases memcpyBuf (M.cgo o).ctx.buffer off (bytesOf M p.arr p.off n) <;> rfl

theorem bind_total {β : Type} (M : Memory) (o : Nat) (k : Word64 → Prog β) :
    alone M (rd (.cgo o .total) >>= k) = alone M (k (M.cgo o).ctx.total) := rfl

theorem alone_total (M : Memory) (o : Nat) (v : Word64) :
    alone M (wr (.cgo o .total) v) = .ok (setC M o { (M.cgo o).ctx with total := v }, ()) := rfl

/-- `sha1_process(ctx, ctx->buffer)`. -/
theorem alone_procBuf {β : Type} (cfg : Plat) (M : Memory) (o : Nat) (k : Unit → Prog β) :
    alone M (rd (.cgo o .buffer) >>= fun (x : Buf) => process cfg o x.1 >>= k) =
      sha1_process cfg (M.cgo o).ctx (M.cgo o).ctx.buffer.1 >>= fun c => alone (setC M o c) (k ()) := by
  rw [bind_ok (alone_rd _ _)]
  show alone M (process cfg o (M.cgo o).ctx.buffer.1 >>= k) = _
  rw [alone_bind, alone_process]
  cases sha1_process cfg (M.cgo o).ctx (M.cgo o).ctx.buffer.1 <;> rfl

/-- `memcpy(ctx->buffer + off, buf, n)`. -/
theorem alone_memcpy_bind {β : Type} (M : Memory) (o off : Nat) (p : Sl) (n : Nat) (h : n ≤ p.len) (k : Unit → Prog β) :
    alone M (memcpy o off p n >>= k) =
      memcpyBuf (M.cgo o).ctx.buffer off ((bytesOf M p.arr p.off p.len).take n) >>= fun b =>
        alone (setC M o { (M.cgo o).ctx with buffer := b }) (k ()) := by
  rw [alone_bind, alone_memcpy _ _ _ _ _ h]
  cases memcpyBuf (M.cgo o).ctx.buffer off ((bytesOf M p.arr p.off p.len).take n) <;> rfl

theorem alone_updFill (cfg : Plat) (M : Memory) (o : Nat) (p : Sl) :
    alone M (Model.Par.updFill cfg o p) = C.updFill cfg (M.cgo o).ctx (bytesOf M p.arr p.off p.len) >>= fun r =>
      .ok (setC M o r.1, (Cgo.adv p (p.len - r.2.1.length), r.2.2)) := by
  unfold Model.Par.updFill C.updFill
  rw [bind_total]
  simp only [bytesOf_length]
  by_cases h : ((M.cgo o).ctx.total &&& 63).toNat ≠ 0 ∧ p.len ≥ 64 - ((M.cgo o).ctx.total &&& 63).toNat
  · rw [if_pos h, if_pos h, bind_total, bind_ok (alone_total _ _ _), alone_memcpy_bind _ _ _ _ _ h.2]
    simp only [setC_ctx, setC_bytes, setC_setC, bind_assoc]
    refine congrArg (Except.bind _) (funext fun b => ?_)
    refine (alone_procBuf cfg _ o _).trans ?_
    simp only [setC_ctx, setC_setC]
    refine congrArg (Except.bind _) (funext fun c => ?_)
    have e : p.len - (p.len - (64 - ((M.cgo o).ctx.total &&& 63).toNat)) = 64 - ((M.cgo o).ctx.total &&& 63).toNat := by
      omega
    show Except.ok (setC M o c, _) = Except.ok (setC M o c, _)
    simp only [List.length_drop, bytesOf_length, e]
  · rw [if_neg h, if_neg h]
    show Except.ok (M, (p, _)) = Except.ok (setC M o (M.cgo o).ctx, _)
    rw [setC_self]
    simp only [bytesOf_length, Nat.sub_self]
    rfl

theorem adv_bytes (M : Memory) (p : Sl) (n : Nat) :
    bytesOf M (Cgo.adv p n).arr (Cgo.adv p n).off (Cgo.adv p n).len = (bytesOf M p.arr p.off p.len).drop n :=
  (bytesOf_drop M _ _ _ _).symm

theorem alone_updBlock {β : Type} (cfg : Plat) (M : Memory) (o : Nat) (p : Sl) (h : 64 ≤ p.len) (k : Unit → Prog β) :
    alone M (updBlock cfg o p >>= k) =
      (if cfg.unaligned then
          sha1_process cfg { (M.cgo o).ctx with total := (M.cgo o).ctx.total + 64 } (bytesOf M p.arr p.off p.len)
        else do
          let b ← memcpyBuf (M.cgo o).ctx.buffer 0 ((bytesOf M p.arr p.off p.len).take 64)
          sha1_process cfg { (M.cgo o).ctx with total := (M.cgo o).ctx.total + 64, buffer := b } b.1) >>= fun c =>
        alone (setC M o c) (k ()) := by
  unfold updBlock
  rw [alone_bind, bind_total, bind_ok (alone_total _ _ _)]
  split
  · rw [bind_ok (alone_rdBytes _ _ _ _), alone_process, setC_bytes, setC_ctx, ← bytesOf_take _ _ _ _ _ h,
      CLoopProofs.process_take _ _ (Nat.le_refl _)]
    cases sha1_process cfg { (M.cgo o).ctx with total := (M.cgo o).ctx.total + 64 } (bytesOf M p.arr p.off p.len) with
    | error e => rfl
    | ok c =>
      show alone (setC (setC M o _) o c) (k ()) = alone (setC M o c) (k ())
      rw [setC_setC]
  · rw [alone_memcpy_bind _ _ _ _ _ h, setC_ctx, setC_bytes]
    simp only [bind_assoc]
    refine congrArg (Except.bind _) (funext fun b => ?_)
    show alone (setC (setC M o _) o _) (rd (.cgo o .buffer) >>= fun (x : Buf) => process cfg o x.1) >>= _ = _
    rw [setC_setC, bind_ok (alone_rd _ _)]
    refine (congrArg (Except.bind · _) (alone_process cfg _ o _)).trans ?_
    show (sha1_process cfg ((setC M o _).cgo o).ctx ((setC M o _).cgo o).ctx.buffer.1 >>= _) >>= _ = _
    simp only [setC_ctx, setC_setC, bind_assoc]
    rfl

theorem alone_updBulk (cfg : Plat) (o : Nat) : ∀ (n : Nat) (M : Memory) (p : Sl), p.len ≤ n →
    alone M (Model.Par.updBulk cfg o p) = C.updBulk cfg (M.cgo o).ctx (bytesOf M p.arr p.off p.len) >>= fun r =>
      .ok (setC M o r.1, Cgo.adv p (64 * (p.len / 64))) := by
  intro n
  induction n with
  | zero =>
    intro M p h
    have h0 : p.len = 0 := by omega
    unfold Model.Par.updBulk C.updBulk
    rw [if_neg (by omega), if_neg (by rw [bytesOf_length]; omega)]
    show Except.ok (M, p) = Except.ok (setC M o (M.cgo o).ctx, _)
    rw [setC_self, h0]
    rfl
  | succ n ih =>
    intro M p h
    unfold Model.Par.updBulk C.updBulk
    simp only [bytesOf_length]
    by_cases h64 : 64 ≤ p.len
    · rw [if_pos h64, if_pos h64, alone_updBlock _ _ _ _ h64]
      have key : ∀ c, alone (setC M o c) (Model.Par.updBulk cfg o (Cgo.adv p 64)) =
          C.updBulk cfg c ((bytesOf M p.arr p.off p.len).drop 64) >>= fun r =>
            .ok (setC M o r.1, Cgo.adv p (64 * (p.len / 64))) := by
        intro c
        rw [ih _ _ (by show p.len - 64 ≤ n; omega), adv_bytes, setC_ctx, setC_bytes]
        refine congrArg (Except.bind _) (funext fun r => ?_)
        rw [setC_setC]
        have e : Cgo.adv (Cgo.adv p 64) (64 * ((Cgo.adv p 64).len / 64)) = Cgo.adv p (64 * (p.len / 64)) := by
          unfold Cgo.adv
          simp only [Sl.mk.injEq, true_and]
          omega
        rw [e]
      simp only [key]
      by_cases hu : cfg.unaligned
      · simp only [hu, if_true, bind_assoc]
      · simp only [hu, if_false, bind_assoc, Bool.false_eq_true]
    · rw [if_neg h64, if_neg h64]
      show Except.ok (M, p) = Except.ok (setC M o (M.cgo o).ctx, _)
      rw [setC_self, show 64 * (p.len / 64) = 0 by omega]
      rfl

theorem updBulk_rest (cfg : Plat) : ∀ (n : Nat) (c : Ctx) (b : List Byte) (r : Ctx × List Byte), b.length ≤ n →
    C.updBulk cfg c b = .ok r → r.2 = b.drop (64 * (b.length / 64)) := by
  intro n
  induction n with
  | zero =>
    intro c b r h e
    unfold C.updBulk at e
    rw [if_neg (by omega)] at e
    cases e
    rw [show 64 * (b.length / 64) = 0 by omega]
    rfl
  | succ n ih =>
    intro c b r h e
    unfold C.updBulk at e
    split at e
    · rename_i h64
      simp only [bind, Except.bind] at e
      have fin : ∀ c', C.updBulk cfg c' (b.drop 64) = .ok r → r.2 = b.drop (64 * (b.length / 64)) := by
        intro c' e'
        rw [ih _ _ _ (by simp; omega) e', List.drop_drop, List.length_drop]
        congr 1; omega
      split at e
      · split at e
        · cases e
        · exact fin _ e
      · split at e
        · cases e
        · split at e
          · cases e
          · exact fin _ e
    · cases e
      rw [show 64 * (b.length / 64) = 0 by omega]
      rfl

theorem updFill_rest (cfg : Plat) (c : Ctx) (b : List Byte) (r : Ctx × List Byte × Nat)
    (e : C.updFill cfg c b = .ok r) : r.2.1 = b.drop (b.length - r.2.1.length) := by
  unfold C.updFill at e
  simp only at e
  split at e
  · rename_i h
    simp only [bind, Except.bind] at e
    split at e
    · cases e
    · split at e
      · cases e
      · cases e
        simp only [List.length_drop]
        congr 1; omega
  · cases e
    simp

theorem alone_updTail (M : Memory) (o : Nat) (p : Sl) (left : Nat) :
    alone M (Model.Par.updTail o p left) = C.updTail (M.cgo o).ctx (bytesOf M p.arr p.off p.len) left >>= fun c =>
      .ok (setC M o c, ()) := by
  unfold Model.Par.updTail C.updTail
  simp only [bytesOf_length]
  by_cases h : p.len > 0
  · rw [if_pos h, if_pos h, bind_total, bind_ok (alone_total _ _ _), alone_memcpy _ _ _ _ _ (Nat.le_refl _), setC_ctx,
      setC_bytes, List.take_of_length_le (by rw [bytesOf_length]; exact Nat.le_refl _)]
    simp only [bind_assoc]
    refine congrArg (Except.bind _) (funext fun b => ?_)
    rw [setC_setC]
    rfl
  · rw [if_neg h, if_neg h]
    show Except.ok (M, ()) = Except.ok (setC M o (M.cgo o).ctx, _)
    rw [setC_self]

theorem alone_update (cfg : Plat) (M : Memory) (o : Nat) (p : Sl) :
    alone M (update cfg o p) = SHA1DCUpdate cfg (M.cgo o).ctx (bytesOf M p.arr p.off p.len) >>= fun c =>
      .ok (setC M o c, ()) := by
  unfold update SHA1DCUpdate
  simp only [bytesOf_length]
  by_cases h : p.len = 0
  · rw [if_pos h, if_pos h]
    show Except.ok (M, ()) = Except.ok (setC M o (M.cgo o).ctx, _)
    rw [setC_self]
  · rw [if_neg h, if_neg h, alone_bind, alone_updFill]
    cases e1 : C.updFill cfg (M.cgo o).ctx (bytesOf M p.arr p.off p.len) with
    | error e => rfl
    | ok r1 =>
      have h1 := updFill_rest _ _ _ _ e1
      rw [bytesOf_length] at h1
      show alone (setC M o r1.1) (Model.Par.updBulk cfg o _ >>= fun q => Model.Par.updTail o q r1.2.2) = 
        (C.updBulk cfg r1.1 r1.2.1 >>= fun r => C.updTail r.1 r.2 r1.2.2) >>= _
      rw [alone_bind, alone_updBulk _ _ _ _ _ (Nat.le_refl _), adv_bytes, setC_ctx, setC_bytes, ← h1]
      cases e2 : C.updBulk cfg r1.1 r1.2.1 with
      | error e => rfl
      | ok r2 =>
        have h2 := updBulk_rest _ _ _ _ _ (Nat.le_refl _) e2
        show alone (setC (setC M o r1.1) o r2.1) (Model.Par.updTail o _ r1.2.2) = C.updTail r2.1 r2.2 r1.2.2 >>= _
        rw [alone_updTail, setC_setC, setC_ctx, setC_bytes, adv_bytes, adv_bytes, ← h1, h2]
        have e3 : (Cgo.adv p (p.len - r1.2.1.length)).len = r1.2.1.length := by
          have := congrArg List.length h1
          rw [List.length_drop, bytesOf_length] at this
          show p.len - (p.len - r1.2.1.length) = _
          omega
        rw [e3]
        refine congrArg (Except.bind _) (funext fun c => ?_)
        rw [setC_setC]

theorem alone_copy (M : Memory) (o : Nat) : alone M (copy o) = .ok (M, M.cgo o) := rfl

theorem alone_cgoReset (M : Memory) (o : Nat) : alone M (cgoReset o) = .ok (setD M o (M.cgo o).reset, .none) := by
  unfold cgoReset
  simp only [bind_ok (alone_wr _ _ _), alone_pure, put_cgo, setD_setD, setD_get, cput]
  rfl

/-! ### Actions, as the specification has them -/

/-- The memory is as the specification says: the objects hold the bytes written to them, and the table is as in the
source. -/
structure Agrees (det : Regs → Block → Bool) (M : Memory) (w : World) : Prop where
  go : ∀ o, Holds det (M.go o) (w.go o)
  cgo : ∀ o, HoldsCgo (M.cgo o) (w.cgo o)
  arr : M.arr = w.arr
  table : TableOk M

theorem Agrees.bytes {det : Regs → Block → Bool} {M : Memory} {w : World} (h : Agrees det M w) (s : Sl) :
    bytesOf M s.arr s.off s.len = w.bytes s := by
  unfold bytesOf World.bytes; rw [h.arr]

theorem Agrees.store {det : Regs → Block → Bool} {M : Memory} {w : World} (h : Agrees det M w) (a off : Nat)
    (bs : List Byte) : Agrees det (stored M a off bs) (w.store a off bs) := by
  refine ⟨h.go, h.cgo, ?_, h.table⟩
  unfold stored World.store
  simp only [h.arr]

theorem Agrees.append {det : Regs → Block → Bool} {M : Memory} {w : World} (h : Agrees det M w) (s : Sl)
    (bs : List Byte) (grow fresh : Nat) : Agrees det (appended M s bs grow fresh).1 (w.append s bs grow fresh).1 ∧
      (appended M s bs grow fresh).2 = (w.append s bs grow fresh).2 := by
  unfold appended World.append
  split
  · exact ⟨h.store _ _ _, rfl⟩
  · rw [h.bytes]; exact ⟨h.store _ _ _, rfl⟩

theorem Agrees.setGo {det : Regs → Block → Bool} {M : Memory} {w : World} (h : Agrees det M w) (o : Nat) (d : Digest)
    (m : List Byte) (hd : Holds det d m) :
    Agrees det { M with go := Verif.Model.Conc.Store.set M.go o d } { w with go := fun q => if q = o then m else w.go q } := by
  refine ⟨fun q => ?_, h.cgo, h.arr, h.table⟩
  show Holds det (if q = o then d else M.go q) (if q = o then m else w.go q)
  split
  · exact hd
  · exact h.go q

theorem Agrees.setCgo {det : Regs → Block → Bool} {M : Memory} {w : World} (h : Agrees det M w) (o : Nat)
    (d : Cgo.Digest) (m : List Byte) (hd : HoldsCgo d m) :
    Agrees det (setD M o d) { w with cgo := fun q => if q = o then m else w.cgo q } := by
  refine ⟨h.go, fun q => ?_, h.arr, h.table⟩
  show HoldsCgo (if q = o then d else M.cgo q) (if q = o then m else w.cgo q)
  split
  · exact hd
  · exact h.cgo q

theorem world_go_self (w : World) (o : Nat) : { w with go := fun q => if q = o then w.go o else w.go q } = w := by
  have : (fun q => if q = o then w.go o else w.go q) = w.go := by
    funext q
    split
    · rename_i h; rw [h]
    · rfl
  rw [this]

theorem go_self (M : Memory) (o : Nat) : { M with go := Verif.Model.Conc.Store.set M.go o (M.go o) } = M := by
  rw [Verif.Conc.set_self]

/-- A call on an object of package sha1cd, in its own memory. -/
theorem embed_call {det : Regs → Block → Bool} {block : BlockFn} (hb : BlockImpl block det) {M : Memory} {w : World}
    (h : Agrees det M w) (o : Nat) (op : Op) (hop : isRestore op = false) :
    ∃ d, alone M (embed (Verif.Model.Conc.call block o op)) =
        .ok ({ M with go := Verif.Model.Conc.Store.set M.go o d }, result det (w.go o) op) ∧
      Holds det d (msgAfter (w.go o) op) := by
  obtain ⟨d, r, hd⟩ := (h.go o).call hb op hop
  refine ⟨d, ?_, hd⟩
  rw [alone_embed, Verif.Conc.call_alone, r]
  rfl

/-- A call that only looks. -/
theorem embed_look {det : Regs → Block → Bool} {block : BlockFn} (hb : BlockImpl block det) {M : Memory} {w : World}
    (h : Agrees det M w) (o : Nat) (op : Op) (hop : op = .sum [] ∨ op = .collisionResistantSum [] ∨ op = .marshalBinary) :
    alone M (embed (Verif.Model.Conc.call block o op)) = .ok (M, result det (w.go o) op) := by
  have hr : isRestore op = false := by rcases hop with rfl | rfl | rfl <;> rfl
  obtain ⟨d, r, hd⟩ := (h.go o).call hb op hr
  have hs : d = M.go o := by
    have key : ∀ {α β : Type} (x : GoM α) (f : α → β) (d0 : Digest) (b : β), (x >>= fun v => pure (d0, f v)) =
        (Except.ok (d, b) : GoM _) → d = d0 := by
      intro α β x f d0 b e
      cases x with
      | error e' => cases e
      | ok v =>
        simp only [bind, Except.bind, pure, Except.pure, Except.ok.injEq, Prod.mk.injEq] at e
        exact e.1.symm
    rcases hop with rfl | rfl | rfl
    · unfold Digest.call Digest.sum at r
      simp only [bind_assoc, pure_bind] at r
      exact key _ (fun _ => _) _ _ r
    · unfold Digest.call Digest.collisionResistantSum at r
      simp only [bind_assoc, pure_bind] at r
      exact key _ (fun _ => _) _ _ r
    · unfold Digest.call Digest.marshalBinary at r
      simp only at r
      split at r
      · simp only [bind_assoc, pure_bind] at r
        exact key _ (fun _ => _) _ _ r
      · cases r
  rw [alone_embed, Verif.Conc.call_alone, r, hs]
  show Except.ok _ = _
  rw [go_self]

theorem goCall_spec {det : Regs → Block → Bool} {blk : List DvInfo → BlockFn} (hb : BlockImpl (blk sha1Dvs) det)
    {M : Memory} {w : World} (h : Agrees det M w) (o fresh : Nat) (op : MOp) (hop : ∀ b, op ≠ .unmarshalBinary b) :
    ∃ M', alone M (goCall blk o fresh op) = .ok (M', (goStep det w o fresh op).2) ∧
      Agrees det M' (goStep det w o fresh op).1 := by
  cases op with
  | write p =>
    obtain ⟨d, r, hd⟩ := embed_call hb h o (.write (w.bytes p)) rfl
    refine ⟨_, ?_, h.setGo o d _ hd⟩
    show alone M (goWrite blk o p) = _
    unfold goWrite
    rw [bind_ok (alone_rdSl _ _), bind_ok (alone_rdTable h.table), h.bytes]
    rw [bind_ok (show alone M (embed (Verif.Model.Conc.write (blk sha1Dvs) o (w.bytes p))) = _ from r)]
    simp [result, alone_pure, goStep, World.bytes]
  | sum inp grow =>
    have r := embed_look hb h o (.sum []) (.inl rfl)
    obtain ⟨a1, a2⟩ := h.append inp (safeHash det (w.go o)).1 grow fresh
    refine ⟨_, ?_, a1⟩
    show alone M (goSum blk o inp grow fresh) = _
    unfold goSum
    rw [bind_ok (alone_rdTable h.table), bind_ok (show alone M (embed (Verif.Model.Conc.sum (blk sha1Dvs) o [])) = _ from r)]
    simp only [result, List.nil_append]
    rw [bind_ok (alone_append _ _ _ _ _), alone_pure, a2]
    rfl
  | collisionResistantSum inp grow =>
    have r := embed_look hb h o (.collisionResistantSum []) (.inr (.inl rfl))
    obtain ⟨a1, a2⟩ := h.append inp (safeHash det (w.go o)).1 grow fresh
    refine ⟨_, ?_, a1⟩
    show alone M (goCrs blk o inp grow fresh) = _
    unfold goCrs
    rw [bind_ok (alone_rdTable h.table),
      bind_ok (show alone M (embed (Verif.Model.Conc.collisionResistantSum (blk sha1Dvs) o [])) = _ from r)]
    simp only [result, List.nil_append]
    rw [bind_ok (alone_append _ _ _ _ _), alone_pure, a2]
    rfl
  | reset =>
    obtain ⟨d, r, hd⟩ := embed_call hb h o .reset rfl
    refine ⟨_, ?_, h.setGo o d _ hd⟩
    show alone M (embed (Verif.Model.Conc.reset o) >>= fun _ => pure Res.none) = _
    rw [bind_ok (show alone M (embed (Verif.Model.Conc.reset o)) = _ from r), alone_pure]
    rfl
  | size => exact ⟨M, rfl, h⟩
  | blockSize => exact ⟨M, rfl, h⟩
  | marshalBinary grow =>
    have r := embed_look hb h o .marshalBinary (.inr (.inr rfl))
    refine ⟨_, ?_, h.store fresh 0 _⟩
    show alone M (goMarshal o fresh) = _
    unfold goMarshal
    rw [bind_ok (show alone M (embed (Verif.Model.Conc.marshalBinary o)) = _ from r)]
    simp only [result]
    rw [bind_ok (alone_wrBytes _ _ _ _), alone_pure]
    rfl
  | unmarshalBinary b => exact absurd rfl (hop b)

theorem cgoCall_spec {det : Regs → Block → Bool} (cfg : Cfg)
    {M : Memory} {w : World} (h : Agrees det M w) (o fresh : Nat) (op : Cgo.CMOp) :
    ∃ M', alone M (cgoCall cfg o fresh op) = .ok (M', (cgoStep C.cVerdict w o fresh op).2) ∧
      Agrees det M' (cgoStep C.cVerdict w o fresh op).1 := by
  cases op with
  | write p =>
    show ∃ M', alone M (cgoWrite cfg o p) = _ ∧ _
    unfold cgoWrite
    by_cases h0 : p.len = 0
    · rw [if_pos h0]
      refine ⟨M, ?_, ?_⟩
      · rw [alone_pure]
        simp [cgoStep, h0]
      · have e : (cgoStep C.cVerdict w o fresh (.write p)).1 = w := by
          simp only [cgoStep, World.bytes, h0, List.range_zero, List.map_nil, List.append_nil]
          have : (fun q => if q = o then w.cgo o else w.cgo q) = w.cgo := by
            funext q
            split
            · rename_i h; rw [h]
            · rfl
          rw [this]
        rw [e]
        exact h
    · obtain ⟨c, r, hc⟩ := C.HoldsC.update cfg (h.cgo o) (w.bytes p)
      rw [if_neg h0]
      refine ⟨setD M o { M.cgo o with ctx := c }, ?_, h.setCgo o _ _ hc⟩
      rw [bind_ok (show alone M (update cfg o p) = .ok (setC M o c, ()) by rw [alone_update, h.bytes, r]; rfl), alone_pure]
      rfl
  | sum inp grow =>
    obtain ⟨d', r⟩ := (h.cgo o).sum0 cfg
    obtain ⟨a1, a2⟩ := h.append inp (safeHash C.cVerdict (w.cgo o)).1 grow fresh
    refine ⟨_, ?_, a1⟩
    show alone M (cgoSum cfg o inp grow fresh) = _
    unfold cgoSum
    rw [bind_ok (alone_copy _ _), bind_ok (show alone M (lift ((M.cgo o).sum0 cfg)) = .ok (M, _) by rw [r]; rfl)]
    simp only
    rw [bind_ok (alone_append _ _ _ _ _), alone_pure, a2]
    rfl
  | collisionResistantSum inp grow =>
    obtain ⟨d', r⟩ := (h.cgo o).sum0 cfg
    obtain ⟨a1, a2⟩ := h.append inp (safeHash C.cVerdict (w.cgo o)).1 grow fresh
    refine ⟨_, ?_, a1⟩
    show alone M (cgoCrs cfg o inp grow fresh) = _
    unfold cgoCrs
    rw [bind_ok (alone_copy _ _), bind_ok (show alone M (lift ((M.cgo o).sum0 cfg)) = .ok (M, _) by rw [r]; rfl)]
    simp only
    rw [bind_ok (alone_append _ _ _ _ _), alone_pure, a2]
    rfl
  | reset => exact ⟨_, alone_cgoReset M o, h.setCgo o _ _ (holdsCgo_reset _)⟩
  | size => exact ⟨M, rfl, h⟩
  | blockSize => exact ⟨M, rfl, h⟩

theorem act_spec {det : Regs → Block → Bool} {blk : List DvInfo → BlockFn} (hb : BlockImpl (blk sha1Dvs) det) (cfg : Cfg)
    {M : Memory} {w : World} (h : Agrees det M w) (a : Act) (ha : Covered a = true) :
    ∃ M', alone M (a.prog blk cfg) = .ok (M', (Spec.Par.step det C.cVerdict w a).2) ∧
      Agrees det M' (Spec.Par.step det C.cVerdict w a).1 := by
  cases a with
  | go o op fresh =>
    refine goCall_spec hb h o fresh op fun b e => ?_
    subst e
    cases ha
  | goSum data =>
    refine ⟨M, ?_, h⟩
    show alone M (goSumPkg blk data) = _
    unfold goSumPkg
    rw [bind_ok (alone_rdSl _ _), bind_ok (alone_rdTable h.table), h.bytes,
      bind_ok (show alone M (lift (sumPkg (blk sha1Dvs) .callFirst (w.bytes data))) =
        .ok (M, safeHash det (w.bytes data)) by rw [sumPkg_call hb]; rfl)]
    rfl
  | cgo o op fresh => exact cgoCall_spec cfg h o fresh op
  | cgoSum data fresh =>
    refine ⟨_, ?_, h.store fresh 0 _⟩
    show alone M (cgoSumPkg cfg data fresh) = _
    unfold cgoSumPkg
    rw [bind_ok (alone_rdSl _ _), h.bytes,
      bind_ok (show alone M (lift (Cgo.sumPkg cfg (w.bytes data))) = .ok (M, safeHash C.cVerdict (w.bytes data)) by
        rw [cgo_sumPkg]; rfl)]
    simp only
    rw [bind_ok (alone_wrBytes _ _ _ _), alone_pure]
    rfl
  | peek a i => 
    refine ⟨M, ?_, h⟩
    show Except.ok (M, Res.byte (M.arr a i)) = Except.ok (M, Res.byte (w.arr a i))
    rw [h.arr]
  | poke a i b =>
    refine ⟨stored M a i [b], ?_, h.store a i [b]⟩
    show alone M (wr (.byte a i) b >>= fun _ => pure Res.none) = _
    rw [bind_ok (alone_wr _ _ _), alone_pure, ← stored_cons, stored_nil]
    rfl
  | setDv i e => cases ha

theorem acts_spec {det : Regs → Block → Bool} {blk : List DvInfo → BlockFn} (hb : BlockImpl (blk sha1Dvs) det) (cfg : Cfg) :
    ∀ (cs : List Act) {M : Memory} {w : World}, Agrees det M w → (∀ a ∈ cs, Covered a = true) →
      ∃ M', alone M (goroutine blk cfg cs) = .ok (M', (Spec.Par.steps det C.cVerdict w cs).2) ∧
        Agrees det M' (Spec.Par.steps det C.cVerdict w cs).1
  | [], M, w, h, _ => ⟨M, rfl, h⟩
  | a :: cs, M, w, h, hc => by
    obtain ⟨M1, r1, h1⟩ := act_spec hb cfg h a (hc a (by simp))
    obtain ⟨M2, r2, h2⟩ := acts_spec hb cfg cs h1 fun b hb' => hc b (by simp [hb'])
    refine ⟨M2, ?_, h2⟩
    unfold goroutine
    rw [bind_ok r1, bind_ok r2, alone_pure]
    rfl

/-! ### What the code touches -/

/-- The thing a location is part of. -/
def _root_.Verif.Model.Par.Loc.thing : Loc → Thing
  | .go o _ => .go o
  | .cgo o _ => .cgo o
  | .byte a i => .byte a i
  | .dv i => .dv i

/-- The code reads things in `R` and writes things in `W` only, whatever values it finds, and what it returns
satisfies `Q`. -/
def Touches {α : Type} (R W : Thing → Prop) (Q : α → Prop) : Prog α → Prop
  | .ret a => Q a
  | .panic _ => True
  | .rd l k => R l.thing ∧ ∀ v, Touches R W Q (k v)
  | .wr l _ k => W l.thing ∧ Touches R W Q k

theorem Touches.bind {α β : Type} {R W : Thing → Prop} {Q : α → Prop} {Q' : β → Prop} {p : Prog α} {g : α → Prog β}
    (hp : Touches R W Q p) (hg : ∀ a, Q a → Touches R W Q' (g a)) : Touches R W Q' (p >>= g) := by
  show Touches R W Q' (p.bind g)
  induction p with
  | ret a => exact hg a hp
  | panic e => trivial
  | rd l k ih => exact ⟨hp.1, fun v => ih v (hp.2 v)⟩
  | wr l v k ih => exact ⟨hp.1, ih hp.2⟩

theorem Touches.mono {α : Type} {R W R' W' : Thing → Prop} {Q Q' : α → Prop} (hR : ∀ t, R t → R' t)
    (hW : ∀ t, W t → W' t) (hQ : ∀ a, Q a → Q' a) {p : Prog α} (hp : Touches R W Q p) : Touches R' W' Q' p := by
  induction p with
  | ret a => exact hQ a hp
  | panic e => trivial
  | rd l k ih => exact ⟨hR _ hp.1, fun v => ih v (hp.2 v)⟩
  | wr l v k ih => exact ⟨hW _ hp.1, ih hp.2⟩

/-- Any value. -/
abbrev Any {α : Type} : α → Prop := fun _ => True

theorem touches_pure {α : Type} {R W : Thing → Prop} {Q : α → Prop} {a : α} (h : Q a) :
    Touches R W Q (pure a : Prog α) := h

theorem touches_rd {R W : Thing → Prop} (l : Loc) (h : R l.thing) : Touches R W Any (rd l) := ⟨h, fun _ => trivial⟩

theorem touches_wr {R W : Thing → Prop} (l : Loc) (v : l.ty) (h : W l.thing) : Touches R W Any (wr l v) := ⟨h, trivial⟩

theorem touches_lift {α : Type} {R W : Thing → Prop} {Q : α → Prop} {m : GoM α} (h : ∀ a, m = .ok a → Q a) :
    Touches R W Q (lift m) := by
  cases m with
  | ok a => exact h a rfl
  | error e => trivial

theorem touches_rdBytes {R W : Thing → Prop} (a n : Nat) : ∀ off, (∀ j, off ≤ j → j < off + n → R (.byte a j)) →
    Touches R W (fun l => l.length = n) (rdBytes a off n) := by
  induction n with
  | zero => intro off _; rfl
  | succ n ih =>
    intro off h
    unfold rdBytes
    refine (touches_rd _ (h off (Nat.le_refl _) (by omega))).bind fun b _ => ?_
    refine (ih (off + 1) fun j h1 h2 => h j (by omega) (by omega)).bind fun bs hbs => ?_
    show (b :: bs).length = n + 1
    rw [List.length_cons, hbs]

theorem touches_wrBytes {R W : Thing → Prop} (a : Nat) (bs : List Byte) : ∀ off,
    (∀ j, off ≤ j → j < off + bs.length → W (.byte a j)) → Touches R W Any (wrBytes a off bs) := by
  induction bs with
  | nil => intro off _; trivial
  | cons b bs ih =>
    intro off h
    unfold wrBytes
    refine (touches_wr (.byte a off) b (h off (Nat.le_refl _) (by simp))).bind fun _ _ => ?_
    exact ih _ fun j h1 h2 => h j (by omega) (by simp; omega)

theorem touches_rdSl {R W : Thing → Prop} (s : Sl) (h : ∀ t, InSlice s t → R t) : Touches R W Any (rdSl s) :=
  (touches_rdBytes _ _ _ fun j h1 h2 => h _ ⟨rfl, h1, h2⟩).mono (fun _ h => h) (fun _ h => h) fun _ _ => trivial

theorem touches_rdDvs {R W : Thing → Prop} (h : ∀ t, InTable t → R t) (n : Nat) : ∀ i, Touches R W Any (rdDvs i n) := by
  induction n with
  | zero => intro i; trivial
  | succ n ih =>
    intro i
    unfold rdDvs
    refine (touches_rd (.dv i) (h (.dv i) trivial)).bind fun _ _ => (ih _).bind fun _ _ => trivial

theorem touches_rdTable {R W : Thing → Prop} (h : ∀ t, InTable t → R t) : Touches R W Any rdTable := touches_rdDvs h _ _

theorem touches_append {R W : Thing → Prop} (s : Sl) (bs : List Byte) (hb : bs.length = 20) (grow fresh : Nat)
    (hr : ∀ t, AppendLooks s t → R t) (hw : ∀ t, AppendChanges s fresh t → W t) :
    Touches R W Any (append s bs grow fresh) := by
  unfold append
  rw [hb]
  split
  · rename_i h
    refine (touches_wrBytes _ _ _ fun _ h1 h2 => hw _ ?_).bind fun _ _ => trivial
    show if _ then _ else _
    rw [if_pos h]
    exact ⟨rfl, h1, by omega⟩
  · rename_i h
    refine (touches_rdSl s fun t ht => hr t ⟨h, ht⟩).bind fun _ _ => ?_
    refine (touches_wrBytes _ _ _ fun j h1 h2 => hw _ ?_).bind fun _ _ => trivial
    show if _ then _ else _
    rw [if_neg h]

/-- The code of package sha1cd. -/
theorem touches_embed {α : Type} {R W : Thing → Prop} {p : Verif.Model.Conc.Prog α}
    (h : Verif.Conc.Touches (fun o => R (.go o)) (fun o => W (.go o)) p) : Touches R W Any (embed p) := by
  induction p with
  | ret a => trivial
  | panic e => trivial
  | rd o f k ih => exact ⟨h.1, fun v => ih v (h.2 v)⟩
  | wr o f v k ih => exact ⟨h.1, ih h.2⟩

theorem embed_bind {α β : Type} (p : Verif.Model.Conc.Prog α) (g : α → Verif.Model.Conc.Prog β) :
    embed (p >>= g) = embed p >>= fun a => embed (g a) := by
  show embed (p.bind g) = (embed p).bind _
  induction p with
  | ret a => rfl
  | panic e => rfl
  | rd o f k ih => exact congrArg (Prog.rd (.go o f)) (funext ih)
  | wr o f v k ih => exact congrArg (Prog.wr (.go o f) v) ih

theorem putAt_length {l l' : List Byte} {off : Nat} {bs : List Byte} (h : putAt l off bs = .ok l') :
    l'.length = l.length := by
  obtain ⟨h1, rfl⟩ := putAt_inv h
  exact splice_length h1

/-- A digest has 20 bytes. -/
theorem checkSum_length (block : BlockFn) (d d' : Digest) (b : List Byte) (h : d.checkSum block = .ok (d', b)) :
    b.length = 20 := by
  unfold Digest.checkSum at h
  simp only [bind, Except.bind] at h
  split at h
  · cases h
  · split at h
    · cases h
    · split at h
      · cases h
      · split at h
        · cases h
        · rename_i b1 e1
          split at h
          · cases h
          · rename_i b2 e2
            split at h
            · cases h
            · rename_i b3 e3
              split at h
              · cases h
              · rename_i b4 e4
                split at h
                · cases h
                · rename_i b5 e5
                  cases h
                  rw [putAt_length e5, putAt_length e4, putAt_length e3, putAt_length e2, putAt_length e1]
                  rfl

/-- The digests `Sum` and `CollisionResistantSum` append have 20 bytes. -/
def Hash20 : Out → Prop
  | .sum b => b.length = 20
  | .collisionResistantSum b _ => b.length = 20
  | _ => True

theorem embed_lift {α : Type} (m : GoM α) : embed (Verif.Model.Conc.lift m) = lift m := by cases m <;> rfl

theorem touches_embed_sum {R W : Thing → Prop} (block : BlockFn) (o : Nat) (h : R (.go o)) :
    Touches R W Hash20 (embed (Verif.Model.Conc.sum block o [])) := by
  unfold Verif.Model.Conc.sum
  rw [embed_bind]
  refine (touches_embed (Verif.Conc.touches_copy h)).bind fun d0 _ => ?_
  rw [embed_bind, embed_lift]
  refine (touches_lift (Q := fun r => r.2.length = 20) fun r hr => checkSum_length _ _ r.1 r.2 hr).bind fun r hr => ?_
  exact hr

theorem touches_embed_crs {R W : Thing → Prop} (block : BlockFn) (o : Nat) (h : R (.go o)) :
    Touches R W Hash20 (embed (Verif.Model.Conc.collisionResistantSum block o [])) := by
  unfold Verif.Model.Conc.collisionResistantSum
  rw [embed_bind]
  refine (touches_embed (Verif.Conc.touches_copy h)).bind fun d0 _ => ?_
  rw [embed_bind, embed_lift]
  refine (touches_lift (Q := fun r => r.2.length = 20) fun r hr => checkSum_length _ _ r.1 r.2 hr).bind fun r hr => ?_
  exact hr

theorem gom_inv {α β : Type} {x : GoM α} {f : α → GoM β} {r : β} (h : (x >>= f) = .ok r) :
    ∃ a, x = .ok a ∧ f a = .ok r := by
  cases x with
  | ok a => exact ⟨a, rfl, h⟩
  | error e => cases h

theorem sum0_length (cfg : Plat) (d d' : Cgo.Digest) (b : List Byte) (c : Bool) (h : d.sum0 cfg = .ok (d', b, c)) :
    b.length = 20 := by
  obtain ⟨r, e, h⟩ := gom_inv (show (C.SHA1DCFinal cfg d.ctx >>= _) = _ from h)
  have hr : r.2.1.length = 20 := by
    unfold C.SHA1DCFinal at e
    dsimp only at e
    by_cases hp : (if (d.ctx.total &&& 63).setWidth 32 < (56 : Word) then (56 : Word) - (d.ctx.total &&& 63).setWidth 32
        else 120 - (d.ctx.total &&& 63).setWidth 32).toNat ≤ 64
    · rw [if_pos hp] at e
      obtain ⟨c1, _, e⟩ := gom_inv e
      obtain ⟨c2, _, e⟩ := gom_inv e
      obtain ⟨c3, _, e⟩ := gom_inv e
      cases e
      rfl
    · rw [if_neg hp] at e
      cases e
  dsimp only at h
  split at h <;> cases h <;> exact hr

theorem touches_goCall (blk : List DvInfo → BlockFn) (o fresh : Nat) (op : MOp) {R W : Thing → Prop}
    (hr : ∀ t, Looks (.go o op fresh) t → R t) (hw : ∀ t, Changes (.go o op fresh) t → W t) (hWR : ∀ t, W t → R t) :
    Touches R W Any (goCall blk o fresh op) := by
  cases op with
  | write p =>
    show Touches R W Any (goWrite blk o p)
    refine (touches_rdSl p fun t ht => hr t (.inr (.inl ht))).bind fun bs _ =>
      (touches_rdTable fun t ht => hr t (.inr (.inr ht))).bind fun T _ =>
      (touches_embed (Verif.Conc.touches_write (hr _ (.inl rfl)) (hw _ rfl) _ _)).bind fun r _ => ?_
    cases r <;> trivial
  | sum inp grow =>
    show Touches R W Any (goSum blk o inp grow fresh)
    refine (touches_rdTable fun t ht => hr t (.inr (.inr ht))).bind fun T _ =>
      (touches_embed_sum _ o (hr _ (.inl rfl))).bind fun r h20 => ?_
    cases r with
    | sum b =>
      exact (touches_append inp b h20 grow fresh (fun t ht => hr t (.inr (.inl ht))) fun t ht => hw t ht).bind
        fun _ _ => trivial
    | _ => trivial
  | collisionResistantSum inp grow =>
    show Touches R W Any (goCrs blk o inp grow fresh)
    refine (touches_rdTable fun t ht => hr t (.inr (.inr ht))).bind fun T _ =>
      (touches_embed_crs _ o (hr _ (.inl rfl))).bind fun r h20 => ?_
    cases r with
    | collisionResistantSum b c =>
      exact (touches_append inp b h20 grow fresh (fun t ht => hr t (.inr (.inl ht))) fun t ht => hw t ht).bind
        fun _ _ => trivial
    | _ => trivial
  | reset =>
    exact (touches_embed (p := Verif.Model.Conc.reset o) (Verif.Conc.touches_reset (hw _ rfl))).bind fun _ _ => trivial
  | size => trivial
  | blockSize => trivial
  | marshalBinary grow =>
    show Touches R W Any (goMarshal o fresh)
    refine (touches_embed (Verif.Conc.touches_marshal (hr _ rfl))).bind fun r _ => ?_
    cases r with
    | marshalBinary b e => exact (touches_wrBytes _ _ _ fun j _ _ => hw _ ⟨j, rfl⟩).bind fun _ _ => trivial
    | _ => trivial
  | unmarshalBinary b =>
    show Touches R W Any (goUnmarshal o b)
    refine (touches_rdSl b fun t ht => hr t ht).bind fun bs _ =>
      (touches_embed (Verif.Conc.touches_unmarshal (hWR _ (hw _ rfl)) (hw _ rfl) _)).bind fun r _ => ?_
    cases r <;> trivial

theorem touches_rdCtx {R W : Thing → Prop} (o : Nat) (h : R (.cgo o)) : Touches R W Any (rdCtx o) := by
  have r : ∀ f, Touches R W Any (rd (.cgo o f)) := fun f => touches_rd _ h
  exact (r _).bind fun _ _ => (r _).bind fun _ _ => (r _).bind fun _ _ => (r _).bind fun _ _ => (r _).bind fun _ _ =>
    (r _).bind fun _ _ => (r _).bind fun _ _ => (r _).bind fun _ _ => (r _).bind fun _ _ => (r _).bind fun _ _ =>
    (r _).bind fun _ _ => (r _).bind fun _ _ => (r _).bind fun _ _ => trivial

theorem touches_wrCtx {R W : Thing → Prop} (o : Nat) (c : Ctx) (h : W (.cgo o)) : Touches R W Any (wrCtx o c) := by
  have w : ∀ (f : CField) (v : f.ty), Touches R W Any (wr (.cgo o f) v) := fun f v => touches_wr (.cgo o f) v h
  exact (w _ _).bind fun _ _ => (w _ _).bind fun _ _ => (w _ _).bind fun _ _ => (w _ _).bind fun _ _ =>
    (w _ _).bind fun _ _ => (w _ _).bind fun _ _ => (w _ _).bind fun _ _ => (w _ _).bind fun _ _ =>
    (w _ _).bind fun _ _ => (w _ _).bind fun _ _ => (w _ _).bind fun _ _ => (w _ _).bind fun _ _ => w _ _

theorem touches_process {R W : Thing → Prop} (cfg : Plat) (o : Nat) (b : List Byte) (hr : R (.cgo o)) (hw : W (.cgo o)) :
    Touches R W Any (process cfg o b) :=
  (touches_rdCtx o hr).bind fun _ _ => (touches_lift (Q := Any) fun _ _ => trivial).bind fun _ _ => touches_wrCtx o _ hw

theorem touches_memcpy {R W : Thing → Prop} (o off : Nat) (p : Sl) (n : Nat) (hr : R (.cgo o)) (hw : W (.cgo o))
    (hp : ∀ t, InSlice p t → R t) : Touches R W Any (memcpy o off p n) := by
  unfold memcpy
  split
  · rename_i h
    refine (touches_rdBytes _ _ _ fun j h1 h2 => hp _ ⟨rfl, h1, by omega⟩).bind fun _ _ =>
      (touches_rd _ hr).bind fun _ _ => (touches_lift (Q := Any) fun _ _ => trivial).bind fun _ _ => touches_wr _ _ hw
  · trivial

theorem inSlice_adv {p : Sl} {n : Nat} {t : Thing} (h : InSlice (Cgo.adv p n) t) : InSlice p t := by
  cases t with
  | byte a i =>
    obtain ⟨h1, h2, h3⟩ := h
    refine ⟨h1, ?_, ?_⟩ <;> simp only [Cgo.adv] at h2 h3 <;> omega
  | _ => exact h

theorem touches_updFill {R W : Thing → Prop} (cfg : Plat) (o : Nat) (p : Sl) (hr : R (.cgo o)) (hw : W (.cgo o))
    (hp : ∀ t, InSlice p t → R t) :
    Touches R W (fun r => ∀ t, InSlice r.1 t → R t) (Model.Par.updFill cfg o p) := by
  unfold Model.Par.updFill
  refine (touches_rd (.cgo o .total) hr).bind fun total _ => ?_
  dsimp only
  by_cases hc : ((show Word64 from total) &&& 63).toNat ≠ 0 ∧ p.len ≥ 64 - ((show Word64 from total) &&& 63).toNat
  · refine (congrArg _ (if_pos hc)).mpr ?_
    refine (touches_rd _ hr).bind fun _ _ => (touches_wr _ _ hw).bind fun _ _ =>
      (touches_memcpy o _ p _ hr hw hp).bind fun _ _ => (touches_rd _ hr).bind fun _ _ =>
      (touches_process cfg o _ hr hw).bind fun _ _ => touches_pure fun t ht => hp t (inSlice_adv ht)
  · refine (congrArg _ (if_neg hc)).mpr ?_
    exact touches_pure hp

theorem touches_updBlock {R W : Thing → Prop} (cfg : Plat) (o : Nat) (p : Sl) (h64 : 64 ≤ p.len) (hr : R (.cgo o))
    (hw : W (.cgo o)) (hp : ∀ t, InSlice p t → R t) : Touches R W Any (updBlock cfg o p) := by
  unfold updBlock
  refine (touches_rd _ hr).bind fun total _ => (touches_wr _ _ hw).bind fun _ _ => ?_
  split
  · exact (touches_rdBytes _ _ _ fun j h1 h2 => hp _ ⟨rfl, h1, by omega⟩).bind fun _ _ => touches_process cfg o _ hr hw
  · exact (touches_memcpy o _ p _ hr hw hp).bind fun _ _ => (touches_rd _ hr).bind fun _ _ =>
      touches_process cfg o _ hr hw

theorem touches_updBulk {R W : Thing → Prop} (cfg : Plat) (o : Nat) (hr : R (.cgo o)) (hw : W (.cgo o)) : ∀ (n : Nat)
    (p : Sl), p.len ≤ n → (∀ t, InSlice p t → R t) →
      Touches R W (fun r => ∀ t, InSlice r t → R t) (Model.Par.updBulk cfg o p) := by
  intro n
  induction n with
  | zero =>
    intro p h hp
    unfold Model.Par.updBulk
    rw [if_neg (by omega)]
    exact touches_pure hp
  | succ n ih =>
    intro p h hp
    unfold Model.Par.updBulk
    split
    · rename_i h64
      exact (touches_updBlock cfg o p h64 hr hw hp).bind fun _ _ =>
        ih _ (by show p.len - 64 ≤ n; omega) fun t ht => hp t (inSlice_adv ht)
    · exact touches_pure hp

theorem touches_update {R W : Thing → Prop} (cfg : Plat) (o : Nat) (p : Sl) (hr : R (.cgo o)) (hw : W (.cgo o))
    (hp : ∀ t, InSlice p t → R t) : Touches R W Any (update cfg o p) := by
  unfold update
  split
  · trivial
  · refine (touches_updFill cfg o p hr hw hp).bind fun r h1 =>
      (touches_updBulk cfg o hr hw _ r.1 (Nat.le_refl _) h1).bind fun q h2 => ?_
    unfold Model.Par.updTail
    split
    · exact (touches_rd _ hr).bind fun _ _ => (touches_wr _ _ hw).bind fun _ _ => touches_memcpy o _ q _ hr hw h2
    · trivial

theorem touches_copy {R W : Thing → Prop} (o : Nat) (h : R (.cgo o)) : Touches R W Any (Model.Par.copy o) :=
  (touches_rdCtx o h).bind fun _ _ => (touches_rd (.cgo o .h) h).bind fun _ _ => trivial

theorem touches_cgoCall (cfg : Plat) (o fresh : Nat) (op : Cgo.CMOp) {R W : Thing → Prop}
    (hr : ∀ t, Looks (.cgo o op fresh) t → R t) (hw : ∀ t, Changes (.cgo o op fresh) t → W t) :
    Touches R W Any (cgoCall cfg o fresh op) := by
  cases op with
  | write p =>
    show Touches R W Any (cgoWrite cfg o p)
    unfold cgoWrite
    split
    · trivial
    · exact (touches_update cfg o p (hr _ (.inl rfl)) (hw _ rfl) fun t ht => hr t (.inr ht)).bind fun _ _ => trivial
  | sum inp grow =>
    show Touches R W Any (cgoSum cfg o inp grow fresh)
    have hc : R (.cgo o) := hr _ (.inl rfl)
    refine (touches_copy o hc).bind fun d _ => ?_
    refine (touches_lift (Q := fun r => r.2.1.length = 20) fun r h => sum0_length cfg _ r.1 r.2.1 r.2.2 h).bind fun r h20 => ?_
    exact (touches_append inp _ h20 grow fresh (fun t ht => hr t (.inr ht)) fun t ht => hw t ht).bind fun _ _ => trivial
  | collisionResistantSum inp grow =>
    show Touches R W Any (cgoCrs cfg o inp grow fresh)
    have hc : R (.cgo o) := hr _ (.inl rfl)
    refine (touches_copy o hc).bind fun d _ => ?_
    refine (touches_lift (Q := fun r => r.2.1.length = 20) fun r h => sum0_length cfg _ r.1 r.2.1 r.2.2 h).bind fun r h20 => ?_
    exact (touches_append inp _ h20 grow fresh (fun t ht => hr t (.inr ht)) fun t ht => hw t ht).bind fun _ _ => trivial
  | reset =>
    have w : ∀ (f : CField) (v : f.ty), Touches R W Any (wr (.cgo o f) v) := fun f v => touches_wr (.cgo o f) v (hw _ rfl)
    exact (w _ _).bind fun _ _ => (w _ _).bind fun _ _ => (w _ _).bind fun _ _ => (w _ _).bind fun _ _ =>
      (w _ _).bind fun _ _ => (w _ _).bind fun _ _ => (w _ _).bind fun _ _ => trivial
  | size => trivial
  | blockSize => trivial

theorem touches_act (blk : List DvInfo → BlockFn) (cfg : Plat) (a : Act) {R W : Thing → Prop}
    (hr : ∀ t, Looks a t → R t) (hw : ∀ t, Changes a t → W t) (hWR : ∀ t, W t → R t) :
    Touches R W Any (a.prog blk cfg) := by
  cases a with
  | go o op fresh => exact touches_goCall blk o fresh op hr hw hWR
  | goSum data =>
    exact (touches_rdSl data fun t ht => hr t (.inl ht)).bind fun _ _ =>
      (touches_rdTable fun t ht => hr t (.inr ht)).bind fun _ _ =>
      (touches_lift (Q := Any) fun _ _ => trivial).bind fun _ _ => trivial
  | cgo o op fresh => exact touches_cgoCall cfg o fresh op hr hw
  | cgoSum data fresh =>
    exact (touches_rdSl data fun t ht => hr t ht).bind fun _ _ =>
      (touches_lift (Q := Any) fun _ _ => trivial).bind fun r _ =>
      (touches_wrBytes _ _ _ fun j _ _ => hw _ ⟨j, rfl⟩).bind fun _ _ => trivial
  | peek a i => exact (touches_rd (.byte a i) (hr _ rfl)).bind fun _ _ => trivial
  | poke a i b => exact (touches_wr (.byte a i) b (hw _ rfl)).bind fun _ _ => trivial
  | setDv i e => exact (touches_wr (.dv i) e (hw _ rfl)).bind fun _ _ => trivial

theorem touches_goroutine (blk : List DvInfo → BlockFn) (cfg : Plat) (cs : List Act) :
    Touches (UsesL cs) (ChangesL cs) Any (goroutine blk cfg cs) := by
  suffices h : ∀ (R W : Thing → Prop), (∀ t, W t → R t) → ∀ cs : List Act, (∀ a ∈ cs, ∀ t, Looks a t → R t) →
      (∀ a ∈ cs, ∀ t, Changes a t → W t) → Touches R W Any (goroutine blk cfg cs) from
    h _ _ (fun t ⟨a, ha, h⟩ => ⟨a, ha, .inr h⟩) cs (fun a ha t h => ⟨a, ha, .inl h⟩) fun a ha t h => ⟨a, ha, h⟩
  intro R W hWR cs
  induction cs with
  | nil => intro _ _; trivial
  | cons a cs ih =>
    intro hr hw
    exact (touches_act blk cfg a (hr a (by simp)) (hw a (by simp)) hWR).bind fun _ _ =>
      (ih (fun b hb => hr b (by simp [hb])) fun b hb => hw b (by simp [hb])).bind fun _ _ => trivial

/-! ### Interleaving -/

theorem sameAt_refl (M : Memory) (t : Thing) : SameAt M M t := by cases t <;> rfl

theorem sameAt_trans {M M' M'' : Memory} {t : Thing} (h : SameAt M M' t) (h' : SameAt M' M'' t) : SameAt M M'' t := by
  cases t <;> exact Eq.trans h h'

theorem sameAt_symm {M M' : Memory} {t : Thing} (h : SameAt M M' t) : SameAt M' M t := by
  cases t <;> exact Eq.symm h

theorem sameAt_get {M M' : Memory} {l : Loc} (h : SameAt M M' l.thing) : M.get l = M'.get l := by
  cases l with
  | go o f => exact congrArg (Verif.Model.Conc.get · f) h
  | cgo o f => exact congrArg (cget · f) h
  | byte a i => exact h
  | dv i => exact h

theorem put_other (M : Memory) (l : Loc) (v : l.ty) {t : Thing} (h : t ≠ l.thing) : SameAt (M.put l v) M t := by
  cases l with
  | go o f =>
    cases t with
    | go q => exact if_neg fun e => h (congrArg Thing.go e)
    | _ => rfl
  | cgo o f =>
    cases t with
    | cgo q => exact if_neg fun e => h (congrArg Thing.cgo e)
    | _ => rfl
  | byte a i =>
    cases t with
    | byte b j => exact if_neg fun e => h (by rw [e.1, e.2]; rfl)
    | _ => rfl
  | dv i =>
    cases t with
    | dv j => exact if_neg fun e => h (congrArg Thing.dv e)
    | _ => rfl

theorem put_same {M M' : Memory} (l : Loc) (v : l.ty) (h : SameAt M M' l.thing) :
    SameAt (M.put l v) (M'.put l v) l.thing := by
  cases l with
  | go o f =>
    show (if o = o then _ else _) = (if o = o then _ else _)
    rw [if_pos rfl, if_pos rfl, show M.go o = M'.go o from h]
  | cgo o f =>
    show (if o = o then _ else _) = (if o = o then _ else _)
    rw [if_pos rfl, if_pos rfl, show M.cgo o = M'.cgo o from h]
  | byte a i =>
    show (if a = a ∧ i = i then _ else _) = (if a = a ∧ i = i then _ else _)
    rw [if_pos ⟨rfl, rfl⟩, if_pos ⟨rfl, rfl⟩]
  | dv i =>
    show (if i = i then _ else _) = (if i = i then _ else _)
    rw [if_pos rfl, if_pos rfl]

/-- `n` accesses without interference. -/
def solo {α : Type} : Nat → Memory × Prog α → Memory × Prog α
  | 0, r => r
  | n + 1, r => solo n (r.2.step r.1)

theorem solo_ret {α : Type} (n : Nat) (M : Memory) (a : α) : solo n (M, .ret a) = (M, .ret a) := by
  induction n with
  | zero => rfl
  | succ n ih => exact ih

theorem solo_panic {α : Type} (n : Nat) (M : Memory) (e : Panic) :
    solo n (M, (.panic e : Prog α)) = (M, .panic e) := by
  induction n with
  | zero => rfl
  | succ n ih => exact ih

theorem solo_add {α : Type} (m n : Nat) (r : Memory × Prog α) : solo (m + n) r = solo n (solo m r) := by
  induction m generalizing r with
  | zero => rw [Nat.zero_add]; rfl
  | succ m ih => rw [Nat.succ_add]; exact ih _

/-- Code ends after finitely many accesses. -/
theorem solo_ends {α : Type} (p : Prog α) : ∀ M : Memory,
    ∃ N, ∀ n, N ≤ n → match alone M p with
      | .ok r => solo n (M, p) = (r.1, .ret r.2)
      | .error e => (solo n (M, p)).2 = .panic e := by
  induction p with
  | ret a => intro M; exact ⟨0, fun n _ => solo_ret n M a⟩
  | panic e => intro M; exact ⟨0, fun n _ => by rw [solo_panic]; rfl⟩
  | rd l k ih =>
    intro M
    obtain ⟨N, hN⟩ := ih (M.get l) M
    refine ⟨N + 1, fun n hn => ?_⟩
    obtain ⟨m, rfl⟩ : ∃ m, n = m + 1 := ⟨n - 1, by omega⟩
    exact hN m (by omega)
  | wr l v k ih =>
    intro M
    obtain ⟨N, hN⟩ := ih (M.put l v)
    refine ⟨N + 1, fun n hn => ?_⟩
    obtain ⟨m, rfl⟩ : ∃ m, n = m + 1 := ⟨n - 1, by omega⟩
    exact hN m (by omega)

theorem run_cat (σ τ : List Nat) : ∀ c : Conf, c.run (σ ++ τ) = (c.run σ).run τ := by
  induction σ with
  | nil => intro c; rfl
  | cons i σ ih => intro c; exact ih _

theorem run_solo (i n : Nat) : ∀ c : Conf, c.run (List.replicate n i) =
    ⟨(solo n (c.mem, c.gos i)).1, fun j => if j = i then (solo n (c.mem, c.gos i)).2 else c.gos j⟩ := by
  induction n with
  | zero =>
    intro c
    show c = Conf.mk c.mem fun j => if j = i then c.gos i else c.gos j
    cases c with
    | mk m g =>
      simp only [Conf.mk.injEq, true_and]
      funext j
      split
      · rename_i h; rw [h]
      · rfl
  | succ n ih =>
    intro c
    rw [List.replicate_succ]
    show (c.step i).run _ = _
    rw [ih]
    have e : ((c.step i).mem, (c.step i).gos i) = (c.gos i).step c.mem := by
      show (((c.gos i).step c.mem).1, if i = i then ((c.gos i).step c.mem).2 else c.gos i) = _
      rw [if_pos rfl]
    rw [e]
    show Conf.mk _ _ = Conf.mk _ _
    simp only [solo, Conf.mk.injEq, true_and]
    funext j
    show (if j = i then _ else if j = i then _ else c.gos j) = _
    split <;> rfl

/-- Every goroutine is where it would be alone, and finds in the things it uses what it would find alone. -/
structure Same (R W : Nat → Thing → Prop) (c : Conf) (D : Nat → Memory × Prog (List Res)) : Prop where
  gos : ∀ i, c.gos i = (D i).2
  mem : ∀ i t, R i t → SameAt c.mem (D i).1 t
  touches : ∀ i, Touches (R i) (W i) Any (c.gos i)

theorem Touches.step {α : Type} {R W : Thing → Prop} {Q : α → Prop} {p : Prog α} (h : Touches R W Q p) (M : Memory) :
    Touches R W Q (p.step M).2 := by
  cases p with
  | ret a => exact h
  | panic e => trivial
  | rd l k => exact h.2 _
  | wr l v k => exact h.2

theorem Same.step {R W : Nat → Thing → Prop} (hd : ∀ i j t, i ≠ j → W i t → ¬ R j t)
    {c : Conf} {D : Nat → Memory × Prog (List Res)} (h : Same R W c D) (i : Nat) :
    Same R W (c.step i) (fun j => if j = i then (D i).2.step (D i).1 else D j) := by
  have ht := h.touches i
  have key : ((c.gos i).step c.mem).2 = ((D i).2.step (D i).1).2 ∧
      (∀ t, R i t → SameAt ((c.gos i).step c.mem).1 ((D i).2.step (D i).1).1 t) ∧
      (∀ j t, j ≠ i → R j t → SameAt ((c.gos i).step c.mem).1 c.mem t) := by
    rw [← h.gos i]
    cases hp : c.gos i with
    | ret a => exact ⟨rfl, h.mem i, fun _ _ _ _ => sameAt_refl _ _⟩
    | panic e => exact ⟨rfl, h.mem i, fun _ _ _ _ => sameAt_refl _ _⟩
    | rd l k =>
      rw [hp] at ht
      refine ⟨?_, h.mem i, fun _ _ _ _ => sameAt_refl _ _⟩
      show k (c.mem.get l) = k ((D i).1.get l)
      rw [sameAt_get (h.mem i _ ht.1)]
    | wr l v k =>
      rw [hp] at ht
      refine ⟨rfl, fun t hq => ?_, fun j t hj hq => ?_⟩
      · show SameAt (c.mem.put l v) ((D i).1.put l v) t
        by_cases e : t = l.thing
        · subst e; exact put_same l v (h.mem i _ hq)
        · exact sameAt_trans (put_other _ l v e) (sameAt_trans (h.mem i t hq) (sameAt_symm (put_other _ l v e)))
      · exact put_other _ l v fun e => hd i j t (Ne.symm hj) (e ▸ ht.1) hq
  refine ⟨fun j => ?_, fun j t hj => ?_, fun j => ?_⟩
  · show (if j = i then _ else _) = _
    split
    · exact key.1
    · exact h.gos j
  · show SameAt ((c.gos i).step c.mem).1 _ t
    by_cases hji : j = i
    · simp only [if_pos hji]; exact key.2.1 t (hji ▸ hj)
    · simp only [if_neg hji]; exact sameAt_trans (key.2.2 j t hji hj) (h.mem j t hj)
  · show Touches (R j) (W j) Any (if j = i then _ else _)
    split
    · rename_i e; rw [e]; exact ht.step _
    · exact h.touches j

theorem Same.run {R W : Nat → Thing → Prop} (hd : ∀ i j t, i ≠ j → W i t → ¬ R j t)
    (σ : List Nat) : ∀ {c : Conf} {D : Nat → Memory × Prog (List Res)}, Same R W c D →
      Same R W (c.run σ) (fun j => solo (σ.count j) (D j)) := by
  induction σ with
  | nil => intro c D h; exact h
  | cons i σ ih =>
    intro c D h
    have := ih (h.step hd i)
    have e : (fun j => solo (List.count j (i :: σ)) (D j)) =
        (fun j => solo (σ.count j) (if j = i then (D i).2.step (D i).1 else D j)) := by
      funext j
      by_cases hj : j = i
      · subst hj
        rw [List.count_cons_self, if_pos rfl]; rfl
      · rw [List.count_cons_of_ne (Ne.symm hj), if_neg hj]
    rw [e]
    exact this

theorem same_run (blk : List DvInfo → BlockFn) (cfg : Plat) (M : Memory) (gs : Nat → List Act) (hd : Separate gs)
    (σ : List Nat) :
    Same (fun j => UsesL (gs j)) (fun j => ChangesL (gs j)) ((Conf.mk M fun j => goroutine blk cfg (gs j)).run σ)
      (fun j => solo (σ.count j) (M, goroutine blk cfg (gs j))) := by
  have h0 : Same (fun j => UsesL (gs j)) (fun j => ChangesL (gs j)) (Conf.mk M fun j => goroutine blk cfg (gs j))
      (fun j => (M, goroutine blk cfg (gs j))) :=
    ⟨fun _ => rfl, fun _ _ _ => sameAt_refl _ _, fun j => touches_goroutine blk cfg (gs j)⟩
  exact h0.run hd σ

/-- What nobody changes stays as it is. -/
theorem untouched (W : Thing → Prop) (σ : List Nat) : ∀ (c : Conf), (∀ i, Touches Any W Any (c.gos i)) → ∀ t, ¬ W t →
    SameAt (c.run σ).mem c.mem t := by
  induction σ with
  | nil => intro c _ t _; exact sameAt_refl _ _
  | cons i σ ih =>
    intro c hc t ht
    refine sameAt_trans (ih (c.step i) (fun j => ?_) t ht) ?_
    · show Touches Any W Any (if j = i then _ else _)
      split
      · exact (hc i).step _
      · exact hc j
    · show SameAt ((c.gos i).step c.mem).1 c.mem t
      have := hc i
      cases hp : c.gos i with
      | wr l v k =>
        rw [hp] at this
        exact put_other _ l v fun e => ht (e ▸ this.1)
      | _ => exact sameAt_refl _ _

/-! ### Appending into the same memory -/

theorem bind_assoc' {α β γ : Type} (p : Prog α) (f : α → Prog β) (g : β → Prog γ) :
    (p >>= f) >>= g = p >>= fun a => f a >>= g := by
  show (p.bind f).bind g = p.bind fun a => (f a).bind g
  induction p with
  | ret a => rfl
  | panic e => rfl
  | rd l k ih => exact congrArg (Prog.rd l) (funext ih)
  | wr l v k ih => exact congrArg (Prog.wr l v) ih

/-- Code that writes nothing gets to its end with the memory as it was. -/
theorem solo_reads {α β : Type} {q : Prog α} (hq : Touches Any (fun _ => False) Any q) {M M' : Memory} {d : α}
    (h : alone M q = .ok (M', d)) (g : α → Prog β) : ∃ n, solo n (M, q >>= g) = (M, g d) := by
  induction q with
  | ret a => cases h; exact ⟨0, rfl⟩
  | panic e => cases h
  | rd l k ih =>
    obtain ⟨n, hn⟩ := ih _ (hq.2 (M.get l)) h
    exact ⟨n + 1, hn⟩
  | wr l v k ih => exact hq.1.elim

theorem solo_wrBytes {β : Type} (a : Nat) (g : Unit → Prog β) : ∀ (n : Nat) (bs : List Byte) (off : Nat) (M : Memory),
    n ≤ bs.length → solo n (M, wrBytes a off bs >>= g) =
      (stored M a off (bs.take n), wrBytes a (off + n) (bs.drop n) >>= g)
  | 0, bs, off, M, _ => by rw [List.take_zero, stored_nil]; rfl
  | n + 1, [], _, _, h => by simp at h
  | n + 1, b :: bs, off, M, h => by
    have := solo_wrBytes a g n bs (off + 1) (M.put (.byte a off) b) (by simpa using h)
    rw [List.take_succ_cons, List.drop_succ_cons, ← stored_cons, show off + (n + 1) = off + 1 + n by omega]
    exact this

/-- `Sum(inp)` on an object of either package, when `inp` has room for a digest: reads, and then the 20 bytes are written
behind `inp`. -/
theorem sum_in_place {det : Regs → Block → Bool} {blk : List DvInfo → BlockFn} (hb : BlockImpl (blk sha1Dvs) det)
    (cfg : Cfg) {M : Memory} {w : World} (h : Agrees det M w) (inp : Sl) (hroom : inp.len + 20 ≤ inp.cap) (a : Act)
    (D : List Byte) (ha : (∃ o grow fresh, a = .go o (.sum inp grow) fresh ∧ D = (safeHash det (w.go o)).1) ∨
      (∃ o grow fresh, a = .cgo o (.sum inp grow) fresh ∧ D = (safeHash C.cVerdict (w.cgo o)).1)) :
    D.length = 20 ∧ ∃ n, solo n (M, goroutine blk cfg [a]) =
      (M, wrBytes inp.arr (inp.off + inp.len) D >>= fun _ => pure [Res.slice { inp with len := inp.len + 20 }]) := by
  have hD : D.length = 20 := by
    rcases ha with ⟨o, grow, fresh, rfl, rfl⟩ | ⟨o, grow, fresh, rfl, rfl⟩ <;> exact digestBytes_length _
  have happ : ∀ grow fresh, append inp D grow fresh =
      wrBytes inp.arr (inp.off + inp.len) D >>= fun _ => pure { inp with len := inp.len + 20 } := by
    intro grow fresh
    unfold append
    rw [hD, if_pos hroom]
  refine ⟨hD, ?_⟩
  rcases ha with ⟨o, grow, fresh, rfl, rfl⟩ | ⟨o, grow, fresh, rfl, rfl⟩
  · have e : alone M (rdTable >>= fun t => embed (Verif.Model.Conc.sum (blk t) o [])) =
        .ok (M, .sum (safeHash det (w.go o)).1) := by
      rw [bind_ok (alone_rdTable h.table)]
      have := embed_look hb h o (.sum []) (.inl rfl)
      rw [show result det (w.go o) (.sum []) = .sum (safeHash det (w.go o)).1 from rfl] at this
      exact this
    obtain ⟨n, hn⟩ := solo_reads ((touches_rdTable fun _ _ => trivial).bind fun t _ =>
      touches_embed (Verif.Conc.touches_sum (R := fun _ => True) trivial (blk t) [])) e fun r => (match r with
        | .sum hash => do
          let r ← append inp hash grow fresh
          pure (Res.slice r)
        | _ => pure Res.none) >>= fun r => pure [r]
    refine ⟨n, Eq.trans ?_ (hn.trans ?_)⟩
    · refine congrArg (fun p => solo n (M, p)) ?_
      show goSum blk o inp grow fresh >>= _ = _
      unfold goSum
      refine (bind_assoc' _ _ _).trans (Eq.trans ?_ (bind_assoc' _ _ _).symm)
      refine congrArg (rdTable >>= ·) (funext fun t => ?_)
      exact bind_assoc' _ _ _
    · refine congrArg (Prod.mk M) ?_
      show (append inp _ grow fresh >>= _) >>= _ = _
      rw [happ, bind_assoc', bind_assoc']
      rfl
  · obtain ⟨d', r⟩ := (h.cgo o).sum0 cfg
    have e : alone M (Model.Par.copy o >>= fun d0 => lift (d0.sum0 cfg)) =
        .ok (M, d', (safeHash C.cVerdict (w.cgo o)).1, (safeHash C.cVerdict (w.cgo o)).2) := by
      rw [bind_ok (alone_copy _ _), r]
      rfl
    obtain ⟨n, hn⟩ := solo_reads ((touches_copy o trivial).bind fun t _ =>
      touches_lift fun _ _ => trivial) e fun r => (do
          let r ← append inp r.2.1 grow fresh
          pure (Res.slice r)) >>= fun r => pure [r]
    refine ⟨n, Eq.trans ?_ (hn.trans ?_)⟩
    · refine congrArg (fun p => solo n (M, p)) ?_
      show cgoSum cfg o inp grow fresh >>= _ = _
      unfold cgoSum
      refine (bind_assoc' _ _ _).trans (Eq.trans ?_ (bind_assoc' _ _ _).symm)
      refine congrArg (Model.Par.copy o >>= ·) (funext fun t => ?_)
      exact bind_assoc' _ _ _
    · refine congrArg (Prod.mk M) ?_
      show (append inp _ grow fresh >>= _) >>= _ = _
      rw [happ, bind_assoc', bind_assoc']
      rfl

end Verif.Par
