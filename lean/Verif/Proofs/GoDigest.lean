import Verif.Proofs.GoObject

/-!
The methods of the hash object as they are read from the text of sha1cd.go.
-/

namespace Verif.Source.Go

open Verif Verif.Source Verif.Model

/-- `Reset`, sha1cd.go:107-117. -/
def resetFunc : Func := evaluated! getFunc progSha1cd 0 (name! "Reset")
/-- `New`, sha1cd.go:122-126. -/
def newFunc : Func := evaluated! getFunc progSha1cd (name! "sha1cd") (name! "New")
/-- `Size`, sha1cd.go:128. -/
def sizeFunc : Func := evaluated! getFunc progSha1cd 0 (name! "Size")
/-- `BlockSize`, sha1cd.go:130. -/
def blockSizeFunc : Func := evaluated! getFunc progSha1cd 0 (name! "BlockSize")
/-- `Write`, sha1cd.go:132-157. -/
def writeFunc : Func := evaluated! getFunc progSha1cd 0 (name! "Write")

/-- `d.f = n`. -/
def setField (f : Nat) (e : Expr) : Stmt := .assign (.cons (.field (.loc 0) f) .nil) (.cons e .nil)

/-- The body of `Reset`, sha1cd.go:108-116. -/
def resetBody : Stmt := .block 1 (seqs [
  .assign (.cons (digH 0) .nil) (.cons (.num 0x67452301) .nil), .assign (.cons (digH 1) .nil) (.cons (.num 0xEFCDAB89) .nil),
  .assign (.cons (digH 2) .nil) (.cons (.num 0x98BADCFE) .nil), .assign (.cons (digH 3) .nil) (.cons (.num 0x10325476) .nil),
  .assign (.cons (digH 4) .nil) (.cons (.num 0xC3D2E1F0) .nil), setField (name! "nx") (.num 0), setField (name! "len") (.num 0),
  setField (name! "col") (.bool false)])

theorem resetFunc_eq : resetFunc = ⟨0, name! "Reset", [.ptr digTy], [], false, some resetBody⟩ := by by_kernel

/-- The body of `New`, sha1cd.go:123-125. -/
def newBody : Stmt := .block 0 (seqs [.var digTy, .expr (.method (name! "Reset") (.loc 0) .nil),
  .ret (.cons (.addr (.loc 0)) .nil)])

theorem newFunc_eq : newFunc = ⟨name! "sha1cd", name! "New", [], [.any], false, some newBody⟩ := by by_kernel

theorem sizeFunc_eq : sizeFunc = ⟨0, name! "Size", [.ptr digTy], [.int], false,
    some (.block 1 (seqs [.ret (.cons (.num 20) .nil)]))⟩ := by by_kernel

theorem blockSizeFunc_eq : blockSizeFunc = ⟨0, name! "BlockSize", [.ptr digTy], [.int], false,
    some (.block 1 (seqs [.ret (.cons (.num 64) .nil)]))⟩ := by by_kernel

/-- `d.x[lo:hi]`. -/
def digX (lo hi : Expr) : Expr := .slice (.field (.loc 0) (name! "x")) lo hi

/-- `p = p[n:]` where `n` is in slot 4. -/
def dropN : Stmt := .assign (.cons (.loc 1) .nil) (.cons (.slice (.loc 1) (.loc 4) .omit) .nil)

/-- A call of `block`. -/
def callBlk (p : Expr) : Stmt := .expr (.call (name! "sha1cd") (name! "block") (.cons (.loc 0) (.cons p .nil)))

/-- `if d.nx == shared.Chunk { block(d, d.x[:]); d.nx = 0 }`, sha1cd.go:142-145. -/
def fullStmt : Stmt := .ite (.bin .eq (.field (.loc 0) (name! "nx")) (.num 64))
  (.block 5 (seqs [callBlk (digX .omit .omit), setField (name! "nx") (.num 0)])) .skip

/-- sha1cd.go:139-147. -/
def fillStmt : Stmt := .ite (.bin .gt (.field (.loc 0) (name! "nx")) (.num 0)) (.block 4 (seqs [
  .define 1 (.cons (.copy (digX (.field (.loc 0) (name! "nx")) .omit) (.loc 1)) .nil),
  .opAssign .add (.field (.loc 0) (name! "nx")) (.loc 4), fullStmt, dropN])) .skip

/-- sha1cd.go:148-152. -/
def bulkStmt : Stmt := .ite (.bin .ge (.len (.loc 1)) (.num 64)) (.block 4 (seqs [
  .define 1 (.cons (.bin .andNot (.len (.loc 1)) (.bin .sub (.num 64) (.num 1))) .nil),
  callBlk (.slice (.loc 1) .omit (.loc 4)), dropN])) .skip

/-- sha1cd.go:153-155. -/
def tailStmt : Stmt := .ite (.bin .gt (.len (.loc 1)) (.num 0)) (.block 4 (seqs [
  setField (name! "nx") (.copy (digX .omit .omit) (.loc 1))])) .skip

/-- The `return` of a function with the results in slots 2 and 3. -/
def retNamed : Stmt := .ret (.cons (.loc 2) (.cons (.loc 3) .nil))

/-- The body of `Write`, sha1cd.go:133-156. -/
def writeBody : Stmt := .block 4 (seqs [.ite (.bin .eq (.len (.loc 1)) (.num 0)) (.block 4 (seqs [retNamed])) .skip,
  .assign (.cons (.loc 2) .nil) (.cons (.len (.loc 1)) .nil),
  .opAssign .add (.field (.loc 0) (name! "len")) (.conv .u64 (.loc 2)), fillStmt, bulkStmt, tailStmt, retNamed])

theorem writeFunc_eq : writeFunc = ⟨0, name! "Write", [.ptr digTy, .slice .u8], [.int, .any], true, some writeBody⟩ := by by_kernel

/-- The methods are among the functions of the program. -/
structure HasDigest (P : Program) : Prop where
  reset : findFunc 0 (name! "Reset") P.funcs = some resetFunc
  new : findFunc (name! "sha1cd") (name! "New") P.funcs = some newFunc
  size : findFunc 0 (name! "Size") P.funcs = some sizeFunc
  blockSize : findFunc 0 (name! "BlockSize") P.funcs = some blockSizeFunc
  write : findFunc 0 (name! "Write") P.funcs = some writeFunc

section
variable {P : Program} {N d : Nat} {ld : Loc} {D : Digest} {m : Mem}

/-- `Reset`, sha1cd.go:107-117. -/
theorem reset_eq (hP : HasDigest P) (hl : ld.frame < m.next) (hd : look m.frame ld = .ok (digV D)) :
    ∃ m', P.call N (d + 1) 0 (name! "Reset") [.ptr ld] m = .ok ([], m') ∧ Became m (putAt m.frame ld (digV D.reset)) m' := by
  have hne : ld.frame ≠ m.next := Nat.ne_of_lt hl
  rw [call_of (by rfl) hP.reset (congrArg Func.body resetFunc_eq)]
  have hx : exec (P.world N d) N resetBody (m.enter (passed resetFunc.params [.ptr ld] ++
      (if resetFunc.named then resetFunc.results.map zero else []))) =
      .ok (.normal, ⟨m.next, [.ptr ld], putAt m.frame ld (digV D.reset), m.next + 1⟩) := by
    rw [show passed resetFunc.params [.ptr ld] ++ (if resetFunc.named then resetFunc.results.map zero else []) = [.ptr ld] by
      rw [resetFunc_eq]; rfl]
    have fx := fun {E : Digest} => look_putAt (fixed_digV E) hd
    refine exec_block (m' := ⟨m.next, [.ptr ld], putAt m.frame ld (digV D.reset), m.next + 1⟩) ?_
    have sH : ∀ (E : Digest) (k : Nat) (_ : k < 5) (w : Nat), exec (P.world N d) N (.assign (.cons (digH k) .nil) (.cons (.num w) .nil))
        ⟨m.next, [.ptr ld], putAt m.frame ld (digV E), m.next + 1⟩ = .ok (.normal, ⟨m.next, [.ptr ld],
          putAt m.frame ld (digV { E with h := setH E.h k (BitVec.ofNat 32 w) }), m.next + 1⟩) := fun E k hk w => by
      rw [exec_digH hk hne fx, putAt_putAt (fixed_digV _) hd]
    have sF : ∀ (E E' : Digest) (f : Nat) (e : Expr) (x : Val), (∀ m, evs (P.world N d) e m = .ok ([x], m)) →
        (digV E).set [f] x = .ok (digV E') → exec (P.world N d) N (setField f e)
        ⟨m.next, [.ptr ld], putAt m.frame ld (digV E), m.next + 1⟩ = .ok (.normal, ⟨m.next, [.ptr ld],
          putAt m.frame ld (digV E'), m.next + 1⟩) := fun E E' f e x he hs => by
      rw [setField, exec_dig hne (he _) fx hs, putAt_putAt (fixed_digV _) hd]
    have := (exec_seqs_cons (sH D 0 (by omega) 0x67452301)).trans ((exec_seqs_cons (sH _ 1 (by omega) 0xEFCDAB89)).trans
      ((exec_seqs_cons (sH _ 2 (by omega) 0x98BADCFE)).trans ((exec_seqs_cons (sH _ 3 (by omega) 0x10325476)).trans
      ((exec_seqs_cons (sH _ 4 (by omega) 0xC3D2E1F0)).trans
      ((exec_seqs_cons (sF _ _ (name! "nx") (.num 0) _ (fun _ => evs_num) (digV_set_nx0 _))).trans
      ((exec_seqs_cons (sF _ _ (name! "len") (.num 0) _ (fun _ => evs_num) (digV_set_len0 _))).trans
      (exec_seqs_cons (ss := []) (sF _ _ (name! "col") (.bool false) _ (fun _ => rfl) (digV_set_col _ false)))))))))
    rw [putAt_self hd] at this
    exact this
  have K : Keeps m.frame m.next ld (digV D.reset) (putAt m.frame ld (digV D.reset)) (m.next + 1) := ⟨Nat.lt_succ_self _, fun _ _ => rfl⟩
  exact ⟨_, runFunc_of (congrArg Func.body resetFunc_eq) (by rw [resetFunc_eq]; exact Nat.lt_irrefl 1) hx (by rw [resetFunc_eq]; rfl),
    leave_became K _⟩

/-- `New`, sha1cd.go:122-126: a pointer to a new digest. -/
theorem new_eq (hP : HasDigest P) (hm : m.id < m.next) :
    ∃ m', P.call N (d + 2) (name! "sha1cd") (name! "New") [] m = .ok ([.ptr ⟨m.next, 0, []⟩], m') ∧ Became m m.frame m' ∧
      m.next < m'.next ∧ m'.frame m.next = [digV Model.new] := by
  rw [call_of (by rfl) hP.new (congrArg Func.body newFunc_eq)]
  have hlk : look (Mem.frame ⟨m.next, [digV Digest.zero], m.frame, m.next + 1⟩) ⟨m.next, 0, []⟩ = .ok (digV Digest.zero) := by
    simp [look, Mem.frame, Val.get]
  obtain ⟨m1, r1, r2⟩ := reset_eq (N := N) (d := d) (ld := ⟨m.next, 0, []⟩) (D := Digest.zero)
    (m := ⟨m.next, [digV Digest.zero], m.frame, m.next + 1⟩) hP (Nat.lt_succ_self _) hlk
  have e1 : exec (P.world N (d + 1)) N (.var digTy) ⟨m.next, [], m.frame, m.next + 1⟩ =
      .ok (.normal, ⟨m.next, [digV Digest.zero], m.frame, m.next + 1⟩) := by rw [← zero_dig]; rfl
  have e2 : exec (P.world N (d + 1)) N (.expr (.method (name! "Reset") (.loc 0) .nil))
      ⟨m.next, [digV Digest.zero], m.frame, m.next + 1⟩ = .ok (.normal, m1) := by
    have hl : load ⟨m.next, 0, []⟩ ⟨m.next, [digV Digest.zero], m.frame, m.next + 1⟩ =
      .ok (digV Digest.zero, ⟨m.next, [digV Digest.zero], m.frame, m.next + 1⟩) := load_pget rfl
    have ht : through ⟨m.next, 0, []⟩ ⟨m.next, [digV Digest.zero], m.frame, m.next + 1⟩ =
      .ok (⟨m.next, 0, []⟩, ⟨m.next, [digV Digest.zero], m.frame, m.next + 1⟩) := by
      simp only [through, bind_run, hl]; rfl
    show ((place (P.world N (d + 1)) (.loc 0) >>= _) >>= _) _ = _
    have hp : place (P.world N (d + 1)) (.loc 0) ⟨m.next, [digV Digest.zero], m.frame, m.next + 1⟩ =
      .ok (⟨m.next, 0, []⟩, ⟨m.next, [digV Digest.zero], m.frame, m.next + 1⟩) := rfl
    have hc : (P.world N (d + 1)).call 0 (name! "Reset") [.ptr ⟨m.next, 0, []⟩]
      ⟨m.next, [digV Digest.zero], m.frame, m.next + 1⟩ = .ok ([], m1) := r1
    simp only [bind_run, hp, ht, evs_nil, hc, pure_run]
  have hid : m1.id = m.next := r2.id
  have hnx : m.next + 1 ≤ m1.next := r2.next
  have hfr : m1.frame m.next = [digV Model.new] := by
    rw [r2.frame m.next (Nat.lt_succ_self _)]
    simp [putAt, Mem.frame, Val.put, Val.set, fixed_digV _ _, Model.new]
  have hx : exec (P.world N (d + 1)) N newBody (m.enter (passed newFunc.params [] ++
      (if newFunc.named then newFunc.results.map zero else []))) = .ok (.ret [.ptr ⟨m.next, 0, []⟩], m1) := by
    rw [show passed newFunc.params [] ++ (if newFunc.named then newFunc.results.map zero else []) = [] by rw [newFunc_eq]; rfl]
    refine exec_block_ret ((exec_seqs_cons e1).trans ((exec_seqs_cons e2).trans ?_))
    rw [← hid]
    rfl
  refine ⟨_, runFunc_of (congrArg Func.body newFunc_eq) (by rw [newFunc_eq]; exact Nat.lt_irrefl 0) hx (by rw [newFunc_eq]; rfl),
    ⟨rfl, ?_, ?_⟩, ?_, ?_⟩
  · rw [show newBody.addrs = true by by_kernel]
    simp only [Mem.leave, true_or, if_true]
    omega
  · intro k hk
    have h1 := r2.frame k (show k < m.next + 1 by omega)
    rw [putAt_of_ne (show k ≠ m.next by omega)] at h1
    simp only [Mem.frame, hid, if_neg (show k ≠ m.next by omega)] at h1
    rw [show newBody.addrs = true by by_kernel]
    simp only [Mem.leave, Mem.frame, hid]
    by_cases he : k = m.id
    · subst he
      rw [if_pos rfl, h1]
    · rw [if_neg he, if_neg he, if_neg (by omega), h1]
  · rw [show newBody.addrs = true by by_kernel]
    simp only [Mem.leave, true_or, if_true]
    omega
  · have hc : m1.cur = [digV Model.new] := by
      rw [← hfr]
      simp only [Mem.frame, hid, if_true]
    rw [show newBody.addrs = true by by_kernel]
    simp only [Mem.leave, Mem.frame, hid, if_neg (show m.next ≠ m.id by omega), true_and, if_true, hc]

theorem size_eq (hP : HasDigest P) : ∃ m', P.call N (d + 1) 0 (name! "Size") [.ptr ld] m = .ok ([.int 20], m') ∧ m' = m := by
  rw [call_of (by rfl) hP.size (congrArg Func.body sizeFunc_eq), sizeFunc_eq]
  exact ⟨_, rfl, leave_enter m [.ptr ld] [.ptr ld]⟩

theorem blockSize_eq (hP : HasDigest P) :
    ∃ m', P.call N (d + 1) 0 (name! "BlockSize") [.ptr ld] m = .ok ([.int 64], m') ∧ m' = m := by
  rw [call_of (by rfl) hP.blockSize (congrArg Func.body blockSizeFunc_eq), blockSizeFunc_eq]
  exact ⟨_, rfl, leave_enter m [.ptr ld] [.ptr ld]⟩

end

end Verif.Source.Go
