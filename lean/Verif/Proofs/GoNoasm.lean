import Verif.Proofs.GoSums

/-!
The program read from the text of the files that are compiled where there is no assembly (sha1cdblock_noasm.go), and what is in
memory when it starts.
-/

namespace Verif.Source.Go

open Verif Verif.Source Verif.Model

/-- `block`, sha1cdblock_noasm.go:5-7. -/
def noasmFunc : Func := evaluated! getFunc progNoasm (name! "sha1cd") (name! "block")

/-- The body of `block`, sha1cdblock_noasm.go:6. -/
def noasmBody : Stmt := .block 2 (seqs [.expr (.call (name! "sha1cd") (name! "blockGeneric") (.cons (.loc 0) (.cons (.loc 1) .nil)))])

theorem noasmFunc_eq : noasmFunc = ⟨name! "sha1cd", name! "block", [.ptr digTy, .slice .u8], [], false, some noasmBody⟩ := by by_kernel

/-- The first package variable is the table, which is in frame 1. -/
def HasTable (G : List Val) : Prop := G[0]? = some (.slice ⟨1, 0, []⟩ 0 33 33)

/-- What is passed to `blockGeneric`. -/
theorem blockArgs {G : List Val} (hT : HasTable G) {ld lp : Loc} {rest : Nat → Val} {h : Regs} {c : Bool} {off cap : Nat} {bs : List Byte}
    {m : Mem} (hm : m.id < m.next) (hG : Boot G m.frame) (h2 : 2 ≤ ld.frame) (hl : ld.frame < m.next) (hp : lp.frame < m.next)
    (hd : look m.frame ld = .ok (digVal rest h c))
    (hb : ∀ c' q (hq : q < bs.length), look (withDig m.frame ld rest h c') (lp.sub (off + q)) = .ok (.u8 bs[q])) (hc : bs.length ≤ cap) :
    BlockArgs m sha1Dvs 0 ld lp rest h c off cap bs where
  id := hm
  table := ⟨⟨1, 0, []⟩, by show 1 < m.next; omega, by show ld.frame ≠ 1; omega, by simp [look, hG.table, Val.get],
    by simp only [look, hG.vars]; rw [hT, dvs_length]; rfl⟩
  ld_lt := hl
  lp_lt := hp
  ne_0 := by omega
  dig := hd
  bytes := hb
  cap := hc

/-- `block` where there is no assembly is `blockGeneric`. -/
theorem noasm_block {P : Program} {N d : Nat} {G : List Val} (E : BlockEnv P N sha1Dvs 0)
    (hf : findFunc (name! "sha1cd") (name! "blockGeneric") P.funcs = some blockFunc)
    (hb : findFunc (name! "sha1cd") (name! "block") P.funcs = some noasmFunc) (hT : HasTable G) :
    CallsBlock P N (d + 5) G (blockGeneric sha1Dvs) := by
  intro ld lp rest h c off cap bs m hN hm hG h2 hl hp hd hbs hc
  rw [call_of (by rfl) hb (congrArg Func.body noasmFunc_eq)]
  have hnp : ¬[Val.ptr ld, .slice lp off bs.length cap].length < noasmFunc.params.length := by rw [noasmFunc_eq]; exact Nat.lt_irrefl 2
  have hpass : passed noasmFunc.params [.ptr ld, .slice lp off bs.length cap] ++
      (if noasmFunc.named then noasmFunc.results.map zero else []) = [.ptr ld, .slice lp off bs.length cap] := by
    rw [noasmFunc_eq]; rfl
  have hent : m.enter [.ptr ld, .slice lp off bs.length cap] =
      ⟨m.next, [.ptr ld, .slice lp off bs.length cap], m.frame, m.next + 1⟩ := rfl
  have hne : ld.frame ≠ m.next := Nat.ne_of_lt hl
  have hfr : ∀ k, k < m.next → Mem.frame ⟨m.next, [.ptr ld, .slice lp off bs.length cap], m.frame, m.next + 1⟩ k = m.frame k :=
    fun k hk => frame_old (by omega)
  have B := block_eq E hf d hN (blockArgs (m := ⟨m.next, [.ptr ld, .slice lp off bs.length cap], m.frame, m.next + 1⟩) hT
    (Nat.lt_succ_self _) ⟨by rw [hfr _ (by omega), hG.vars], by rw [hfr _ (by omega), hG.table]⟩ h2 (Nat.lt_succ_of_lt hl)
    (Nat.lt_succ_of_lt hp) ((look_congr (hfr _ hl)).trans hd)
    (fun c' q hq => (look_congr (by simp only [withDig, putAt]; rw [show (lp.sub (off + q)).frame = lp.frame from rfl, hfr _ hp])).trans
      (hbs h c' q hq)) hc)
  have hcall : evs (P.world N (d + 4)) (.call (name! "sha1cd") (name! "blockGeneric") (.cons (.loc 0) (.cons (.loc 1) .nil)))
      ⟨m.next, [.ptr ld, .slice lp off bs.length cap], m.frame, m.next + 1⟩ =
      P.call N (d + 4) (name! "sha1cd") (name! "blockGeneric") [.ptr ld, .slice lp off bs.length cap]
      ⟨m.next, [.ptr ld, .slice lp off bs.length cap], m.frame, m.next + 1⟩ :=
    evs_call (evs_cons (evs_loc rfl) (evs_one (evs_loc rfl)))
  generalize hr : blockGeneric sha1Dvs ⟨h, c⟩ bs = R at B
  match R, B with
  | .error e, ⟨s, w1, w2⟩ =>
    refine ⟨s, runFunc_error (congrArg Func.body noasmFunc_eq) hnp ?_, w2⟩
    rw [hpass, hent]
    exact exec_block_error (exec_seqs_error (exec_expr_error (hcall.trans w1)))
  | .ok r, ⟨m1, w1, w2⟩ =>
    obtain ⟨old1, next1, k1, K1⟩ := became_keeps (w := digVal rest r.h r.col) (C := [.ptr ld, .slice lp off bs.length cap]) (keeps_self hd) hl hd
      (fixed_struct _) w2
    subst k1
    refine ⟨_, runFunc_of (m' := ⟨m.next, [.ptr ld, .slice lp off bs.length cap], old1, next1⟩) (congrArg Func.body noasmFunc_eq) hnp
      (s := .normal) ?_ (by rw [noasmFunc_eq]; rfl), leave_became K1 _⟩
    rw [hpass, hent]
    refine (exec_block (exec_seqs_cons (exec_expr (hcall.trans w1)) |>.trans exec_skip)).trans ?_
    rfl

/-- The program has the functions of sha1cdblock_generic.go and of package ubc. -/
structure HasGeneric (P : Program) : Prop extends HasUbc P where
  check : findFunc (name! "sha1cd") (name! "checkCollision") P.funcs = some checkFunc
  has : findFunc (name! "sha1cd") (name! "hasCollided") P.funcs = some hasFunc
  generic : findFunc (name! "sha1cd") (name! "blockGeneric") P.funcs = some blockFunc
  glob : P.glob (name! "ubc") (name! "sha1_dvs") = some 0

theorem HasGeneric.env {P : Program} (h : HasGeneric P) {N : Nat} (hN : 33 < N) : BlockEnv P N sha1Dvs 0 :=
  ⟨h.toHasUbc, h.check, h.has, h.glob, by omega, by rw [dvs_length]; exact hN, by rw [dvs_length]; decide⟩

section
variable (asm : Nat → List Val → M (List Val)) (room : Nat → Nat)

theorem noasm_generic : HasGeneric (progNoasm.program asm room) :=
  ⟨⟨by by_kernel, by by_kernel, by by_kernel⟩, by by_kernel, by by_kernel, by by_kernel, by by_kernel⟩

theorem noasm_sums : HasSums (progNoasm.program asm room) :=
  ⟨⟨⟨by by_kernel, by by_kernel, by by_kernel, by by_kernel, by by_kernel⟩, by by_kernel⟩, by by_kernel, by by_kernel, by by_kernel⟩

theorem noasm_calls {N : Nat} (hN : 33 < N) (d : Nat) {G : List Val} (hT : HasTable G) :
    CallsBlock (progNoasm.program asm room) N (d + 5) G (blockGeneric sha1Dvs) :=
  noasm_block ((noasm_generic asm room).env hN) (noasm_generic asm room).generic (by by_kernel) hT

/-- The package variables of the program, sha1cdblock_generic.go:18 and ubc/const.go:44. -/
def startVars : List Val := [.slice ⟨1, 0, []⟩ 0 33 33, .bool false]

/-- The memory when the program starts. -/
def startMem : Mem := ⟨0, startVars, fun k => if k = 1 then [table sha1Dvs] else [], 2⟩

theorem noasm_start (X : World) : progNoasm.start X = .ok startMem := by
  have hg : progNoasm.env.globals = [(name! "sha1cd", name! "forceGeneric", .lit .bool .nil),
    (name! "ubc", name! "sha1_dvs", .lit (.slice dvTy) (rowExprs rows))] := by by_kernel
  unfold Prog.start
  rw [hg]
  simp only [initVars, bind_run, pure_run, ev_table]
  rfl

theorem startMem_boot : Boot startVars startMem.frame := ⟨rfl, rfl⟩

end

end Verif.Source.Go
