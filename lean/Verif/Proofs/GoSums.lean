import Verif.Proofs.GoAppend

/-!
The functions of sha1cd.go that return a sum, as they are read from its text.
-/

namespace Verif.Source.Go

open Verif Verif.Source Verif.Model

/-- The method `Sum`, sha1cd.go:159-164. -/
def sumFunc : Func := evaluated! getFunc progSha1cd 0 (name! "Sum")

/-- `CollisionResistantSum`, sha1cd.go:207-212. -/
def crsFunc : Func := evaluated! getFunc progSha1cd 0 (name! "CollisionResistantSum")

/-- The function `Sum`, sha1cd.go:200-205. -/
def sumPkgFunc : Func := evaluated! getFunc progSha1cd (name! "sha1cd") (name! "Sum")

/-- `append(in, hash[:]...)`, sha1cd.go:163,211. -/
def appendHash : Expr := .appendAll (.loc 1) (.slice (.loc 3) .omit .omit)

/-- The body of the method `Sum`, sha1cd.go:160-163. -/
def sumBody : Stmt := .block 2 (seqs [.define 1 (.cons (.deref (.loc 0)) .nil),
  .define 1 (.cons (.method (name! "checkSum") (.loc 2) .nil) .nil), .ret (.cons appendHash .nil)])

/-- The body of `CollisionResistantSum`, sha1cd.go:208-211. -/
def crsBody : Stmt := .block 2 (seqs [.define 1 (.cons (.deref (.loc 0)) .nil),
  .define 1 (.cons (.method (name! "checkSum") (.loc 2) .nil) .nil),
  .ret (.cons appendHash (.cons (.field (.loc 2) (name! "col")) .nil))])

/-- The body of the function `Sum`, sha1cd.go:201-204. -/
def sumPkgBody : Stmt := .block 1 (seqs [.var digTy, .expr (.method (name! "Reset") (.loc 1) .nil),
  .expr (.method (name! "Write") (.loc 1) (.cons (.loc 0) .nil)),
  .ret (.cons (.method (name! "checkSum") (.loc 1) .nil) (.cons (.field (.loc 1) (name! "col")) .nil))])

theorem sumFunc_eq : sumFunc = ⟨0, name! "Sum", [.ptr digTy, .slice .u8], [.slice .u8], false, some sumBody⟩ := by by_kernel
theorem crsFunc_eq : crsFunc = ⟨0, name! "CollisionResistantSum", [.ptr digTy, .slice .u8], [.slice .u8, .bool], false,
  some crsBody⟩ := by by_kernel
theorem sumPkgFunc_eq : sumPkgFunc = ⟨name! "sha1cd", name! "Sum", [.slice .u8], [.arr 20 .u8, .bool], false, some sumPkgBody⟩ := by by_kernel

/-- The program has the functions of sha1cd.go that return a sum. -/
structure HasSums (P : Program) : Prop extends HasSum P where
  sum : findFunc 0 (name! "Sum") P.funcs = some sumFunc
  crs : findFunc 0 (name! "CollisionResistantSum") P.funcs = some crsFunc
  sumPkg : findFunc (name! "sha1cd") (name! "Sum") P.funcs = some sumPkgFunc

/-- What a function that gets a place of its own frame leaves behind. -/
theorem became_cur {i s : Nat} {C : List Val} {old : Nat → List Val} {next : Nat} {w u : Val} {m' : Mem} (hi : i < next) (hs : C[s]? = some u)
    (hw : Fixed w) (B : Became ⟨i, C, old, next⟩ (putAt (Mem.frame ⟨i, C, old, next⟩) ⟨i, s, []⟩ w) m') :
    ∃ old' next', m' = ⟨i, C.set s w, old', next'⟩ ∧ next ≤ next' ∧ ∀ k, k < next → k ≠ i → old' k = old k := by
  have hcur : m'.cur = C.set s w := by
    have h := B.frame i hi
    simp only [Mem.frame, B.id, if_true, putAt, Val.put, Val.set, hw _] at h
    rw [h]
    exact List.ext_getElem? fun k => by
      rw [List.getElem?_modify, List.getElem?_set]
      by_cases hk : s = k
      · subst hk
        have hlt : s < C.length := by
          rcases Nat.lt_or_ge s C.length with h | h
          · exact h
          · rw [List.getElem?_eq_none h] at hs; cases hs
        simp [hlt]
      · simp [hk]
  refine ⟨m'.old, m'.next, ?_, B.next, fun k hk hne => ?_⟩
  · have := B.id
    cases m'
    simp only at hcur this
    subst hcur this
    rfl
  · have h := B.frame k hk
    rw [putAt_of_ne hne] at h
    have hid : m'.id = i := B.id
    simp only [Mem.frame, hid, if_neg hne] at h
    exact h

theorem through_cur {i s : Nat} {C : List Val} {old : Nat → List Val} {next : Nat} {D : Digest} (h : C[s]? = some (digV D)) :
    through ⟨i, s, []⟩ ⟨i, C, old, next⟩ = .ok (⟨i, s, []⟩, ⟨i, C, old, next⟩) := by
  have hl : load ⟨i, s, []⟩ ⟨i, C, old, next⟩ = .ok (digV D, ⟨i, C, old, next⟩) :=
    load_some (by simpa [Mem.frame] using h) rfl
  simp only [through, bind_run, hl]
  rfl

theorem look_cur {i s : Nat} {C : List Val} {old : Nat → List Val} {next : Nat} {v : Val} (h : C[s]? = some v) :
    look (Mem.frame ⟨i, C, old, next⟩) ⟨i, s, []⟩ = .ok v := by
  simp [look, Mem.frame, h, Val.get]

theorem checkSum_length {block : BlockFn} {D D' : Digest} {hash : List Byte} (h : D.checkSum block = .ok (D', hash)) :
    hash.length = 20 := by
  simp only [Digest.checkSum, padding_tmp, bind, Except.bind] at h
  generalize D.write block _ = W at h
  match W, h with
  | .ok R, h =>
    by_cases hn : R.1.nx ≠ 0
    · simp only [if_pos hn] at h
      cases h
    · simp only [if_neg hn] at h
      cases h
      rfl

theorem exec_ret_error {X : World} {N : Nat} {e : Expr} {m : Mem} {s : Stop} (h : evs X e m = .error s) : exec X N (.ret e) m = .error s := by
  show (evs X e >>= _) m = _
  simp only [bind_run, h]

section
variable {P : Program} {N d : Nat} {G : List Val} {block : BlockFn} {D : Digest} {ld : Loc} {v : Val} {bs : List Byte} {m : Mem}

/-- `d0 := *d; hash := d0.checkSum()`, sha1cd.go:161-162,209-210. -/
theorem sumStart (hP : HasSum P) (hB : CallsBlock P N d G block) (hN : 2 < N)
    (hG : Boot G m.frame) (h2 : 2 ≤ ld.frame) (hl : ld.frame < m.next) (hd : look m.frame ld = .ok (digV D)) :
    match D.checkSum block with
    | .ok (D', hash) => ∃ old next, m.next < next ∧ (∀ k, k < m.next → old k = m.frame k) ∧
        ∀ ss R, exec (P.world N (d + 2)) N (seqs ss) ⟨m.next, [.ptr ld, v, digV D', .arr 20 (byteArr hash)], old, next⟩ = R →
          exec (P.world N (d + 2)) N (seqs (.define 1 (.cons (.deref (.loc 0)) .nil) ::
            .define 1 (.cons (.method (name! "checkSum") (.loc 2) .nil) .nil) :: ss)) ⟨m.next, [.ptr ld, v], m.frame, m.next + 1⟩ = R
    | .error e => ∃ s, (∀ ss, exec (P.world N (d + 2)) N (seqs (.define 1 (.cons (.deref (.loc 0)) .nil) ::
            .define 1 (.cons (.method (name! "checkSum") (.loc 2) .nil) .nil) :: ss)) ⟨m.next, [.ptr ld, v], m.frame, m.next + 1⟩ = .error s) ∧
          Stands e s := by
  have hne : ld.frame ≠ m.next := Nat.ne_of_lt hl
  have hderef : evs (P.world N (d + 2)) (.deref (.loc 0)) ⟨m.next, [.ptr ld, v], m.frame, m.next + 1⟩ =
      .ok ([digV D], ⟨m.next, [.ptr ld, v], m.frame, m.next + 1⟩) := by
    show (evs _ (.loc 0) >>= _) _ = _
    rw [bind_of (evs_loc (v := .ptr ld) rfl)]
    show (load ld >>= _) _ = _
    rw [bind_of (load_look hne hd _)]
    rfl
  have e1 := exec_define (N := N) (k := 1) (evs_one hderef) rfl
  have hcs := checkSum_eq (N := N) (d := d) (D := D) (ld := ⟨m.next, 2, []⟩) (m := ⟨m.next, [.ptr ld, v, digV D], m.frame, m.next + 1⟩) hP hB hN
    ⟨by rw [frame_old (by omega), hG.vars], by rw [frame_old (by omega), hG.table]⟩ (show 2 ≤ m.next by omega) (Nat.lt_succ_self _)
    (look_cur rfl)
  have hmeth : evs (P.world N (d + 2)) (.method (name! "checkSum") (.loc 2) .nil) ⟨m.next, [.ptr ld, v, digV D], m.frame, m.next + 1⟩ =
      P.call N (d + 2) 0 (name! "checkSum") [.ptr ⟨m.next, 2, []⟩] ⟨m.next, [.ptr ld, v, digV D], m.frame, m.next + 1⟩ :=
    evs_method (l := ⟨m.next, 2, []⟩) rfl (through_cur rfl) evs_nil
  generalize hr : D.checkSum block = R at hcs
  match R, hcs with
  | .error e, ⟨s, w1, w2⟩ =>
    refine ⟨s, fun ss => (exec_seqs_cons e1).trans (exec_seqs_error (exec_define_error (evs_cons_error (hmeth.trans w1)))), w2⟩
  | .ok (D', hash), ⟨m1, w1, w2⟩ =>
    obtain ⟨old', next', k1, k2, k3⟩ := became_cur (s := 2) (Nat.lt_succ_self _) rfl (fixed_digV _) w2
    subst k1
    have e2 := exec_define (N := N) (k := 1) (evs_one (hmeth.trans w1)) rfl
    exact ⟨old', next', k2, fun k hk => k3 k (by omega) (by omega), fun ss R h => (exec_seqs_cons e1).trans ((exec_seqs_cons e2).trans h)⟩

/-- `append(in, hash[:]...)`. -/
theorem appendHash_ok {X : World} {D' : Digest} {hash : List Byte} {old : Nat → List Val} {next no : Nat} (hh : hash.length = 20)
    (hno : m.next < next) (hold : ∀ k, k < m.next → old k = m.frame k) (hv : IsBytes m.frame m.next no v bs) :
    ∃ v' old' next', evs X appendHash ⟨m.next, [.ptr ld, v, digV D', .arr 20 (byteArr hash)], old, next⟩ =
      .ok ([v'], ⟨m.next, [.ptr ld, v, digV D', .arr 20 (byteArr hash)], old', next'⟩) ∧ ofTy (.slice .u8) v' = v' ∧
      Appended X.room m (m.leave ⟨m.next, [.ptr ld, v, digV D', .arr 20 (byteArr hash)], old', next'⟩ true) v bs hash v' := by
  obtain ⟨v', old', next', a1, a2, a3⟩ := append_return (room := X.room) (g := fun q => byteArr hash (0 + q))
    (C := [.ptr ld, v, digV D', .arr 20 (byteArr hash)]) (add := hash) hno hold hv
    (fun q hq => by rw [Nat.zero_add, byteArr, List.getElem?_eq_getElem hq]; rfl) (by omega)
  refine ⟨v', old', next', ?_, ?_, a3⟩
  · have hs := evs_sliceCur (X := X) (i := m.next) (C := [.ptr ld, v, digV D', .arr 20 (byteArr hash)]) (old := old) (next := next) (s := 3)
      (lo := .omit) (hi := .omit) (a := []) (b := []) (x := 0) (y := 20) rfl rfl rfl bound_none bound_none (by omega) (by omega)
    have hel : sliceElems (.slice ⟨m.next, 3, []⟩ 0 20 20) ⟨m.next, [.ptr ld, v, digV D', .arr 20 (byteArr hash)], old, next⟩ =
        .ok ((fun q => byteArr hash (0 + q), 20), ⟨m.next, [.ptr ld, v, digV D', .arr 20 (byteArr hash)], old, next⟩) := by
      have hl : load ⟨m.next, 3, []⟩ ⟨m.next, [.ptr ld, v, digV D', .arr 20 (byteArr hash)], old, next⟩ =
        .ok (.arr 20 (byteArr hash), ⟨m.next, [.ptr ld, v, digV D', .arr 20 (byteArr hash)], old, next⟩) :=
        load_some (show (Mem.frame _ _)[3]? = some (.arr 20 (byteArr hash)) by simp [Mem.frame]) rfl
      simp only [sliceElems, bind_run, need, parts, arrayAt]
      rw [if_neg (by omega)]
      simp only [bind_run, hl, pure_run]
    rw [hh] at a1
    show (evs X (.loc 1) >>= _) _ = _
    rw [bind_of (evs_loc (v := v) rfl)]
    show (evs X (.slice (.loc 3) .omit .omit) >>= _) _ = _
    rw [bind_of hs]
    show ((sliceElems (.slice ⟨m.next, 3, []⟩ 0 20 20)) >>= _) _ = _
    rw [bind_of hel]
    show (appendSlice X.room v (fun q => byteArr hash (0 + q)) 20 >>= _) _ = _
    rw [bind_of a1]
    rfl
  · cases a3 <;> rfl

/-- The method `Sum`. -/
theorem sum_eq (hP : HasSums P) (hB : CallsBlock P N d G block) (hN : 2 < N)
    (hG : Boot G m.frame) (h2 : 2 ≤ ld.frame) (hl : ld.frame < m.next) (hd : look m.frame ld = .ok (digV D)) {no : Nat}
    (hv : IsBytes m.frame m.next no v bs) :
    match D.checkSum block with
    | .ok (_, hash) => ∃ v' m', P.call N (d + 3) 0 (name! "Sum") [.ptr ld, v] m = .ok ([v'], m') ∧ Appended P.room m m' v bs hash v'
    | .error e => ∃ s, P.call N (d + 3) 0 (name! "Sum") [.ptr ld, v] m = .error s ∧ Stands e s := by
  rw [call_of (by rfl) hP.sum (congrArg Func.body sumFunc_eq)]
  have hnp : ¬[Val.ptr ld, v].length < sumFunc.params.length := by rw [sumFunc_eq]; exact Nat.lt_irrefl 2
  have hpass : passed sumFunc.params [.ptr ld, v] ++ (if sumFunc.named then sumFunc.results.map zero else []) = [.ptr ld, v] := by
    rw [sumFunc_eq]; cases hv <;> rfl
  have hent : m.enter [.ptr ld, v] = ⟨m.next, [.ptr ld, v], m.frame, m.next + 1⟩ := rfl
  have S := sumStart (v := v) hP.toHasSum hB hN hG h2 hl hd
  generalize hr : D.checkSum block = R at S
  match R, S with
  | .error e, ⟨s, w1, w2⟩ =>
    refine ⟨s, runFunc_error (congrArg Func.body sumFunc_eq) hnp ?_, w2⟩
    rw [hpass, hent]
    exact exec_block_error (w1 _)
  | .ok (D', hash), ⟨old, next, s1, s2, s3⟩ =>
    obtain ⟨v', old', next', a1, a2, a3⟩ := appendHash_ok (X := P.world N (d + 2)) (ld := ld) (D' := D') (checkSum_length hr) s1 s2 hv
    have hx : exec (P.world N (d + 2)) N sumBody (m.enter (passed sumFunc.params [.ptr ld, v] ++
        (if sumFunc.named then sumFunc.results.map zero else []))) =
        .ok (.ret [v'], ⟨m.next, [.ptr ld, v, digV D', .arr 20 (byteArr hash)], old', next'⟩) := by
      rw [hpass, hent]
      exact exec_block_ret (s3 _ _ (exec_seq_ret (exec_ret (evs_one a1))))
    refine ⟨v', _, runFunc_of (congrArg Func.body sumFunc_eq) hnp hx (by rw [sumFunc_eq]; simp [results, a2]), ?_⟩
    rw [show sumBody.addrs = true by by_kernel]
    exact a3

/-- `CollisionResistantSum`. -/
theorem crs_eq (hP : HasSums P) (hB : CallsBlock P N d G block) (hN : 2 < N)
    (hG : Boot G m.frame) (h2 : 2 ≤ ld.frame) (hl : ld.frame < m.next) (hd : look m.frame ld = .ok (digV D)) {no : Nat}
    (hv : IsBytes m.frame m.next no v bs) :
    match D.checkSum block with
    | .ok (D', hash) => ∃ v' m', P.call N (d + 3) 0 (name! "CollisionResistantSum") [.ptr ld, v] m = .ok ([v', .bool D'.col], m') ∧
        Appended P.room m m' v bs hash v'
    | .error e => ∃ s, P.call N (d + 3) 0 (name! "CollisionResistantSum") [.ptr ld, v] m = .error s ∧ Stands e s := by
  rw [call_of (by rfl) hP.crs (congrArg Func.body crsFunc_eq)]
  have hnp : ¬[Val.ptr ld, v].length < crsFunc.params.length := by rw [crsFunc_eq]; exact Nat.lt_irrefl 2
  have hpass : passed crsFunc.params [.ptr ld, v] ++ (if crsFunc.named then crsFunc.results.map zero else []) = [.ptr ld, v] := by
    rw [crsFunc_eq]; cases hv <;> rfl
  have hent : m.enter [.ptr ld, v] = ⟨m.next, [.ptr ld, v], m.frame, m.next + 1⟩ := rfl
  have S := sumStart (v := v) hP.toHasSum hB hN hG h2 hl hd
  generalize hr : D.checkSum block = R at S
  match R, S with
  | .error e, ⟨s, w1, w2⟩ =>
    refine ⟨s, runFunc_error (congrArg Func.body crsFunc_eq) hnp ?_, w2⟩
    rw [hpass, hent]
    exact exec_block_error (w1 _)
  | .ok (D', hash), ⟨old, next, s1, s2, s3⟩ =>
    obtain ⟨v', old', next', a1, a2, a3⟩ := appendHash_ok (X := P.world N (d + 2)) (ld := ld) (D' := D') (checkSum_length hr) s1 s2 hv
    have hcol : evs (P.world N (d + 2)) (.field (.loc 2) (name! "col")) ⟨m.next, [.ptr ld, v, digV D', .arr 20 (byteArr hash)], old', next'⟩ =
        .ok ([.bool D'.col], ⟨m.next, [.ptr ld, v, digV D', .arr 20 (byteArr hash)], old', next'⟩) :=
      evs_field (evs_loc (v := digV D') rfl) rfl
    have hx : exec (P.world N (d + 2)) N crsBody (m.enter (passed crsFunc.params [.ptr ld, v] ++
        (if crsFunc.named then crsFunc.results.map zero else []))) =
        .ok (.ret [v', .bool D'.col], ⟨m.next, [.ptr ld, v, digV D', .arr 20 (byteArr hash)], old', next'⟩) := by
      rw [hpass, hent]
      exact exec_block_ret (s3 _ _ (exec_seq_ret (exec_ret (evs_cons a1 (evs_one hcol)))))
    refine ⟨v', _, runFunc_of (congrArg Func.body crsFunc_eq) hnp hx (by rw [crsFunc_eq]; simp [results, a2]; rfl), ?_⟩
    rw [show crsBody.addrs = true by by_kernel]
    exact a3

/-- The function `Sum`. -/
theorem sumPkg_eq (hP : HasSums P) (hB : CallsBlock P N d G block) (hB' : CallsBlock P N (d + 1) G block)
    (hN : 2 < N) (hN' : bs.length / 64 < N) (hm : 2 ≤ m.next)
    (hG : Boot G m.frame) {no : Nat} (hv : IsBytes m.frame m.next no v bs) (hlen : bs.length < 2 ^ 63) :
    match sumPkg block .callFirst bs with
    | .ok (hash, col) => ∃ m', P.call N (d + 3) (name! "sha1cd") (name! "Sum") [v] m = .ok ([.arr 20 (byteArr hash), .bool col], m') ∧
        Became m m.frame m'
    | .error e => ∃ s, P.call N (d + 3) (name! "sha1cd") (name! "Sum") [v] m = .error s ∧ Stands e s := by
  rw [call_of (by rfl) hP.sumPkg (congrArg Func.body sumPkgFunc_eq)]
  have hnp : ¬[v].length < sumPkgFunc.params.length := by rw [sumPkgFunc_eq]; exact Nat.lt_irrefl 1
  have hpass : passed sumPkgFunc.params [v] ++ (if sumPkgFunc.named then sumPkgFunc.results.map zero else []) = [v] := by
    rw [sumPkgFunc_eq]; cases hv <;> rfl
  have hent : m.enter [v] = ⟨m.next, [v], m.frame, m.next + 1⟩ := rfl
  have e1 : exec (P.world N (d + 2)) N (.var digTy) ⟨m.next, [v], m.frame, m.next + 1⟩ =
      .ok (.normal, ⟨m.next, [v, digV Digest.zero], m.frame, m.next + 1⟩) := by rw [← zero_dig]; rfl
  have meth : ∀ (D : Digest) old next f es vs, evs (P.world N (d + 2)) es ⟨m.next, [v, digV D], old, next⟩ =
      .ok (vs, ⟨m.next, [v, digV D], old, next⟩) → evs (P.world N (d + 2)) (.method f (.loc 1) es) ⟨m.next, [v, digV D], old, next⟩ =
      P.call N (d + 2) 0 f (.ptr ⟨m.next, 1, []⟩ :: vs) ⟨m.next, [v, digV D], old, next⟩ := fun D old next f es vs h =>
    evs_method (l := ⟨m.next, 1, []⟩) rfl (through_cur rfl) h
  obtain ⟨m1, r1, r2⟩ := reset_eq (N := N) (d := d + 1) (ld := ⟨m.next, 1, []⟩) (D := Digest.zero)
    (m := ⟨m.next, [v, digV Digest.zero], m.frame, m.next + 1⟩) hP.toHasDigest (Nat.lt_succ_self _) (look_cur rfl)
  obtain ⟨old1, next1, k1, k2, k3⟩ := became_cur (s := 1) (Nat.lt_succ_self _) rfl (fixed_digV _) r2
  subst k1
  have e2 := exec_expr (N := N) ((meth _ _ _ _ _ _ evs_nil).trans r1)
  have hold1 : ∀ k, k < m.next → old1 k = m.frame k := fun k hk => k3 k (by omega) (by omega)
  have hW := write_eq (N := N) (d := d + 1) (D := Digest.zero.reset) (ld := ⟨m.next, 1, []⟩) (v := v) (bs := bs)
    (m := ⟨m.next, [v, digV Digest.zero.reset], old1, next1⟩) hP.toHasDigest hB' (by omega) hN'
    ⟨by rw [frame_old (by omega), hold1 _ (by omega), hG.vars], by rw [frame_old (by omega), hold1 _ (by omega), hG.table]⟩ hm
    (show m.next < next1 by omega) (look_cur rfl) (by
      cases hv with
      | null => exact .null
      | slice q1 q2 hb =>
        refine .slice (Nat.lt_of_lt_of_le q1 (show m.next ≤ next1 by omega)) (Nat.ne_of_lt q1) (hb.congr ?_)
        exact (look_congr (frame_old (Nat.ne_of_lt q1))).trans (look_congr (hold1 _ q1))) hlen
  simp only [sumPkg, bind, Except.bind]
  generalize hr : Digest.zero.reset.write block bs = R at hW
  match R, hW with
  | .error e, ⟨s, w1, w2⟩ =>
    refine ⟨s, runFunc_error (congrArg Func.body sumPkgFunc_eq) hnp ?_, w2⟩
    rw [hpass, hent]
    exact exec_block_error ((exec_seqs_cons e1).trans ((exec_seqs_cons e2).trans (exec_seqs_error
      (exec_expr_error ((meth Digest.zero.reset old1 next1 _ _ _ (evs_one (evs_loc (k := 0) rfl))).trans w1)))))
  | .ok (D1, n, er), ⟨_, m2, w1, w2⟩ =>
    obtain ⟨old2, next2, p1, p2, p3⟩ := became_cur (s := 1) (show m.next < next1 by omega) rfl (fixed_digV _) w2
    subst p1
    have e3 := exec_expr (N := N) ((meth Digest.zero.reset old1 next1 _ _ _ (evs_one (evs_loc (k := 0) rfl))).trans w1)
    have hold2 : ∀ k, k < m.next → old2 k = m.frame k := fun k hk => (p3 k (by omega) (by omega)).trans (hold1 k hk)
    have hC := checkSum_eq (N := N) (d := d) (D := D1) (ld := ⟨m.next, 1, []⟩)
      (m := ⟨m.next, [v, digV D1], old2, next2⟩) hP.toHasSum hB hN
      ⟨by rw [frame_old (by omega), hold2 _ (by omega), hG.vars], by rw [frame_old (by omega), hold2 _ (by omega), hG.table]⟩ hm
      (show m.next < next2 by omega) (look_cur rfl)
    simp only
    generalize hr2 : D1.checkSum block = R2 at hC
    match R2, hC with
    | .error e, ⟨s, w1, w2⟩ =>
      refine ⟨s, runFunc_error (congrArg Func.body sumPkgFunc_eq) hnp ?_, w2⟩
      rw [hpass, hent]
      exact exec_block_error ((exec_seqs_cons e1).trans ((exec_seqs_cons e2).trans ((exec_seqs_cons e3).trans (exec_seqs_error
        (exec_ret_error (evs_cons_error ((meth D1 old2 next2 _ _ _ evs_nil).trans w1)))))))
    | .ok (D2, hash), ⟨m3, w1, w2⟩ =>
      obtain ⟨old3, next3, q1, q2, q3⟩ := became_cur (s := 1) (show m.next < next2 by omega) rfl (fixed_digV _) w2
      subst q1
      have hcol : evs (P.world N (d + 2)) (.field (.loc 1) (name! "col")) ⟨m.next, [v, digV D2], old3, next3⟩ =
          .ok ([.bool D2.col], ⟨m.next, [v, digV D2], old3, next3⟩) := evs_field (evs_loc (v := digV D2) rfl) rfl
      have hx : exec (P.world N (d + 2)) N sumPkgBody (m.enter (passed sumPkgFunc.params [v] ++
          (if sumPkgFunc.named then sumPkgFunc.results.map zero else []))) =
          .ok (.ret [.arr 20 (byteArr hash), .bool D2.col], ⟨m.next, [v, digV D2], old3, next3⟩) := by
        rw [hpass, hent]
        exact exec_block_ret ((exec_seqs_cons e1).trans ((exec_seqs_cons e2).trans ((exec_seqs_cons e3).trans
          (exec_seq_ret (exec_ret (evs_cons ((meth D1 old2 next2 _ _ _ evs_nil).trans w1) (evs_one hcol)))))))
      refine ⟨_, runFunc_of (congrArg Func.body sumPkgFunc_eq) hnp hx (by rw [sumPkgFunc_eq]; rfl), ⟨rfl, ?_, fun k hk => ?_⟩⟩
      · simp only [Mem.leave]
        split <;> omega
      · rw [show sumPkgBody.addrs = true by by_kernel, leave_frame (by omega), q3 k (by omega) (by omega), hold2 k hk]

end

end Verif.Source.Go
