import Verif.Proofs.GoDigest

/-!
`Write` as it is read from the text of sha1cd.go is `Model.Digest.write`.
-/

namespace Verif.Source.Go

open Verif Verif.Source Verif.Model

/-- `n &^ 63`. -/
theorem andNot_63 (n : Nat) (hn : n < 2 ^ 63) :
    (BitVec.ofInt 64 (n : Int) &&& ~~~BitVec.ofInt 64 63).toInt = ((n - (n &&& (Chunk - 1)) : Nat) : Int) := by
  have h1 : (BitVec.ofNat 64 n &&& ~~~BitVec.ofNat 64 63) = (BitVec.ofNat 64 n >>> 6) <<< 6 := by
    apply BitVec.eq_of_getLsbD_eq
    intro i hi
    simp only [BitVec.getLsbD_and, BitVec.getLsbD_not, BitVec.getLsbD_shiftLeft, BitVec.getLsbD_ushiftRight, BitVec.getLsbD_ofNat]
    rw [show (63 : Nat) = 2 ^ 6 - 1 by rfl, Nat.testBit_two_pow_sub_one]
    by_cases h6 : i < 6
    · simp [h6]
    · simp only [h6, decide_false, Bool.not_false, Bool.and_true]
      rw [show 6 + (i - 6) = i by omega]
      simp [hi]
  have e1 : BitVec.ofInt 64 (n : Int) = BitVec.ofNat 64 n := by simp
  have e2 : BitVec.ofInt 64 63 = BitVec.ofNat 64 63 := rfl
  rw [e1, e2, h1]
  have hc : n &&& (Chunk - 1) = n % 64 := by
    rw [show Chunk - 1 = 2 ^ 6 - 1 by rfl, Nat.and_two_pow_sub_one_eq_mod]
  have h2 : ((BitVec.ofNat 64 n >>> 6) <<< 6).toNat = n - n % 64 := by
    simp only [BitVec.toNat_shiftLeft, BitVec.toNat_ushiftRight, BitVec.toNat_ofNat, Nat.shiftRight_eq_div_pow, Nat.shiftLeft_eq]
    omega
  rw [hc, BitVec.toInt_eq_toNat_of_lt (by rw [h2]; omega), h2]

theorem wrap_nat (n : Nat) (hn : n < 2 ^ 63) : wrap (n : Int) = n := by
  have : (BitVec.ofNat 64 n).toNat = n := by simp; omega
  simp only [wrap]
  rw [show BitVec.ofInt 64 (n : Int) = BitVec.ofNat 64 n by simp, BitVec.toInt_eq_toNat_of_lt (by rw [this]; omega), this]

section
variable {m m1 m2 : Mem} {X : World} {N : Nat}

theorem evs_lenSlice {e : Expr} {l : Loc} {off n cap : Nat} (h : evs X e m = .ok ([.slice l off n cap], m1)) :
    evs X (.len e) m = .ok ([.int n], m1) := by
  show (evs X e >>= _) m = _
  rw [bind_of h, bind_of (single_one _ _)]
  rfl

theorem exec_expr {e : Expr} {vs : List Val} (h : evs X e m = .ok (vs, m1)) : exec X N (.expr e) m = .ok (.normal, m1) := by
  show (evs X e >>= _) m = _
  rw [bind_of h]
  rfl

theorem exec_assign_error {ls rs : Expr} {ps : List (Option Loc)} {s : Stop} (hl : places X ls m = .ok (ps, m1))
    (hr : evs X rs m1 = .error s) : exec X N (.assign ls rs) m = .error s := by
  show (places X ls >>= _) m = _
  rw [bind_of hl, bind_run, hr]

theorem exec_seqs_error {s : Stop} {a : Stmt} {ss : List Stmt} (h : exec X N a m = .error s) :
    exec X N (seqs (a :: ss)) m = .error s := exec_seq_error h

end

/-- What `Write` finds: the package variables, the digest and the bytes, in the frames below its own. -/
structure WriteCtx (fr : Nat → List Val) (i : Nat) (G : List Val) (ld : Loc) (D0 : Digest) (lp : Loc) : Prop where
  boot : Boot G fr
  two : 2 ≤ ld.frame
  ld_lt : ld.frame < i
  lp_lt : lp.frame < i
  ne : lp.frame ≠ ld.frame
  dig : look fr ld = .ok (digV D0)

section
variable {P : Program} {N d i : Nat} {G : List Val} {block : BlockFn} {ld lp : Loc} {D0 D : Digest} {fr old : Nat → List Val}
  {next off cap nn : Nat} {bs : List Byte} {C : List Val}

theorem frame_old {g : Nat} (h : g ≠ i) : Mem.frame ⟨i, C, old, next⟩ g = old g := by simp [Mem.frame, h]

/-- A call of `block` with a slice that holds the bytes `bs`, even when the chaining value and the flag of the digest change. -/
theorem callBlk_at (hB : CallsBlock P N d G block) (W : WriteCtx fr i G ld D0 lp) (K : Keeps fr i ld (digV D) old next)
    (hN : bs.length / 64 < N) {e : Expr} {lq : Loc} (hq : lq.frame < i)
    (he : evs (P.world N d) e ⟨i, .ptr ld :: C, old, next⟩ = .ok ([.slice lq off bs.length cap], ⟨i, .ptr ld :: C, old, next⟩))
    (hb : ∀ h' c' q (hq : q < bs.length), look (putAt old ld (digV { D with h := h', col := c' })) (lq.sub (off + q)) = .ok (.u8 bs[q]))
    (hcap : bs.length ≤ cap) :
    match D.callBlock block bs with
    | .ok D' => ∃ old' next', exec (P.world N d) N (callBlk e) ⟨i, .ptr ld :: C, old, next⟩ =
        .ok (.normal, ⟨i, .ptr ld :: C, old', next'⟩) ∧ Keeps fr i ld (digV D') old' next'
    | .error e' => ∃ s, exec (P.world N d) N (callBlk e) ⟨i, .ptr ld :: C, old, next⟩ = .error s ∧ Stands e' s := by
  have hi : ld.frame ≠ i := Nat.ne_of_lt W.ld_lt
  have hlt := K.lt
  have h2 := W.two
  have hl := W.ld_lt
  have hev : evs (P.world N d) (.call (name! "sha1cd") (name! "block") (.cons (.loc 0) (.cons e .nil))) ⟨i, .ptr ld :: C, old, next⟩ =
      P.call N d (name! "sha1cd") (name! "block") [.ptr ld, .slice lq off bs.length cap] ⟨i, .ptr ld :: C, old, next⟩ :=
    evs_call (evs_cons (evs_loc rfl) (evs_one he))
  have hB' := hB (ld := ld) (lp := lq) (rest := restOf D.x.1 D.nx D.len) (h := D.h) (c := D.col) (off := off) (cap := cap) (bs := bs)
    (m := ⟨i, .ptr ld :: C, old, next⟩) hN K.lt
    ⟨by rw [frame_old (by omega), K.frame (by omega) (by omega), W.boot.vars],
      by rw [frame_old (by omega), K.frame (by omega) (by omega), W.boot.table]⟩ W.two (Nat.lt_trans W.ld_lt K.lt)
    (Nat.lt_trans hq K.lt) ((look_congr (frame_old hi)).trans (K.look W.ld_lt W.dig (fixed_digV _)))
    (fun h' c' q hq' => by
      refine Eq.trans (look_congr ?_) (hb h' c' q hq')
      simp only [withDig, putAt, Loc.sub]
      rw [frame_old (Nat.ne_of_lt hq)]
      rfl) hcap
  simp only [Digest.callBlock]
  generalize hr : block ⟨D.h, D.col⟩ bs = R at hB'
  match R, hB' with
  | .ok r, ⟨m', b1, b2⟩ =>
    obtain ⟨old', next', k1, k2⟩ := became_keeps (w := digV { D with h := r.h, col := r.col }) K W.ld_lt W.dig (fixed_digV _) b2
    subst k1
    exact ⟨old', next', exec_expr (hev.trans b1), k2⟩
  | .error e', ⟨s, b1, b2⟩ => exact ⟨s, exec_expr_error (hev.trans b1), b2⟩

/-- The slots of `Write`. -/
def wSlots (ld lp : Loc) (off len cap nn : Nat) (more : List Val) : List Val :=
  .ptr ld :: .slice lp off len cap :: .int nn :: .null :: more

theorem Bytes.keeps (W : WriteCtx fr i G ld D0 lp) (K : Keeps fr i ld (digV D) old next) (hb : Bytes fr lp off cap bs) :
    Bytes old lp off cap bs := hb.congr (K.other W.lp_lt W.ne)

/-- `p = p[n:]`. -/
theorem dropN_ok {X : World} {k len : Nat} (hk : k ≤ len) (hcap : len ≤ cap) :
    exec X N dropN ⟨i, wSlots ld lp off len cap nn [.int k], old, next⟩ =
      .ok (.normal, ⟨i, wSlots ld lp (off + k) (len - k) (cap - k) nn [.int k], old, next⟩) := by
  refine exec_assign places_one (evs_one (evs_slice (l := ⟨i, 1, []⟩) (a := [.int k]) (b := []) rfl (evs_loc rfl) rfl
    (sliceOf_slice (x := k) (y := len) (load_pget rfl) (bound_some rfl) bound_none hk hcap))) (storeAll_one ?_)
  simp [store, Mem.frame, Val.set, Mem.setFrame, wSlots, like]

/-- `d.x[:]`. -/
theorem evs_digX {X : World} (hi : ld.frame ≠ i) (hd : look old ld = .ok (digV D)) :
    evs X (digX .omit .omit) ⟨i, .ptr ld :: C, old, next⟩ =
      .ok ([.slice (ld.sub (name! "x")) 0 64 64], ⟨i, .ptr ld :: C, old, next⟩) :=
  evs_slice (a := []) (b := []) place_dig rfl rfl (sliceOf_arr (n := 64) (x := 0) (y := 64)
    (load_look (l := ld.sub (name! "x")) hi ((look_sub hd).trans (digV_get_x D)) _) bound_none bound_none (by omega) (by omega))

/-- `block(d, d.x[:])`. -/
theorem callBlk_x (hB : CallsBlock P N d G block) (W : WriteCtx fr i G ld D0 lp) (K : Keeps fr i ld (digV D) old next) (hN : 1 < N) :
    match D.callBlock block D.x.1 with
    | .ok D' => ∃ old' next', exec (P.world N d) N (callBlk (digX .omit .omit)) ⟨i, .ptr ld :: C, old, next⟩ =
        .ok (.normal, ⟨i, .ptr ld :: C, old', next'⟩) ∧ Keeps fr i ld (digV D') old' next'
    | .error e' => ∃ s, exec (P.world N d) N (callBlk (digX .omit .omit)) ⟨i, .ptr ld :: C, old, next⟩ = .error s ∧ Stands e' s := by
  have hi : ld.frame ≠ i := Nat.ne_of_lt W.ld_lt
  have hd := K.look W.ld_lt W.dig (fixed_digV _)
  have hx := D.x.2
  refine callBlk_at (off := 0) (cap := 64) hB W K (by rw [hx]; exact hN) (lq := ld.sub (name! "x")) W.ld_lt ?_ ?_ (Nat.le_of_eq hx)
  · rw [hx]
    exact evs_digX hi hd
  · intro h' c' q hq
    have h1 := look_putAt (fixed_digV { D with h := h', col := c' }) hd
    have h2 := (look_sub (k := name! "x") h1).trans (digV_get_x _)
    rw [look_sub h2]
    simp only [Val.get]
    rw [if_pos (by omega), byteArr, Nat.zero_add, List.getElem?_eq_getElem hq]
    rfl

/-- sha1cd.go:142-145. -/
theorem full_ok (hB : CallsBlock P N d G block) (W : WriteCtx fr i G ld D0 lp) (K : Keeps fr i ld (digV D) old next) (hN : 1 < N)
    (hC : C.length = 4) :
    match (if D.nx = Chunk then (do let d' ← D.callBlock block D.x.1; pure { d' with nx := 0 }) else pure D : GoM Digest) with
    | .ok D' => ∃ old' next', exec (P.world N d) N fullStmt ⟨i, .ptr ld :: C, old, next⟩ =
        .ok (.normal, ⟨i, .ptr ld :: C, old', next'⟩) ∧ Keeps fr i ld (digV D') old' next'
    | .error e' => ∃ s, exec (P.world N d) N fullStmt ⟨i, .ptr ld :: C, old, next⟩ = .error s ∧ Stands e' s := by
  have hi : ld.frame ≠ i := Nat.ne_of_lt W.ld_lt
  have hd := K.look W.ld_lt W.dig (fixed_digV _)
  have hc : ev (P.world N d) (.bin .eq (.field (.loc 0) (name! "nx")) (.num 64)) ⟨i, .ptr ld :: C, old, next⟩ =
      .ok (.bool (decide ((D.nx : Int) = 64)), ⟨i, .ptr ld :: C, old, next⟩) :=
    ev_of (evs_bin (evs_dig hi hd (digV_get_nx D)) evs_num rfl)
  by_cases hn : D.nx = Chunk
  · rw [if_pos hn]
    rw [decide_eq_true (by rw [hn]; rfl)] at hc
    have hb := callBlk_x (C := C) hB W K hN
    rw [fullStmt, exec_ite_true hc]
    generalize hr : D.callBlock block D.x.1 = R at hb
    match R, hb with
    | .ok D', ⟨old', next', b1, b2⟩ =>
      have hd' := b2.look W.ld_lt W.dig (fixed_digV _)
      have h3 := exec_dig (X := P.world N d) (N := N) (C := C) (next := next') hi (evs_num (n := 0)) hd' (digV_set_nx0 D')
      refine ⟨_, next', (exec_block ((exec_seqs_cons b1).trans (exec_seqs_cons (ss := []) h3))).trans ?_, b2.put W.dig (fixed_digV _)⟩
      rw [List.take_of_length_le (by simp [hC])]
    | .error e', ⟨s, b1, b2⟩ => exact ⟨s, exec_block_error (exec_seqs_error b1), b2⟩
  · rw [if_neg hn]
    rw [decide_eq_false (by intro h; exact hn (by simp only [Chunk]; omega))] at hc
    rw [fullStmt, exec_ite_false hc]
    exact ⟨old, next, rfl, K⟩

/-- sha1cd.go:139-147. -/
theorem fill_ok (hB : CallsBlock P N d G block) (W : WriteCtx fr i G ld D0 lp) (K : Keeps fr i ld (digV D) old next) (hN : 1 < N)
    (hb : Bytes fr lp off cap bs) :
    match D.writeFill block bs with
    | .ok (D', bs') => ∃ off' cap' old' next', exec (P.world N d) N fillStmt ⟨i, wSlots ld lp off bs.length cap nn [], old, next⟩ =
        .ok (.normal, ⟨i, wSlots ld lp off' bs'.length cap' nn [], old', next'⟩) ∧ Keeps fr i ld (digV D') old' next' ∧
        Bytes fr lp off' cap' bs' ∧ bs'.length ≤ bs.length
    | .error e' => ∃ s, exec (P.world N d) N fillStmt ⟨i, wSlots ld lp off bs.length cap nn [], old, next⟩ = .error s ∧ Stands e' s := by
  have hi : ld.frame ≠ i := Nat.ne_of_lt W.ld_lt
  have hd := K.look W.ld_lt W.dig (fixed_digV _)
  have hcap : bs.length ≤ cap := by obtain ⟨_, _, _, _, h, _⟩ := hb; exact h
  have hc : ev (P.world N d) (.bin .gt (.field (.loc 0) (name! "nx")) (.num 0)) ⟨i, wSlots ld lp off bs.length cap nn [], old, next⟩ =
      .ok (.bool (decide ((D.nx : Int) > 0)), ⟨i, wSlots ld lp off bs.length cap nn [], old, next⟩) :=
    ev_of (evs_bin (evs_dig hi hd (digV_get_nx D)) evs_num rfl)
  have hnx := evs_dig (X := P.world N d) (C := .slice lp off bs.length cap :: .int nn :: .null :: []) (next := next) hi hd (digV_get_nx D)
  have hlx := load_look (l := ld.sub (name! "x")) (next := next) hi ((look_sub hd).trans (digV_get_x D))
    (wSlots ld lp off bs.length cap nn [])
  simp only [Digest.writeFill]
  by_cases hn : D.nx > 0
  · rw [if_pos hn]
    rw [decide_eq_true (by omega)] at hc
    rw [fillStmt, exec_ite_true hc]
    by_cases h64 : D.nx ≤ 64
    · rw [dif_pos h64]
      generalize hk : min (64 - D.nx) bs.length = k
      have e1 : evs (P.world N d) (digX (.field (.loc 0) (name! "nx")) .omit) ⟨i, wSlots ld lp off bs.length cap nn [], old, next⟩ =
          .ok ([.slice (ld.sub (name! "x")) D.nx (64 - D.nx) (64 - D.nx)], ⟨i, wSlots ld lp off bs.length cap nn [], old, next⟩) :=
        evs_slice (b := []) place_dig hnx rfl (sliceOf_arr (x := D.nx) (y := 64) hlx (bound_some rfl) bound_none h64 (by omega))
      have e2 := evs_copy (X := P.world N d) (b := .loc 1) e1 (evs_loc rfl) (copy_dig (next := next) (cap' := 64 - D.nx)
        (C := wSlots ld lp off bs.length cap nn []) h64 hi hd (Nat.ne_of_lt W.lp_lt) (hb.keeps W K))
      rw [hk] at e2
      have e3 := exec_define (N := N) (k := 1) (evs_one e2) rfl
      have K1 := K.put (w := digV { D with x := copyAt D.x D.nx h64 bs }) W.dig (fixed_digV _)
      have hd1 := K1.look W.ld_lt W.dig (fixed_digV _)
      have e4 := exec_op (X := P.world N d) (N := N) (f := name! "nx") (o := .add) (e := .loc 4) (b := .int k)
        (x := .int (D.nx + k : Nat)) (next := next)
        (C := .slice lp off bs.length cap :: .int nn :: .null :: [.int k]) (D' := { D with x := copyAt D.x D.nx h64 bs, nx := D.nx + k })
        hi hd1 (digV_get_nx _) (evs_loc rfl) (by
          show some (Val.int (wrap ((D.nx : Int) + (k : Int)))) = _
          rw [show (D.nx : Int) + (k : Int) = ((D.nx + k : Nat) : Int) by omega, wrap_nat _ (by omega)]) (digV_set_nx _ _)
      have K2 := K1.put (w := digV { D with x := copyAt D.x D.nx h64 bs, nx := D.nx + k }) W.dig (fixed_digV _)
      have e5 := full_ok (C := .slice lp off bs.length cap :: .int nn :: .null :: [.int k]) hB W K2 hN rfl
      have hkb : k ≤ bs.length := by omega
      simp only at e5
      split
      · rename_i D' bs' hq
        split at hq
        · rename_i hch
          rw [if_pos hch] at e5
          generalize hr : Digest.callBlock block { D with x := copyAt D.x D.nx h64 bs, nx := D.nx + k } (copyAt D.x D.nx h64 bs).1 = R at e5 hq
          match R, e5, hq with
          | .ok D1, ⟨old', next', f1, f2⟩, hq =>
            simp only [bind, Except.bind, pure, Except.pure, Except.ok.injEq, Prod.mk.injEq] at hq
            obtain ⟨hq1, hq2⟩ := hq
            subst hq1
            subst hq2
            have e6 := dropN_ok (X := P.world N d) (N := N) (i := i) (ld := ld) (lp := lp) (off := off) (nn := nn) (old := old') (next := next') hkb hcap
            refine ⟨off + k, cap - k, old', next', ?_, f2, hb.drop hkb, by simp⟩
            rw [List.length_drop]
            exact exec_block ((exec_seqs_cons e3).trans ((exec_seqs_cons e4).trans ((exec_seqs_cons f1).trans (exec_seqs_cons (ss := []) e6))))
          | .error e', _, hq => cases hq
        · rename_i hch
          rw [if_neg hch] at e5
          obtain ⟨old', next', f1, f2⟩ := e5
          simp only [pure, Except.pure, Except.ok.injEq, Prod.mk.injEq] at hq
          obtain ⟨hq1, hq2⟩ := hq
          subst hq1
          subst hq2
          have e6 := dropN_ok (X := P.world N d) (N := N) (i := i) (ld := ld) (lp := lp) (off := off) (nn := nn) (old := old') (next := next') hkb hcap
          refine ⟨off + k, cap - k, old', next', ?_, f2, hb.drop hkb, by simp⟩
          rw [List.length_drop]
          exact exec_block ((exec_seqs_cons e3).trans ((exec_seqs_cons e4).trans ((exec_seqs_cons f1).trans (exec_seqs_cons (ss := []) e6))))
      · rename_i e' hq
        split at hq
        · rename_i hch
          rw [if_pos hch] at e5
          generalize hr : Digest.callBlock block { D with x := copyAt D.x D.nx h64 bs, nx := D.nx + k } (copyAt D.x D.nx h64 bs).1 = R at e5 hq
          match R, e5, hq with
          | .ok D1, _, hq => cases hq
          | .error e'', ⟨s, f1, f2⟩, hq =>
            cases hq
            exact ⟨s, exec_block_error ((exec_seqs_cons e3).trans ((exec_seqs_cons e4).trans (exec_seqs_error f1))), f2⟩
        · cases hq
    · rw [dif_neg h64]
      have e1 : evs (P.world N d) (digX (.field (.loc 0) (name! "nx")) .omit) ⟨i, wSlots ld lp off bs.length cap nn [], old, next⟩ =
          .error .bounds :=
        evs_slice_error (b := []) place_dig hnx rfl (sliceOf_arr_error (x := D.nx) (y := 64) hlx (bound_some rfl) bound_none (by omega))
      exact ⟨.bounds, exec_block_error (exec_seqs_error (exec_define_error (evs_cons_error (evs_copy_error e1)))), trivial⟩
  · rw [if_neg hn]
    rw [decide_eq_false (by omega)] at hc
    rw [fillStmt, exec_ite_false hc]
    exact ⟨off, cap, old, next, rfl, K, hb, Nat.le_refl _⟩

/-- sha1cd.go:148-152. -/
theorem bulk_ok (hB : CallsBlock P N d G block) (W : WriteCtx fr i G ld D0 lp) (K : Keeps fr i ld (digV D) old next)
    (hN : bs.length / 64 < N) (hb : Bytes fr lp off cap bs) (hlen : bs.length < 2 ^ 63) :
    match D.writeBulk block bs with
    | .ok (D', bs') => ∃ off' cap' old' next', exec (P.world N d) N bulkStmt ⟨i, wSlots ld lp off bs.length cap nn [], old, next⟩ =
        .ok (.normal, ⟨i, wSlots ld lp off' bs'.length cap' nn [], old', next'⟩) ∧ Keeps fr i ld (digV D') old' next' ∧
        Bytes fr lp off' cap' bs'
    | .error e' => ∃ s, exec (P.world N d) N bulkStmt ⟨i, wSlots ld lp off bs.length cap nn [], old, next⟩ = .error s ∧ Stands e' s := by
  have hcap : bs.length ≤ cap := by obtain ⟨_, _, _, _, h, _⟩ := hb; exact h
  have hl : evs (P.world N d) (.len (.loc 1)) ⟨i, wSlots ld lp off bs.length cap nn [], old, next⟩ =
      .ok ([.int bs.length], ⟨i, wSlots ld lp off bs.length cap nn [], old, next⟩) := evs_lenSlice (evs_loc rfl)
  have hc : ev (P.world N d) (.bin .ge (.len (.loc 1)) (.num 64)) ⟨i, wSlots ld lp off bs.length cap nn [], old, next⟩ =
      .ok (.bool (decide ((bs.length : Int) ≥ 64)), ⟨i, wSlots ld lp off bs.length cap nn [], old, next⟩) :=
    ev_of (evs_bin hl evs_num rfl)
  simp only [Digest.writeBulk]
  by_cases hn : bs.length ≥ Chunk
  · rw [if_pos hn]
    rw [decide_eq_true (by simp only [Chunk] at hn; omega)] at hc
    rw [bulkStmt, exec_ite_true hc]
    have e1 : evs (P.world N d) (.bin .andNot (.len (.loc 1)) (.bin .sub (.num 64) (.num 1)))
        ⟨i, wSlots ld lp off bs.length cap nn [], old, next⟩ =
        .ok ([.int (bs.length - (bs.length &&& (Chunk - 1)) : Nat)], ⟨i, wSlots ld lp off bs.length cap nn [], old, next⟩) := by
      refine evs_bin hl (evs_bin evs_num evs_num (v := .const 63) rfl) ?_
      rw [← andNot_63 bs.length hlen]
      rfl
    generalize hk : bs.length - (bs.length &&& (Chunk - 1)) = k at e1 ⊢
    have hkb : k ≤ bs.length := by omega
    have e2 := exec_define (N := N) (k := 1) (evs_one e1) rfl
    have htk : (bs.take k).length = k := by simp; omega
    have e3 : evs (P.world N d) (.slice (.loc 1) .omit (.loc 4)) ⟨i, wSlots ld lp off bs.length cap nn [.int k], old, next⟩ =
        .ok ([.slice lp off (bs.take k).length cap], ⟨i, wSlots ld lp off bs.length cap nn [.int k], old, next⟩) := by
      rw [htk]
      exact evs_slice (l := ⟨i, 1, []⟩) (a := []) (b := [.int k]) rfl rfl (evs_loc rfl)
        (sliceOf_slice (x := 0) (y := k) (load_pget rfl) bound_none (bound_some rfl) (by omega) (by omega))
    have ht := hb.take hkb
    have e4 := callBlk_at (C := .slice lp off bs.length cap :: .int nn :: .null :: [.int k]) hB W K (e := .slice (.loc 1) .omit (.loc 4))
      (by rw [htk]; exact Nat.lt_of_le_of_lt (Nat.div_le_div_right hkb) hN) W.lp_lt e3
      (fun h' c' q hq => by
        rw [look_other (l' := lp.sub (off + q)) (.inl (Ne.symm W.ne))]
        exact (ht.keeps W K).look hq) (by rw [htk]; omega)
    generalize hr : D.callBlock block (bs.take k) = R at e4
    match R, e4 with
    | .ok D', ⟨old', next', f1, f2⟩ =>
      have e6 := dropN_ok (X := P.world N d) (N := N) (i := i) (ld := ld) (lp := lp) (off := off) (nn := nn) (old := old') (next := next') hkb hcap
      refine ⟨off + k, cap - k, old', next', ?_, f2, hb.drop hkb⟩
      rw [List.length_drop]
      exact exec_block ((exec_seqs_cons e2).trans ((exec_seqs_cons f1).trans (exec_seqs_cons (ss := []) e6)))
    | .error e', ⟨s, f1, f2⟩ => exact ⟨s, exec_block_error ((exec_seqs_cons e2).trans (exec_seqs_error f1)), f2⟩
  · rw [if_neg hn]
    rw [decide_eq_false (by simp only [Chunk] at hn; omega)] at hc
    rw [bulkStmt, exec_ite_false hc]
    exact ⟨off, cap, old, next, rfl, K, hb⟩

/-- sha1cd.go:153-155. -/
theorem tail_ok {X : World} (W : WriteCtx fr i G ld D0 lp) (K : Keeps fr i ld (digV D) old next) (hb : Bytes fr lp off cap bs) :
    ∃ old', exec X N tailStmt ⟨i, wSlots ld lp off bs.length cap nn [], old, next⟩ =
      .ok (.normal, ⟨i, wSlots ld lp off bs.length cap nn [], old', next⟩) ∧ Keeps fr i ld (digV (D.writeTail bs)) old' next := by
  have hi : ld.frame ≠ i := Nat.ne_of_lt W.ld_lt
  have hd := K.look W.ld_lt W.dig (fixed_digV _)
  have hl : evs X (.len (.loc 1)) ⟨i, wSlots ld lp off bs.length cap nn [], old, next⟩ =
      .ok ([.int bs.length], ⟨i, wSlots ld lp off bs.length cap nn [], old, next⟩) := evs_lenSlice (evs_loc rfl)
  have hc : ev X (.bin .gt (.len (.loc 1)) (.num 0)) ⟨i, wSlots ld lp off bs.length cap nn [], old, next⟩ =
      .ok (.bool (decide ((bs.length : Int) > 0)), ⟨i, wSlots ld lp off bs.length cap nn [], old, next⟩) :=
    ev_of (evs_bin hl evs_num rfl)
  simp only [Digest.writeTail]
  by_cases hn : bs.length > 0
  · rw [if_pos hn]
    rw [decide_eq_true (by omega)] at hc
    rw [tailStmt, exec_ite_true hc]
    have e2 := evs_copy (X := X) (b := .loc 1) (evs_digX (C := .slice lp off bs.length cap :: .int nn :: .null :: []) (next := next) hi hd)
      (evs_loc rfl) (copy_dig (next := next) (cap' := 64)
        (C := wSlots ld lp off bs.length cap nn []) (Nat.zero_le _) hi hd (Nat.ne_of_lt W.lp_lt) (hb.keeps W K))
    have K1 := K.put (w := digV { D with x := copyAt D.x 0 (Nat.zero_le _) bs }) W.dig (fixed_digV _)
    have hd1 := K1.look W.ld_lt W.dig (fixed_digV _)
    have e3 := exec_dig (N := N) hi e2 hd1 (digV_set_nx _ (min (64 - 0) bs.length))
    have K2 := K1.put (w := digV { D with x := copyAt D.x 0 (Nat.zero_le _) bs, nx := min (64 - 0) bs.length }) W.dig (fixed_digV _)
    exact ⟨_, exec_block (exec_seqs_cons (ss := []) e3), K2⟩
  · rw [if_neg hn]
    rw [decide_eq_false (by omega)] at hc
    rw [tailStmt, exec_ite_false hc]
    exact ⟨old, rfl, K⟩

end

section
variable {P : Program} {N d : Nat} {G : List Val} {block : BlockFn} {ld : Loc} {D : Digest} {m : Mem} {v : Val} {bs : List Byte}

/-- `Write`, sha1cd.go:132-157. -/
theorem write_eq (hP : HasDigest P) (hB : CallsBlock P N d G block) (hN : 1 < N) (hN' : bs.length / 64 < N)
    (hG : Boot G m.frame) (h2 : 2 ≤ ld.frame) (hl : ld.frame < m.next) (hd : look m.frame ld = .ok (digV D))
    (hv : IsBytes m.frame m.next ld.frame v bs) (hlen : bs.length < 2 ^ 63) :
    match D.write block bs with
    | .ok (D', n, e) => e = none ∧ ∃ m', P.call N (d + 1) 0 (name! "Write") [.ptr ld, v] m = .ok ([.int n, .null], m') ∧
        Became m (putAt m.frame ld (digV D')) m'
    | .error e => ∃ s, P.call N (d + 1) 0 (name! "Write") [.ptr ld, v] m = .error s ∧ Stands e s := by
  have hne : ld.frame ≠ m.next := Nat.ne_of_lt hl
  rw [call_of (by rfl) hP.write (congrArg Func.body writeFunc_eq)]
  have K0 := keeps_self hd
  have hnp : ¬[Val.ptr ld, v].length < writeFunc.params.length := by rw [writeFunc_eq]; exact Nat.lt_irrefl 2
  by_cases hz : bs.length = 0
  · simp only [Digest.write, if_pos hz]
    refine ⟨rfl, ?_⟩
    have hx : exec (P.world N d) N writeBody (m.enter (passed writeFunc.params [.ptr ld, v] ++
        (if writeFunc.named then writeFunc.results.map zero else []))) =
        .ok (.ret [.int 0, .null], ⟨m.next, [.ptr ld, v, .int 0, .null], m.frame, m.next + 1⟩) := by
      cases hv with
      | null => rw [writeFunc_eq]; rfl
      | slice _ _ _ => rw [writeFunc_eq, hz]; rfl
    exact ⟨_, runFunc_of (congrArg Func.body writeFunc_eq) hnp hx (by rw [writeFunc_eq]; rfl), leave_became K0 _⟩
  · cases hv with
    | null => exact absurd rfl hz
    | slice h1 h3 hb =>
      rename_i lp off cap
      have W : WriteCtx m.frame m.next G ld D lp := ⟨hG, h2, hl, h1, h3, hd⟩
      simp only [Digest.write, if_neg hz]
      have hpass : passed writeFunc.params [.ptr ld, .slice lp off bs.length cap] ++
          (if writeFunc.named then writeFunc.results.map zero else []) = wSlots ld lp off bs.length cap 0 [] := by
        rw [writeFunc_eq]; rfl
      have hent : m.enter (wSlots ld lp off bs.length cap 0 []) = ⟨m.next, wSlots ld lp off bs.length cap 0 [], m.frame, m.next + 1⟩ := rfl
      have hll : evs (P.world N d) (.len (.loc 1)) ⟨m.next, wSlots ld lp off bs.length cap 0 [], m.frame, m.next + 1⟩ =
          .ok ([.int bs.length], ⟨m.next, wSlots ld lp off bs.length cap 0 [], m.frame, m.next + 1⟩) := evs_lenSlice (evs_loc rfl)
      have hc : ev (P.world N d) (.bin .eq (.len (.loc 1)) (.num 0)) ⟨m.next, wSlots ld lp off bs.length cap 0 [], m.frame, m.next + 1⟩ =
          .ok (.bool false, ⟨m.next, wSlots ld lp off bs.length cap 0 [], m.frame, m.next + 1⟩) := by
        refine ev_of (evs_bin hll evs_num ?_)
        show some (Val.bool (decide ((bs.length : Int) = 0))) = _
        rw [decide_eq_false (by omega)]
      have e1 : exec (P.world N d) N (.ite (.bin .eq (.len (.loc 1)) (.num 0)) (.block 4 (seqs [retNamed])) .skip)
          ⟨m.next, wSlots ld lp off bs.length cap 0 [], m.frame, m.next + 1⟩ = _ := exec_ite_false hc
      have e2 : exec (P.world N d) N (.assign (.cons (.loc 2) .nil) (.cons (.len (.loc 1)) .nil))
          ⟨m.next, wSlots ld lp off bs.length cap 0 [], m.frame, m.next + 1⟩ =
          .ok (.normal, ⟨m.next, wSlots ld lp off bs.length cap bs.length [], m.frame, m.next + 1⟩) := by
        refine exec_assign places_one (evs_one hll) (storeAll_one ?_)
        simp [store, Mem.frame, Val.set, Mem.setFrame, wSlots, like]
      have hcv : evs (P.world N d) (.conv .u64 (.loc 2)) ⟨m.next, wSlots ld lp off bs.length cap bs.length [], m.frame, m.next + 1⟩ =
          .ok ([.u64 (BitVec.ofNat 64 bs.length)], ⟨m.next, wSlots ld lp off bs.length cap bs.length [], m.frame, m.next + 1⟩) := by
        rw [show BitVec.ofNat 64 bs.length = BitVec.ofInt 64 (bs.length : Int) by simp]; rfl
      have e3 := exec_op (X := P.world N d) (N := N) (o := .add) (f := name! "len") hne hd (digV_get_len D) hcv rfl
        (digV_set_len D (D.len + BitVec.ofNat 64 bs.length))
      have K1 := K0.put (w := digV { D with len := D.len + BitVec.ofNat 64 bs.length }) hd (fixed_digV _)
      have e4 := fill_ok (nn := bs.length) hB W K1 hN hb
      generalize hr : Digest.writeFill block { D with len := D.len + BitVec.ofNat 64 bs.length } bs = R at e4
      match R, e4 with
      | .ok (D1, bs1), ⟨off1, cap1, old1, next1, f1, f2, f3, f4⟩ =>
        have e5 := bulk_ok (nn := bs.length) hB W f2 (Nat.lt_of_le_of_lt (Nat.div_le_div_right f4) hN') f3 (by omega)
        simp only [bind, Except.bind]
        generalize hr2 : D1.writeBulk block bs1 = R2 at e5
        match R2, e5 with
        | .ok (D2, bs2), ⟨off2, cap2, old2, next2, g1, g2, g3⟩ =>
          obtain ⟨old3, t1, t2⟩ := tail_ok (X := P.world N d) (N := N) (nn := bs.length) W g2 g3
          refine ⟨rfl, _, runFunc_of (m' := ⟨m.next, wSlots ld lp off2 bs2.length cap2 bs.length [], old3, next2⟩)
            (congrArg Func.body writeFunc_eq) hnp (s := .ret [.int bs.length, .null]) ?_ (by rw [writeFunc_eq]; rfl), leave_became t2 _⟩
          rw [hpass, hent]
          exact exec_block_ret ((exec_seqs_cons e1).trans ((exec_seqs_cons e2).trans ((exec_seqs_cons e3).trans ((exec_seqs_cons f1).trans
            ((exec_seqs_cons g1).trans (exec_seqs_cons t1))))))
        | .error e', ⟨s, g1, g2⟩ =>
          refine ⟨s, runFunc_error (congrArg Func.body writeFunc_eq) hnp ?_, g2⟩
          rw [hpass, hent]
          exact exec_block_error ((exec_seqs_cons e1).trans ((exec_seqs_cons e2).trans ((exec_seqs_cons e3).trans ((exec_seqs_cons f1).trans
            (exec_seqs_error g1)))))
      | .error e', ⟨s, f1, f2⟩ =>
        refine ⟨s, runFunc_error (congrArg Func.body writeFunc_eq) hnp ?_, f2⟩
        rw [hpass, hent]
        exact exec_block_error ((exec_seqs_cons e1).trans ((exec_seqs_cons e2).trans ((exec_seqs_cons e3).trans (exec_seqs_error f1))))

end

end Verif.Source.Go
