import Verif.Proofs.GoRounds

/-!
`blockGeneric` as it is read from the text of sha1cdblock_generic.go is `Model.blockGeneric`.
-/

namespace Verif.Source.Go

open Verif Verif.Source Verif.Model

/-- The label of sha1cdblock_generic.go:40. -/
def rehashName : Nat := name! "rehash"

/-- `if hi == 2 { hi++; goto rehash }`, sha1cdblock_generic.go:124-127. -/
def ifTwo : Stmt := .ite (.bin .eq (.loc 10) (.num 2))
  (.block 17 (.seq (.opAssign .add (.loc 10) (.num 1)) (.seq (.goto rehashName) .skip))) .skip

/-- `h := [...]uint32{h0, h1, h2, h3, h4}`, sha1cdblock_generic.go:130. -/
def defH : Stmt := .define 1 (.cons (.lit (.arr 5 .u32)
  (.cons (.loc 4) (.cons (.loc 5) (.cons (.loc 6) (.cons (.loc 7) (.cons (.loc 8) .nil)))))) .nil)

/-- The call of sha1cdblock_generic.go:131. -/
def callCheck : Expr := .call (name! "sha1cd") (name! "checkCollision")
  (.cons (.addr (.loc 9)) (.cons (.addr (.loc 3)) (.cons (.addr (.loc 17)) .nil)))

/-- `if col { dig.col = true; hi++; goto rehash }`, sha1cdblock_generic.go:132-136. -/
def ifCol : Stmt := .ite (.loc 18) (.block 19 (.seq (.assign (.cons (.field (.loc 0) (name! "col")) .nil) (.cons (.bool true) .nil))
  (.seq (.opAssign .add (.loc 10) (.num 1)) (.seq (.goto rehashName) .skip)))) .skip

/-- sha1cdblock_generic.go:129-137. -/
def ifOne : Stmt := .ite (.bin .eq (.loc 10) (.num 1))
  (.block 17 (.seq defH (.seq (.define 1 (.cons callCheck .nil)) (.seq ifCol .skip)))) .skip

/-- `p = p[shared.Chunk:]`, sha1cdblock_generic.go:139. -/
def nextChunk : Stmt := .assign (.cons (.loc 1) .nil) (.cons (.slice (.loc 1) (.num 64) .omit) .nil)

theorem labelLast_eq : labelLast = [ifTwo, ifOne, nextChunk] := by by_kernel

/-- The loop of sha1cdblock_generic.go:31-140. -/
def chunkLoop : Stmt := .loop (.bin .ge (.len (.loc 1)) (.num 64)) .skip (.block 9
  (.seq (.define 1 (.cons (.lit (.arr 80 .u32) .nil) .nil)) (.seq (.define 1 (.cons (.num 1) .nil))
    (.label rehashName 11 (seqs labelStmts)))))

/-- `dig.h[k]`. -/
def digH (k : Nat) : Expr := .index (.field (.loc 0) (name! "h")) (.num k)

/-- The body of `blockGeneric`, sha1cdblock_generic.go:23-142. -/
def blockBody : Stmt := .block 2 (.seq (.var (.arr 16 .u32)) (.seq (.define 1 (.cons (.lit (.arr 3 (.arr 5 .u32)) .nil) .nil))
  (.seq (.define 5 (.cons (digH 0) (.cons (digH 1) (.cons (digH 2) (.cons (digH 3) (.cons (digH 4) .nil))))))
  (.seq chunkLoop
  (.seq (.assign (.cons (digH 0) (.cons (digH 1) (.cons (digH 2) (.cons (digH 3) (.cons (digH 4) .nil)))))
    (.cons (.loc 4) (.cons (.loc 5) (.cons (.loc 6) (.cons (.loc 7) (.cons (.loc 8) .nil)))))) .skip)))))

/-- The type of a digest, sha1cd.go:29-37. -/
def digTy : Ty := .field (name! "h") (.arr 5 .u32) (.field (name! "x") (.arr 64 .u8) (.field (name! "nx") .int
  (.field (name! "len") .u64 (.field (name! "col") .bool .none))))

theorem blockFunc_eq : blockFunc = ⟨name! "sha1cd", name! "blockGeneric", [.ptr digTy, .slice .u8], [], false,
    some blockBody⟩ := by by_kernel

/-- A digest with its chaining value and flag. -/
def digVal (rest : Nat → Val) (h : Regs) (col : Bool) : Val :=
  .struct fun f => if f = name! "h" then five h else if f = name! "col" then .bool col else rest f

theorem fixed_dig (rest : Nat → Val) (h : Regs) (c : Bool) : Fixed (digVal rest h c) := fixed_struct _

section
variable {m m1 m2 : Mem}

theorem runLabel_normal {l k n : Nat} {body : M Sig} (h : body m = .ok (.normal, m1)) :
    runLabel l k body (n + 1) m = .ok (.normal, m1) := by
  show (body >>= _) m = _
  rw [bind_of h]; rfl

theorem runLabel_goto {l k n : Nat} {body : M Sig} (h : body m = .ok (.goto l, m1)) :
    runLabel l k body (n + 1) m = runLabel l k body n { m1 with cur := m1.cur.take k } := by
  show (body >>= _) m = _
  rw [bind_of h]
  show (if l = l then _ else _ : M Sig) _ = _
  rw [if_pos rfl]
  rfl

theorem runLabel_error {l k n : Nat} {body : M Sig} {s : Stop} (h : body m = .error s) :
    runLabel l k body (n + 1) m = .error s := by
  show (body >>= _) m = _
  rw [bind_run, h]

end

theorem evs_cons_error {X : World} {m : Mem} {e es : Expr} {s : Stop} (h : evs X e m = .error s) :
    evs X (.cons e es) m = .error s := by
  show (evs X e >>= _) m = _
  rw [bind_run, h]

theorem exec_define_error {X : World} {N k : Nat} {m : Mem} {e : Expr} {s : Stop} (h : evs X e m = .error s) :
    exec X N (.define k e) m = .error s := by
  show (evs X e >>= _) m = _
  rw [bind_run, h]

/-- What the function relies on. -/
structure BlockEnv (P : Program) (N : Nat) (ds : List DvInfo) (g : Nat) : Prop where
  ubc : HasUbc P
  check : findFunc (name! "sha1cd") (name! "checkCollision") P.funcs = some checkFunc
  has : findFunc (name! "sha1cd") (name! "hasCollided") P.funcs = some hasFunc
  glob : P.glob (name! "ubc") (name! "sha1_dvs") = some g
  fuel : 20 < N
  fuel' : ds.length < N
  len : ds.length < 2 ^ 62

/-- The frames when the digest at `ld` has the chaining value `h` and the flag `c`. -/
def withDig (fr : Nat → List Val) (ld : Loc) (rest : Nat → Val) (h : Regs) (c : Bool) : Nat → List Val :=
  putAt fr ld (digVal rest h c)

/-- What is in the frames below `i`: the table, the digest and the bytes. -/
structure BlockMem (fr : Nat → List Val) (i : Nat) (ds : List DvInfo) (g : Nat) (lt ld lp : Loc) (rest : Nat → Val) (h0 : Regs)
    (off : Nat) (bs : List Byte) : Prop where
  pos : 0 < i
  lt_lt : lt.frame < i
  ld_lt : ld.frame < i
  lp_lt : lp.frame < i
  ne_lt : ld.frame ≠ lt.frame
  ne_0 : ld.frame ≠ 0
  table : look fr lt = .ok (table ds)
  glob : look fr ⟨0, g, []⟩ = .ok (.slice lt 0 ds.length ds.length)
  dig : ∃ c, look fr ld = .ok (digVal rest h0 c)
  bytes : ∀ c q (hq : q < bs.length), look (withDig fr ld rest h0 c) (lp.sub (off + q)) = .ok (.u8 bs[q])

section
variable {fr : Nat → List Val} {i : Nat} {ds : List DvInfo} {g : Nat} {lt ld lp : Loc} {rest : Nat → Val} {h0 : Regs}
  {off : Nat} {bs : List Byte}

theorem BlockMem.drop (H : BlockMem fr i ds g lt ld lp rest h0 off bs) :
    BlockMem fr i ds g lt ld lp rest h0 (off + 64) (bs.drop 64) := by
  refine { H with bytes := ?_ }
  intro c q hq
  have hq' : 64 + q < bs.length := by simp at hq; omega
  have := H.bytes c (64 + q) hq'
  rw [List.getElem_drop]
  rw [Nat.add_assoc]
  exact this

/-- The frames below `i` are those with the flag `c`; frame `i` is there. -/
structure Holds (fr : Nat → List Val) (i : Nat) (ld : Loc) (rest : Nat → Val) (h0 : Regs) (c : Bool) (old : Nat → List Val)
    (next : Nat) : Prop where
  lt : i < next
  eq : ∀ k, k < i → old k = withDig fr ld rest h0 c k

variable {c : Bool} {old : Nat → List Val} {next : Nat}

theorem look_congr {fr fr' : Nat → List Val} {l : Loc} (h : fr l.frame = fr' l.frame) : look fr l = look fr' l := by
  simp only [look, h]

theorem Holds.table (K : Holds fr i ld rest h0 c old next) (H : BlockMem fr i ds g lt ld lp rest h0 off bs) :
    At i old next lt (table ds) := by
  refine at_look (Nat.ne_of_lt H.lt_lt) (Nat.lt_trans H.lt_lt K.lt) ?_
  rw [look_congr (K.eq _ H.lt_lt), withDig, look_other (.inl H.ne_lt), H.table]

theorem Holds.glob (K : Holds fr i ld rest h0 c old next) (H : BlockMem fr i ds g lt ld lp rest h0 off bs) :
    At i old next ⟨0, g, []⟩ (.slice lt 0 ds.length ds.length) := by
  refine at_look (Nat.ne_of_lt H.pos) (Nat.lt_trans H.pos K.lt) ?_
  rw [look_congr (fr' := withDig fr ld rest h0 c) (K.eq _ H.pos), withDig, look_other (.inl H.ne_0), H.glob]

theorem Holds.dig (K : Holds fr i ld rest h0 c old next) (H : BlockMem fr i ds g lt ld lp rest h0 off bs) :
    look old ld = .ok (digVal rest h0 c) := by
  obtain ⟨c', hc⟩ := H.dig
  rw [look_congr (K.eq _ H.ld_lt), withDig, look_putAt (fixed_dig _ _ _) hc]

theorem Holds.seen (K : Holds fr i ld rest h0 c old next) (H : BlockMem fr i ds g lt ld lp rest h0 off bs)
    (hp : 64 ≤ bs.length) (dg : Val) (cap : Nat) (C : List Val) :
    Seen (bViews bs hp) i old next (dg :: .slice lp off bs.length cap :: C) := by
  intro k v hv
  match k with
  | 0 => simp [view, bViews] at hv
  | 1 =>
    simp only [view, bViews, List.getElem?_cons_succ, List.getElem?_cons_zero, Option.some.injEq] at hv
    subst hv
    refine ⟨_, rfl, 64, _, rfl, hp, ?_⟩
    intro q hq C'
    refine load_look (l := lp.sub (off + q)) (Nat.ne_of_lt H.lp_lt) ?_ C'
    rw [look_congr (l := lp.sub (off + q)) (fr' := withDig fr ld rest h0 c) (K.eq _ H.lp_lt), H.bytes c q (by omega)]
    simp [hq]
  | k + 2 => simp [view, bViews] at hv

theorem Holds.plus (K : Holds fr i ld rest h0 c old next) (C : List Val) :
    Holds fr i ld rest h0 c (fun k => if k = next then C else old k) (next + 1) := by
  refine ⟨Nat.lt_succ_of_lt K.lt, fun k hk => ?_⟩
  show (if k = next then C else old k) = _
  rw [if_neg (by have := K.lt; omega)]
  exact K.eq k hk

theorem Holds.put (K : Holds fr i ld rest h0 c old next) (H : BlockMem fr i ds g lt ld lp rest h0 off bs) (c' : Bool) :
    Holds fr i ld rest h0 c' (putAt old ld (digVal rest h0 c')) next := by
  refine ⟨K.lt, fun k hk => ?_⟩
  obtain ⟨b, hb⟩ := H.dig
  rw [withDig, ← putAt_putAt (w := digVal rest h0 c) (fixed_dig _ _ _) hb]
  by_cases hk' : k = ld.frame
  · subst hk'
    simp only [putAt, if_true]
    rw [K.eq _ hk]
    simp only [withDig, putAt, if_true]
  · rw [putAt_of_ne hk', putAt_of_ne hk', K.eq k hk]
    rfl

end

section
variable {P : Program} {N d : Nat} {ds : List DvInfo} {g : Nat} {fr : Nat → List Val} {i : Nat} {lt ld lp : Loc}
  {rest : Nat → Val} {h0 : Regs} {off cap : Nat} {bs : List Byte}

/-- The slots at the label. -/
def lSlots (ld lp : Loc) (off len cap : Nat) (st : BlockState) (m1 : Fin 80 → Word) (hi : Nat) : List Val :=
  bSlots (.ptr ld) (.slice lp off len cap) (words 16 st.w) (three st.cs) st.h (words 80 m1) hi []

/-- The result of a pass from the label to the end of the chunk. -/
def LabelRes (fr : Nat → List Val) (i : Nat) (ld lp : Loc) (rest : Nat → Val) (h0 : Regs) (off len cap : Nat) :
    GoM BlockState → Except Stop (Sig × Mem) → Prop
  | .ok st, r => ∃ (m1 : Val) (hi : Nat) (more : List Val) (old : Nat → List Val) (next : Nat),
      r = .ok (.normal, ⟨i, bSlots (.ptr ld) (.slice lp (off + 64) (len - 64) (cap - 64)) (words 16 st.w)
        (three st.cs) st.h m1 hi more, old, next⟩) ∧ Holds fr i ld rest h0 st.col old next
  | .error e, r => ∃ s, r = .error s ∧ Stands e s

theorem next_ok {X : World} {C : List Val} {old : Nat → List Val} {next len : Nat} {dg : Val} (hlen : 64 ≤ len) (hcap : len ≤ cap) :
    exec X N nextChunk ⟨i, dg :: .slice lp off len cap :: C, old, next⟩ =
      .ok (.normal, ⟨i, dg :: .slice lp (off + 64) (len - 64) (cap - 64) :: C, old, next⟩) := by
  have hsl : sliceOf ⟨i, 1, []⟩ (some (.const 64)) none ⟨i, dg :: .slice lp off len cap :: C, old, next⟩ =
      .ok (.slice lp (off + 64) (len - 64) (cap - 64), ⟨i, dg :: .slice lp off len cap :: C, old, next⟩) := by
    have hl : load ⟨i, 1, []⟩ ⟨i, dg :: .slice lp off len cap :: C, old, next⟩ =
      .ok (.slice lp off len cap, ⟨i, dg :: .slice lp off len cap :: C, old, next⟩) := load_pget rfl
    simp only [sliceOf, bind_run, hl, pure_run, bound, need, number]
    rw [if_pos (by omega)]
    have : ((len : Int) - 64).toNat = len - 64 := by omega
    simp only [this]
    rfl
  have hev : evs X (.slice (.loc 1) (.num 64) .omit) ⟨i, dg :: .slice lp off len cap :: C, old, next⟩ =
      .ok ([.slice lp (off + 64) (len - 64) (cap - 64)], ⟨i, dg :: .slice lp off len cap :: C, old, next⟩) := by
    show (place X (.loc 1) >>= _) _ = _
    rw [bind_of (show place X (.loc 1) ⟨i, dg :: .slice lp off len cap :: C, old, next⟩ =
      .ok (⟨i, 1, []⟩, ⟨i, dg :: .slice lp off len cap :: C, old, next⟩) from rfl), bind_of evs_num]
    rw [bind_of (show evs X .omit ⟨i, dg :: .slice lp off len cap :: C, old, next⟩ = .ok ([], ⟨i, dg :: .slice lp off len cap :: C, old, next⟩) from rfl)]
    rw [bind_of (show sliceOf ⟨i, 1, []⟩ ([Val.const ((64 : Nat) : Int)].head?) ([] : List Val).head? _ = _ from hsl)]
    rfl
  refine exec_assign places_one (evs_one hev) (storeAll_one ?_)
  simp [store, Mem.frame, Mem.setFrame, Val.set, like]

/-- `hi++`, sha1cdblock_generic.go:125,134. -/
theorem hi_ok {X : World} {old : Nat → List Val} {next : Nat} {dg p w cs m1 : Val} {h : Regs} {hi : Nat} (hhi : hi < 3)
    {more : List Val} : exec X N (.opAssign .add (.loc 10) (.num 1)) ⟨i, bSlots dg p w cs h m1 hi more, old, next⟩ =
      .ok (.normal, ⟨i, bSlots dg p w cs h m1 (hi + 1) more, old, next⟩) := by
  have h : pexec (fun _ _ _ => none) [] (.opAssign .add (.loc 10) (.num 1)) (bSlots dg p w cs h m1 hi more) =
      some (bSlots dg p w cs h m1 (hi + 1) more) :=
    match hi, hhi with
    | 0, _ => by by_kernel
    | 1, _ => by by_kernel
    | 2, _ => by by_kernel
  exact (exec_pexec (right_none X i old next) N _ _ _ h (seen_nil _ _ _ _)).1

theorem hiEq_ok {X : World} {old : Nat → List Val} {next : Nat} {dg p w cs m1 : Val} {h : Regs} {hi k : Nat}
    {more : List Val} : ev X (.bin .eq (.loc 10) (.num k)) ⟨i, bSlots dg p w cs h m1 hi more, old, next⟩ =
      .ok (.bool (decide ((hi : Int) = k)), ⟨i, bSlots dg p w cs h m1 hi more, old, next⟩) :=
  ev_of (evs_bin (evs_loc rfl) evs_num rfl)

/-- `dig.col = true`, sha1cdblock_generic.go:133. -/
theorem col_ok {X : World} {old : Nat → List Val} {next : Nat} {C : List Val} {c : Bool}
    (H : BlockMem fr i ds g lt ld lp rest h0 off bs) (K : Holds fr i ld rest h0 c old next) :
    exec X N (.assign (.cons (.field (.loc 0) (name! "col")) .nil) (.cons (.bool true) .nil)) ⟨i, .ptr ld :: C, old, next⟩ =
      .ok (.normal, ⟨i, .ptr ld :: C, putAt old ld (digVal rest h0 true), next⟩) := by
  have hth : through ⟨i, 0, []⟩ ⟨i, .ptr ld :: C, old, next⟩ = .ok (ld, ⟨i, .ptr ld :: C, old, next⟩) := by
    have hl : load ⟨i, 0, []⟩ ⟨i, .ptr ld :: C, old, next⟩ = .ok (.ptr ld, ⟨i, .ptr ld :: C, old, next⟩) := load_pget rfl
    simp only [through, bind_run, hl, pure_run]
  have hp : place X (.field (.loc 0) (name! "col")) ⟨i, .ptr ld :: C, old, next⟩ =
      .ok (ld.sub (name! "col"), ⟨i, .ptr ld :: C, old, next⟩) :=
    place_field (l := ⟨i, 0, []⟩) (m1 := ⟨i, .ptr ld :: C, old, next⟩) rfl hth
  have hps : places X (.cons (.field (.loc 0) (name! "col")) .nil) ⟨i, .ptr ld :: C, old, next⟩ =
      .ok ([some (ld.sub (name! "col"))], ⟨i, .ptr ld :: C, old, next⟩) := by
    simp only [places, bind_run, hp, pure_run]
  refine exec_assign hps (evs_one rfl) (storeAll_one (store_part (Nat.ne_of_lt H.ld_lt) (K.dig H) ?_ (fixed_dig _ _ _)))
  simp only [digVal, Val.set, Except.ok.injEq, Val.struct.injEq, like]
  funext f
  by_cases hf : f = name! "col"
  · subst hf
    rfl
  · simp [hf]

/-- From the label to the end of the chunk, sha1cdblock_generic.go:40-139. -/
theorem label_ok (E : BlockEnv P N ds g) (H : BlockMem fr i ds g lt ld lp rest h0 off bs) (hp : 64 ≤ bs.length)
    (hcap : bs.length ≤ cap) : ∀ (k hi n : Nat) (m1 : Fin 80 → Word) (st : BlockState) (old : Nat → List Val) (next : Nat),
    hi + k = 3 → k < n → 1 ≤ hi → Holds fr i ld rest h0 st.col old next →
    LabelRes fr i ld lp rest h0 off bs.length cap (rehash ds bs hp hi m1 st)
      (runLabel rehashName 11 (exec (P.world N (d + 3)) N (seqs labelStmts)) n
        ⟨i, lSlots ld lp off bs.length cap st m1 hi, old, next⟩) := by
  intro k
  induction k with
  | zero =>
    intro hi n m1 st old next hk hn h1 K
    obtain rfl : hi = 3 := by omega
    obtain ⟨n, rfl⟩ : ∃ n', n = n' + 1 := ⟨n - 1, by omega⟩
    obtain ⟨r, hr, er, sr⟩ := rounds_ok (.ptr ld) lp off bs.length cap bs hp st.h 3
      (right_bits P N (d + 2) (bViews bs hp) i old next) E.fuel st.w st.cs m1 (K.seen H hp _ cap _)
    rw [rehash]
    simp only [show (3 : Nat) = 2 ↔ False by decide, show (3 : Nat) = 1 ↔ False by decide, if_false, ← hr]
    refine ⟨words 80 r.m1, 3, rMore r.r 80, old, next, runLabel_normal (er.trans ?_), K⟩
    rw [labelLast_eq]
    exact (exec_seqs_cons ((exec_ite_false (hiEq_ok (k := 2))).trans exec_skip)).trans
      ((exec_seqs_cons ((exec_ite_false (hiEq_ok (k := 1))).trans exec_skip)).trans (exec_last (next_ok hp hcap)))
  | succ k ih =>
    intro hi n m1 st old next hk hn h1 K
    obtain ⟨n, rfl⟩ : ∃ n', n = n' + 1 := ⟨n - 1, by omega⟩
    obtain ⟨r, hr, er, sr⟩ := rounds_ok (.ptr ld) lp off bs.length cap bs hp st.h hi
      (right_bits P N (d + 2) (bViews bs hp) i old next) E.fuel st.w st.cs m1 (K.seen H hp _ cap _)
    rw [rehash]
    simp only [← hr]
    by_cases h2 : hi = 2
    · subst h2
      simp only [if_true]
      have := ih 3 n r.m1 { st with w := r.w, cs := r.cs, h := st.h.add r.r } old next (by omega) (by omega) (by omega) K
      rw [runLabel_goto (m1 := ⟨i, bSlots (.ptr ld) (.slice lp off bs.length cap) (words 16 r.w) (three r.cs) (st.h.add r.r)
        (words 80 r.m1) 3 (rMore r.r 80), old, next⟩)]
      · exact this
      · refine er.trans ?_
        rw [labelLast_eq]
        have hb := exec_block_goto (X := P.world N (d + 3)) (N := N) (n := 17) (m' := ⟨i, bSlots (.ptr ld) (.slice lp off bs.length cap)
          (words 16 r.w) (three r.cs) (st.h.add r.r) (words 80 r.m1) 3 (rMore r.r 80), old, next⟩)
          ((exec_seq (hi_ok (hi := 2) (by omega))).trans (exec_seq_goto (l := rehashName) (a := .goto rehashName) (b := .skip) rfl))
        exact exec_seq_goto ((exec_ite_true (hiEq_ok (k := 2))).trans hb)
    · obtain rfl : hi = 1 := by omega
      simp only [if_neg h2, if_true]
      rw [labelLast_eq] at er
      replace er := er.trans (exec_seqs_cons ((exec_ite_false (hiEq_ok (k := 2))).trans exec_skip))
      generalize hh' : st.h.add r.r = h' at er sr ⊢
      have hc1 : ev (P.world N (d + 3)) (.bin .eq (.loc 10) (.num 1))
        ⟨i, rSlots (.ptr ld) (.slice lp off bs.length cap) h' 1 80 r, old, next⟩ = _ := hiEq_ok
      -- the slots when `checkCollision` is called
      let C2 : List Val := bSlots (.ptr ld) (.slice lp off bs.length cap) (words 16 r.w) (three r.cs) h' (words 80 r.m1) 1
        (rMore r.r 80 ++ [five h'])
      have hdef : exec (P.world N (d + 3)) N defH ⟨i, rSlots (.ptr ld) (.slice lp off bs.length cap) h' 1 80 r, old, next⟩ =
          .ok (.normal, ⟨i, C2, old, next⟩) := by
        have := (exec_pexec (right_none (P.world N (d + 3)) i old next) N defH
          (rSlots (.ptr ld) (.slice lp off bs.length cap) h' 1 80 r)
          (bSlots (.ptr ld) (.slice lp off bs.length cap) (words 16 r.w) (three r.cs) h' (words 80 r.m1) 1
            (rMore r.r 80 ++ [lit5 h'])) (by by_kernel) (seen_nil _ _ _ _)).1
        rw [lit5_eq] at this
        exact this
      have hck := check_eq E.ubc E.check E.has d E.fuel ds E.fuel' E.len r.m1 r.cs h' ⟨i, 9, []⟩ ⟨i, 3, []⟩ ⟨i, 17, []⟩
        ⟨i, C2, old, next⟩ K.lt E.glob ((K.glob H).load C2) (K.table H).has ((K.table H).load C2) K.lt (load_pget rfl)
        K.lt (load_pget rfl) K.lt (load_pget rfl)
      have hargs : evs (P.world N (d + 3)) (.cons (.addr (.loc 9)) (.cons (.addr (.loc 3)) (.cons (.addr (.loc 17)) .nil)))
        ⟨i, C2, old, next⟩ = .ok ([.ptr ⟨i, 9, []⟩, .ptr ⟨i, 3, []⟩, .ptr ⟨i, 17, []⟩], ⟨i, C2, old, next⟩) := rfl
      have hcl : evs (P.world N (d + 3)) callCheck ⟨i, C2, old, next⟩ = P.call N (d + 3) (name! "sha1cd")
        (name! "checkCollision") [.ptr ⟨i, 9, []⟩, .ptr ⟨i, 3, []⟩, .ptr ⟨i, 17, []⟩] ⟨i, C2, old, next⟩ := evs_call hargs
      cases hres : checkCollision ds r.m1 r.cs h' with
      | error e =>
        rw [hres] at hck
        obtain ⟨s, hs1, hs2⟩ := hck
        refine ⟨s, runLabel_error (er.trans (exec_seq_error ((exec_ite_true hc1).trans (exec_block_error ((exec_seq hdef).trans
          (exec_seq_error (exec_define_error (evs_cons_error (hcl.trans hs1))))))))), hs2⟩
      | ok b =>
        rw [hres] at hck
        obtain ⟨C', hs1⟩ := hck
        have hdf := exec_define (N := N) (k := 1) (evs_one (hcl.trans hs1)) rfl
        have K' := K.plus C'
        cases b with
        | true =>
          have hcol := col_ok (X := P.world N (d + 3)) (N := N) (C := (C2 ++ [Val.bool true]).tail) H K'
          have := ih 2 n r.m1 { st with w := r.w, cs := r.cs, h := h', col := true } _ _ (by omega) (by omega) (by omega)
            (K'.put H true)
          refine Eq.mp ?_ this
          refine congrArg _ (Eq.symm ?_)
          have hb := exec_block_goto (X := P.world N (d + 3)) (N := N) (n := 19) (m' := ⟨i, bSlots (.ptr ld) (.slice lp off bs.length cap)
            (words 16 r.w) (three r.cs) h' (words 80 r.m1) 2 (rMore r.r 80 ++ [five h'] ++ [.bool true]), _, _⟩)
            ((exec_seq hcol).trans ((exec_seq (hi_ok (hi := 1) (by omega))).trans
              (exec_seq_goto (l := rehashName) (a := .goto rehashName) (b := .skip) rfl)))
          have hb2 := exec_block_goto (X := P.world N (d + 3)) (N := N) (n := 17) ((exec_seq hdef).trans
            ((exec_seq hdf).trans (exec_seq_goto (b := .skip) ((exec_ite_true (b := .skip) (ev_of (evs_loc (k := 18) rfl))).trans hb))))
          exact runLabel_goto (er.trans (exec_seq_goto ((exec_ite_true hc1).trans hb2)))
        | false =>
          refine ⟨words 80 r.m1, 1, rMore r.r 80, _, _, runLabel_normal (er.trans ((exec_seqs_cons ((exec_ite_true hc1).trans
            (exec_block ((exec_seq hdef).trans ((exec_seq hdf).trans (exec_last
              ((exec_ite_false (ev_of (evs_loc rfl))).trans exec_skip))))))).trans (exec_last (next_ok hp hcap)))), K'⟩

/-- The slots at the head of the chunk loop. -/
def cSlots (ld lp : Loc) (off len cap : Nat) (w cs : Val) (h : Regs) : List Val :=
  [.ptr ld, .slice lp off len cap, w, cs, .u32 h.a, .u32 h.b, .u32 h.c, .u32 h.d, .u32 h.e]

theorem zeros_words (n : Nat) : Val.arr n (fromList .u32 []) = words n fun _ => 0 := by
  refine congrArg (Val.arr n) (funext fun j => ?_)
  show Val.u32 0 = Val.u32 _
  split <;> rfl

theorem zeros_five : Val.arr 5 (fun _ => Val.u32 0) = five ⟨0, 0, 0, 0, 0⟩ := by
  refine congrArg (Val.arr 5) (funext fun j => ?_)
  match j with
  | 0 | 1 | 2 | 3 | 4 => rfl
  | j + 5 => simp

theorem zeros_three : Val.arr 3 (fromList (.arr 5 .u32) []) = three fun _ => ⟨0, 0, 0, 0, 0⟩ := by
  refine congrArg (Val.arr 3) (funext fun j => ?_)
  show Val.arr 5 (fun _ => Val.u32 0) = _
  rw [zeros_five]
  split <;> rfl

/-- The body of the chunk loop. -/
def chunkBody : Stmt := .block 9
  (.seq (.define 1 (.cons (.lit (.arr 80 .u32) .nil) .nil)) (.seq (.define 1 (.cons (.num 1) .nil))
    (.label rehashName 11 (seqs labelStmts))))

/-- One iteration of the chunk loop. -/
theorem chunk_ok (E : BlockEnv P N ds g) (H : BlockMem fr i ds g lt ld lp rest h0 off bs) (hp : 64 ≤ bs.length)
    (hcap : bs.length ≤ cap) (st : BlockState) {old : Nat → List Val} {next : Nat} (K : Holds fr i ld rest h0 st.col old next) :
    match rehash ds bs hp 1 (fun _ => 0) st with
    | .ok st' => ∃ old' next', exec (P.world N (d + 3)) N chunkBody
        ⟨i, cSlots ld lp off bs.length cap (words 16 st.w) (three st.cs) st.h, old, next⟩ =
        .ok (.normal, ⟨i, cSlots ld lp (off + 64) (bs.length - 64) (cap - 64) (words 16 st'.w) (three st'.cs) st'.h, old', next'⟩) ∧
        Holds fr i ld rest h0 st'.col old' next'
    | .error e => ∃ s, exec (P.world N (d + 3)) N chunkBody
        ⟨i, cSlots ld lp off bs.length cap (words 16 st.w) (three st.cs) st.h, old, next⟩ = .error s ∧ Stands e s := by
  have h1 := exec_define (X := P.world N (d + 3)) (N := N) (k := 1) (e := .cons (.lit (.arr 80 .u32) .nil) .nil)
    (m := ⟨i, cSlots ld lp off bs.length cap (words 16 st.w) (three st.cs) st.h, old, next⟩) (evs_one rfl) rfl
  rw [show ([Val.arr 80 (fromList .u32 [])].map fresh) = [words 80 fun _ => 0] from by rw [zeros_words]; rfl] at h1
  have h2 := exec_define (X := P.world N (d + 3)) (N := N) (k := 1) (e := .cons (.num 1) .nil)
    (m := ⟨i, cSlots ld lp off bs.length cap (words 16 st.w) (three st.cs) st.h ++ [words 80 fun _ => 0], old, next⟩)
    (evs_one evs_num) rfl
  have h3 := label_ok (d := d) E H hp hcap 2 1 N (fun _ => 0) st old next rfl (by have := E.fuel; omega) (Nat.le_refl 1) K
  generalize hr : rehash ds bs hp 1 (fun _ => 0) st = R at h3
  match R, h3 with
  | .ok st', ⟨m1, hi, more, old', next', h4, K'⟩ =>
    have h6 : exec (P.world N (d + 3)) N (.label rehashName 11 (seqs labelStmts))
      ⟨i, lSlots ld lp off bs.length cap st (fun _ => 0) 1, old, next⟩ = _ := h4
    exact ⟨old', next', exec_block ((exec_seq h1).trans ((exec_seq h2).trans h6)), K'⟩
  | .error e, ⟨s, h4, h5⟩ =>
    have h6 : exec (P.world N (d + 3)) N (.label rehashName 11 (seqs labelStmts))
      ⟨i, lSlots ld lp off bs.length cap st (fun _ => 0) 1, old, next⟩ = _ := h4
    exact ⟨s, exec_block_error ((exec_seq h1).trans ((exec_seq h2).trans h6)), h5⟩

theorem more_ok {X : World} {w cs : Val} {h : Regs} {len : Nat} {old : Nat → List Val} {next : Nat} :
    ev X (.bin .ge (.len (.loc 1)) (.num 64)) ⟨i, cSlots ld lp off len cap w cs h, old, next⟩ =
      .ok (.bool (decide ((len : Int) ≥ 64)), ⟨i, cSlots ld lp off len cap w cs h, old, next⟩) := by
  refine ev_of (evs_bin (x := .int len) (m1 := ⟨i, cSlots ld lp off len cap w cs h, old, next⟩) ?_ evs_num rfl)
  rfl

/-- The chunk loop, sha1cdblock_generic.go:31-140. -/
theorem chunks_ok (E : BlockEnv P N ds g) : ∀ (n off cap : Nat) (bs : List Byte) (st : BlockState) (old : Nat → List Val)
    (next : Nat), BlockMem fr i ds g lt ld lp rest h0 off bs → bs.length ≤ cap → bs.length / 64 < n →
    Holds fr i ld rest h0 st.col old next →
    match blockLoop ds st bs with
    | .ok st' => ∃ off' len' cap' old' next', runLoop (ev (P.world N (d + 3)) (.bin .ge (.len (.loc 1)) (.num 64)))
        (exec (P.world N (d + 3)) N chunkBody) (exec (P.world N (d + 3)) N .skip) n
        ⟨i, cSlots ld lp off bs.length cap (words 16 st.w) (three st.cs) st.h, old, next⟩ =
        .ok (.normal, ⟨i, cSlots ld lp off' len' cap' (words 16 st'.w) (three st'.cs) st'.h, old', next'⟩) ∧
        Holds fr i ld rest h0 st'.col old' next'
    | .error e => ∃ s, runLoop (ev (P.world N (d + 3)) (.bin .ge (.len (.loc 1)) (.num 64)))
        (exec (P.world N (d + 3)) N chunkBody) (exec (P.world N (d + 3)) N .skip) n
        ⟨i, cSlots ld lp off bs.length cap (words 16 st.w) (three st.cs) st.h, old, next⟩ = .error s ∧ Stands e s := by
  intro n
  induction n with
  | zero => intro off cap bs st old next H hcap hn; omega
  | succ n ih =>
    intro off cap bs st old next H hcap hn K
    have hc := more_ok (i := i) (ld := ld) (lp := lp) (off := off) (cap := cap) (X := P.world N (d + 3)) (w := words 16 st.w)
      (cs := three st.cs) (h := st.h) (len := bs.length) (old := old) (next := next)
    rw [blockLoop]
    by_cases hp : 64 ≤ bs.length
    · rw [decide_eq_true (by omega)] at hc
      rw [dif_pos hp]
      have hb := chunk_ok (d := d) E H hp hcap st K
      generalize hr : rehash ds bs hp 1 (fun _ => 0) st = R at hb
      match R, hb with
      | .ok st', ⟨old', next', hb1, hb2⟩ =>
        have := ih (off + 64) (cap - 64) (bs.drop 64) st' old' next' H.drop (by simp; omega) (by simp; omega) hb2
        rw [runLoop_step hc hb1 exec_skip]
        rw [List.length_drop] at this
        exact this
      | .error e, ⟨s, hb1, hb2⟩ => exact ⟨s, runLoop_error hc hb1, hb2⟩
    · rw [decide_eq_false (by omega)] at hc
      rw [dif_neg hp]
      exact ⟨off, bs.length, cap, old, next, runLoop_end hc, K⟩

/-- A chaining value with one word replaced. -/
def setH (h : Regs) (k : Nat) (x : Word) : Regs :=
  ⟨if k = 0 then x else h.a, if k = 1 then x else h.b, if k = 2 then x else h.c, if k = 3 then x else h.d, if k = 4 then x else h.e⟩

/-- One word of a chaining value. -/
def getH (h : Regs) (k : Nat) : Word :=
  if k = 0 then h.a else if k = 1 then h.b else if k = 2 then h.c else if k = 3 then h.d else h.e

theorem five_set (h : Regs) (k : Nat) (hk : k < 5) (x : Word) : (five h).set [k] (.u32 x) = .ok (five (setH h k x)) := by
  show (if k < 5 then _ else _) = _
  rw [if_pos hk]
  refine congrArg Except.ok (congrArg (Val.arr 5) (funext fun j => ?_))
  match k, hk with
  | 0, _ | 1, _ | 2, _ | 3, _ | 4, _ =>
    match j with
    | 0 | 1 | 2 | 3 | 4 => rfl
    | j + 5 => simp [show ¬(j + 5 < 5) by omega]

theorem dig_set (rest : Nat → Val) (h : Regs) (c : Bool) (k : Nat) (hk : k < 5) (x : Word) :
    (digVal rest h c).set [name! "h", k] (.u32 x) = .ok (digVal rest (setH h k x) c) := by
  simp only [digVal, Val.set, if_true]
  have := five_set h k hk x
  simp only [five, words] at this ⊢
  rw [show ∀ a b, Val.set a [k] b = Val.set a [k] b from fun _ _ => rfl]
  rw [this]
  refine congrArg Except.ok (congrArg Val.struct (funext fun f => ?_))
  by_cases hf : f = name! "h"
  · simp only [hf, if_true]
  · simp only [hf, if_false]

theorem dig_get (rest : Nat → Val) (h : Regs) (c : Bool) : (digVal rest h c).get [name! "h"] = .ok (five h) := rfl

section
variable {X : World} {h : Regs} {c : Bool} {old : Nat → List Val} {next : Nat} {C : List Val}

theorem elem_five {k : Nat} (hk : k < 5) {m : Mem} : elemOf (five h) (.const k) m = .ok (.u32 (getH h k), m) :=
  match k, hk with
  | 0, _ | 1, _ | 2, _ | 3, _ | 4, _ => rfl

/-- Reading `dig.h[k]`. -/
theorem digH_ok (hi : ld.frame ≠ i) (hd : look old ld = .ok (digVal rest h c)) {k : Nat} (hk : k < 5) :
    evs X (digH k) ⟨i, .ptr ld :: C, old, next⟩ = .ok ([.u32 (getH h k)], ⟨i, .ptr ld :: C, old, next⟩) := by
  refine evs_index (evs_field (evs_loc rfl) (v := five h) ?_) evs_num (elem_five hk)
  exact load_look (l := ld.sub (name! "h")) hi ((look_sub hd).trans (dig_get _ _ _)) _

/-- Where `dig.h[k]` is. -/
theorem digH_place (hi : ld.frame ≠ i) (hd : look old ld = .ok (digVal rest h c)) {k : Nat} (hk : k < 5) :
    place X (digH k) ⟨i, .ptr ld :: C, old, next⟩ =
      .ok ((ld.sub (name! "h")).sub k, ⟨i, .ptr ld :: C, old, next⟩) := by
  have hth : through ⟨i, 0, []⟩ ⟨i, .ptr ld :: C, old, next⟩ = .ok (ld, ⟨i, .ptr ld :: C, old, next⟩) := by
    have hl : load ⟨i, 0, []⟩ ⟨i, .ptr ld :: C, old, next⟩ = .ok (.ptr ld, ⟨i, .ptr ld :: C, old, next⟩) := load_pget rfl
    simp only [through, bind_run, hl, pure_run]
  refine place_index (place_field (l := ⟨i, 0, []⟩) (m1 := ⟨i, .ptr ld :: C, old, next⟩) rfl hth) evs_num ?_
  have hl := load_look (l := ld.sub (name! "h")) (next := next) hi ((look_sub hd).trans (dig_get _ _ _)) (.ptr ld :: C)
  have hix : indexIn (k : Int) 5 = .ok k := by simp [indexIn]; omega
  simp only [elemPlace, bind_run, need, number, hl, five, words, lift, hix, pure_run]

/-- Assigning to `dig.h[k]`. -/
theorem digH_store (hi : ld.frame ≠ i) (hd : look old ld = .ok (digVal rest h c)) {k : Nat} (hk : k < 5) (x : Word) :
    store ((ld.sub (name! "h")).sub k) (.u32 x) ⟨i, C, old, next⟩ =
      .ok ((), ⟨i, C, putAt old ld (digVal rest (setH h k x) c), next⟩) := by
  have : (ld.sub (name! "h")).sub k = { ld with path := ld.path ++ [name! "h", k] } := by simp [Loc.sub]
  rw [this]
  exact store_part hi hd (dig_set _ _ _ _ hk _) (fixed_dig _ _ _)

theorem places_cons {e es : Expr} {l : Loc} {ls : List (Option Loc)} {m m1 m2 : Mem} (hb : e ≠ .blank)
    (h : place X e m = .ok (l, m1)) (h' : places X es m1 = .ok (ls, m2)) :
    places X (.cons e es) m = .ok (some l :: ls, m2) := by
  have : places X (.cons e es) m = ((place X e >>= fun l => pure (some l)) >>= fun l => places X es >>= fun ls => pure (l :: ls)) m := by
    cases e <;> first | rfl | exact absurd rfl hb
  rw [this, bind_of (show (place X e >>= fun l => pure (some l)) m = .ok (some l, m1) by rw [bind_of h]; rfl), bind_of h']
  rfl

theorem storeAll_cons {l : Loc} {ls : List (Option Loc)} {v : Val} {vs : List Val} {m m1 : Mem} (h : store l v m = .ok ((), m1)) :
    storeAll (some l :: ls) (v :: vs) m = storeAll ls vs m1 := by
  show (store l v >>= _) m = _
  rw [bind_of h]

end

/-- The last assignment, sha1cdblock_generic.go:142. -/
def lastAssign : Stmt := .assign (.cons (digH 0) (.cons (digH 1) (.cons (digH 2) (.cons (digH 3) (.cons (digH 4) .nil)))))
    (.cons (.loc 4) (.cons (.loc 5) (.cons (.loc 6) (.cons (.loc 7) (.cons (.loc 8) .nil)))))

theorem last_ok {X : World} {h : Regs} {c : Bool} {old : Nat → List Val} {next len : Nat} {w cs : Val} (hi : ld.frame ≠ i)
    (hd : look old ld = .ok (digVal rest h0 c)) :
    exec X N lastAssign ⟨i, cSlots ld lp off len cap w cs h, old, next⟩ =
      .ok (.normal, ⟨i, cSlots ld lp off len cap w cs h, putAt old ld (digVal rest h c), next⟩) := by
  have hpl : ∀ {k}, k < 5 → place X (digH k) ⟨i, cSlots ld lp off len cap w cs h, old, next⟩ =
      .ok ((ld.sub (name! "h")).sub k, ⟨i, cSlots ld lp off len cap w cs h, old, next⟩) := fun hk => digH_place hi hd hk
  refine exec_assign (m2 := ⟨i, cSlots ld lp off len cap w cs h, old, next⟩)
    (vs := [.u32 h.a, .u32 h.b, .u32 h.c, .u32 h.d, .u32 h.e])
    (places_cons (by simp [digH]) (hpl (k := 0) (by omega)) (places_cons (by simp [digH]) (hpl (k := 1) (by omega))
    (places_cons (by simp [digH]) (hpl (k := 2) (by omega)) (places_cons (by simp [digH]) (hpl (k := 3) (by omega))
    (places_cons (by simp [digH]) (hpl (k := 4) (by omega)) rfl))))) rfl ?_
  have fx := fixed_dig rest
  rw [storeAll_cons (digH_store hi hd (by omega) _)]
  have d1 := look_putAt (fx (setH h0 0 h.a) c) hd
  rw [storeAll_cons (digH_store hi d1 (by omega) _), putAt_putAt (fx _ _) hd]
  have d2 := look_putAt (fx (setH (setH h0 0 h.a) 1 h.b) c) hd
  rw [storeAll_cons (digH_store hi d2 (by omega) _), putAt_putAt (fx _ _) hd]
  have d3 := look_putAt (fx (setH (setH (setH h0 0 h.a) 1 h.b) 2 h.c) c) hd
  rw [storeAll_cons (digH_store hi d3 (by omega) _), putAt_putAt (fx _ _) hd]
  have d4 := look_putAt (fx (setH (setH (setH (setH h0 0 h.a) 1 h.b) 2 h.c) 3 h.d) c) hd
  rw [storeAll_cons (digH_store hi d4 (by omega) _), putAt_putAt (fx _ _) hd]
  rfl

end

/-- What `blockGeneric` is called with: the digest at `ld` has the chaining value `h` and the flag `c`, and the slice
holds the bytes `bs`. -/
structure BlockArgs (m : Mem) (ds : List DvInfo) (g : Nat) (ld lp : Loc) (rest : Nat → Val) (h : Regs) (c : Bool)
    (off cap : Nat) (bs : List Byte) : Prop where
  id : m.id < m.next
  table : ∃ lt : Loc, lt.frame < m.next ∧ ld.frame ≠ lt.frame ∧ look m.frame lt = .ok (table ds) ∧
    look m.frame ⟨0, g, []⟩ = .ok (.slice lt 0 ds.length ds.length)
  ld_lt : ld.frame < m.next
  lp_lt : lp.frame < m.next
  ne_0 : ld.frame ≠ 0
  dig : look m.frame ld = .ok (digVal rest h c)
  bytes : ∀ c' q (hq : q < bs.length), look (withDig m.frame ld rest h c') (lp.sub (off + q)) = .ok (.u8 bs[q])
  cap : bs.length ≤ cap

/-- `blockGeneric`, sha1cdblock_generic.go:22-143, whatever the table holds. -/
theorem block_eq {P : Program} {N g : Nat} {ds : List DvInfo} (E : BlockEnv P N ds g)
    (hf : findFunc (name! "sha1cd") (name! "blockGeneric") P.funcs = some blockFunc) (d : Nat) {ld lp : Loc} {rest : Nat → Val}
    {h : Regs} {c : Bool} {off cap : Nat} {bs : List Byte} (hN : bs.length / 64 < N) {m : Mem}
    (A : BlockArgs m ds g ld lp rest h c off cap bs) :
    match blockGeneric ds ⟨h, c⟩ bs with
    | .ok r => ∃ m', P.call N (d + 4) (name! "sha1cd") (name! "blockGeneric") [.ptr ld, .slice lp off bs.length cap] m =
        .ok ([], m') ∧ Became m (withDig m.frame ld rest r.h r.col) m'
    | .error e => ∃ s, P.call N (d + 4) (name! "sha1cd") (name! "blockGeneric") [.ptr ld, .slice lp off bs.length cap] m =
        .error s ∧ Stands e s := by
  obtain ⟨lt, t1, t2, t3, t4⟩ := A.table
  have H : BlockMem m.frame m.next ds g lt ld lp rest h off bs :=
    ⟨Nat.lt_of_le_of_lt (Nat.zero_le _) A.id, t1, A.ld_lt, A.lp_lt, t2, A.ne_0, t3, t4, ⟨c, A.dig⟩, A.bytes⟩
  have hne : ld.frame ≠ m.next := Nat.ne_of_lt A.ld_lt
  have K : Holds m.frame m.next ld rest h c m.frame (m.next + 1) :=
    ⟨Nat.lt_succ_self _, fun k hk => by rw [withDig, putAt_self A.dig]⟩
  rw [call_of (by rfl) hf (congrArg Func.body blockFunc_eq)]
  have hpass : passed blockFunc.params [.ptr ld, .slice lp off bs.length cap] ++ (if blockFunc.named then blockFunc.results.map zero else []) =
      [.ptr ld, .slice lp off bs.length cap] := by rw [blockFunc_eq]; rfl
  have hent : m.enter [.ptr ld, .slice lp off bs.length cap] =
      ⟨m.next, [.ptr ld, .slice lp off bs.length cap], m.frame, m.next + 1⟩ := rfl
  -- the declarations
  have e1 : exec (P.world N (d + 3)) N (.var (.arr 16 .u32)) ⟨m.next, [.ptr ld, .slice lp off bs.length cap], m.frame, m.next + 1⟩ =
      .ok (.normal, ⟨m.next, [.ptr ld, .slice lp off bs.length cap, words 16 fun _ => 0], m.frame, m.next + 1⟩) := by
    rw [← zeros_words]; rfl
  have e2 : exec (P.world N (d + 3)) N (.define 1 (.cons (.lit (.arr 3 (.arr 5 .u32)) .nil) .nil))
      ⟨m.next, [.ptr ld, .slice lp off bs.length cap, words 16 fun _ => 0], m.frame, m.next + 1⟩ =
      .ok (.normal, ⟨m.next, [.ptr ld, .slice lp off bs.length cap, words 16 fun _ => 0, three fun _ => ⟨0, 0, 0, 0, 0⟩],
        m.frame, m.next + 1⟩) := by
    rw [← zeros_three]; rfl
  have hd : ∀ {k}, k < 5 → evs (P.world N (d + 3)) (digH k) ⟨m.next, [.ptr ld, .slice lp off bs.length cap, words 16 fun _ => 0,
      three fun _ => ⟨0, 0, 0, 0, 0⟩], m.frame, m.next + 1⟩ = .ok ([.u32 (getH h k)], _) := fun hk => digH_ok hne A.dig hk
  have e3 := exec_define (N := N) (k := 5) (evs_cons (hd (k := 0) (by omega)) (evs_cons (hd (k := 1) (by omega))
    (evs_cons (hd (k := 2) (by omega)) (evs_cons (hd (k := 3) (by omega)) (evs_cons (hd (k := 4) (by omega)) evs_nil))))) rfl
  have hl := chunks_ok (d := d) E N off cap bs ⟨fun _ => 0, fun _ => ⟨0, 0, 0, 0, 0⟩, h, c⟩ m.frame (m.next + 1) H A.cap hN K
  rw [blockGeneric]
  generalize hB : blockLoop ds ⟨fun _ => 0, fun _ => ⟨0, 0, 0, 0, 0⟩, h, c⟩ bs = B at hl
  match B, hl with
  | .ok st', ⟨off', len', cap', old', next', l1, K'⟩ =>
    have hdig := K'.dig H
    have l2 : exec (P.world N (d + 3)) N chunkLoop ⟨m.next, cSlots ld lp off bs.length cap (words 16 fun _ => 0)
      (three fun _ => ⟨0, 0, 0, 0, 0⟩) h, m.frame, m.next + 1⟩ = _ := l1
    have e5 := last_ok (X := P.world N (d + 3)) (N := N) (i := m.next) (lp := lp) (off := off') (cap := cap') (len := len')
      (h := st'.h) (next := next') (w := words 16 st'.w) (cs := three st'.cs) hne hdig
    have hx : exec (P.world N (d + 3)) N blockBody (m.enter (passed blockFunc.params [.ptr ld, .slice lp off bs.length cap] ++
        (if blockFunc.named then blockFunc.results.map zero else []))) = .ok (.normal, ⟨m.next,
          [.ptr ld, .slice lp off' len' cap'], putAt old' ld (digVal rest st'.h st'.col), next'⟩) := by
      rw [hpass, hent]
      exact exec_block ((exec_seq e1).trans ((exec_seq e2).trans ((exec_seq e3).trans ((exec_seq l2).trans (exec_last e5)))))
    refine ⟨_, runFunc_of (congrArg Func.body blockFunc_eq) (by rw [blockFunc_eq]; exact Nat.lt_irrefl 2) hx
      (by rw [blockFunc_eq]; rfl), rfl, ?_, ?_⟩
    · rw [show blockBody.addrs = true by by_kernel]
      show m.next ≤ if true = true ∨ next' ≠ m.next + 1 then next' else m.next
      rw [if_pos (.inl rfl)]
      exact Nat.le_of_lt K'.lt
    · intro k hk
      rw [show blockBody.addrs = true by by_kernel]
      have hfr : putAt old' ld (digVal rest st'.h st'.col) k = withDig m.frame ld rest st'.h st'.col k := by
        rw [withDig, ← putAt_putAt (w := digVal rest h st'.col) (fixed_dig _ _ _) A.dig]
        by_cases hk' : k = ld.frame
        · subst hk'
          simp only [putAt, if_true]
          rw [K'.eq _ hk]
          simp only [withDig, putAt, if_true]
        · rw [putAt_of_ne hk', putAt_of_ne hk', K'.eq k hk]
          rfl
      refine Eq.trans ?_ hfr
      simp only [Mem.leave, Mem.frame]
      by_cases hid : k = m.id
      · rw [if_pos hid, hid]
      · rw [if_neg hid, if_neg hid, if_neg (by omega)]
  | .error e, ⟨s, l1, l3⟩ =>
    have l2 : exec (P.world N (d + 3)) N chunkLoop ⟨m.next, cSlots ld lp off bs.length cap (words 16 fun _ => 0)
      (three fun _ => ⟨0, 0, 0, 0, 0⟩) h, m.frame, m.next + 1⟩ = _ := l1
    refine ⟨s, runFunc_error (congrArg Func.body blockFunc_eq) (by rw [blockFunc_eq]; exact Nat.lt_irrefl 2) ?_, l3⟩
    rw [hpass, hent]
    exact exec_block_error ((exec_seq e1).trans ((exec_seq e2).trans ((exec_seq e3).trans (exec_seq_error l2))))

end Verif.Source.Go
