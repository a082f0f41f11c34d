import Verif.Source.CClient
import Verif.Proofs.CFinal
import Verif.Proofs.CAmd64
import Verif.Proofs.CArm64
import Verif.Proofs.CS390x
import Verif.Proofs.CForced

/-!
A program that uses the C library as its text describes it gets what the model of the library gives.
-/

namespace Verif.Source.C

open Verif Verif.Source Verif.Source.Go Verif.Model
open Verif.Model.C (Ctx Cfg Call)

/-- The functions of the library are those that were read from the text (cgo/sha1.c:2002-2139). -/
structure HasApi (P : Program) (be u : Bool) : Prop where
  c : HasC P be
  words : HasWords P be
  init : findFunc (name! "C") (name! "SHA1DCInit") P.funcs = some initFunc
  safe : findFunc (name! "C") (name! "SHA1DCSetSafeHash") P.funcs = some safeFunc
  useUbc : findFunc (name! "C") (name! "SHA1DCSetUseUBC") P.funcs = some useUbcFunc
  detect : findFunc (name! "C") (name! "SHA1DCSetUseDetectColl") P.funcs = some detectFunc
  reduced : findFunc (name! "C") (name! "SHA1DCSetDetectReducedRoundCollision") P.funcs = some reducedFunc
  callback : findFunc (name! "C") (name! "SHA1DCSetCallback") P.funcs = some callbackFunc
  update : findFunc (name! "C") (name! "SHA1DCUpdate") P.funcs = some (updFunc u)
  final : findFunc (name! "C") (name! "SHA1DCFinal") P.funcs = some finalFunc

/-- What a program that uses the library has (cgo/sha1.h:41-59). -/
structure Have (m : Mem) (L lo : Loc) (cb : Val) (c : Ctx) (o : List Byte) : Prop where
  found : Found m.frame m.next L cb c
  pad : look m.frame ⟨0, 1, []⟩ = .ok padV
  out : look m.frame lo = .ok (bytesV 20 o)
  len : o.length = 20
  lt : lo.frame < m.next
  ne : lo.frame ≠ L.frame
  pos : lo.frame ≠ 0
  own : m.id < m.next

/-- The body of `SHA1DCSetCallback` (cgo/sha1.c:2050-2053). -/
theorem callback_body {cb f : Val} {c : Ctx} {l : Loc} {b : Stmt} (hb : callbackFunc.body = some b) :
    rexec noPure b ([some (ctxV cb c)], [.ptr l, f]) = some ([some (ctxV (like cb f) c)], [.ptr l, f]) := by
  have hb' : callbackFunc.body = some (.block 2 (.seq (.assign (.cons (.field (.loc 0) (name! "callback")) .nil)
    (.cons (.loc 1) .nil)) .skip)) := by by_kernel
  rw [hb'] at hb
  cases hb
  have h2 := assign_field (cb := cb) (c := c) (l := l) (C := [f]) (f := name! "callback")
    (e := .cons (.loc 1) .nil) (x := f) rfl rfl
  rw [ctx_callback] at h2
  rw [rexec, rexec, h2]
  rfl

section
variable {P : Program} {be u : Bool} {N d : Nat} {m m' : Mem} {L lo : Loc} {cb cb' : Val} {c c' : Ctx} {o D : List Byte}

/-- A call of `SHA1DCSetCallback` (cgo/sha1.c:2050-2053). -/
theorem callback_run {X : World} {f : Val} (h : look m.frame L = .ok (ctxV cb c)) (hn : L.frame ≠ m.next) :
    runFunc X N callbackFunc [.ptr L, f] m = .ok ([], m.having (Go.putAt m.frame L (ctxV (like cb f) c))) :=
  run_leaf rfl (Nat.lt_irrefl _) (by cases f <;> rfl) rfl rfl (by by_kernel) (callback_body rfl) (meets_ctx h hn)

theorem fixed_ctx (cb : Val) (c : Ctx) : Fixed (ctxV cb c) := fixed_struct _

theorem Have.zero (H : Have m L lo cb c o) : 0 < m.next := by
  have := H.lt
  omega

/-- The context has changed. -/
theorem Have.next (H : Have m L lo cb c o) (B : Became m (Go.putAt m.frame L (ctxV cb' c')) m') : Have m' L lo cb' c' o := by
  have hz := H.zero
  have e : ∀ l : Loc, l.frame < m.next → look m'.frame l = look (Go.putAt m.frame L (ctxV cb' c')) l :=
    fun l hl => look_congr (B.frame _ hl)
  have hL0 : (0 : Nat) ≠ L.frame := Ne.symm H.found.pos
  refine ⟨⟨?_, ?_, Nat.lt_of_lt_of_le H.found.lt B.next, H.found.pos⟩, ?_, ?_, H.len, Nat.lt_of_lt_of_le H.lt B.next, H.ne, H.pos, by rw [B.id]; exact Nat.lt_of_lt_of_le H.own B.next⟩
  · rw [e _ H.found.lt, look_putAt (fixed_ctx _ _) H.found.ctx]
  · rw [e ⟨0, 0, []⟩ hz, look_other (.inl (Ne.symm hL0)), H.found.dvs]
  · rw [e ⟨0, 1, []⟩ hz, look_other (.inl (Ne.symm hL0)), H.pad]
  · rw [e _ H.lt, look_other (.inl (Ne.symm H.ne)), H.out]

/-- The context and the array have changed. -/
theorem Have.final (H : Have m L lo cb c o) (hD : D.length = 20)
    (B : Became m (Go.putAt (Go.putAt m.frame L (ctxV cb c')) lo (bytesV 20 D)) m') : Have m' L lo cb c' D := by
  have hz := H.zero
  have e : ∀ l : Loc, l.frame < m.next →
      look m'.frame l = look (Go.putAt (Go.putAt m.frame L (ctxV cb c')) lo (bytesV 20 D)) l :=
    fun l hl => look_congr (B.frame _ hl)
  have hL0 : (0 : Nat) ≠ L.frame := Ne.symm H.found.pos
  refine ⟨⟨?_, ?_, Nat.lt_of_lt_of_le H.found.lt B.next, H.found.pos⟩, ?_, ?_, hD, Nat.lt_of_lt_of_le H.lt B.next, H.ne, H.pos, by rw [B.id]; exact Nat.lt_of_lt_of_le H.own B.next⟩
  · rw [e _ H.found.lt, look_other (.inl H.ne), look_putAt (fixed_ctx _ _) H.found.ctx]
  · rw [e ⟨0, 0, []⟩ hz, look_other (.inl H.pos), look_other (.inl (Ne.symm hL0)), H.found.dvs]
  · rw [e ⟨0, 1, []⟩ hz, look_other (.inl H.pos), look_other (.inl (Ne.symm hL0)), H.pad]
  · rw [e _ H.lt, look_putAt (w := bytesV 20 D) (fixed_arr _ _) (v := bytesV 20 o)]
    rw [look_other (.inl (Ne.symm H.ne)), H.out]

/-- The memory with one more array. -/
def _root_.Verif.Source.Go.Mem.more (m : Mem) (v : Val) : Mem :=
  { m with old := fun k => if k = m.next then [v] else m.old k, next := m.next + 1 }

theorem frame_more (m : Mem) (v : Val) {k : Nat} (hk : k < m.next) : (m.more v).frame k = m.frame k := by
  simp only [Mem.more, Mem.frame, if_neg (Nat.ne_of_lt hk)]

theorem look_more (h : m.id < m.next) (v : Val) : look (m.more v).frame ⟨m.next, 0, []⟩ = .ok v := by
  unfold look
  simp only [Mem.more, Mem.frame, if_neg (Nat.ne_of_gt h), if_true]
  cases v <;> rfl

theorem Have.more (H : Have m L lo cb c o) (v : Val) : Have (m.more v) L lo cb c o := by
  have hz := H.zero
  have e : ∀ l : Loc, l.frame < m.next → look (m.more v).frame l = look m.frame l := fun l hl => look_congr (frame_more m v hl)
  exact ⟨⟨(e _ H.found.lt).trans H.found.ctx, (e ⟨0, 0, []⟩ hz).trans H.found.dvs, Nat.lt_succ_of_lt H.found.lt, H.found.pos⟩,
    (e ⟨0, 1, []⟩ hz).trans H.pad, (e _ H.lt).trans H.out, H.len, Nat.lt_succ_of_lt H.lt, H.ne, H.pos, Nat.lt_succ_of_lt H.own⟩

theorem load_frame {v : Val} {l : Loc} (h : look m.frame l = .ok v) : load l m = .ok (v, m) := by
  obtain ⟨u, h1, h2⟩ := look_inv h
  exact load_some h1 h2

theorem became_having (m : Mem) (fr : Nat → List Val) : Became m fr (m.having fr) :=
  ⟨rfl, Nat.le_refl _, fun g _ => congrFun (Mem.having_frame m fr) g⟩

/-- A call of a function that returns nothing. -/
theorem use_plain {n : Nat} {f : Func} {b : Stmt} {vs : List Val} (hx : extern (name! "C") n vs = none)
    (hf : findFunc (name! "C") n P.funcs = some f) (hb : f.body = some b)
    (hr : runFunc (P.world N d) N f vs m = .ok ([], m')) :
    (do
      let _ ← P.call N (d + 1) (name! "C") n vs
      pure [] : M (List (List Val))) m = .ok ([], m') := by
  rw [Go.bind_of ((call_of hx hf hb).trans hr)]
  rfl

/-- What the calls of `SHA1DCFinal` produce, as values. -/
def shown (rs : List (List Byte × Word)) : List (List Val) := rs.map fun r => r.1.map Val.u8 ++ [.u32 r.2]

/-- A call of the library is the model's (cgo/sha1.c:2002-2092). -/
theorem use_call (hA : HasApi P be u) (hN : 80 < N) (H : Have m L lo cb c o) {op : Call}
    (hs : ∀ p, op = .update p → p.length < 2 ^ 64 ∧ p.length / 64 < N) (h : c.call ⟨be, be, u⟩ op = .ok c') :
    ∃ cb' m', use P N (d + 5) L lo (some op) m = .ok ([], m') ∧ Have m' L lo cb' c' o := by
  have hn : L.frame ≠ m.next := Nat.ne_of_lt H.found.lt
  cases op with
  | init =>
    have hc := Except.ok.inj h
    subst hc
    exact ⟨_, _, use_plain rfl hA.init rfl (init_run H.found.ctx hn), H.next (became_having _ _)⟩
  | setSafeHash v =>
    have hc := Except.ok.inj h
    subst hc
    exact ⟨_, _, use_plain rfl hA.safe rfl (safe_run H.found.ctx hn), H.next (became_having _ _)⟩
  | setUseUBC v =>
    have hc := Except.ok.inj h
    subst hc
    exact ⟨_, _, use_plain rfl hA.useUbc rfl (useUbc_run H.found.ctx hn), H.next (became_having _ _)⟩
  | setUseDetectColl v =>
    have hc := Except.ok.inj h
    subst hc
    exact ⟨_, _, use_plain rfl hA.detect rfl (detect_run H.found.ctx hn), H.next (became_having _ _)⟩
  | setDetectReducedRoundCollision v =>
    have hc := Except.ok.inj h
    subst hc
    exact ⟨_, _, use_plain rfl hA.reduced rfl (reduced_run H.found.ctx hn), H.next (became_having _ _)⟩
  | update p =>
    obtain ⟨h1, h2⟩ := hs p rfl
    obtain ⟨b, hb⟩ := updFunc_some u
    have H1 := H.more (bytesOf p)
    obtain ⟨m2, r1, r2⟩ := update_run (d := d + 1) (u := u) hA.c hA.words hN H1.found (lp := ⟨m.next, 0, []⟩)
      (show m.next < m.next + 1 by omega) (Ne.symm hn) (off := 0) (n := p.length) (cap := p.length)
      (w := BitVec.ofNat 64 p.length) (bs := p)
      ⟨⟨p.length, fun j => .u8 (p.getD j 0), look_more H.own _, by omega, Nat.le_refl _, fun q hq => by
          rw [Nat.zero_add]; simp [List.getD_eq_getElem?_getD, List.getElem?_eq_getElem hq]⟩,
        Nat.le_refl _, Nat.le_refl _, by rw [BitVec.toNat_ofNat, Nat.mod_eq_of_lt h1]⟩ h2 h
    exact ⟨_, m2, (Go.bind_of (m' := m.more (bytesOf p)) rfl _).trans (use_plain rfl hA.update hb r1), H1.next r2⟩

/-- `SHA1DCFinal` is the model's (cgo/sha1.c:2101-2139). -/
theorem use_final (hA : HasApi P be u) (hN : 80 < N) (H : Have m L lo cb c o) {v : Word}
    (h : Model.C.SHA1DCFinal ⟨be, be, u⟩ c = .ok (c', D, v)) (hD : D.length = 20) :
    ∃ m', use P N (d + 5) L lo none m = .ok ([D.map Val.u8 ++ [.u32 v]], m') ∧ Have m' L lo cb c' D := by
  obtain ⟨m', h1, h2⟩ := final_run (d := d) hA.c hA.words hA.update hN H.found H.pad H.out H.len H.lt H.ne h
  have H' := H.final hD h2
  refine ⟨m', ?_, H'⟩
  refine (Go.bind_of ((call_of rfl hA.final finalFunc_body).trans h1) _).trans ?_
  have hl : load lo m' = .ok (bytesV 20 D, m') := load_frame H'.out
  have ha : Go.arrayAt lo m' = .ok (fun j => .u8 (D.getD j 0), m') := (Go.bind_of hl _).trans rfl
  refine (Go.bind_of ha _).trans ?_
  have e : (List.range 20).map (fun j => Val.u8 (D.getD j 0)) = D.map Val.u8 := by
    refine List.ext_getElem (by simp [hD]) fun k h1 h2 => ?_
    simp at h2
    simp [List.getD_eq_getElem?_getD, List.getElem?_eq_getElem h2]
  rw [e]
  rfl

/-- All calls. -/
theorem useAll_runAll (hA : HasApi P be u) (hN : 80 < N) : ∀ (ops : List (Option Call)) {m : Mem} {cb : Val} {c c' : Ctx} {o : List Byte}
    {rs : List (List Byte × Word)}, Have m L lo cb c o → (∀ p, some (Call.update p) ∈ ops → p.length < 2 ^ 64 ∧ p.length / 64 < N) →
    c.runAll ⟨be, be, u⟩ ops = .ok (c', rs) → (∀ r ∈ rs, r.1.length = 20) →
    ∃ m', useAll P N (d + 5) L lo ops m = .ok (shown rs, m')
  | [], m, _, _, _, _, _, _, _, h, _ => by
    cases Except.ok.inj h
    exact ⟨m, rfl⟩
  | some op :: ops, m, cb, c, c', o, rs, H, hs, h, hl => by
    obtain ⟨c1, r1, h⟩ := goInv h
    obtain ⟨cb', m1, u1, H1⟩ := use_call (d := d) hA hN H (fun p hp => hs p (by rw [hp]; exact List.mem_cons_self ..)) r1
    obtain ⟨m2, u2⟩ := useAll_runAll hA hN ops H1 (fun p hp => hs p (List.mem_cons_of_mem _ hp)) h hl
    exact ⟨m2, (Go.bind_of u1 _).trans ((Go.bind_of u2 _).trans rfl)⟩
  | none :: ops, m, cb, c, c', o, rs, H, hs, h, hl => by
    obtain ⟨⟨c1, D, v⟩, r1, h⟩ := goInv h
    obtain ⟨⟨c2, rs'⟩, r2, h⟩ := goInv h
    have hr := Except.ok.inj h
    simp only [Prod.mk.injEq] at hr
    obtain ⟨hr1, hr2⟩ := hr
    subst hr2
    obtain ⟨m1, u1, H1⟩ := use_final (d := d) hA hN H r1 (hl (D, v) (List.mem_cons_self ..))
    obtain ⟨m2, u2⟩ := useAll_runAll hA hN ops H1 (fun p hp => hs p (List.mem_cons_of_mem _ hp)) r2
      (fun r hr => hl r (List.mem_cons_of_mem _ hr))
    exact ⟨m2, (Go.bind_of u1 _).trans ((Go.bind_of u2 _).trans rfl)⟩

/-- The calls of the library among calls some of which set a callback. -/
def calls (ops : List (Val ⊕ Option Call)) : List (Option Call) := ops.filterMap Sum.getRight?

/-- All calls, where some may set a callback. -/
theorem useEvery_runAll (hA : HasApi P be u) (hN : 80 < N) : ∀ (ops : List (Val ⊕ Option Call)) {m : Mem} {cb : Val} {c c' : Ctx} {o : List Byte}
    {rs : List (List Byte × Word)}, Have m L lo cb c o → (∀ p, .inr (some (Call.update p)) ∈ ops → p.length < 2 ^ 64 ∧ p.length / 64 < N) →
    c.runAll ⟨be, be, u⟩ (calls ops) = .ok (c', rs) → (∀ r ∈ rs, r.1.length = 20) →
    ∃ m', useEvery P N (d + 5) L lo ops m = .ok (shown rs, m')
  | [], m, _, _, _, _, _, _, _, h, _ => by
    cases Except.ok.inj h
    exact ⟨m, rfl⟩
  | .inl f :: ops, m, cb, c, c', o, rs, H, hs, h, hl => by
    have hn : L.frame ≠ m.next := Nat.ne_of_lt H.found.lt
    have H1 : Have (m.having (Go.putAt m.frame L (ctxV (like cb f) c))) L lo (like cb f) c o := H.next (became_having _ _)
    have u1 := use_plain (N := N) (d := d + 4) rfl hA.callback rfl (callback_run (f := f) H.found.ctx hn)
    obtain ⟨m2, u2⟩ := useEvery_runAll hA hN ops H1 (fun p hp => hs p (List.mem_cons_of_mem _ hp)) h hl
    exact ⟨m2, (Go.bind_of u1 _).trans ((Go.bind_of u2 _).trans rfl)⟩
  | .inr (some op) :: ops, m, cb, c, c', o, rs, H, hs, h, hl => by
    obtain ⟨c1, r1, h⟩ := goInv h
    obtain ⟨cb', m1, u1, H1⟩ := use_call (d := d) hA hN H (fun p hp => hs p (by rw [hp]; exact List.mem_cons_self ..)) r1
    obtain ⟨m2, u2⟩ := useEvery_runAll hA hN ops H1 (fun p hp => hs p (List.mem_cons_of_mem _ hp)) h hl
    exact ⟨m2, (Go.bind_of u1 _).trans ((Go.bind_of u2 _).trans rfl)⟩
  | .inr none :: ops, m, cb, c, c', o, rs, H, hs, h, hl => by
    obtain ⟨⟨c1, D, v⟩, r1, h⟩ := goInv h
    obtain ⟨⟨c2, rs'⟩, r2, h⟩ := goInv h
    have hr := Except.ok.inj h
    simp only [Prod.mk.injEq] at hr
    obtain ⟨hr1, hr2⟩ := hr
    subst hr2
    obtain ⟨m1, u1, H1⟩ := use_final (d := d) hA hN H r1 (hl (D, v) (List.mem_cons_self ..))
    obtain ⟨m2, u2⟩ := useEvery_runAll hA hN ops H1 (fun p hp => hs p (List.mem_cons_of_mem _ hp)) r2
      (fun r hr => hl r (List.mem_cons_of_mem _ hr))
    exact ⟨m2, (Go.bind_of u1 _).trans ((Go.bind_of u2 _).trans rfl)⟩

end

/-- What the program has after its start (cgo/sha1.h:41-59). -/
theorem have_start (cb : Val) (c : Ctx) {o : List Byte} (ho : o.length = 20) :
    Have (((⟨0, [dvsV, padV], fun _ => [], 1⟩ : Mem).more (ctxV cb c)).more (bytesOf o)) ⟨1, 0, []⟩ ⟨2, 0, []⟩ cb c o :=
  ⟨⟨rfl, by by_kernel, show 1 < 3 by omega, show 1 ≠ 0 by omega⟩, by by_kernel, by unfold bytesV; rw [← ho]; rfl, ho, show 2 < 3 by omega, show 2 ≠ 1 by omega,
    show 2 ≠ 0 by omega, show 0 < 3 by omega⟩

/-- A program that sets callbacks too gets what the model gives without them. -/
theorem runAny_runAll {g : Prog} {be u : Bool} (hg : g.env = env5) (hA : HasApi (g.program be) be u) {N d : Nat} (hN : 80 < N) (cb : Val)
    (c : Ctx) {o : List Byte} (ho : o.length = 20) {ops : List (Val ⊕ Option Call)}
    (hs : ∀ p, .inr (some (Call.update p)) ∈ ops → p.length < 2 ^ 64 ∧ p.length / 64 < N) {c' : Ctx} {rs : List (List Byte × Word)}
    (h : c.runAll ⟨be, be, u⟩ (calls ops) = .ok (c', rs)) (hl : ∀ r ∈ rs, r.1.length = 20) :
    g.runAny be N (d + 5) (ctxV cb c) o ops = .ok (shown rs) := by
  obtain ⟨m', hr⟩ := useEvery_runAll (d := d) hA hN ops (have_start cb c ho) hs h hl
  unfold Prog.runAny
  rw [start_eq g _ hg]
  simp only
  rw [Go.bind_of (show Go.alloc (ctxV cb c) _ = .ok (_, Mem.more _ (ctxV cb c)) from rfl),
    Go.bind_of (show Go.alloc (bytesOf o) _ = .ok (_, Mem.more _ (bytesOf o)) from rfl)]
  have e : ∀ (x : Except Stop (List (List Val) × Mem)), x = .ok (shown rs, m') → (match x with
    | .error e => .error e
    | .ok (rs, _) => .ok rs) = (.ok (shown rs) : Except Stop (List (List Val))) := by rintro _ rfl; rfl
  exact e _ hr
/-- A program that uses the library as it was read gets what the model gives. -/
theorem run_runAll {g : Prog} {be u : Bool} (hg : g.env = env5) (hA : HasApi (g.program be) be u) {N d : Nat} (hN : 80 < N) (cb : Val)
    (c : Ctx) {o : List Byte} (ho : o.length = 20) {ops : List (Option Call)}
    (hs : ∀ p, some (Call.update p) ∈ ops → p.length < 2 ^ 64 ∧ p.length / 64 < N) {c' : Ctx} {rs : List (List Byte × Word)}
    (h : c.runAll ⟨be, be, u⟩ ops = .ok (c', rs)) (hl : ∀ r ∈ rs, r.1.length = 20) :
    g.run be N (d + 5) (ctxV cb c) o ops = .ok (shown rs) := by
  obtain ⟨m', hr⟩ := useAll_runAll (d := d) hA hN ops (have_start cb c ho) hs h hl
  unfold Prog.run
  rw [start_eq g _ hg]
  simp only
  rw [Go.bind_of (show Go.alloc (ctxV cb c) _ = .ok (_, Mem.more _ (ctxV cb c)) from rfl),
    Go.bind_of (show Go.alloc (bytesOf o) _ = .ok (_, Mem.more _ (bytesOf o)) from rfl)]
  have e : ∀ (x : Except Stop (List (List Val) × Mem)), x = .ok (shown rs, m') → (match x with
    | .error e => .error e
    | .ok (rs, _) => .ok rs) = (.ok (shown rs) : Except Stop (List (List Val))) := by rintro _ rfl; rfl
  exact e _ hr

theorem api_amd64 : HasApi (Amd64.prog.program false) false true where
  c := ⟨by by_kernel, by by_kernel, ⟨itemsLe, itemsLe_do, by by_kernel, by by_kernel⟩, by by_kernel, by by_kernel, by by_kernel,
    by by_kernel, by by_kernel⟩
  words := ⟨by by_kernel, rfl, by by_kernel⟩
  init := by by_kernel
  safe := by by_kernel
  useUbc := by by_kernel
  detect := by by_kernel
  reduced := by by_kernel
  callback := by by_kernel
  update := by by_kernel
  final := by by_kernel

theorem api_arm64 : HasApi (Arm64.prog.program false) false false where
  c := ⟨by by_kernel, by by_kernel, ⟨itemsLe, itemsLe_do, by by_kernel, by by_kernel⟩, by by_kernel, by by_kernel, by by_kernel,
    by by_kernel, by by_kernel⟩
  words := ⟨by by_kernel, rfl, by by_kernel⟩
  init := by by_kernel
  safe := by by_kernel
  useUbc := by by_kernel
  detect := by by_kernel
  reduced := by by_kernel
  callback := by by_kernel
  update := by by_kernel
  final := by by_kernel

theorem api_s390x : HasApi (S390x.prog.program true) true false where
  c := ⟨by by_kernel, by by_kernel, ⟨itemsBe, itemsBe_do, by by_kernel, by by_kernel⟩, by by_kernel, by by_kernel, by by_kernel,
    by by_kernel, by by_kernel⟩
  words := ⟨by by_kernel, rfl, by by_kernel⟩
  init := by by_kernel
  safe := by by_kernel
  useUbc := by by_kernel
  detect := by by_kernel
  reduced := by by_kernel
  callback := by by_kernel
  update := by by_kernel
  final := by by_kernel

theorem api_forced : HasApi (Forced.prog.program true) true true where
  c := ⟨by by_kernel, by by_kernel, ⟨itemsBe, itemsBe_do, by by_kernel, by by_kernel⟩, by by_kernel, by by_kernel, by by_kernel,
    by by_kernel, by by_kernel⟩
  words := ⟨by by_kernel, rfl, by by_kernel⟩
  init := by by_kernel
  safe := by by_kernel
  useUbc := by by_kernel
  detect := by by_kernel
  reduced := by by_kernel
  callback := by by_kernel
  update := by by_kernel
  final := by by_kernel

end Verif.Source.C
