import Verif.Proofs.GoClient
import Verif.Spec.Desk

/-!
What a program sees of the package that the text describes is what `Spec/Desk` says, and so are the contents of its slices.
-/

namespace Verif.Source.Go

open Verif Verif.Source Verif.Model Verif.Spec

/-- Frame `j` is an array with these bytes. -/
def ArrIs (m : Mem) (j : Nat) (bs : List Byte) : Prop :=
  ∃ f, m.frame j = [.arr bs.length f] ∧ ∀ q b, bs[q]? = some b → f q = .u8 b

/-- The slice, as a value. -/
def valOf (loc : Nat → Nat) : Option Part → Val
  | none => .null
  | some p => .slice ⟨loc p.arr, 0, []⟩ p.off p.len p.cap

/-- The memory holds the arrays and the program the slices; `loc` says where the arrays are. -/
structure OnDesk (m : Mem) (loc : Nat → Nat) (K : Desk) (held : List Val) : Prop where
  arr : ∀ a bs, K.arrs[a]? = some bs → 2 ≤ loc a ∧ loc a < m.next ∧ ArrIs m (loc a) bs
  inj : ∀ a b, a < K.arrs.length → b < K.arrs.length → loc a = loc b → a = b
  held : held = K.held.map (valOf loc)
  fits : ∀ p, some p ∈ K.held → ∃ bs, K.arrs[p.arr]? = some bs ∧ p.off + p.cap ≤ bs.length ∧ p.len ≤ p.cap

section
variable {m m' : Mem} {loc : Nat → Nat} {K : Desk} {held : List Val} {bs : List Byte}

/-- Nothing changes. -/
theorem OnDesk.keep (S : OnDesk m loc K held) (hn : m.next ≤ m'.next)
    (hf : ∀ g n f, 2 ≤ g → g < m.next → m.frame g = [.arr n f] → m'.frame g = m.frame g) : OnDesk m' loc K held where
  arr a bs h := by
    obtain ⟨h1, h2, f, h3, h4⟩ := S.arr a bs h
    exact ⟨h1, Nat.lt_of_lt_of_le h2 hn, f, (hf _ _ _ h1 h2 h3).trans h3, h4⟩
  inj := S.inj
  held := S.held
  fits := S.fits

theorem OnDesk.rest (S : OnDesk m loc K held) (hn : m.next ≤ m'.next) {k : Nat} {D : Digest} (hd : m.frame k = [digV D]) (h : Rest m m' k) :
    OnDesk m' loc K held :=
  S.keep hn fun g n f _ h2 h3 => h g h2 fun e => by
    subst e
    rw [hd] at h3
    cases h3

/-- Only the objects change. -/
theorem OnDesk.objs (S : OnDesk m loc K held) (os : List Held) : OnDesk m loc { K with objs := os } held := ⟨S.arr, S.inj, S.held, S.fits⟩

/-- One more slice of an array. -/
theorem OnDesk.hold (S : OnDesk m loc K held) (p : Option Part)
    (hp : ∀ q, p = some q → ∃ bs, K.arrs[q.arr]? = some bs ∧ q.off + q.cap ≤ bs.length ∧ q.len ≤ q.cap) :
    OnDesk m loc { K with held := K.held ++ [p] } (held ++ [valOf loc p]) where
  arr := S.arr
  inj := S.inj
  held := by rw [S.held]; simp
  fits q hq := by
    rcases List.mem_append.mp hq with h | h
    · exact S.fits q h
    · exact hp q (List.mem_singleton.mp h).symm

/-- One more array, in frame `j`. -/
theorem OnDesk.fresh (S : OnDesk m loc K held) (hn : m.next ≤ m'.next)
    (hf : ∀ g n f, 2 ≤ g → g < m.next → m.frame g = [.arr n f] → m'.frame g = m.frame g) {j len : Nat} (h0 : 2 ≤ m.next) (h1 : m.next ≤ j) (h2 : j < m'.next)
    (h3 : ArrIs m' j bs) (hl : len ≤ bs.length) :
    OnDesk m' (fun a => if a = K.arrs.length then j else loc a) (K.fresh bs len) (held ++ [.slice ⟨j, 0, []⟩ 0 len bs.length]) where
  arr a cs h := by
    simp only [Desk.fresh] at h
    by_cases ha : a < K.arrs.length
    · rw [List.getElem?_append_left ha] at h
      simp only [if_neg (Nat.ne_of_lt ha)]
      obtain ⟨h1, h2, f, h3, h4⟩ := S.arr a cs h
      exact ⟨h1, Nat.lt_of_lt_of_le h2 hn, f, (hf _ _ _ h1 h2 h3).trans h3, h4⟩
    · have hlt := (List.getElem?_eq_some_iff.mp h).1
      simp only [List.length_append, List.length_singleton] at hlt
      have he : a = K.arrs.length := by omega
      subst he
      simp only [List.getElem?_append_right (Nat.le_refl _), Nat.sub_self, List.getElem?_cons_zero, Option.some.injEq] at h
      subst h
      simp only [if_true]
      exact ⟨by omega, h2, h3⟩
  inj a b ha hb e := by
    simp only [Desk.fresh, List.length_append, List.length_singleton] at ha hb
    have below : ∀ c, c < K.arrs.length → loc c ≠ j := fun c hc e => by
      have := (S.arr c _ (List.getElem?_eq_getElem hc)).2.1
      omega
    by_cases h1 : a = K.arrs.length <;> by_cases h2 : b = K.arrs.length
    · omega
    · simp only [if_pos h1, if_neg h2] at e
      exact absurd e.symm (below b (by omega))
    · simp only [if_neg h1, if_pos h2] at e
      exact absurd e (below a (by omega))
    · simp only [if_neg h1, if_neg h2] at e
      exact S.inj a b (by omega) (by omega) e
  held := by
    simp only [Desk.fresh, List.map_append, List.map_cons, List.map_nil, valOf, if_true]
    rw [S.held]
    congr 1
    refine List.map_congr_left fun p hp => ?_
    cases p with
    | none => rfl
    | some p =>
      obtain ⟨cs, h, _⟩ := S.fits p hp
      have := (List.getElem?_eq_some_iff.mp h).1
      simp only [valOf, if_neg (Nat.ne_of_lt this)]
  fits p hp := by
    simp only [Desk.fresh] at hp ⊢
    rcases List.mem_append.mp hp with h | h
    · obtain ⟨cs, h1, h2⟩ := S.fits p h
      exact ⟨cs, by rw [List.getElem?_append_left (List.getElem?_eq_some_iff.mp h1).1]; exact h1, h2⟩
    · simp only [List.mem_singleton, Option.some.injEq] at h
      subst h
      exact ⟨bs, by simp, by simp, hl⟩

/-- Array `a` changes. -/
theorem OnDesk.change (S : OnDesk m loc K held) (hn : m.next ≤ m'.next) {a : Nat} (ha : K.arrs[a]? = some bs) (F : List Byte → List Byte)
    (hf : ∀ g, 2 ≤ g → g < m.next → g ≠ loc a → m'.frame g = m.frame g) (hl : (F bs).length = bs.length) (h3 : ArrIs m' (loc a) (F bs)) :
    OnDesk m' loc { K with arrs := K.arrs.modify a F } held where
  arr b cs h := by
    simp only [List.getElem?_modify] at h
    by_cases e : a = b
    · subst e
      rw [ha] at h
      simp only [if_true, Option.map_eq_map, Option.map_some, Option.some.injEq] at h
      subst h
      obtain ⟨h1, h2, _⟩ := S.arr a bs ha
      exact ⟨h1, Nat.lt_of_lt_of_le h2 hn, h3⟩
    · simp only [if_neg e, Option.map_eq_map, Option.map_id_fun', id_eq] at h
      obtain ⟨h1, h2, f, h4, h5⟩ := S.arr b cs h
      refine ⟨h1, Nat.lt_of_lt_of_le h2 hn, f, (hf _ h1 h2 fun e' => e ?_).trans h4, h5⟩
      exact (S.inj b a (List.getElem?_eq_some_iff.mp h).1 (List.getElem?_eq_some_iff.mp ha).1 e').symm
  inj b c hb hc := by
    simp only [List.length_modify] at hb hc
    exact S.inj b c hb hc
  held := S.held
  fits p hp := by
    obtain ⟨cs, h1, h2⟩ := S.fits p hp
    simp only [List.getElem?_modify]
    by_cases e : a = p.arr
    · rw [← e, ha] at h1
      cases h1
      exact ⟨F bs, by rw [← e, ha]; simp, by omega, h2.2⟩
    · exact ⟨cs, by rw [h1]; simp [e], h2⟩

/-- The bytes of a slice. -/
theorem OnDesk.bytes (S : OnDesk m loc K held) {p : Option Part} (hp : p ∈ K.held) {no : Nat} (hno : ∀ a, a < K.arrs.length → loc a ≠ no) :
    IsBytes m.frame m.next no (valOf loc p) (K.bytes p) := by
  cases p with
  | none => exact .null
  | some p =>
    obtain ⟨bs, h1, h2, h3⟩ := S.fits p hp
    have hlt := (List.getElem?_eq_some_iff.mp h1).1
    obtain ⟨k1, k2, f, k3, k4⟩ := S.arr _ _ h1
    have hb : K.bytes (some p) = (bs.drop p.off).take p.len := by simp [Desk.bytes, h1]
    have hlen : (K.bytes (some p)).length = p.len := by rw [hb]; simp; omega
    have := IsBytes.slice (fr := m.frame) (next := m.next) (no := no) (lp := ⟨loc p.arr, 0, []⟩) (off := p.off) (cap := p.cap)
      (bs := K.bytes (some p)) k2 (hno _ hlt) ⟨_, f, look_cell k3, h2, by omega, fun q hq => by
        rw [k4 _ _ (List.getElem?_eq_getElem (by omega))]
        simp only [hb, List.getElem_take, List.getElem_drop]⟩
    rw [hlen] at this
    exact this

end

theorem overwrite_length {bs new : List Byte} {i : Nat} (h : i + new.length ≤ bs.length) : (overwrite bs i new).length = bs.length := by
  simp [overwrite]
  omega

theorem overwrite_get {bs new : List Byte} {i : Nat} (h : i + new.length ≤ bs.length) (q : Nat) :
    (overwrite bs i new)[q]? = if i ≤ q ∧ q < i + new.length then new[q - i]? else bs[q]? := by
  have ht : (bs.take i).length = i := by simp; omega
  have hs : (bs.take i ++ new).length = i + new.length := by simp; omega
  unfold overwrite
  by_cases h1 : q < i
  · rw [if_neg (by omega), List.getElem?_append_left (by omega), List.getElem?_append_left (by omega), List.getElem?_take, if_pos h1]
  · by_cases h2 : q < i + new.length
    · rw [if_pos ⟨by omega, h2⟩, List.getElem?_append_left (by omega), List.getElem?_append_right (by omega), ht]
    · rw [if_neg (by omega), List.getElem?_append_right (by omega), List.getElem?_drop, hs]
      congr 1
      omega

/-- What the calls of the model return is what is specified. -/
structure Meets (block : BlockFn) (det : Regs → Block → Bool) : Prop where
  run : ∀ ops D outs, new.run block ops = .ok (D, outs) → outs = Held.new.results det ops
  pkg : ∀ data r, sumPkg block .callFirst data = .ok r → r = safeHash det data

theorem results_append (det : Regs → Block → Bool) (H : Held) (ops : List Op) (op : Op) :
    H.results det (ops ++ [op]) = H.results det ops ++ [(ops.foldl (Held.after det) H).result det op] := by
  induction ops generalizing H with
  | nil => rfl
  | cons a ops ih => simp only [List.cons_append, Held.results, ih, List.foldl_cons]

/-- The objects are as their histories say. -/
structure OnObjs (det : Regs → Block → Bool) (es : List Ev) (objs : List Held) (n : Nat) : Prop where
  len : objs.length = n
  obj : ∀ (o : Nat) (H : Held), objs[o]? = some H → H = (opsOf o es).foldl (Held.after det) .new

section
variable {det : Regs → Block → Bool} {es : List Ev} {objs : List Held} {n : Nat}

theorem OnObjs.silent (O : OnObjs det es objs n) {new : List Ev} (h : ∀ o, opsOf o new = []) : OnObjs det (es ++ new) objs n :=
  ⟨O.len, fun o H hH => by rw [opsOf_append, h, List.append_nil]; exact O.obj o H hH⟩

theorem OnObjs.called (O : OnObjs det es objs n) {o : Nat} {H : Held} (hH : objs[o]? = some H) (op : Op) (out : Out) :
    OnObjs det (es ++ [.call o op out]) (objs.set o (H.after det op)) n where
  len := by rw [List.length_set]; exact O.len
  obj o' H' h := by
    rw [opsOf_append]
    by_cases e : o = o'
    · subst e
      rw [List.getElem?_set_self (List.getElem?_eq_some_iff.mp hH).1] at h
      cases h
      simp [opsOf, O.obj o H hH]
    · rw [List.getElem?_set_ne e] at h
      simpa [opsOf, e] using O.obj o' H' h

/-- The result of a call. -/
theorem Meets.call {block : BlockFn} (R : Meets block det) {ops : List Op} {outs : List Out} {D : Digest} {op : Op} {out : Out} {r : Digest × List Out}
    (h : new.run block ops = .ok r) (hr : r.2 = outs) (h' : new.run block (ops ++ [op]) = .ok (D, outs ++ [out])) :
    out = (ops.foldl (Held.after det) .new).result det op := by
  have h1 := R.run _ _ _ h'
  have h2 := R.run _ r.1 r.2 h
  rw [results_append, ← h2, hr] at h1
  simpa using h1

end

/-- The longest slices that are handed over have one byte less. -/
def limitOf (N : Nat) : Nat := min (64 * N) (2 ^ 63)

theorem lt_limit {N n : Nat} : n < limitOf N ↔ n < 64 * N ∧ n < 2 ^ 63 := by unfold limitOf; omega

section
variable {P : Program} {N d : Nat} {G : List Val} {block : BlockFn} {m m' : Mem} {c : Client} {es : List Ev} {det : Regs → Block → Bool}
variable {loc : Nat → Nat} {K : Desk}

/-- `append` on the program's slice. -/
theorem OnDesk.append (S : OnDesk m loc K c.held) (h2 : 2 ≤ m.next) {p : Option Part} (hp : p ∈ K.held) {add : List Byte} {v' : Val}
    (A : Appended P.room m m' (valOf loc p) (K.bytes p) add v') :
    ∃ loc', OnDesk m' loc' (K.append P.room p add) (c.held ++ [v']) := by
  generalize hv : valOf loc p = v at A
  generalize hb : K.bytes p = bs at A
  cases A with
  | inPlace a1 a2 a3 a4 B =>
    rename_i lp off cap n f g
    cases p with
    | none => cases hv
    | some p =>
      obtain ⟨cs, f1, f2, f3⟩ := S.fits p hp
      obtain ⟨s1, s2, f', s3, s4⟩ := S.arr _ _ f1
      have hlen : bs.length = p.len := by rw [← hb]; simp [Desk.bytes, f1]; omega
      simp only [valOf, Val.slice.injEq] at hv
      obtain ⟨rfl, rfl, _, rfl⟩ := hv
      rw [look_cell s3] at a1
      cases a1
      have hfit : p.len + add.length ≤ p.cap := by omega
      have hov : (p.off + p.len) + add.length ≤ cs.length := by omega
      have C := S.change (m' := m') B.next f1 (overwrite · (p.off + p.len) add) (fun g' _ hg hne => (B.frame g' hg).trans (putAt_of_ne hne))
        (overwrite_length hov) ⟨splice f g (p.off + bs.length) add.length, by
          rw [overwrite_length hov]
          exact (B.frame _ s2).trans (cell_put s3 (fixed_arr _ _)), fun q b hq => by
            rw [overwrite_get hov] at hq
            unfold splice
            by_cases h : p.off + p.len ≤ q ∧ q < p.off + p.len + add.length
            · rw [if_pos h] at hq
              rw [if_pos (by omega), show q - (p.off + bs.length) = q - (p.off + p.len) by omega, a4 _ (by omega)]
              rw [List.getElem?_eq_getElem (by omega)] at hq
              cases hq
              rfl
            · rw [if_neg h] at hq
              rw [if_neg (by omega)]
              exact s4 q b hq⟩
      have C' := C.hold (some { p with len := p.len + add.length }) (fun q hq => by
        cases hq
        exact ⟨overwrite cs (p.off + p.len) add, by simp [f1], by simp only [overwrite_length hov]; omega, hfit⟩)
      refine ⟨loc, ?_⟩
      simp only [Desk.append]
      rw [if_pos hfit, hlen]
      exact C'
  | moved a1 a2 a3 B a5 a6 a7 a8 =>
    rename_i k cc f
    have key : ∃ loc', OnDesk m' loc' (K.fresh (bs ++ add ++ List.replicate (P.room (bs ++ add).length) 0) (bs ++ add).length)
        (c.held ++ [.slice ⟨k, 0, []⟩ 0 (bs.length + add.length) cc]) := by
      have hlen : (bs ++ add ++ List.replicate (P.room (bs ++ add).length) 0).length = cc := by
        rw [a6]; simp; omega
      have F := S.fresh (bs := bs ++ add ++ List.replicate (P.room (bs ++ add).length) 0) (len := (bs ++ add).length) B.next (fun g n f _ hg _ => B.frame g hg) h2 a2 a3
        ⟨f, by rw [a5, hlen], fun q b hq => by
          by_cases h : q < (bs ++ add).length
          · rw [List.getElem?_append_left h, List.getElem?_eq_getElem h] at hq
            rw [a7 q h]
            cases hq
            rfl
          · rw [List.getElem?_append_right (by omega)] at hq
            rw [a8 q (by omega)]
            have := List.getElem?_eq_some_iff.mp hq
            simp at this
            rw [← this.2]
            rfl⟩ (by simp)
      rw [hlen] at F
      exact ⟨_, by simpa using F⟩
    obtain ⟨loc', F⟩ := key
    refine ⟨loc', ?_⟩
    have : K.append P.room p add = K.fresh (bs ++ add ++ List.replicate (P.room (bs ++ add).length) 0) (bs ++ add).length := by
      simp only [Desk.append, hb]
      cases p with
      | none => rfl
      | some p =>
        simp only
        obtain ⟨cs, f1, f2, f3⟩ := S.fits p hp
        have hlen : bs.length = p.len := by rw [← hb]; simp [Desk.bytes, f1]; omega
        rw [← hv] at a1
        simp only [valOf, capOf] at a1
        rw [if_neg (by omega)]
    rw [this]
    exact F

/-- The step does what is said, whatever else is known of it. -/
theorem step_inv (hP : HasAll P N G block) (T : Total block) (hN : 33 < N) (I : Inv G block c m es) {s : Step} {c' : Client} {new : List Ev}
    (e : c.step P N (d + 8) s m = .ok ((c', new), m')) : Inv G block c' m' (es ++ new) := by
  obtain ⟨c1, n1, m1, e1, I1⟩ := step_ok (d := d) hP T hN I s
  rw [e] at e1
  cases e1
  exact I1

/-- Where an object is there is no array. -/
theorem OnDesk.apart (S : OnDesk m loc K c.held) {k : Nat} {D : Digest} (hd : m.frame k = [digV D]) (a : Nat) (ha : a < K.arrs.length) : loc a ≠ k := by
  obtain ⟨_, _, f, h, _⟩ := S.arr a _ (List.getElem?_eq_getElem ha)
  intro e
  rw [e, hd] at h
  cases h

/-- One step. -/
theorem desk_step (hP : HasAll P N G block) (T : Total block) (R : Meets block det) (hN : 33 < N) (I : Inv G block c m es)
    (S : OnDesk m loc K c.held) (O : OnObjs det es K.objs c.objs.length) (s : Step) :
    ∃ c' m' loc', c.step P N (d + 8) s m = .ok ((c', (K.step det P.room (limitOf N) s).2), m') ∧
      OnDesk m' loc' (K.step det P.room (limitOf N) s).1 c'.held ∧
      OnObjs det (es ++ (K.step det P.room (limitOf N) s).2) (K.step det P.room (limitOf N) s).1.objs c'.objs.length := by
  have hm : m.id < m.next := by rw [I.id]; have := I.next; omega
  have hD := hP.sums.toHasSum.toHasDigest
  have O0 : OnObjs det (es ++ []) K.objs c.objs.length := by rw [List.append_nil]; exact O
  have getHeld : ∀ s, c.held[s]? = (K.held[s]?).map (valOf loc) := fun s => by rw [S.held, List.getElem?_map]
  have getObj : ∀ {o : Nat} {H : Held}, K.objs[o]? = some H → ∃ k D, c.objs[o]? = some (.ptr ⟨k, 0, []⟩) ∧ 2 ≤ k ∧ k < m.next ∧ m.frame k = [digV D] ∧
      new.run block (opsOf o es) = .ok (D, outsOf o es) ∧ H = (opsOf o es).foldl (Held.after det) .new := by
    intro o H h
    have ho : o < c.objs.length := by rw [← O.len]; exact (List.getElem?_eq_some_iff.mp h).1
    obtain ⟨k, D, e1, e2, e3, e4, e5⟩ := I.objs o _ (List.getElem?_eq_getElem ho)
    exact ⟨k, D, by rw [List.getElem?_eq_getElem ho, e1], e2, e3, e4, e5, O.obj o H h⟩
  have noObj : ∀ {o : Nat}, K.objs[o]? = none → c.objs[o]? = none := by
    intro o h
    rw [List.getElem?_eq_none_iff] at h ⊢
    rw [← O.len]
    exact h
  cases s with
  | new =>
    obtain ⟨m', e, B, hn, hl⟩ := new_eq (N := N) (d := d + 6) hD hm
    refine ⟨{ c with objs := c.objs ++ [.ptr ⟨m.next, 0, []⟩] }, m', loc, ?_, ?_, ?_⟩
    · simp only [Client.step, bind_run, e, pure_run, Desk.step]
    · exact (S.keep B.next fun g n f _ hg _ => B.frame g hg).objs _
    · refine ⟨by simp [Desk.step, O.len], fun o H h => ?_⟩
      simp only [Desk.step, List.append_nil] at h ⊢
      by_cases ho : o < K.objs.length
      · rw [List.getElem?_append_left ho] at h
        exact O.obj o H h
      · have := (List.getElem?_eq_some_iff.mp h).1
        simp only [List.length_append, List.length_singleton] at this
        have he : o = K.objs.length := by omega
        subst he
        simp at h
        rw [(I.none _ (by rw [O.len]; exact Nat.le_refl _)).1, ← h]
        rfl
  | null => exact ⟨_, m, loc, rfl, S.hold none (by simp), O0⟩
  | make bs =>
    refine ⟨_, _, _, rfl, S.fresh (bs := bs) (j := m.next) (len := bs.length) ?_ ?_ I.next (Nat.le_refl _) ?_ ?_ (Nat.le_refl _), O0⟩
    · exact Nat.le_succ _
    · intro g n f _ hg _
      simp only [Mem.frame, if_neg (show ¬g = m.next by omega)]
    · exact Nat.lt_succ_self _
    · refine ⟨fun i => .u8 (bs.getD i 0), ?_, fun q b h => by simp [List.getD, h]⟩
      have := I.next
      simp only [Mem.frame, I.id, if_neg (show ¬m.next = 0 by omega), if_true]
  | reslice s i j =>
    have gh := getHeld s
    cases hs : K.held[s]? with
    | none =>
      rw [hs] at gh
      exact ⟨c, m, loc, by simp only [Client.step, gh, Option.map, pure_run, Desk.step, hs], by simpa only [Desk.step, hs] using S, by simpa only [Desk.step, hs] using O0⟩
    | some p =>
      rw [hs] at gh
      cases p with
      | none =>
        exact ⟨c, m, loc, by simp only [Client.step, gh, Option.map, valOf, pure_run, Desk.step, hs], by simpa only [Desk.step, hs] using S, by simpa only [Desk.step, hs] using O0⟩
      | some p =>
        obtain ⟨cs, f1, f2, f3⟩ := S.fits p (List.mem_of_getElem? hs)
        simp only [Client.step, gh, Option.map, valOf, Desk.step, hs]
        by_cases hij : i ≤ j ∧ j ≤ p.cap
        · simp only [if_pos hij]
          exact ⟨_, m, loc, rfl, S.hold (some ⟨p.arr, p.off + i, j - i, p.cap - i⟩) (fun q hq => by
            cases hq
            exact ⟨cs, f1, by simp only; omega, by simp only; omega⟩), O0⟩
        · simp only [if_neg hij]
          exact ⟨c, m, loc, rfl, S, O0⟩
  | poke s i b =>
    have gh := getHeld s
    cases hs : K.held[s]? with
    | none =>
      rw [hs] at gh
      exact ⟨c, m, loc, by simp only [Client.step, gh, Option.map, pure_run, Desk.step, hs], by simpa only [Desk.step, hs] using S, by simpa only [Desk.step, hs] using O0⟩
    | some p =>
      rw [hs] at gh
      cases p with
      | none =>
        exact ⟨c, m, loc, by simp only [Client.step, gh, Option.map, valOf, pure_run, Desk.step, hs], by simpa only [Desk.step, hs] using S, by simpa only [Desk.step, hs] using O0⟩
      | some p =>
        obtain ⟨cs, f1, f2, f3⟩ := S.fits p (List.mem_of_getElem? hs)
        obtain ⟨s1, s2, f, he, hu⟩ := S.arr _ _ f1
        simp only [Client.step, gh, Option.map, valOf, Desk.step, hs]
        by_cases hi : i < p.len
        · simp only [if_pos hi]
          have hset : (Val.arr cs.length f).set [p.off + i] (.u8 b) = .ok (.arr cs.length fun j => if j = p.off + i then .u8 b else f j) := by
            simp only [Val.set]
            rw [if_pos (by omega), hu (p.off + i) _ (List.getElem?_eq_getElem (by omega))]
            rfl
          have hst : store ((⟨loc p.arr, 0, []⟩ : Loc).sub (p.off + i)) (.u8 b) m =
              .ok ((), m.setFrame (loc p.arr) [.arr cs.length fun j => if j = p.off + i then .u8 b else f j]) := by
            simp only [store, Loc.sub, he, List.nil_append, List.getElem?_cons_zero, hset, List.set_cons_zero]
          have hk0 : loc p.arr ≠ m.id := by rw [I.id]; omega
          have hfr : ∀ g, (m.setFrame (loc p.arr) [.arr cs.length fun j => if j = p.off + i then .u8 b else f j]).frame g =
              if g = loc p.arr then [.arr cs.length fun j => if j = p.off + i then .u8 b else f j] else m.frame g := by
            intro g
            simp only [Mem.setFrame, if_neg hk0, Mem.frame]
            by_cases h1 : g = m.id
            · rw [if_pos h1, if_pos h1, if_neg (by omega)]
            · rw [if_neg h1, if_neg h1]
          have hov : (p.off + i) + [b].length ≤ cs.length := by simp only [List.length_singleton]; omega
          refine ⟨c, m.setFrame (loc p.arr) [.arr cs.length fun j => if j = p.off + i then .u8 b else f j], loc, by simp only [bind_run, hst, pure_run], S.change ?_ f1 (overwrite · (p.off + i) [b]) (fun g _ _ hne => by rw [hfr, if_neg hne])
            (overwrite_length hov) ⟨_, by rw [hfr, if_pos rfl, overwrite_length hov], fun q x hq => ?_⟩, O0⟩
          · simp only [Mem.setFrame, if_neg hk0]; exact Nat.le_refl _
          · rw [overwrite_get hov] at hq
            simp only [List.length_singleton] at hq
            by_cases h : q = p.off + i
            · rw [if_pos (by omega)] at hq
              subst h
              simp at hq
              simp [hq]
            · rw [if_neg (by omega)] at hq
              simp only [if_neg h]
              exact hu q x hq
        · simp only [if_neg hi]
          exact ⟨c, m, loc, rfl, S, O0⟩
  | call0 o f =>
    cases ho : K.objs[o]? with
    | none =>
      exact ⟨c, m, loc, by simp only [Client.step, noObj ho, pure_run, Desk.step, ho], by simpa only [Desk.step, ho] using S, by simpa only [Desk.step, ho] using O0⟩
    | some H =>
      obtain ⟨k, D, hc, h2, hl, hd, hr, hH⟩ := getObj ho
      obtain ⟨D', out, hx, hr'⟩ := T.call hr f.op
      obtain ⟨r, m', e, M, _, L⟩ := callMeth0_eq (d := d) hP h2 hl hd hx
      have hout : out = H.result det f.op := by rw [hH]; exact R.call hr rfl hr'
      have C := O.called ho f.op out
      simp only [Client.step, hc, bind_run, e, pure_run, Desk.step, ho]
      rw [← hout]
      have S' : r = [] ∧ Rest m m' k → ∃ loc', OnDesk m' loc' { K with objs := K.objs.set o (H.after det f.op) } (c.held ++ r) :=
        fun h => ⟨loc, by rw [h.1, List.append_nil]; exact (S.rest M.next hd h.2).objs _⟩
      cases f with
      | marshalBinary =>
        obtain ⟨j, x, l1, l2, l3, l4, l5, l6⟩ := L
        rw [hout] at l1
        simp only [Meth0.op, Held.result, Out.marshalBinary.injEq] at l1
        rw [if_pos rfl, l1.1]
        have F := (S.objs (K.objs.set o (H.after det Meth0.marshalBinary.op))).fresh (m' := m') (bs := x) (len := x.length) M.next (fun g n f _ hg hf => l3 g hg fun e => by
          subst e
          rw [hd] at hf
          cases hf) I.next l4 l5 ⟨byteArr x, l6, fun q b hq => by simp [byteArr, hq]⟩ (Nat.le_refl _)
        rw [l2]
        exact ⟨_, m', _, rfl, F, C⟩
      | reset =>
        obtain ⟨loc', F⟩ := S' L
        exact ⟨_, m', loc', rfl, F, C⟩
      | size =>
        obtain ⟨loc', F⟩ := S' L
        exact ⟨_, m', loc', rfl, F, C⟩
      | blockSize =>
        obtain ⟨loc', F⟩ := S' L
        exact ⟨_, m', loc', rfl, F, C⟩
  | call1 o f s =>
    cases ho : K.objs[o]? with
    | none =>
      exact ⟨c, m, loc, by simp only [Client.step, noObj ho, pure_run, Desk.step, ho], by simpa only [Desk.step, ho] using S, by simpa only [Desk.step, ho] using O0⟩
    | some H =>
      obtain ⟨k, D, hc, h2, hl, hd, hr, hH⟩ := getObj ho
      have gh := getHeld s
      cases hs : K.held[s]? with
      | none =>
        rw [hs] at gh
        exact ⟨c, m, loc, by simp only [Client.step, hc, gh, Option.map, pure_run, Desk.step, ho, hs], by simpa only [Desk.step, ho, hs] using S,
          by simpa only [Desk.step, ho, hs] using O0⟩
      | some p =>
        rw [hs] at gh
        have hp := List.mem_of_getElem? hs
        have hv := S.bytes hp (S.apart hd)
        have hbs := bytesOf_is hv
        simp only [Client.step, hc, gh, Option.map, bind_run, hbs, Desk.step, ho, hs]
        by_cases hb : (K.bytes p).length < 64 * N ∧ (K.bytes p).length < 2 ^ 63
        · simp only [if_pos hb, if_pos (lt_limit.mpr hb)]
          obtain ⟨D', out, hx, hr'⟩ := T.call hr (f.op (K.bytes p))
          obtain ⟨r, m', e, M, _, L⟩ := callMeth1_eq (d := d) hP hN I.boot h2 hl hd (I.held _ (List.mem_of_getElem? gh)) hv hb.1 hb.2 hx
          have hout : out = H.result det (f.op (K.bytes p)) := by rw [hH]; exact R.call hr rfl hr'
          have C := O.called ho (f.op (K.bytes p)) out
          simp only [bind_run, e, pure_run]
          rw [← hout]
          have S' : r = [] ∧ Rest m m' k → ∃ loc', OnDesk m' loc' { K with objs := K.objs.set o (H.after det (f.op (K.bytes p))) } (c.held ++ r) :=
            fun h => ⟨loc, by rw [h.1, List.append_nil]; exact (S.rest M.next hd h.2).objs _⟩
          have same : ∀ os, { K with objs := os }.bytes p = K.bytes p := fun os => by cases p <;> rfl
          have objsApp : ∀ os add, ({ K with objs := os }.append P.room p add).objs = os := fun os add => by
            unfold Desk.append
            split
            · rfl
            · split <;> rfl
          cases f with
          | write =>
            obtain ⟨loc', F⟩ := S' L
            exact ⟨_, m', loc', rfl, F, C⟩
          | unmarshalBinary =>
            obtain ⟨loc', F⟩ := S' L
            exact ⟨_, m', loc', rfl, F, C⟩
          | sum =>
            obtain ⟨add, v', l1, l2, A⟩ := L
            rw [hout] at l1
            simp only [Meth1.op, Held.result, Out.sum.injEq, List.append_cancel_left_eq] at l1
            obtain ⟨loc', F⟩ := (S.objs (K.objs.set o (H.after det (Meth1.sum.op (K.bytes p))))).append I.next hp (add := add) (by rw [same]; exact A)
            refine ⟨_, m', loc', rfl, ?_, ?_⟩
            · rw [if_pos (.inl rfl), l1, l2]
              exact F
            · rw [if_pos (.inl rfl), objsApp]
              exact C
          | collisionResistantSum =>
            obtain ⟨add, col, v', l1, l2, A⟩ := L
            rw [hout] at l1
            simp only [Meth1.op, Held.result, Out.collisionResistantSum.injEq, List.append_cancel_left_eq] at l1
            obtain ⟨loc', F⟩ := (S.objs (K.objs.set o (H.after det (Meth1.collisionResistantSum.op (K.bytes p))))).append I.next hp (add := add) (by rw [same]; exact A)
            refine ⟨_, m', loc', rfl, ?_, ?_⟩
            · rw [if_pos (.inr rfl), l1.1, l2]
              exact F
            · rw [if_pos (.inr rfl), objsApp]
              exact C
        · simp only [if_neg hb, if_neg (mt lt_limit.mp hb)]
          exact ⟨c, m, loc, rfl, S, O0⟩
  | sumPkg s =>
    have gh := getHeld s
    cases hs : K.held[s]? with
    | none =>
      rw [hs] at gh
      exact ⟨c, m, loc, by simp only [Client.step, gh, Option.map, pure_run, Desk.step, hs], by simpa only [Desk.step, hs] using S,
        by simpa only [Desk.step, hs] using O0⟩
    | some p =>
      rw [hs] at gh
      have hv := S.bytes (List.mem_of_getElem? hs) (no := m.next) (fun a ha => by
        have := (S.arr a _ (List.getElem?_eq_getElem ha)).2.1
        omega)
      have hbs := bytesOf_is hv
      simp only [Client.step, gh, Option.map, bind_run, hbs, Desk.step, hs]
      by_cases hb : (K.bytes p).length < 64 * N ∧ (K.bytes p).length < 2 ^ 63
      · simp only [if_pos hb, if_pos (lt_limit.mpr hb)]
        have X := sumPkg_eq hP.sums (hP.calls d) (hP.calls (d + 1)) (by omega) (by omega) I.next I.boot hv hb.2
        obtain ⟨⟨hash, col⟩, hr⟩ := T.pkg (K.bytes p)
        have hlen : hash.length = 20 := sumPkg_length hr
        rw [hr] at X
        obtain ⟨m', e, B⟩ := X
        rw [← R.pkg _ _ hr]
        refine ⟨c, m', loc, ?_, S.keep B.next fun g n f _ hg _ => B.frame g hg, O.silent fun o => rfl⟩
        have ha : arrBytes (.arr 20 (byteArr hash)) = some hash := by
          simp only [arrBytes, byteArr, Option.some.injEq]
          refine List.ext_getElem (by simp [hlen]) fun q h1 h2 => ?_
          simp [List.getElem?_eq_getElem h2]
        simp only [bind_run, e, need, ha, pure_run]
      · simp only [if_neg hb, if_neg (mt lt_limit.mp hb)]
        exact ⟨c, m, loc, rfl, S, O0⟩

/-- Every program. -/
theorem desk_run (hP : HasAll P N G block) (T : Total block) (R : Meets block det) (hN : 33 < N) (ss : List Step) (I : Inv G block c m es)
    (S : OnDesk m loc K c.held) (O : OnObjs det es K.objs c.objs.length) :
    ∃ c' m' loc', c.run P N (d + 8) ss m = .ok ((c', (K.run det P.room (limitOf N) ss).2), m') ∧
      OnDesk m' loc' (K.run det P.room (limitOf N) ss).1 c'.held := by
  induction ss generalizing c m es loc K with
  | nil => exact ⟨c, m, loc, rfl, S⟩
  | cons s ss ih =>
    obtain ⟨c1, m1, loc1, e1, S1, O1⟩ := desk_step (d := d) hP T R hN I S O s
    obtain ⟨c2, m2, loc2, e2, S2⟩ := ih (step_inv hP T hN I e1) S1 O1
    exact ⟨c2, m2, loc2, by simp only [Client.run, bind_run, e1, e2, pure_run, Desk.run], S2⟩

/-- The bytes of the program's slices. -/
theorem OnDesk.read (S : OnDesk m loc K c.held) (s : Nat) :
    c.held[s]?.map (fun v => (bytesOf v m).map (·.1)) = K.held[s]?.map fun p => .ok (K.bytes p) := by
  rw [S.held, List.getElem?_map]
  cases hs : K.held[s]? with
  | none => rfl
  | some p =>
    have := bytesOf_is (S.bytes (List.mem_of_getElem? hs) (no := m.next) (fun a ha => by
        have := (S.arr a _ (List.getElem?_eq_getElem ha)).2.1
        omega))
    simp [this, Except.map]

end

end Verif.Source.Go
