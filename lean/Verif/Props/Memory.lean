import Verif.Props.Stream
import Verif.Proofs.System

/-!
Programs with any number of hash objects, shared memory, and a client that can overwrite every array it has and the table
of package `ubc`: C25, C28, C29, C32.

`Sys.init.run (fun dvs => B.blockWith dvs) cs = .ok (s, es)` says that the program `cs` in build `B` runs without panic to
state `s`, with the calls and results `es`.
-/

namespace Verif.Props

open Verif Verif.Model Verif.Spec

theorem build_table (B : Build) : BlockImpl (B.blockWith sha1Dvs) goVerdict := build_impl B

theorem reach_sinv {B : Build} {s : Sys} (h : Reachable B s) : ∃ vs, SInv s vs := by
  obtain ⟨cs, es, hc, hr⟩ := h
  obtain ⟨s', es', vs', h1, h2, _⟩ := sys_run_spec (fun dvs => B.blockWith dvs) goVerdict (build_table B) cs SInv.init hc
  rw [hr] at h1
  cases h1
  exact ⟨vs', h2⟩

/-- C28.  A program that leaves the table of package `ubc` alone never panics, and every hash object returns exactly
what a new object returns when the calls on it (with the arguments they had when they were made) are run alone, no
matter how they are interleaved with calls on other objects, package-level sums and changes of memory. -/
theorem C28_interleaving (B : Build) (cs : List Cmd) (h : ∀ c ∈ cs, isSetDv c = false) :
    ∃ s es, Sys.init.run (fun dvs => B.blockWith dvs) cs = .ok (s, es) ∧
      (∀ o, ∃ d, new.run B.block (opsOf o es) = .ok (d, outsOf o es)) ∧
      (∀ data D c, Ev.sumPkg data D c ∈ es → sumPkg B.block .callFirst data = .ok (D, c)) := by
  obtain ⟨s, es, vs, h1, h2, h3, h4⟩ :=
    sys_run_spec (fun dvs => B.blockWith dvs) goVerdict (build_table B) cs SInv.init h
  exact ⟨s, es, h1, fun o => ⟨_, h3 o⟩, h4⟩

/-- C28, every call made is made: a call on an existing object with arguments the client has produces one event, with
the bytes the argument has at that moment. -/
theorem C28_no_call_lost (B : Build) (s : Sys) (hs : Reachable B s) (o : Nat) (ho : o < s.objs.length) (op : MOp)
    (hl : op.arg.all s.legal = true) :
    ∃ s' out, s.step (fun dvs => B.blockWith dvs) (.call o op) = .ok (s', [.call o (op.val s.heap) out]) := by
  obtain ⟨vs, hv⟩ := reach_sinv hs
  obtain ⟨s', es, vs', h1, _⟩ := step_spec (fun dvs => B.blockWith dvs) goVerdict (build_table B) hv (.call o op) rfl
  have hd : s.objs[o]? = some s.objs[o] := List.getElem?_eq_getElem ho
  have h2 := h1
  simp only [Sys.step, hd, hl, if_true, bind, Except.bind] at h2
  split at h2
  · cases h2
  · rename_i w _
    simp only [pure, Except.pure, Except.ok.injEq, Prod.mk.injEq] at h2
    exact ⟨s', w.2.2.2, by rw [h1, ← h2.2]⟩

/-- Two programs in which object `o` gets the same calls, with the same bytes, get the same results from it. -/
theorem C28_other_activity_irrelevant (B : Build) (cs cs' : List Cmd) (h : ∀ c ∈ cs, isSetDv c = false)
    (h' : ∀ c ∈ cs', isSetDv c = false) (s s' : Sys) (es es' : List Ev) (o o' : Nat)
    (hr : Sys.init.run (fun dvs => B.blockWith dvs) cs = .ok (s, es))
    (hr' : Sys.init.run (fun dvs => B.blockWith dvs) cs' = .ok (s', es')) (hops : opsOf o es = opsOf o' es') :
    outsOf o es = outsOf o' es' := by
  obtain ⟨_, _, h1, h2, _⟩ := C28_interleaving B cs h
  obtain ⟨_, _, h3, h4, _⟩ := C28_interleaving B cs' h'
  rw [hr] at h1
  rw [hr'] at h3
  cases h1
  cases h3
  obtain ⟨_, e1⟩ := h2 o
  obtain ⟨_, e2⟩ := h4 o'
  rw [hops, e2] at e1
  simp only [Except.ok.injEq, Prod.mk.injEq] at e1
  exact e1.2.symm

/-- The block function of a build, for evaluating concrete programs. -/
theorem run_total (B : Build) (cs : List Cmd) (h : ∀ c ∈ cs, isSetDv c = false) :
    ∃ g : Core → List Byte → Core, Sys.init.run (fun dvs => B.blockWith dvs) cs =
      Sys.init.run (fun _ c p => .ok (g c p)) cs :=
  ⟨fun c p => ⟨(safeChain goVerdict c.h (blocks p)).1, c.col || (safeChain goVerdict c.h (blocks p)).2⟩,
    sys_run_congr _ (fun _ _ _ => .ok _) (funext fun c => funext fun p => build_table B c p) cs _ rfl h⟩

/-- Two objects, interleaved, with array 0 ("abc", overwritten on the way) as the argument of both. -/
def prog28 : List Cmd :=
  [.make abc, .new, .new, .call 0 (.write ⟨0, 0, 1, 3⟩), .call 1 (.write ⟨0, 0, 3, 3⟩), .poke 0 0 0xff,
   .call 0 (.write ⟨0, 1, 2, 2⟩), .call 1 (.write ⟨0, 0, 1, 1⟩),
   .call 0 (.sum ⟨0, 0, 1, 3⟩ 12)]

/-- Instance: object 0 has got "abc" in two pieces. -/
example (B : Build) : ∃ s es, Sys.init.run (fun dvs => B.blockWith dvs) prog28 = .ok (s, es) ∧
    opsOf 0 es = [.write [0x61], .write [0x62, 0x63], .sum [0xff]] ∧
    outsOf 0 es = [.write 1 none, .write 2 none, .sum (0xff :: abcDigest)] ∧
    opsOf 1 es = [.write abc, .write [0xff]] ∧ outsOf 1 es = [.write 3 none, .write 1 none] := by
  obtain ⟨s, es, h1, h2, _⟩ := C28_interleaving B prog28 (by simp [prog28, isSetDv])
  obtain ⟨g, hg⟩ := run_total B prog28 (by simp [prog28, isSetDv])
  have e0 : ((Sys.init.run (fun _ c p => .ok (g c p)) prog28).toOption.map fun r => (opsOf 0 r.2, opsOf 1 r.2)) =
    some ([.write [0x61], .write [0x62, 0x63], .sum [0xff]], [.write abc, .write [0xff]]) := by rfl
  rw [← hg, h1] at e0
  simp only [Except.toOption, Option.map_some, Option.some.injEq, Prod.mk.injEq] at e0
  obtain ⟨e0, e1⟩ := e0
  refine ⟨s, es, h1, e0, ?_, e1, ?_⟩
  · obtain ⟨d, r⟩ := h2 0
    obtain ⟨d', r'⟩ := object_refines B (opsOf 0 es) (by rw [e0]; simp [isRestore])
    rw [r] at r'
    simp only [Except.ok.injEq, Prod.mk.injEq] at r'
    rw [r'.2, e0]
    simp only [results, result, msgAfter, List.nil_append, List.cons_append]
    rw [show ([0x61, 0x62, 0x63] : List Byte) = abc from rfl, abc_hash]
    rfl
  · obtain ⟨d, r⟩ := h2 1
    obtain ⟨d', r'⟩ := object_refines B (opsOf 1 es) (by rw [e1]; simp [isRestore])
    rw [r] at r'
    simp only [Except.ok.injEq, Prod.mk.injEq] at r'
    rw [r'.2, e1]
    simp only [results, result]
    rfl

theorem splice_get (a : List Byte) (off : Nat) (D : List Byte) (h : off + D.length ≤ a.length) (j : Nat) :
    (splice a off D)[j]? = if off ≤ j ∧ j < off + D.length then D[j - off]? else a[j]? := by
  have h1 : (a.take off).length = off := by simp; omega
  unfold splice
  split
  · rename_i hj
    rw [List.append_assoc, List.getElem?_append_right (by omega), h1, List.getElem?_append_left (by omega)]
  · rename_i hj
    by_cases hlt : j < off
    · rw [List.append_assoc, List.getElem?_append_left (by omega), List.getElem?_take, if_pos hlt]
    · rw [List.getElem?_append_right (by simp; omega), List.getElem?_drop]
      congr 1
      simp
      omega

/-- C25.  In every state a hash object has a digest `D` of twenty bytes and a flag `c`, and whatever slice `inp` (of
whatever length and capacity, sharing its array with whatever else) the client passes to `Sum` or
`CollisionResistantSum`, the call does not panic, leaves the object as it is, and returns a slice `r` that reads `inp`
followed by `D`.  If `inp` has twenty bytes of spare capacity, `r` is `inp` extended, and the only bytes of the client's
memory that change are those twenty; else `r` is in an array the client did not have and no byte of the client's memory
changes.  In both cases `inp` reads as before. -/
theorem C25_sum_appends (B : Build) (s : Sys) (hs : Reachable B s) (o : Nat) (d : MDigest) (hd : s.objs[o]? = some d) :
    ∃ (D : List Byte) (c : Bool), D.length = 20 ∧ ∀ inp grow, s.legal inp = true → ∃ H' r,
      d.call (B.blockWith s.dvs) s.heap (.sum inp grow) = .ok (H', d, some r, .sum (rd s.heap inp ++ D)) ∧
      d.call (B.blockWith s.dvs) s.heap (.collisionResistantSum inp grow) =
        .ok (H', d, some r, .collisionResistantSum (rd s.heap inp ++ D) c) ∧
      rd H' r = rd s.heap inp ++ D ∧ rd H' inp = rd s.heap inp ∧
      (inp.len + 20 ≤ inp.cap → r = { inp with len := inp.len + 20 }) ∧
      (¬ inp.len + 20 ≤ inp.cap → r.arr ∉ s.known ∧ r.off = 0 ∧ r.len = inp.len + 20) ∧
      (∀ a j, a ∈ s.known → byteAt H' a j =
        if inp.len + 20 ≤ inp.cap ∧ a = inp.arr ∧ inp.off + inp.len ≤ j ∧ j < inp.off + inp.len + 20 then
          D[j - (inp.off + inp.len)]? else byteAt s.heap a j) := by
  obtain ⟨vs, hv⟩ := reach_sinv hs
  have ho : o < vs.length := by rw [hv.len]; exact (List.getElem?_eq_some_iff.mp hd).1
  obtain ⟨r1, r2⟩ := hv.rep o d vs[o] hd (List.getElem?_eq_getElem ho)
  obtain ⟨v', hc, _⟩ := checkSum_spec _ goVerdict (build_table B) vs[o] r2
  refine ⟨digestBytes v'.h, v'.col, rfl, fun inp grow hl => ?_⟩
  have hap := hv.apart hd hl
  obtain ⟨H', r, k1, k2⟩ := crs_sim _ r1 inp hap grow _ hc
  have k3 : d.sum (B.blockWith sha1Dvs) s.heap inp grow = .ok (H', r) := by
    obtain ⟨H2, r2, q1, _⟩ := sum_sim _ r1 inp hap grow _ hc
    have e1 : d.sum (B.blockWith sha1Dvs) s.heap inp grow =
        (d.collisionResistantSum (B.blockWith sha1Dvs) s.heap inp grow).map fun x => (x.1, x.2.1) := by
      unfold MDigest.sum MDigest.collisionResistantSum
      simp only [bind, Except.bind]
      cases MDigest.checkSum (B.blockWith sha1Dvs) (d.clone s.heap).1 (d.clone s.heap).2 <;> rfl
    rw [e1, k1]; rfl
  have hbytes : ∀ a j, a < s.heap.length → byteAt H' a j =
      if inp.len + 20 ≤ inp.cap ∧ a = inp.arr ∧ inp.off + inp.len ≤ j ∧ j < inp.off + inp.len + 20 then
        (digestBytes v'.h)[j - (inp.off + inp.len)]? else byteAt s.heap a j := by
    intro a j ha
    by_cases hr : inp.len + 20 ≤ inp.cap
    · by_cases hin : a = inp.arr
      · obtain ⟨_, x, h3, h4⟩ := k2.room hr
        have hroom : inp.off + inp.cap ≤ x.length := by
          rcases hap with h | h
          · omega
          · obtain ⟨y, h5, h6⟩ := h.1.arr
            rw [h3] at h5
            cases h5
            exact h6
        subst hin
        unfold byteAt
        rw [h4, h3]
        simp only [Option.bind_some]
        rw [splice_get _ _ _ (by simp only [show (digestBytes v'.h).length = 20 from rfl]; omega)]
        simp only [hr, true_and, show (digestBytes v'.h).length = 20 from rfl]
      · rw [if_neg (fun h => hin h.2.1)]
        unfold byteAt
        rw [k2.frame a ha hin]
    · rw [if_neg (fun h => hr h.1)]
      unfold byteAt
      rw [(k2.full hr).2.2.1 a ha]
  refine ⟨H', r, ?_, ?_, k2.val, ?_, fun hr => (k2.room hr).1, fun hr => ⟨fun hm => ?_, (k2.full hr).2.2.2⟩,
    fun a j ha => hbytes a j (hv.known a ha)⟩
  · rw [hv.dvs]
    simp only [MDigest.call, k3, bind, Except.bind, pure, Except.pure, k2.val]
  · rw [hv.dvs]
    simp only [MDigest.call, k1, bind, Except.bind, pure, Except.pure, k2.val]
  · rcases legal_fits hl with h | ⟨h, hm⟩
    · unfold rd; simp [h.1]
    · obtain ⟨x, h3, h4⟩ := h.arr
      have hx := lt_of_get h3
      have h5 := h.len
      apply List.ext_getElem?
      intro j
      unfold rd
      rw [List.getElem?_take, List.getElem?_take]
      split
      · rename_i hj
        have := hbytes inp.arr (inp.off + j) hx
        rw [if_neg (by omega)] at this
        unfold byteAt at this
        rw [h3] at this
        rw [List.getD_eq_getElem?_getD, List.getD_eq_getElem?_getD, List.getElem?_drop, List.getElem?_drop, h3]
        simp only [Option.bind_some, Option.getD_some] at this ⊢
        rw [← this]
        cases hq : H'[inp.arr]? with
        | none => simp
        | some y => simp
      · rfl
  · have := hv.known _ hm
    have := (k2.full hr).1
    omega

/-- A state for the instances: one array of forty bytes, one hash. -/
def sys25 : Sys :=
  ⟨[List.replicate 40 7, List.replicate 64 0], [⟨⟨Init0, Init1, Init2, Init3, Init4⟩, 1, 0, 0, false⟩], sha1Dvs, [0]⟩

theorem sys25_reachable (B : Build) : Reachable B sys25 :=
  ⟨[.make (List.replicate 40 7), .new], [], by simp [isSetDv], rfl⟩

/-- Instance: a slice in the middle of an array, with room; the digest lands in bytes 8 to 27. -/
example (B : Build) : ∃ D H' r, D.length = 20 ∧
    sys25.objs[0].call (B.blockWith sys25.dvs) sys25.heap (.sum ⟨0, 3, 5, 37⟩ 0) =
      .ok (H', sys25.objs[0], some r, .sum ([7, 7, 7, 7, 7] ++ D)) ∧ r = ⟨0, 3, 25, 37⟩ ∧
    byteAt H' 0 7 = some 7 ∧ byteAt H' 0 8 = D[0]? ∧ byteAt H' 0 27 = D[19]? ∧ byteAt H' 0 28 = some 7 := by
  obtain ⟨D, c, hD, h⟩ := C25_sum_appends B sys25 (sys25_reachable B) 0 _ rfl
  obtain ⟨H', r, h1, _, _, _, h5, _, h7⟩ := h ⟨0, 3, 5, 37⟩ 0 (by decide)
  exact ⟨D, H', r, hD, h1, h5 (by decide), h7 0 7 (by decide), h7 0 8 (by decide), h7 0 27 (by decide),
    h7 0 28 (by decide)⟩

/-- Instance: the same slice with nineteen bytes of room; the array stays as it is. -/
example (B : Build) : ∃ D H' r, D.length = 20 ∧
    sys25.objs[0].call (B.blockWith sys25.dvs) sys25.heap (.sum ⟨0, 3, 5, 24⟩ 0) =
      .ok (H', sys25.objs[0], some r, .sum ([7, 7, 7, 7, 7] ++ D)) ∧ r.arr ≠ 0 ∧ ∀ j, byteAt H' 0 j = byteAt sys25.heap 0 j := by
  obtain ⟨D, c, hD, h⟩ := C25_sum_appends B sys25 (sys25_reachable B) 0 _ rfl
  obtain ⟨H', r, h1, _, _, _, _, h6, h7⟩ := h ⟨0, 3, 5, 24⟩ 0 (by decide)
  refine ⟨D, H', r, hD, h1, fun e => (h6 (by decide)).1 (by rw [e]; decide), fun j => ?_⟩
  rw [h7 0 j (by decide), if_neg (fun h => absurd h.1 (by decide))]

/-- C29, first half: `Write` accepts every slice the client has and changes no array of the client. -/
theorem C29_write_frame (B : Build) (s : Sys) (hs : Reachable B s) (o : Nat) (d : MDigest) (hd : s.objs[o]? = some d)
    (p : Sl) (hp : s.legal p = true) :
    ∃ H' d', d.call (B.blockWith s.dvs) s.heap (.write p) = .ok (H', d', none, .write p.len none) ∧
      ∀ a ∈ s.known, H'[a]? = s.heap[a]? := by
  obtain ⟨vs, hv⟩ := reach_sinv hs
  have ho : o < vs.length := by rw [hv.len]; exact (List.getElem?_eq_some_iff.mp hd).1
  obtain ⟨r1, r2⟩ := hv.rep o d vs[o] hd (List.getElem?_eq_getElem ho)
  have hap := hv.apart hd hp
  obtain ⟨v', hw, _⟩ := write_spec _ goVerdict (build_table B) vs[o] r2 (rd s.heap p)
  obtain ⟨H', d', h1, h2, h3, h4⟩ := write_sim _ r1 p hap _ _ hw
  refine ⟨H', d', ?_, fun a ha => h4.get a fun e => (hv.own o d hd).1 (e ▸ ha)⟩
  rw [hv.dvs]
  simp only [MDigest.call, h1, bind, Except.bind, pure, Except.pure, hap.rd_length]

/-- The client's actions on memory. -/
def isMemory : Cmd → Bool
  | .make .. => true
  | .poke .. => true
  | _ => false

/-- C29, second half: nothing the client does to its memory changes a hash object.  After any sequence of such changes,
a call with an argument that has the same bytes gives the same result. -/
theorem C29_no_retention (B : Build) (s : Sys) (hs : Reachable B s) (ms : List Cmd) (hm : ∀ c ∈ ms, isMemory c = true) :
    ∃ s', s.run (fun dvs => B.blockWith dvs) ms = .ok (s', []) ∧ s'.objs.length = s.objs.length ∧
      ∀ o op op' t t' es es', op.val s.heap = op'.val s'.heap →
        s.step (fun dvs => B.blockWith dvs) (.call o op) = .ok (t, es) → es ≠ [] →
        s'.step (fun dvs => B.blockWith dvs) (.call o op') = .ok (t', es') → es' ≠ [] → es = es' := by
  obtain ⟨vs, hv⟩ := reach_sinv hs
  have key : ∀ (ms : List Cmd) {s : Sys} {vs : List Digest}, SInv s vs → (∀ c ∈ ms, isMemory c = true) →
      ∃ s' vs', s.run (fun dvs => B.blockWith dvs) ms = .ok (s', []) ∧ s'.objs.length = s.objs.length ∧ SInv s' vs' ∧
        ∀ o, vs'.getD o new = vs.getD o new := by
    intro ms
    induction ms with
    | nil => exact fun h _ => ⟨_, _, rfl, rfl, h, fun _ => rfl⟩
    | cons c ms ih =>
      intro s vs h hm
      have hc := hm c (List.mem_cons_self ..)
      obtain ⟨s1, es1, vs1, a1, a2, a3, _⟩ := step_spec (fun dvs => B.blockWith dvs) goVerdict (build_table B) h c
        (by cases c <;> simp_all [isMemory, isSetDv])
      obtain ⟨rfl, hl⟩ : es1 = [] ∧ s1.objs.length = s.objs.length := by
        cases c with
        | make bs => cases a1; exact ⟨rfl, rfl⟩
        | poke a i b =>
          simp only [Sys.step, pure, Except.pure] at a1
          split at a1 <;> (cases a1; exact ⟨rfl, rfl⟩)
        | _ => simp [isMemory] at hc
      obtain ⟨s2, vs2, b1, b2, b3, b4⟩ := ih a2 fun c h => hm c (List.mem_cons_of_mem _ h)
      refine ⟨s2, vs2, ?_, b2.trans hl, b3, fun o => (b4 o).trans ?_⟩
      · simp only [Sys.run, a1, b1, bind, Except.bind]; rfl
      · have := a3 o
        simp only [opsOf, outsOf, List.filterMap_nil, Digest.run, pure, Except.pure, Except.ok.injEq, Prod.mk.injEq] at this
        exact this.1.symm
  obtain ⟨s', vs', b1, b2, b3, b4⟩ := key ms hv hm
  refine ⟨s', b1, b2, ?_⟩
  intro o op op' t t' es es' hval e1 n1 e2 n2
  have shape : ∀ (s : Sys) (op : MOp) (t : Sys) (es : List Ev), s.step (fun dvs => B.blockWith dvs) (.call o op) = .ok (t, es) →
      es ≠ [] → ∃ out, es = [.call o (op.val s.heap) out] := by
    intro s op t es h hn
    simp only [Sys.step, pure, Except.pure, bind, Except.bind] at h
    split at h
    · cases h; exact absurd rfl hn
    · split at h
      · split at h
        · cases h
        · simp only [Except.ok.injEq, Prod.mk.injEq] at h
          exact ⟨_, h.2.symm⟩
      · cases h; exact absurd rfl hn
  obtain ⟨out, rfl⟩ := shape s op t es e1 n1
  obtain ⟨out', rfl⟩ := shape s' op' t' es' e2 n2
  obtain ⟨_, _, _, c1, _, c3, _⟩ := step_spec (fun dvs => B.blockWith dvs) goVerdict (build_table B) hv (.call o op) rfl
  obtain ⟨_, _, _, d1, _, d3, _⟩ := step_spec (fun dvs => B.blockWith dvs) goVerdict (build_table B) b3 (.call o op') rfl
  rw [e1] at c1
  rw [e2] at d1
  cases c1
  cases d1
  have c3 := c3 o
  have d3 := d3 o
  simp only [opsOf, outsOf, List.filterMap_cons, List.filterMap_nil, if_true] at c3 d3
  rw [b4 o, ← hval, c3] at d3
  simp only [Except.ok.injEq, Prod.mk.injEq, List.cons.injEq, and_true] at d3
  rw [hval, d3.2]

/-- Instance: seven bytes written from array 0. -/
example (B : Build) : ∃ H' d', sys25.objs[0].call (B.blockWith sys25.dvs) sys25.heap (.write ⟨0, 3, 7, 37⟩) =
    .ok (H', d', none, .write 7 none) ∧ H'[0]? = some (List.replicate 40 7) := by
  obtain ⟨H', d', h1, h2⟩ := C29_write_frame B sys25 (sys25_reachable B) 0 _ rfl ⟨0, 3, 7, 37⟩ (by decide)
  exact ⟨H', d', h1, h2 0 (by decide)⟩

/-- `sys25` after `Write` of seven bytes. -/
def sys29 : Sys :=
  ⟨[List.replicate 40 7, List.replicate 7 7 ++ List.replicate 57 0],
    [⟨⟨Init0, Init1, Init2, Init3, Init4⟩, 1, 7, 7, false⟩], sha1Dvs, [0]⟩

theorem sys29_reachable (B : Build) : Reachable B sys29 :=
  ⟨[.make (List.replicate 40 7), .new, .call 0 (.write ⟨0, 3, 7, 37⟩)],
    [.call 0 (.write [7, 7, 7, 7, 7, 7, 7]) (.write 7 none)], by simp [isSetDv], rfl⟩

/-- Instance: the seven bytes are overwritten after the `Write`; the digest is the same. -/
example (B : Build) : ∃ s' t t' out, sys29.run (fun dvs => B.blockWith dvs) [.poke 0 3 0, .poke 0 9 1] = .ok (s', []) ∧
    s'.heap[0]? ≠ sys29.heap[0]? ∧
    sys29.step (fun dvs => B.blockWith dvs) (.call 0 (.sum ⟨0, 0, 0, 0⟩ 0)) = .ok (t, [.call 0 (.sum []) out]) ∧
    s'.step (fun dvs => B.blockWith dvs) (.call 0 (.sum ⟨0, 0, 0, 0⟩ 0)) = .ok (t', [.call 0 (.sum []) out]) := by
  obtain ⟨s', h1, h2, h3⟩ := C29_no_retention B sys29 (sys29_reachable B) [.poke 0 3 0, .poke 0 9 1] (by simp [isMemory])
  obtain ⟨t, out, e1⟩ := C28_no_call_lost B sys29 (sys29_reachable B) 0 (by decide) (.sum ⟨0, 0, 0, 0⟩ 0) (by decide)
  have hs' : sys29.run (fun dvs => B.blockWith dvs) [.poke 0 3 0, .poke 0 9 1] =
      .ok (⟨[[7, 7, 7, 0, 7, 7, 7, 7, 7, 1] ++ List.replicate 30 7, List.replicate 7 7 ++ List.replicate 57 0],
        sys29.objs, sha1Dvs, [0]⟩, []) := rfl
  have hreach : Reachable B s' :=
    ⟨[.make (List.replicate 40 7), .new, .call 0 (.write ⟨0, 3, 7, 37⟩), .poke 0 3 0, .poke 0 9 1],
      [.call 0 (.write [7, 7, 7, 7, 7, 7, 7]) (.write 7 none)], by simp [isSetDv], by
        rw [hs'] at h1; cases h1; rfl⟩
  obtain ⟨t', out', e2⟩ := C28_no_call_lost B s' hreach 0 (by rw [h2]; decide) (.sum ⟨0, 0, 0, 0⟩ 0)
    (by simp [MOp.arg, Sys.legal])
  have hv : ∀ H : Heap, MOp.val H (.sum ⟨0, 0, 0, 0⟩ 0) = .sum [] := fun H => by simp [MOp.val, rd]
  have := h3 0 (.sum ⟨0, 0, 0, 0⟩ 0) (.sum ⟨0, 0, 0, 0⟩ 0) t t' _ _ (by rw [hv, hv]) e1 (by simp) e2 (by simp)
  rw [hv] at e1 this
  refine ⟨s', t, t', out, h1, ?_, e1, ?_⟩
  · rw [hs'] at h1; cases h1; decide
  · rw [e2, ← this]

/-! ### The table of package `ubc` -/

/-- C32, what holds: as long as the client leaves the table alone, no program changes what is detected; every
package-level sum gives the digest and the verdict of the safe hash. -/
theorem C32_untouched_table_partial (B : Build) (cs : List Cmd) (h : ∀ c ∈ cs, isSetDv c = false) :
    ∃ s es, Sys.init.run (fun dvs => B.blockWith dvs) cs = .ok (s, es) ∧
      ∀ data D c, Ev.sumPkg data D c ∈ es → (D, c) = safeHash goVerdict data := by
  obtain ⟨s, es, h1, _, h3⟩ := C28_interleaving B cs h
  refine ⟨s, es, h1, fun data D c hm => ?_⟩
  have := h3 data D c hm
  rw [sumPkg_call (build_impl B)] at this
  exact (Except.ok.inj this).symm

/-- A table whose first entry ends it detects nothing. -/
theorem ended_table (e : DvInfo) (he : e.DvType = 0) (dvs : List DvInfo) : TableImpl (e :: dvs) fun _ _ => false := by
  intro H M
  unfold checkCollision
  simp only
  split
  · unfold scanDvs; simp only [he, ne_eq, not_true_eq_false, if_false]; rfl
  · rfl

/-- C32, refuted: writing a zero into the first entry of the slice that `ubc.SHA1_dvs` returns turns the package into
plain SHA-1: every message is reported clean, with its SHA-1 digest. -/
theorem C32_refuted (B : Build) (e : DvInfo) (he : e.DvType = 0) (m : List Byte) :
    ∃ s, Sys.init.run (fun dvs => B.blockWith dvs) [.setDv 0 e, .make m, .sumPkg ⟨0, 0, m.length, m.length⟩] =
      .ok (s, [.sumPkg m (sha1 m) false]) := by
  have hb := B.impl_table (ended_table e he (sha1Dvs.tail))
  have hs := sumPkg_call hb m
  have hflag : (safeHash (fun _ _ => false) m).2 = false := by
    have : ∀ (Ms : List Block) (H : Regs), (safeChain (fun _ _ => false) H Ms).2 = false := by
      intro Ms
      induction Ms with
      | nil => intro H; rfl
      | cons M Ms ih => intro H; simp only [safeChain, ih, Bool.or_false]
    exact this _ _
  rw [show safeHash (fun _ _ => false) m = (sha1 m, false) from
    Prod.ext (safeHash_unflagged _ m hflag) hflag] at hs
  have hrd : rd [m] ⟨0, 0, m.length, m.length⟩ = m := by simp [rd]
  have hf : (⟨0, 0, m.length, m.length⟩ : Sl).len = 0 ∧ (⟨0, 0, m.length, m.length⟩ : Sl).cap = 0 ∨
      Fits [m] ⟨0, 0, m.length, m.length⟩ := .inr ⟨Nat.le_refl _, m, rfl, by simp⟩
  obtain ⟨H', h1, _⟩ := msumPkg_sim _ (H := [m]) ⟨0, 0, m.length, m.length⟩ hf (sha1 m) false (by rw [hrd]; exact hs)
  have hl : Sys.legal ⟨[m], [], e :: sha1Dvs.tail, [0]⟩ ⟨0, 0, m.length, m.length⟩ = true := by
    simp [Sys.legal]
  have hdv : sha1Dvs.set 0 e = e :: sha1Dvs.tail := rfl
  refine ⟨⟨H', [], e :: sha1Dvs.tail, [0]⟩, ?_⟩
  simp only [Sys.run, Sys.step, Sys.init, hdv, alloc, List.nil_append, bind, Except.bind, pure, Except.pure,
    List.length_nil]
  rw [if_pos hl, h1]
  simp only [hrd, List.append_nil]

/-- Instance: the public collision, reported by the package as it is, goes unnoticed after one assignment. -/
example (B : Build) (e : DvInfo) (he : e.DvType = 0) :
    sumPkg B.block .callFirst shattered1 = .ok (shatteredDigest1, true) ∧
    sumPkg B.block .callFirst shattered2 = .ok (shatteredDigest2, true) ∧ shattered1 ≠ shattered2 ∧
    ∃ D s s', Sys.init.run (fun dvs => B.blockWith dvs)
        [.setDv 0 e, .make shattered1, .sumPkg ⟨0, 0, shattered1.length, shattered1.length⟩] =
        .ok (s, [.sumPkg shattered1 D false]) ∧
      Sys.init.run (fun dvs => B.blockWith dvs)
        [.setDv 0 e, .make shattered2, .sumPkg ⟨0, 0, shattered2.length, shattered2.length⟩] =
        .ok (s', [.sumPkg shattered2 D false]) := by
  obtain ⟨s, h⟩ := C32_refuted B e he shattered1
  obtain ⟨s', h'⟩ := C32_refuted B e he shattered2
  rw [← shattered_sha1] at h'
  exact ⟨by rw [sumPkg_call (build_impl B), shattered1_hash], by rw [sumPkg_call (build_impl B), shattered2_hash],
    shattered_ne, _, s, s', h, h'⟩

/-- The entries of the table up to the one that ends it. -/
def active : List DvInfo → Option (List DvInfo)
  | [] => none
  | e :: es => if e.DvType = 0 then some [] else (active es).map (e :: ·)

/-- C32, what survives a client that writes to the table: as long as the table keeps an end and the test steps before it
are 58, 65 or 0, nothing panics and a digest that is not flagged is the SHA-1 digest. -/
theorem C32_any_table_unflagged_is_sha1 (B : Build) (dvs act : List DvInfo) (ha : active dvs = some act)
    (hT : ∀ e ∈ act, e.TestT = 58 ∨ e.TestT = 65 ∨ e.TestT = 0) (m : List Byte) :
    ∃ D c, sumPkg (B.blockWith dvs) .callFirst m = .ok (D, c) ∧ (c = false → D = sha1 m) := by
  have scan : ∀ (dvs act : List DvInfo), active dvs = some act →
      (∀ e ∈ act, e.TestT = 58 ∨ e.TestT = 65 ∨ e.TestT = 0) → ∀ mask m1 cs h, ∃ b, scanDvs mask m1 cs h dvs = .ok b := by
    intro dvs
    induction dvs with
    | nil => intro act ha; cases ha
    | cons e es ih =>
      intro act ha hT mask m1 cs h
      unfold active at ha
      by_cases h0 : e.DvType = 0
      · unfold scanDvs; rw [if_neg (by simp [h0])]; exact ⟨false, rfl⟩
      · rw [if_neg h0] at ha
        cases hes : active es with
        | none => rw [hes] at ha; cases ha
        | some act' =>
          rw [hes] at ha
          cases ha
          obtain ⟨b, hb⟩ := ih act' hes (fun e he => hT e (List.mem_cons_of_mem _ he)) mask m1 cs h
          have hsel : ∃ r, selectCs cs e.TestT = .ok r := by
            rcases hT e (List.mem_cons_self ..) with h | h | h <;> rw [h] <;> exact ⟨_, rfl⟩
          obtain ⟨r, hr⟩ := hsel
          unfold scanDvs
          rw [if_pos h0, hr]
          simp only [bind, Except.bind]
          split
          · split
            · exact ⟨true, rfl⟩
            · exact ⟨b, hb⟩
          · exact ⟨b, hb⟩
  have himpl : TableImpl dvs fun H M =>
      (checkCollision dvs (fun i => sched M i) (csOf H M) (compress H M)).toOption.getD false := by
    intro H M
    have : ∃ b, checkCollision dvs (fun i => sched M i) (csOf H M) (compress H M) = .ok b := by
      unfold checkCollision
      simp only
      split
      · exact scan dvs act ha hT _ _ _ _
      · exact ⟨false, rfl⟩
    obtain ⟨b, hb⟩ := this
    simp only [hb]; rfl
  exact ⟨_, _, sumPkg_call (B.impl_table himpl) m, safeHash_unflagged _ m⟩

/-- Instance: the table of the source, with the difference of its first entry overwritten. -/
example : ∃ act, active (sha1Dvs.set 0 ⟨1, 43, 0, 58, 0, 0, fun _ => 5⟩) = some act ∧
    ∀ e ∈ act, e.TestT = 58 ∨ e.TestT = 65 ∨ e.TestT = 0 :=
  ⟨(sha1Dvs.set 0 ⟨1, 43, 0, 58, 0, 0, fun _ => 5⟩).take 32, rfl, by decide⟩

theorem rehash_err (dvs : List DvInfo) (p : List Byte) (hp : 64 ≤ p.length) (m1 : Fin 80 → Word) (st : BlockState)
    (er : Panic) (h : checkCollision dvs (fun i => sched (toBlock p) i) (csOf st.h (toBlock p))
      (compress st.h (toBlock p)) = .error er) : rehash dvs p hp 1 m1 st = .error er := by
  rw [rehash]
  simp only [show ¬ (1 = 2) by decide, if_false, if_true]
  obtain ⟨h1, h2, h3⟩ := rounds_out p hp st.h ⟨st.w, m1, st.h, st.cs⟩
  rw [h1, h2, h3, h]
  simp only [bind, Except.bind]

theorem generic_err (dvs : List DvInfo) (H : Regs) (c : Bool) (p : List Byte) (hp : p.length = 64) (er : Panic)
    (h : checkCollision dvs (fun i => sched (toBlock p) i) (csOf H (toBlock p)) (compress H (toBlock p)) = .error er) :
    blockGeneric dvs ⟨H, c⟩ p = .error er := by
  have hp' : 64 ≤ p.length := by omega
  have key : ∀ st : BlockState, st.h = H → blockLoop dvs st p = .error er := by
    intro st hst
    subst hst
    rw [blockLoop, dif_pos hp', rehash_err dvs p hp' _ st er h]
    simp only [bind, Except.bind]
  unfold blockGeneric
  rw [key _ rfl]
  simp only [bind, Except.bind]

theorem simd_err (asm : Nat → Regs → List Byte → (Fin 80 → Word) → (Fin 3 → Regs) → GoM AsmOut) (ha : AsmOk asm)
    (dvs : List DvInfo) (H : Regs) (c : Bool) (p : List Byte) (hp : p.length = 64) (er : Panic)
    (h : checkCollision dvs (fun i => sched (toBlock p) i) (csOf H (toBlock p)) (compress H (toBlock p)) = .error er) :
    simdBlock asm dvs ⟨H, c⟩ p = .error er := by
  have hl : (p.take 64).length = 64 := by simp; omega
  unfold simdBlock
  rw [simdLoop, if_pos (by omega)]
  simp only []
  rw [ha _ _ _ _ _ hl]
  simp only [bind, Except.bind, toBlock_take, rectify_eq, h]

theorem block_err (B : Build) (dvs : List DvInfo) (H : Regs) (c : Bool) (p : List Byte) (hp : p.length = 64) (er : Panic)
    (h : checkCollision dvs (fun i => sched (toBlock p) i) (csOf H (toBlock p)) (compress H (toBlock p)) = .error er) :
    B.blockWith dvs ⟨H, c⟩ p = .error er := by
  cases B with
  | noasm => exact generic_err dvs H c p hp er h
  | amd64 fg hs s ok =>
    show blockAmd64Build fg hs s dvs _ _ = _
    unfold blockAmd64Build
    split
    · exact generic_err dvs H c p hp er h
    · exact simd_err _ (fun k H p m1 cs hp => Amd64.blockAMD64_ok (s k) (ok k) H p hp m1 cs) dvs H c p hp er h
  | arm64 fg hs s r16 ok =>
    show blockArm64Build fg hs s r16 dvs _ _ = _
    unfold blockArm64Build
    split
    · exact generic_err dvs H c p hp er h
    · exact simd_err _ (fun k H p m1 cs hp => Arm64.blockARM64_ok (s k) (r16 k) (ok k) H p hp m1 cs) dvs H c p hp er h
  | amd64Flat fg hs e ok =>
    show blockAmd64Flat fg hs e dvs _ _ = _
    unfold blockAmd64Flat
    split
    · exact generic_err dvs H c p hp er h
    · exact simd_err _ (fun k H p m1 cs hp => Flat.Amd64.call_ok _ (ok k) _ _ _ H p hp m1 cs) dvs H c p hp er h
  | arm64Flat fg hs e ok r16 =>
    show blockArm64Flat fg hs e dvs _ _ = _
    unfold blockArm64Flat
    split
    · exact generic_err dvs H c p hp er h
    · exact simd_err _ (fun k H p m1 cs hp => Flat.Arm64.call_ok _ (ok k) _ _ (r16 k) H p hp m1 cs) dvs H c p hp er h

/-- C32, refuted again: one assignment to the table makes hashing panic.  `e` has a test step that
`checkCollision` does not know; any message of one block that meets the bit conditions of some vector sets it off. -/
theorem C32_can_panic (B : Build) (k : Nat) (hk : k < 32) (e : DvInfo) (he : e.DvType ≠ 0)
    (hT : ¬ (e.TestT = 58 ∨ e.TestT = 65 ∨ e.TestT = 0)) (hm : e.MaskB = BitVec.ofNat 32 k) (m : List Byte)
    (hlen : m.length = 64) (hu : ubcHolds k (sched (toBlock m)) = true) :
    Sys.init.run (fun dvs => B.blockWith dvs) [.setDv 0 e, .make m, .sumPkg ⟨0, 0, 64, 64⟩] = .error .badTestT := by
  have hbit := Ubc.mask_bit (fun i => sched (toBlock m) i) (sched (toBlock m)) (fun _ => rfl) k hk
  rw [hu] at hbit
  have hb2 := Ubc.and_bit_ne_zero (Ubc.calculateDvMask (some fun i => sched (toBlock m) i)) k hk
  rw [hbit] at hb2
  have hmb : e.MaskB.toNat = k := by rw [hm]; simp; omega
  have hchk : ∀ H, checkCollision (e :: sha1Dvs.tail) (fun i => sched (toBlock m) i) (csOf H (toBlock m))
      (compress H (toBlock m)) = .error .badTestT := by
    intro H
    unfold checkCollision
    simp only
    rw [if_pos (fun h0 => by
      rw [h0] at hbit
      exact absurd hbit (by simp))]
    unfold scanDvs
    have hne : Ubc.calculateDvMask (some fun i => sched (toBlock m) i) &&& 1#32 <<< k ≠ 0 :=
      fun h => absurd (hb2.mp h) (by decide)
    rw [if_pos he, hmb, if_pos hne]
    unfold selectCs
    rw [if_neg (fun h => hT (.inl h)), if_neg (fun h => hT (.inr (.inl h))), if_neg (fun h => hT (.inr (.inr h)))]
    rfl
  have hdv : sha1Dvs.set 0 e = e :: sha1Dvs.tail := rfl
  have hl : Sys.legal ⟨[m], [], e :: sha1Dvs.tail, [0]⟩ ⟨0, 0, 64, 64⟩ = true := by simp [Sys.legal, hlen]
  have hrd : ∀ x, rd [m, x] ⟨0, 0, 64, 64⟩ = m := fun x => by simp [rd, ← hlen]
  simp only [Sys.run, Sys.step, Sys.init, hdv, alloc, List.nil_append, bind, Except.bind, pure, Except.pure,
    List.length_nil]
  rw [if_pos hl]
  simp only [msumPkg, MDigest.make, alloc, MDigest.reset, MDigest.write, List.singleton_append, bind, Except.bind,
    pure, Except.pure, MDigest.writeFill, MDigest.writeBulk, Chunk, Sl.slice, MDigest.callBlock]
  simp [hrd, block_err B _ _ _ m hlen _ (hchk _)]

/-- Instance: the colliding block of shattered-1.pdf meets the conditions of vector 27. -/
example (B : Build) : Sys.init.run (fun dvs => B.blockWith dvs)
    [.setDv 0 ⟨1, 0, 0, 1, 0, 27, fun _ => 0⟩, .make (shattered1.drop 256), .sumPkg ⟨0, 0, 64, 64⟩] = .error .badTestT :=
  C32_can_panic B 27 (by decide) _ (by decide) (by decide) rfl _ (by decide +kernel) sh_ubc1

end Verif.Props
