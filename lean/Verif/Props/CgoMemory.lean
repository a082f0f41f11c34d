import Verif.Props.Memory
import Verif.Props.Cgo
import Verif.Proofs.CgoSystem

/-!
Programs with any number of hash objects of package cgo, and a client that can overwrite every array it has: C45, C46.

`CSys.init.run cfg cs = .ok (s, es)` says that the program `cs` on the platform `cfg` runs without abort and without
access outside an array to state `s`, with the calls and results `es`.
-/

namespace Verif.Props

open Verif Verif.Model Verif.Model.Cgo Verif.Spec Verif.C Verif.CgoMem
open Verif.Model.C (Cfg Plat)

/-- The message of object `o` after the calls `es`. -/
def cmsg (o : Nat) (es : List CEv) : List Byte := ((copsOf o es).map Cgo.Op.toGo).foldl msgAfter []

theorem creach {cfg : Cfg} {cs : List CCmd} {s : CSys} {es : List CEv} (h : CSys.init.run cfg cs = .ok (s, es)) :
    ∃ vs, CInv s vs ∧ ∀ (o : Nat) d, s.objs[o]? = some d → ∃ v, vs[o]? = some v ∧ CRep s.heap d v ∧
      HoldsCgo v (cmsg o es) := by
  obtain ⟨s', es', vs, h1, h2, h3, _⟩ := crun_spec cfg cs CInv.init
  rw [h] at h1
  cases h1
  refine ⟨vs, h2, fun o d hd => ?_⟩
  have ho : o < vs.length := by rw [h2.len]; exact (List.getElem?_eq_some_iff.mp hd).1
  have hv := List.getElem?_eq_getElem ho
  refine ⟨_, hv, (h2.rep o d _ hd hv).1, ?_⟩
  have r := h3 o
  rw [cgetD_of hv] at r
  obtain ⟨d', r', hh⟩ := HoldsCgo.run cfg (copsOf o es) holdsCgo_new
  rw [show ([] : List Cgo.Digest).getD o Cgo.new = Cgo.new by simp, r'] at r
  simp only [Except.ok.injEq, Prod.mk.injEq] at r
  rw [← r.1]
  exact hh

/-- The effect of an append, from how it was done. -/
theorem appended_effect {s : CSys} {vs : List Cgo.Digest} (hv : CInv s vs) {inp : Sl} (hl : s.legal inp = true) {x : Nat}
    {D : List Byte} (h20 : D.length = 20) {H' : Heap} {r : Sl} (k2 : Appended x s.heap inp D H' r) :
    AppendEffect s.known s.heap inp D H' r := by
  have hbytes : ∀ a j, a < s.heap.length → byteAt H' a j =
      if inp.len + 20 ≤ inp.cap ∧ a = inp.arr ∧ inp.off + inp.len ≤ j ∧ j < inp.off + inp.len + 20 then
        D[j - (inp.off + inp.len)]? else byteAt s.heap a j := by
    intro a j ha
    by_cases hr : inp.len + 20 ≤ inp.cap
    · by_cases hin : a = inp.arr
      · obtain ⟨_, y, h3, h4⟩ := k2.room hr
        have hroom : inp.off + inp.cap ≤ y.length := by
          rcases clegal_fits hl with h | h
          · omega
          · obtain ⟨z, h5, h6⟩ := h.1.arr
            rw [h3] at h5
            cases h5
            exact h6
        subst hin
        unfold byteAt
        rw [h4, h3]
        simp only [Option.bind_some]
        rw [splice_get _ _ _ (by omega)]
        simp only [hr, true_and, h20]
      · rw [if_neg (fun h => hin h.2.1)]
        unfold byteAt
        rw [k2.frame a ha hin]
    · rw [if_neg (fun h => hr h.1)]
      unfold byteAt
      rw [(k2.full hr).2.2.1 a ha]
  refine ⟨k2.val, ?_, by rw [h20]; exact fun hr => (k2.room hr).1, by
    rw [h20]
    refine fun hr => ⟨fun hm => ?_, (k2.full hr).2.2.2⟩
    have := hv.known _ hm
    have := (k2.full hr).1
    omega, by rw [h20]; exact fun a j ha => hbytes a j (hv.known a ha)⟩
  rcases clegal_fits hl with h | ⟨h, hm⟩
  · unfold rd; simp [h.1]
  · obtain ⟨y, h3, h4⟩ := h.arr
    have hx := lt_of_get h3
    have h5 := h.len
    apply List.ext_getElem?
    intro j
    unfold rd
    rw [List.getElem?_take, List.getElem?_take]
    split
    · rename_i hj
      have := hbytes inp.arr (inp.off + j) hx
      rw [if_neg (by omega)] at this
      unfold byteAt at this
      rw [h3] at this
      rw [List.getD_eq_getElem?_getD, List.getD_eq_getElem?_getD, List.getElem?_drop, List.getElem?_drop, h3]
      simp only [Option.bind_some, Option.getD_some] at this ⊢
      rw [← this]
      cases hq : H'[inp.arr]? with
      | none => simp
      | some y => simp
    · rfl

/-- C45, `Sum` and `CollisionResistantSum`.  Whatever has happened, and whatever slice `inp` (of whatever length and
capacity, sharing its array with whatever else) the client passes, the calls do not fault, leave the object as it is,
and append the digest of exactly the bytes written to this object: in place if `inp` has twenty bytes of spare capacity,
and then no other byte of the client changes; else in an array the client did not have, and no byte of the client
changes. -/
theorem C45_sum_appends (cfg : Cfg) (cs : List CCmd) (s : CSys) (es : List CEv)
    (hr : CSys.init.run cfg cs = .ok (s, es)) (o : Nat) (d : MCgo) (hd : s.objs[o]? = some d) (inp : Sl) (grow : Nat)
    (hl : s.legal inp = true) :
    (safeHash (verdict Detected) (cmsg o es)).1.length = 20 ∧
    (∃ H' r, d.call cfg s.heap (.sum inp grow) =
        .ok (H', d, some r, .sum (rd s.heap inp ++ (safeHash (verdict Detected) (cmsg o es)).1)) ∧
      AppendEffect s.known s.heap inp (safeHash (verdict Detected) (cmsg o es)).1 H' r) ∧
    (∃ H' r, d.call cfg s.heap (.collisionResistantSum inp grow) =
        .ok (H', d, some r, .collisionResistantSum (rd s.heap inp ++ (safeHash (verdict Detected) (cmsg o es)).1)
          (safeHash (verdict Detected) (cmsg o es)).2) ∧
      AppendEffect s.known s.heap inp (safeHash (verdict Detected) (cmsg o es)).1 H' r) := by
  obtain ⟨vs, hv, h⟩ := creach hr
  obtain ⟨v, _, hrep, hm⟩ := h o d hd
  obtain ⟨v', hs⟩ := hm.sum0 cfg
  have h20 : (safeHash (verdict Detected) (cmsg o es)).1.length = 20 := rfl
  have hap := (hv.apart hd hl).fits
  obtain ⟨H1, r1, a1, a2⟩ := CgoMem.sum_sim cfg hrep inp hap grow hs
  obtain ⟨H2, r2, b1, b2⟩ := CgoMem.crs_sim cfg hrep inp hap grow hs
  refine ⟨h20, ⟨H1, r1, ?_, appended_effect hv hl h20 a2⟩, ⟨H2, r2, ?_, appended_effect hv hl h20 b2⟩⟩
  · simp only [MCgo.call, a1, bind, Except.bind, pure, Except.pure, a2.val]
  · simp only [MCgo.call, b1, bind, Except.bind, pure, Except.pure, b2.val]

/-- C45, `Write` accepts every slice the client has, and neither the Go wrapper nor the C code behind it, which gets a
pointer into the client's array, changes an array of the client. -/
theorem C45_write_frame (cfg : Cfg) (s : CSys) (hs : CReachable cfg s) (o : Nat) (d : MCgo) (hd : s.objs[o]? = some d)
    (p : Sl) (hp : s.legal p = true) :
    ∃ H' d', d.call cfg s.heap (.write p) = .ok (H', d', none, .write p.len none) ∧
      ∀ a ∈ s.known, H'[a]? = s.heap[a]? := by
  obtain ⟨cs, es, hr⟩ := hs
  obtain ⟨vs, hv, h⟩ := creach hr
  obtain ⟨v, _, hrep, hm⟩ := h o d hd
  have hap := hv.apart hd hp
  obtain ⟨v', hw, _⟩ := hm.write cfg (rd s.heap p)
  have e : v.call cfg ((CMOp.write p).val s.heap) = .ok (v', .write (rd s.heap p).length none) := by
    simp only [CMOp.val, Cgo.Digest.call, hw, bind, Except.bind]; rfl
  obtain ⟨H', d', r, k1, k2, k3, k4, k5⟩ := CgoMem.call_sim cfg hrep (.write p) (by intro q hq; cases hq; exact hap) e
  have hnone : r = none := by
    simp only [MCgo.call, bind, Except.bind] at k1
    split at k1
    · cases k1
    · simp only [pure, Except.pure, Except.ok.injEq, Prod.mk.injEq] at k1
      exact k1.2.2.1.symm
  subst hnone
  rw [hap.one.rd_length] at k1
  exact ⟨H', d', k1, fun a ha => k5.keep a (hv.known a ha) (fun e => (hv.own o d hd _ (.inl rfl)).1 (e ▸ ha))
    (by intro inp hi; cases hi)⟩

/-- C45, `Sum` of the package: the slice returned is a whole array of twenty bytes that the client did not have and that
no hash object has, and no byte of the client changes. -/
theorem C45_sumPkg_fresh (cfg : Cfg) (s : CSys) (hs : CReachable cfg s) (data : Sl) (hl : s.legal data = true) :
    ∃ H' r, msumPkg cfg s.heap data = .ok (H', r, (safeHash (verdict Detected) (rd s.heap data)).2) ∧
      H'[r.arr]? = some (safeHash (verdict Detected) (rd s.heap data)).1 ∧ r.off = 0 ∧ r.len = 20 ∧ r.cap = 20 ∧
      r.arr ∉ s.known ∧ (∀ (o : Nat) d, s.objs[o]? = some d → r.arr ≠ d.buf ∧ r.arr ≠ d.h) ∧
      ∀ a ∈ s.known, H'[a]? = s.heap[a]? := by
  obtain ⟨cs, es, hr⟩ := hs
  obtain ⟨vs, hv, _⟩ := creach hr
  have hd : (data.len = 0 ∧ data.cap = 0) ∨ Fits s.heap data := (clegal_fits hl).imp id And.left
  obtain ⟨H', r, m1, m2, m3, m4, m5, m6, m7, m8, m9⟩ := sumPkg_sim cfg data hd (cgo_sumPkg cfg _)
  refine ⟨H', r, m1, m8, m5, m6, m7, fun hm => ?_, fun o d hd => ⟨fun e => ?_, fun e => ?_⟩,
    fun a ha => m9 a (hv.known a ha)⟩
  · have := hv.known _ hm; omega
  · have := (hv.own o d hd _ (.inl rfl)).2; omega
  · have := (hv.own o d hd _ (.inr rfl)).2; omega

/-- A state for the instances: one array of forty bytes, one hash. -/
def sys45 : CSys := ⟨[List.replicate 40 7, List.replicate 64 0, List.replicate 20 0], [⟨Cgo.new.ctx, 1, 2⟩], [0]⟩

theorem sys45_run (cfg : Cfg) : CSys.init.run cfg [.make (List.replicate 40 7), .new] = .ok (sys45, []) := rfl

/-- Instance: a slice in the middle of an array, with room; the digest of the empty message lands in bytes 8 to 27. -/
example (cfg : Cfg) : ∃ H' r, sys45.objs[0].call cfg sys45.heap (.sum ⟨0, 3, 5, 37⟩ 0) =
      .ok (H', sys45.objs[0], some r, .sum ([7, 7, 7, 7, 7] ++ (safeHash (verdict Detected) []).1)) ∧
    r = ⟨0, 3, 25, 37⟩ ∧ byteAt H' 0 7 = some 7 ∧ byteAt H' 0 8 = (safeHash (verdict Detected) []).1[0]? ∧
    byteAt H' 0 28 = some 7 := by
  obtain ⟨h20, ⟨H', r, h1, h2⟩, _⟩ := C45_sum_appends cfg _ _ _ (sys45_run cfg) 0 _ rfl ⟨0, 3, 5, 37⟩ 0 (by decide)
  exact ⟨H', r, h1, h2.room (by simp only [h20]; decide), h2.bytes 0 7 (by decide), h2.bytes 0 8 (by decide),
    h2.bytes 0 28 (by decide)⟩

/-- Instance: the same slice with nineteen bytes of room; the array stays as it is. -/
example (cfg : Cfg) : ∃ H' r, sys45.objs[0].call cfg sys45.heap (.sum ⟨0, 3, 5, 24⟩ 0) =
      .ok (H', sys45.objs[0], some r, .sum ([7, 7, 7, 7, 7] ++ (safeHash (verdict Detected) []).1)) ∧
    r.arr ≠ 0 ∧ ∀ j, byteAt H' 0 j = byteAt sys45.heap 0 j := by
  obtain ⟨h20, ⟨H', r, h1, h2⟩, _⟩ := C45_sum_appends cfg _ _ _ (sys45_run cfg) 0 _ rfl ⟨0, 3, 5, 24⟩ 0 (by decide)
  refine ⟨H', r, h1, fun e => (h2.full (by simp only [h20]; decide)).1 (by rw [e]; decide), fun j => ?_⟩
  rw [h2.bytes 0 j (by decide), if_neg (fun h => absurd h.1 (by simp only [cmsg, copsOf] at h20 ⊢; rw [h20]; decide))]

/-- Instance: seven bytes written from array 0, and the digest of the same bytes. -/
example (cfg : Cfg) : (∃ H' d', sys45.objs[0].call cfg sys45.heap (.write ⟨0, 3, 7, 37⟩) =
      .ok (H', d', none, .write 7 none) ∧ H'[0]? = some (List.replicate 40 7)) ∧
    ∃ H' r c, msumPkg cfg sys45.heap ⟨0, 3, 7, 37⟩ = .ok (H', r, c) ∧ r.len = 20 ∧ r.arr ≠ 0 ∧ r.arr ≠ 1 := by
  refine ⟨?_, ?_⟩
  · obtain ⟨H', d', h1, h2⟩ := C45_write_frame cfg sys45 ⟨_, _, sys45_run cfg⟩ 0 _ rfl ⟨0, 3, 7, 37⟩ (by decide)
    exact ⟨H', d', h1, h2 0 (by decide)⟩
  · obtain ⟨H', r, h1, _, _, h3, _, h4, h5, _⟩ := C45_sumPkg_fresh cfg sys45 ⟨_, _, sys45_run cfg⟩ ⟨0, 3, 7, 37⟩
      (by decide)
    exact ⟨H', r, _, h1, h3, fun e => h4 (by rw [e]; decide), (h5 0 _ rfl).1⟩

/-- C46.  Every program runs without abort and without access outside an array, and every hash object of package cgo
returns exactly what a new object returns when the calls on it (with the arguments they had when they were made) are run
alone, no matter how they are interleaved with calls on other objects, package-level sums and changes of memory. -/
theorem C46_interleaving (cfg : Cfg) (cs : List CCmd) :
    ∃ s es, CSys.init.run cfg cs = .ok (s, es) ∧
      (∀ o, ∃ d, Cgo.new.run cfg (copsOf o es) = .ok (d, coutsOf o es)) ∧
      (∀ data D c, CEv.sumPkg data D c ∈ es → Cgo.sumPkg cfg data = .ok (D, c)) := by
  obtain ⟨s, es, vs, h1, h2, h3, h4⟩ := crun_spec cfg cs CInv.init
  exact ⟨s, es, h1, fun o => ⟨_, by simpa using h3 o⟩, h4⟩

/-- C46, every call made is made: a call on an existing object with arguments the client has produces one event, with
the bytes the argument has at that moment. -/
theorem C46_no_call_lost (cfg : Cfg) (s : CSys) (hs : CReachable cfg s) (o : Nat) (ho : o < s.objs.length) (op : CMOp)
    (hl : op.arg.all s.legal = true) :
    ∃ s' out, s.step cfg (.call o op) = .ok (s', [.call o (op.val s.heap) out]) := by
  obtain ⟨cs, es, hr⟩ := hs
  obtain ⟨vs, hv, _⟩ := creach hr
  obtain ⟨s', es, vs', h1, _⟩ := cstep_spec cfg hv (.call o op)
  have hd : s.objs[o]? = some s.objs[o] := List.getElem?_eq_getElem ho
  have h2 := h1
  simp only [CSys.step, hd, hl, if_true, bind, Except.bind] at h2
  split at h2
  · cases h2
  · rename_i w _
    simp only [pure, Except.pure, Except.ok.injEq, Prod.mk.injEq] at h2
    exact ⟨s', w.2.2.2, by rw [h1, ← h2.2]⟩

/-- C46, two programs in which object `o` gets the same calls, with the same bytes, get the same results from it, on all
platforms. -/
theorem C46_other_activity_irrelevant (cfg cfg' : Cfg) (cs cs' : List CCmd) (s s' : CSys) (es es' : List CEv) (o o' : Nat)
    (hr : CSys.init.run cfg cs = .ok (s, es)) (hr' : CSys.init.run cfg' cs' = .ok (s', es'))
    (hops : copsOf o es = copsOf o' es') : coutsOf o es = coutsOf o' es' := by
  obtain ⟨_, _, h1, h2, _⟩ := C46_interleaving cfg cs
  obtain ⟨_, _, h3, h4, _⟩ := C46_interleaving cfg' cs'
  rw [hr] at h1
  rw [hr'] at h3
  cases h1
  cases h3
  obtain ⟨_, e1⟩ := h2 o
  obtain ⟨_, e2⟩ := h4 o'
  obtain ⟨_, e3⟩ := C33_cgo_refines cfg (copsOf o es)
  obtain ⟨_, e4⟩ := C33_cgo_refines cfg' (copsOf o' es')
  rw [e3] at e1
  rw [e4] at e2
  simp only [Except.ok.injEq, Prod.mk.injEq] at e1 e2
  rw [← e1.2, ← e2.2, hops]

/-- C46, nothing the client does to its memory changes a hash object.  After any sequence of such changes, a call with an
argument that has the same bytes gives the same result. -/
theorem C46_no_retention (cfg : Cfg) (s : CSys) (hs : CReachable cfg s) (ms : List CCmd)
    (hm : ∀ c ∈ ms, isClientMemory c = true) :
    ∃ s', s.run cfg ms = .ok (s', []) ∧ s'.objs.length = s.objs.length ∧
      ∀ o op op' t t' es es', op.val s.heap = op'.val s'.heap →
        s.step cfg (.call o op) = .ok (t, es) → es ≠ [] →
        s'.step cfg (.call o op') = .ok (t', es') → es' ≠ [] → es = es' := by
  obtain ⟨cs, es0, hr⟩ := hs
  obtain ⟨vs, hv, _⟩ := creach hr
  have key : ∀ (ms : List CCmd) {s : CSys} {vs : List Cgo.Digest}, CInv s vs → (∀ c ∈ ms, isClientMemory c = true) →
      ∃ s' vs', s.run cfg ms = .ok (s', []) ∧ s'.objs.length = s.objs.length ∧ CInv s' vs' ∧
        ∀ o, vs'.getD o Cgo.new = vs.getD o Cgo.new := by
    intro ms
    induction ms with
    | nil => exact fun h _ => ⟨_, _, rfl, rfl, h, fun _ => rfl⟩
    | cons c ms ih =>
      intro s vs h hm
      have hc := hm c (List.mem_cons_self ..)
      obtain ⟨s1, es1, vs1, a1, a2, a3, _⟩ := cstep_spec cfg h c
      obtain ⟨rfl, hl⟩ : es1 = [] ∧ s1.objs.length = s.objs.length := by
        cases c with
        | make bs => cases a1; exact ⟨rfl, rfl⟩
        | poke a i b =>
          simp only [CSys.step, pure, Except.pure] at a1
          split at a1 <;> (cases a1; exact ⟨rfl, rfl⟩)
        | _ => simp [isClientMemory] at hc
      obtain ⟨s2, vs2, b1, b2, b3, b4⟩ := ih a2 fun c h => hm c (List.mem_cons_of_mem _ h)
      refine ⟨s2, vs2, ?_, b2.trans hl, b3, fun o => (b4 o).trans ?_⟩
      · simp only [CSys.run, a1, b1, bind, Except.bind]; rfl
      · have := a3 o
        simp only [copsOf, coutsOf, List.filterMap_nil, Cgo.Digest.run, pure, Except.pure, Except.ok.injEq,
          Prod.mk.injEq] at this
        exact this.1.symm
  obtain ⟨s', vs', b1, b2, b3, b4⟩ := key ms hv hm
  refine ⟨s', b1, b2, ?_⟩
  intro o op op' t t' es es' hval e1 n1 e2 n2
  have shape : ∀ (s : CSys) (op : CMOp) (t : CSys) (es : List CEv), s.step cfg (.call o op) = .ok (t, es) →
      es ≠ [] → ∃ out, es = [.call o (op.val s.heap) out] := by
    intro s op t es h hn
    simp only [CSys.step, pure, Except.pure, bind, Except.bind] at h
    split at h
    · cases h; exact absurd rfl hn
    · split at h
      · split at h
        · cases h
        · simp only [Except.ok.injEq, Prod.mk.injEq] at h
          exact ⟨_, h.2.symm⟩
      · cases h; exact absurd rfl hn
  obtain ⟨out, rfl⟩ := shape s op t es e1 n1
  obtain ⟨out', rfl⟩ := shape s' op' t' es' e2 n2
  obtain ⟨_, _, _, c1, _, c3, _⟩ := cstep_spec cfg hv (.call o op)
  obtain ⟨_, _, _, d1, _, d3, _⟩ := cstep_spec cfg b3 (.call o op')
  rw [e1] at c1
  rw [e2] at d1
  cases c1
  cases d1
  have c3 := c3 o
  have d3 := d3 o
  simp only [copsOf, coutsOf, List.filterMap_cons, List.filterMap_nil, if_true] at c3 d3
  rw [b4 o, ← hval, c3] at d3
  simp only [Except.ok.injEq, Prod.mk.injEq, List.cons.injEq, and_true] at d3
  rw [hval, d3.2]

/-- A `Write` that does not fill the buffer. -/
theorem write_short (cfg : Plat) (H : Heap) (d : MCgo) (p : Sl) (h0 : p.len ≠ 0)
    (h : (d.ctx.total &&& 63).toNat + p.len < 64) :
    d.write cfg H p = .ok (wr H d.buf (d.ctx.total &&& 63).toNat ((rd H p).take p.len),
      { d with ctx := { d.ctx with total := d.ctx.total + BitVec.ofNat 64 p.len } }, p.len, none) := by
  unfold MCgo.write MCgo.update MCgo.updFill
  rw [if_neg h0, if_neg h0, if_neg (by omega)]
  simp only [bind, Except.bind, pure, Except.pure]
  unfold MCgo.updBulk
  rw [if_neg (by omega)]
  simp only [pure, Except.pure]
  unfold MCgo.updTail
  rw [if_pos (by omega)]
  simp only [memcpyM, if_pos (show (d.ctx.total &&& 63).toNat + p.len ≤ 64 ∧ p.len ≤ p.len by omega), bind, Except.bind,
    pure, Except.pure]

/-- Two objects, interleaved, with array 0 ("abc", overwritten on the way) as the argument of both. -/
def prog46 : List CCmd :=
  [.make abc, .new, .new, .call 0 (.write ⟨0, 0, 1, 3⟩), .call 1 (.write ⟨0, 0, 3, 3⟩), .poke 0 0 0xff,
   .call 0 (.write ⟨0, 1, 2, 2⟩)]

/-- The state after `prog46`. -/
def sys46 : CSys :=
  ⟨[[0xff, 0x62, 0x63], abc ++ List.replicate 61 0, List.replicate 20 0, abc ++ List.replicate 61 0,
      List.replicate 20 0],
    [⟨{ Cgo.new.ctx with total := 3 }, 1, 2⟩, ⟨{ Cgo.new.ctx with total := 3 }, 3, 4⟩], [0]⟩

theorem crun_cons {cfg : Plat} {s s1 s2 : CSys} {c : CCmd} {cs : List CCmd} {e1 e2 : List CEv}
    (h1 : s.step cfg c = .ok (s1, e1)) (h2 : s1.run cfg cs = .ok (s2, e2)) : s.run cfg (c :: cs) = .ok (s2, e1 ++ e2) := by
  simp only [CSys.run, h1, h2, bind, Except.bind]; rfl

theorem csrun_append {cfg : Plat} {cs cs' : List CCmd} {s s1 s2 : CSys} {e1 e2 : List CEv}
    (h1 : s.run cfg cs = .ok (s1, e1)) (h2 : s1.run cfg cs' = .ok (s2, e2)) :
    s.run cfg (cs ++ cs') = .ok (s2, e1 ++ e2) := by
  induction cs generalizing s e1 with
  | nil => cases h1; exact h2
  | cons c cs ih =>
    simp only [CSys.run, bind, Except.bind] at h1
    split at h1
    · cases h1
    · rename_i w hw
      split at h1
      · cases h1
      · rename_i w' hw'
        cases h1
        rw [List.append_assoc]
        exact crun_cons hw (ih hw')

theorem sys46_run (cfg : Cfg) : CSys.init.run cfg prog46 = .ok (sys46,
    [.call 0 (.write [0x61]) (.write 1 none), .call 1 (.write abc) (.write 3 none),
     .call 0 (.write [0x62, 0x63]) (.write 2 none)]) := by
  have e : ∀ (s : CSys) (o : Nat) (p : Sl) (d : MCgo), s.objs[o]? = some d → s.legal p = true → p.len ≠ 0 →
      (d.ctx.total &&& 63).toNat + p.len < 64 → s.step cfg (.call o (.write p)) =
        .ok ({ s with heap := wr s.heap d.buf (d.ctx.total &&& 63).toNat ((rd s.heap p).take p.len),
                      objs := s.objs.set o { d with ctx := { d.ctx with total := d.ctx.total + BitVec.ofNat 64 p.len } } },
          [.call o (.write (rd s.heap p)) (.write p.len none)]) := by
    intro s o p d h1 h2 h3 h4
    simp only [CSys.step, h1, CMOp.arg, Option.all_some, h2, if_true, MCgo.call, write_short cfg _ _ _ h3 h4, bind,
      Except.bind, pure, Except.pure, Option.map_none, Option.toList_none, List.nil_append, CMOp.val]
  let st (a b c : List Byte) (t u : Word64) : CSys :=
    ⟨[a, b, List.replicate 20 0, c, List.replicate 20 0],
      [⟨{ Cgo.new.ctx with total := t }, 1, 2⟩, ⟨{ Cgo.new.ctx with total := u }, 3, 4⟩], [0]⟩
  have e0 : CSys.init.run cfg [.make abc, .new, .new] =
    .ok (st abc (List.replicate 64 0) (List.replicate 64 0) 0 0, []) := rfl
  have e1 := e (st abc (List.replicate 64 0) (List.replicate 64 0) 0 0) 0 ⟨0, 0, 1, 3⟩ _ rfl rfl (by decide) (by decide)
  have e2 := e (st abc (0x61 :: List.replicate 63 0) (List.replicate 64 0) 1 0) 1 ⟨0, 0, 3, 3⟩ _ rfl rfl (by decide)
    (by decide)
  have e3 := e (st [0xff, 0x62, 0x63] (0x61 :: List.replicate 63 0) (abc ++ List.replicate 61 0) 1 3) 0 ⟨0, 1, 2, 2⟩ _ rfl
    rfl (by decide) (by decide)
  have f1 := e1.trans (show _ = Except.ok (st abc (0x61 :: List.replicate 63 0) (List.replicate 64 0) 1 0,
    [.call 0 (.write [0x61]) (.write 1 none)]) from rfl)
  have f2 := e2.trans (show _ = Except.ok (st abc (0x61 :: List.replicate 63 0) (abc ++ List.replicate 61 0) 1 3,
    [.call 1 (.write abc) (.write 3 none)]) from rfl)
  have f3 := e3.trans (show _ = Except.ok (sys46, [.call 0 (.write [0x62, 0x63]) (.write 2 none)]) from rfl)
  have f4 : (st abc (0x61 :: List.replicate 63 0) (abc ++ List.replicate 61 0) 1 3).step cfg (.poke 0 0 0xff) =
    .ok (st [0xff, 0x62, 0x63] (0x61 :: List.replicate 63 0) (abc ++ List.replicate 61 0) 1 3, []) := rfl
  exact csrun_append e0 (crun_cons f1 (crun_cons f2 (crun_cons f4 (crun_cons f3
    (rfl : CSys.run _ _ [] = .ok (_, []))))))

/-- Instance: object 0 has got "abc" in two pieces, and its `Sum` says so. -/
example (cfg : Cfg) : ∃ s es, CSys.init.run cfg (prog46 ++ [.call 0 (.sum ⟨0, 0, 1, 3⟩ 12)]) = .ok (s, es) ∧
    coutsOf 0 es = [.write 1 none, .write 2 none, .sum (0xff :: abcDigest)] ∧ coutsOf 1 es = [.write 3 none] := by
  have h0 := sys46_run cfg
  obtain ⟨s', out, h1⟩ := C46_no_call_lost cfg sys46 ⟨_, _, h0⟩ 0 (by decide) (.sum ⟨0, 0, 1, 3⟩ 12) (by decide)
  have h2 := csrun_append h0 (crun_cons h1 (rfl : CSys.run _ _ [] = .ok (_, [])))
  obtain ⟨s, es, h3, h4, _⟩ := C46_interleaving cfg (prog46 ++ [.call 0 (.sum ⟨0, 0, 1, 3⟩ 12)])
  rw [h2] at h3
  cases h3
  refine ⟨_, _, h2, ?_, rfl⟩
  obtain ⟨d, r⟩ := h4 0
  obtain ⟨d', r'⟩ := C33_cgo_refines cfg [.write [0x61], .write [0x62, 0x63], .sum [0xff]]
  have r := r.symm.trans r'
  simp only [Except.ok.injEq, Prod.mk.injEq] at r
  rw [r.2]
  simp only [List.map, Cgo.Op.toGo, results, result, msgAfter, List.nil_append, List.cons_append,
    show ([0x61, 0x62, 0x63] : List Byte) = abc from rfl, abc_hash_c]
  rfl

/-- Instance: `prog46` on two platforms, on the second with an array overwritten and a digest taken in between. -/
example (cfg cfg' : Cfg) : ∃ s s' es es' out out' out'',
    CSys.init.run cfg (prog46 ++ [.call 1 (.collisionResistantSum ⟨0, 0, 0, 0⟩ 0)]) = .ok (s, es) ∧
    CSys.init.run cfg' (prog46 ++ [.poke 0 1 9, .call 0 (.sum ⟨0, 0, 0, 0⟩ 0),
      .call 1 (.collisionResistantSum ⟨0, 0, 0, 0⟩ 0)]) = .ok (s', es') ∧
    coutsOf 1 es = [.write 3 none, out] ∧ coutsOf 0 es' = [.write 1 none, .write 2 none, out''] ∧
    coutsOf 1 es' = [.write 3 none, out'] ∧ out = out' := by
  have h0 := sys46_run cfg
  have h0' := sys46_run cfg'
  obtain ⟨t, out, h1⟩ := C46_no_call_lost cfg sys46 ⟨_, _, h0⟩ 1 (by decide) (.collisionResistantSum ⟨0, 0, 0, 0⟩ 0)
    (by decide)
  have k1 := csrun_append h0 (crun_cons h1 (rfl : CSys.run _ _ [] = .ok (_, [])))
  have e0 : sys46.run cfg' [.poke 0 1 9] = .ok ({ sys46 with heap := [0xff, 9, 0x63] :: sys46.heap.tail }, []) := rfl
  have h2 := csrun_append h0' e0
  obtain ⟨t2, out2, h3⟩ := C46_no_call_lost cfg' _ ⟨_, _, h2⟩ 0 (by decide) (.sum ⟨0, 0, 0, 0⟩ 0) (by decide)
  have h4 := csrun_append h2 (crun_cons h3 (rfl : CSys.run _ _ [] = .ok (_, [])))
  have ho : 1 < t2.objs.length := by
    simp only [CSys.step, bind, Except.bind, pure, Except.pure] at h3
    split at h3
    · cases h3
    · split at h3
      · split at h3
        · cases h3
        · simp only [Except.ok.injEq, Prod.mk.injEq] at h3
          rw [← h3.1]
          simp [sys46]
      · cases h3
  obtain ⟨t3, out3, h5⟩ := C46_no_call_lost cfg' t2 ⟨_, _, h4⟩ 1 ho (.collisionResistantSum ⟨0, 0, 0, 0⟩ 0) rfl
  have k2 := csrun_append h4 (crun_cons h5 (rfl : CSys.run _ _ [] = .ok (_, [])))
  have := C46_other_activity_irrelevant cfg cfg' _ _ _ _ _ _ 1 1 k1 k2 (by simp [copsOf, CMOp.val, rd])
  refine ⟨_, _, _, _, out, out3, out2, k1, by simpa using k2, rfl, rfl, rfl, ?_⟩
  simpa [coutsOf] using this

/-- Instance: the client overwrites the bytes it has written; the next `Sum` is the same. -/
example (cfg : Cfg) : ∃ s' t t' out, sys46.run cfg [.poke 0 1 0, .poke 0 2 1] = .ok (s', []) ∧
    s'.heap[0]? ≠ sys46.heap[0]? ∧
    sys46.step cfg (.call 1 (.sum ⟨0, 0, 0, 0⟩ 0)) = .ok (t, [.call 1 (.sum []) out]) ∧
    s'.step cfg (.call 1 (.sum ⟨0, 0, 0, 0⟩ 0)) = .ok (t', [.call 1 (.sum []) out]) := by
  have h0 := sys46_run cfg
  obtain ⟨s', h1, h2, h3⟩ := C46_no_retention cfg sys46 ⟨_, _, h0⟩ [.poke 0 1 0, .poke 0 2 1] (by simp [isClientMemory])
  have h4 : sys46.run cfg [.poke 0 1 0, .poke 0 2 1] = .ok ({ sys46 with heap := [0xff, 0, 1] :: sys46.heap.tail }, []) := rfl
  have h5 := h1
  rw [h4] at h5
  simp only [Except.ok.injEq, Prod.mk.injEq, and_true] at h5
  obtain ⟨t, out, e1⟩ := C46_no_call_lost cfg sys46 ⟨_, _, h0⟩ 1 (by decide) (.sum ⟨0, 0, 0, 0⟩ 0) (by decide)
  obtain ⟨t', out', e2⟩ := C46_no_call_lost cfg s' ⟨_, _, csrun_append h0 h1⟩ 1 (by rw [← h5]; decide)
    (.sum ⟨0, 0, 0, 0⟩ 0) (by rw [← h5]; decide)
  have := h3 1 (.sum ⟨0, 0, 0, 0⟩ 0) (.sum ⟨0, 0, 0, 0⟩ 0) t t' _ _ (by simp [CMOp.val, rd]) e1 (by simp) e2 (by simp)
  refine ⟨s', t, t', out, h1, by rw [← h5]; decide, by rw [e1]; simp [CMOp.val, rd], ?_⟩
  rw [e2, ← this]
  simp [CMOp.val, rd]

end Verif.Props
