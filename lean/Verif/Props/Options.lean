import Verif.Proofs.CSponge
import Verif.Props.Cgo

/-!
The C library behind package cgo, used directly: any context contents, any settings, any history of calls (C36–C39).
-/

namespace Verif.Props

open Verif Verif.Model Verif.Model.C Verif.Spec Verif.C

/-! ### C36: no abort, no access outside an array -/

theorem call_total (cfg : Cfg) (c : Ctx) (op : Call) : ∃ c', c.call cfg op = .ok c' := by
  cases op with
  | update p => obtain ⟨c', r, _⟩ := update_spec cfg c p; exact ⟨c', r⟩
  | init => exact ⟨_, rfl⟩
  | setSafeHash v => exact ⟨_, rfl⟩
  | setUseUBC v => exact ⟨_, rfl⟩
  | setUseDetectColl v => exact ⟨_, rfl⟩
  | setDetectReducedRoundCollision v => exact ⟨_, rfl⟩

theorem digestBytes_length (s : Regs) : (digestBytes s).length = 20 := rfl

/-- C36: on a context with arbitrary contents (never initialised, copied, already finalised), every sequence of calls
returns normally, and every call of `SHA1DCFinal` produces 20 bytes. -/
theorem C36_c_library_total (cfg : Cfg) (c : Ctx) (ops : List (Option Call)) :
    ∃ c' rs, c.runAll cfg ops = .ok (c', rs) ∧ rs.length = ops.countP Option.isNone ∧ ∀ r ∈ rs, r.1.length = 20 := by
  induction ops generalizing c with
  | nil => exact ⟨c, [], rfl, rfl, by simp⟩
  | cons op ops ih =>
    cases op with
    | some op =>
      obtain ⟨c1, r1⟩ := call_total cfg c op
      obtain ⟨c2, rs, r2, l, h⟩ := ih c1
      exact ⟨c2, rs, by simp only [Ctx.runAll, r1, r2, bind, Except.bind], by simpa using l, h⟩
    | none =>
      obtain ⟨c1, r1, _⟩ := final_spec cfg c
      obtain ⟨c2, rs, r2, l, h⟩ := ih c1
      refine ⟨c2, _ :: rs, by simp only [Ctx.runAll, r1, r2, bind, Except.bind, pure, Except.pure]; rfl, by simpa using l, ?_⟩
      intro r hr
      rcases List.mem_cons.mp hr with rfl | hr
      · exact digestBytes_length _
      · exact h r hr

/-! ### C37: what the settings mean -/

/-- The context is in the state `s`. -/
def HoldsO (c : Ctx) (s : OptState) : Prop :=
  optOf c = s.o ∧ c.total = BitVec.ofNat 64 s.m.length ∧ absC c = ⟨s.H, rem64 s.m, s.col⟩

theorem newBlocks_eq (m p : List Byte) : newBlocks m p = blocks (rem64 m ++ p) := by
  unfold newBlocks
  rw [blocks_append_rem, List.drop_left]

theorem holdsO_init (c : Ctx) : HoldsO (SHA1DCInit c) .init := by
  refine ⟨rfl, rfl, ?_⟩
  simp [absC, SHA1DCInit, OptState.init, H0, rem64]

theorem HoldsO.call {c : Ctx} {s : OptState} (cfg : Cfg) (h : HoldsO c s) (op : Call) :
    ∃ c', c.call cfg op = .ok c' ∧ HoldsO c' (s.after op) := by
  obtain ⟨h1, h2, h3⟩ := h
  cases op with
  | init => exact ⟨_, rfl, holdsO_init c⟩
  | setSafeHash v =>
    refine ⟨_, rfl, ?_, ?_, ?_⟩ <;> unfold SHA1DCSetSafeHash <;> by_cases hv : v = 0 <;>
      simp_all [OptState.after, optOf, absC, ← h1]
  | setUseUBC v =>
    refine ⟨_, rfl, ?_, ?_, ?_⟩ <;> unfold SHA1DCSetUseUBC <;> by_cases hv : v = 0 <;>
      simp_all [OptState.after, optOf, absC, ← h1]
  | setUseDetectColl v =>
    refine ⟨_, rfl, ?_, ?_, ?_⟩ <;> unfold SHA1DCSetUseDetectColl <;> by_cases hv : v = 0 <;>
      simp_all [OptState.after, optOf, absC, ← h1]
  | setDetectReducedRoundCollision v =>
    refine ⟨_, rfl, ?_, ?_, ?_⟩ <;> unfold SHA1DCSetDetectReducedRoundCollision <;> by_cases hv : v = 0 <;>
      simp_all [OptState.after, optOf, absC, ← h1]
  | update p =>
    obtain ⟨c', r, d, t, a⟩ := update_spec cfg c p
    refine ⟨c', r, d.trans h1, ?_, ?_⟩
    · rw [t, h2]; simp [OptState.after, BitVec.ofNat_add]
    · rw [a, h1, h3]
      simp only [absorb, OptState.after, newBlocks_eq]
      rw [← rem64_append]

theorem HoldsO.run {c : Ctx} {s : OptState} (cfg : Cfg) (h : HoldsO c s) (ops : List Call) :
    ∃ c', c.run cfg ops = .ok c' ∧ HoldsO c' (ops.foldl OptState.after s) := by
  induction ops generalizing c s with
  | nil => exact ⟨c, rfl, h⟩
  | cons op ops ih =>
    obtain ⟨c1, r1, h1⟩ := h.call cfg op
    obtain ⟨c2, r2, h2⟩ := ih h1
    exact ⟨c2, by simp only [Ctx.run, r1, r2, bind, Except.bind], h2⟩

theorem HoldsO.final {c : Ctx} {s : OptState} (cfg : Cfg) (h : HoldsO c s) :
    ∃ c' v, SHA1DCFinal cfg c = .ok (c', s.final.1, v) ∧ (v ≠ 0 ↔ s.final.2 = true) := by
  obtain ⟨h1, h2, h3⟩ := h
  obtain ⟨c', r, f⟩ := final_spec cfg c
  have e : absorb (optOf c) (absC c) (padTail c.total) =
      ⟨(s.o.chain s.H ((blocks (pad s.m)).drop (blocks s.m).length)).1, rem64 (pad s.m),
        s.col || (s.o.chain s.H ((blocks (pad s.m)).drop (blocks s.m).length)).2⟩ := by
    rw [h1, h2, h3, pad_eq, blocks_append_rem, List.drop_left]
    simp only [absorb]
    rw [rem64_append s.m]
  rw [e] at r f
  refine ⟨c', _, r, ?_⟩
  show _ ↔ (s.col || _) = true
  rw [show (s.col || _) = (c'.found_collision != 0) from f.symm]
  simp

/-- C37: for every history of calls after `SHA1DCInit`, whatever the context held before: `SHA1DCFinal` returns the
digest and the verdict prescribed for the settings in force as each block was completed. -/
theorem C37_settings (cfg : Cfg) (c : Ctx) (ops : List Call) :
    ∃ c1 c2 D v, (SHA1DCInit c).run cfg ops = .ok c1 ∧ SHA1DCFinal cfg c1 = .ok (c2, D, v) ∧
      D = (ops.foldl OptState.after .init).final.1 ∧
      (v ≠ 0 ↔ (ops.foldl OptState.after .init).final.2 = true) := by
  obtain ⟨c1, r1, h1⟩ := (holdsO_init c).run cfg ops
  obtain ⟨c2, v, r2, h2⟩ := h1.final cfg
  exact ⟨c1, c2, _, v, r1, r2, rfl, h2⟩

/-- Settings made by setters only. -/
def isSet : Call → Bool
  | .init => false
  | .update _ => false
  | _ => true

theorem fold_sets (sets : List Call) (hs : ∀ op ∈ sets, isSet op = true) (s : OptState) :
    (sets.foldl OptState.after s).H = s.H ∧ (sets.foldl OptState.after s).col = s.col ∧
      (sets.foldl OptState.after s).m = s.m := by
  induction sets generalizing s with
  | nil => exact ⟨rfl, rfl, rfl⟩
  | cons op sets ih =>
    have hop := hs op (by simp)
    have := ih (fun op h => hs op (by simp [h])) (s.after op)
    rw [List.foldl_cons, this.1, this.2.1, this.2.2]
    cases op <;> first | exact ⟨rfl, rfl, rfl⟩ | simp [isSet] at hop

theorem fold_updates (ps : List (List Byte)) (s : OptState)
    (hH : s.H = (s.o.chain H0 (blocks s.m)).1) (hc : s.col = (s.o.chain H0 (blocks s.m)).2) :
    (ps.map Call.update).foldl OptState.after s =
      ⟨s.o, (s.o.chain H0 (blocks (s.m ++ ps.flatten))).1, (s.o.chain H0 (blocks (s.m ++ ps.flatten))).2,
        s.m ++ ps.flatten⟩ := by
  induction ps generalizing s with
  | nil => cases s; simp_all
  | cons p ps ih =>
    have e : blocks (s.m ++ p) = blocks s.m ++ newBlocks s.m p := by rw [newBlocks_eq, ← blocks_append_rem]
    have e1 : (s.o.chain H0 (blocks (s.m ++ p))) =
        ((s.o.chain s.H (newBlocks s.m p)).1, s.col || (s.o.chain s.H (newBlocks s.m p)).2) := by
      rw [e, Options.chain_append, ← hH, ← hc]
    rw [List.map_cons, List.foldl_cons, ih (s.after (.update p))]
    · simp [OptState.after, List.append_assoc]
    · simp only [OptState.after]; rw [e1]
    · simp only [OptState.after]; rw [e1]

theorem final_of_chain (s : OptState) (hH : s.H = (s.o.chain H0 (blocks s.m)).1)
    (hc : s.col = (s.o.chain H0 (blocks s.m)).2) : s.final = s.o.hash s.m := by
  unfold OptState.final Options.hash
  have e : blocks (pad s.m) = blocks s.m ++ (blocks (pad s.m)).drop (blocks s.m).length := by
    rw [pad_eq, blocks_append_rem, List.drop_left]
  generalize (blocks (pad s.m)).drop (blocks s.m).length = t at e ⊢
  rw [e, Options.chain_append, ← hH, ← hc]

/-- C37: settings made before the data: the result is the hash, under those settings, of the concatenation of the
data. -/
theorem C37_settings_first (cfg : Cfg) (c : Ctx) (sets : List Call) (hs : ∀ op ∈ sets, isSet op = true)
    (ps : List (List Byte)) :
    ∃ c1 c2 D v, (SHA1DCInit c).run cfg (sets ++ ps.map .update) = .ok c1 ∧ SHA1DCFinal cfg c1 = .ok (c2, D, v) ∧
      D = ((sets.foldl OptState.after .init).o.hash ps.flatten).1 ∧
      (v ≠ 0 ↔ ((sets.foldl OptState.after .init).o.hash ps.flatten).2 = true) := by
  have key : ((sets ++ ps.map Call.update).foldl OptState.after .init).final =
      (sets.foldl OptState.after .init).o.hash ps.flatten := by
    rw [List.foldl_append]
    obtain ⟨h1, h2, h3⟩ := fold_sets sets hs .init
    have hb : blocks ([] : List Byte) = [] := blocks_lt _ (by simp)
    rw [fold_updates]
    · rw [final_of_chain]
      · simp only; rw [h3]; rfl
      · rfl
      · rfl
    · rw [h1, h3]; simp [OptState.init, hb, Options.chain]
    · rw [h2, h3]; simp [OptState.init, hb, Options.chain]
  obtain ⟨c1, c2, D, v, r1, r2, hD, hv⟩ := C37_settings cfg c (sets ++ ps.map .update)
  rw [key] at hD hv
  exact ⟨c1, c2, D, v, r1, r2, hD, hv⟩

/-- C37: the default settings give what package cgo computes. -/
theorem C37_default (m : List Byte) : Options.default.hash m = safeHash (verdict Detected) m := by
  unfold Options.hash safeHash
  rw [chain_default]

/-- Instance: settings changed in the middle of the first block, which is completed under the last of them. -/
example (cfg : Cfg) (c : Ctx) :
    ∃ c1 c2 D v, (SHA1DCInit c).run cfg [.setUseUBC 0, .update [0x61, 0x62], .setUseUBC 7, .update [0x63]] = .ok c1 ∧
      SHA1DCFinal cfg c1 = .ok (c2, D, v) ∧ D = abcDigest ∧ v = 0 := by
  obtain ⟨c1, c2, D, v, r1, r2, hD, hv⟩ := C37_settings cfg c
    [.setUseUBC 0, .update [0x61, 0x62], .setUseUBC 7, .update [0x63]]
  have hb : ∀ l : List Byte, l.length < 64 → blocks l = [] := fun l h => blocks_lt l h
  have e : ([Call.setUseUBC 0, .update [0x61, 0x62], .setUseUBC 7, .update [0x63]].foldl OptState.after .init) =
      ⟨.default, H0, false, abc⟩ := by
    simp [OptState.after, OptState.init, newBlocks, hb, Options.chain, abc]
    rfl
  rw [e, final_of_chain _ (by simp [hb, abc, Options.chain]) (by simp [hb, abc, Options.chain]), C37_default,
    abc_hash_c] at hD hv
  exact ⟨c1, c2, D, v, r1, r2, hD, by simpa using hv⟩

/-! ### C38: plain SHA-1 on request -/

theorem chain_plain (o : Options) (h : o.safe = false ∨ o.detect = false) (H : Regs) (bs : List Block) :
    (o.chain H bs).1 = bs.foldl compress H := by
  induction bs generalizing H with
  | nil => rfl
  | cons M Ms ih =>
    simp only [Options.chain, List.foldl_cons, ih]
    have : o.next H M = compress H M := by
      unfold Options.next
      rcases h with h | h
      · simp [h]
      · have : verdict o.Flags H M = false := by
          refine Bool.eq_false_iff.mpr fun hv => ?_
          rw [verdict_iff] at hv
          have := hv.1
          rw [h] at this
          cases this
        simp [this]
    rw [this]

theorem chain_undetected (o : Options) (h : o.detect = false) (H : Regs) (bs : List Block) :
    (o.chain H bs).2 = false := by
  induction bs generalizing H with
  | nil => rfl
  | cons M Ms ih =>
    simp only [Options.chain, ih, Bool.or_false]
    refine Bool.eq_false_iff.mpr fun hv => ?_
    rw [verdict_iff] at hv
    have := hv.1
    rw [h] at this
    cases this

/-- The data of the calls, in order. -/
def written : List Call → List Byte
  | [] => []
  | .update p :: ops => p ++ written ops
  | _ :: ops => written ops

/-- The call neither starts over nor switches the safe hash on. -/
def keepsSafeOff : Call → Prop
  | .init => False
  | .setSafeHash v => v = 0
  | _ => True

/-- The call neither starts over nor switches detection on. -/
def keepsDetectOff : Call → Prop
  | .init => False
  | .setUseDetectColl v => v = 0
  | _ => True

theorem plain_after (s : OptState) (h : s.o.safe = false ∨ s.o.detect = false)
    (hH : s.H = (blocks s.m).foldl compress H0) (op : Call) (hop : op ≠ .init) :
    (s.after op).H = (blocks (s.after op).m).foldl compress H0 ∧ (s.after op).m = s.m ++ written [op] := by
  cases op with
  | init => exact absurd rfl hop
  | update p =>
    refine ⟨?_, by simp [OptState.after, written]⟩
    simp only [OptState.after, newBlocks_eq]
    rw [chain_plain _ h, hH, ← List.foldl_append, ← blocks_append_rem]
  | setSafeHash v => exact ⟨hH, by simp [OptState.after, written]⟩
  | setUseUBC v => exact ⟨hH, by simp [OptState.after, written]⟩
  | setUseDetectColl v => exact ⟨hH, by simp [OptState.after, written]⟩
  | setDetectReducedRoundCollision v => exact ⟨hH, by simp [OptState.after, written]⟩

theorem written_cons (op : Call) (ops : List Call) : written (op :: ops) = written [op] ++ written ops := by
  cases op <;> simp [written]

theorem plain_fold (off : Options → Prop) (keeps : Call → Prop)
    (hoff : ∀ o, off o → o.safe = false ∨ o.detect = false)
    (hk : ∀ s op, off s.o → keeps op → off (OptState.after s op).o ∧ op ≠ .init)
    (ops : List Call) (hops : ∀ op ∈ ops, keeps op) (s : OptState) (h : off s.o)
    (hH : s.H = (blocks s.m).foldl compress H0) :
    off (ops.foldl OptState.after s).o ∧
      (ops.foldl OptState.after s).final.1 = sha1 (s.m ++ written ops) := by
  induction ops generalizing s with
  | nil =>
    refine ⟨h, ?_⟩
    simp only [List.foldl_nil, OptState.final, written, List.append_nil]
    rw [chain_plain _ (hoff _ h), hH, ← List.foldl_append]
    unfold sha1
    have e : blocks (pad s.m) = blocks s.m ++ (blocks (pad s.m)).drop (blocks s.m).length := by
      rw [pad_eq, blocks_append_rem, List.drop_left]
    rw [← e]
  | cons op ops ih =>
    have h1 := hk s op h (hops op (by simp))
    have h2 := plain_after s (hoff _ h) hH op h1.2
    have h3 := ih (fun op h => hops op (by simp [h])) (s.after op) h1.1 h2.1
    rw [List.foldl_cons]
    refine ⟨h3.1, ?_⟩
    rw [h3.2, h2.2, List.append_assoc, ← written_cons]

/-- C38: with the safe hash switched off and never switched on again, the digest is the SHA-1 of the data, whether or
not a collision is found and whatever the other settings. -/
theorem C38_safe_off_is_sha1 (cfg : Cfg) (c : Ctx) (ops : List Call) (h : ∀ op ∈ ops, keepsSafeOff op) :
    ∃ c1 c2 v, (SHA1DCInit c).run cfg (.setSafeHash 0 :: ops) = .ok c1 ∧
      SHA1DCFinal cfg c1 = .ok (c2, sha1 (written ops), v) := by
  obtain ⟨c1, c2, D, v, r1, r2, hD, hv⟩ := C37_settings cfg c (.setSafeHash 0 :: ops)
  have := (plain_fold (fun o => o.safe = false) keepsSafeOff (fun o h => .inl h)
    (by
      intro s op ho hk
      cases op <;> simp_all [keepsSafeOff, OptState.after]) ops h (OptState.init.after (.setSafeHash 0)) rfl
    (by rw [show (OptState.init.after (.setSafeHash 0)).m = [] from rfl, blocks_lt [] (by simp)]; rfl)).2
  rw [List.foldl_cons, this] at hD
  rw [hD] at r2
  exact ⟨c1, c2, v, r1, r2⟩

/-- C38: with detection switched off and never switched on again, the digest is the SHA-1 of the data and nothing is
reported. -/
theorem C38_detect_off_is_sha1 (cfg : Cfg) (c : Ctx) (ops : List Call) (h : ∀ op ∈ ops, keepsDetectOff op) :
    ∃ c1 c2, (SHA1DCInit c).run cfg (.setUseDetectColl 0 :: ops) = .ok c1 ∧
      SHA1DCFinal cfg c1 = .ok (c2, sha1 (written ops), 0) := by
  obtain ⟨c1, c2, D, v, r1, r2, hD, hv⟩ := C37_settings cfg c (.setUseDetectColl 0 :: ops)
  have := (plain_fold (fun o => o.detect = false) keepsDetectOff (fun o h => .inr h)
    (by
      intro s op ho hk
      cases op <;> simp_all [keepsDetectOff, OptState.after]) ops h (OptState.init.after (.setUseDetectColl 0)) rfl
    (by rw [show (OptState.init.after (.setUseDetectColl 0)).m = [] from rfl, blocks_lt [] (by simp)]; rfl)).2
  rw [List.foldl_cons, this] at hD
  have hcol : ∀ (ops : List Call), (∀ op ∈ ops, keepsDetectOff op) → ∀ s : OptState, s.o.detect = false →
      s.col = false → (ops.foldl OptState.after s).final.2 = false := by
    intro ops
    induction ops with
    | nil => intro _ s ho hc; simp [OptState.final, hc, chain_undetected _ ho]
    | cons op ops ih =>
      intro hops s ho hc
      have hk := hops op (by simp)
      refine ih (fun op h => hops op (by simp [h])) (s.after op) ?_ ?_
      · cases op <;> simp_all [keepsDetectOff, OptState.after]
      · cases op <;> simp_all [keepsDetectOff, OptState.after, chain_undetected]
  have h0 := hcol ops h (OptState.init.after (.setUseDetectColl 0)) rfl rfl
  rw [List.foldl_cons, h0] at hv
  have hv0 : v = 0 := by simpa using hv
  rw [hD, hv0] at r2
  exact ⟨c1, c2, r1, r2⟩

/-! ### C39: how the settings affect the verdict -/

theorem chain_flag_mono (o o' : Options) (hf : ∀ H M, o.Flags H M → o'.Flags H M) (H : Regs)
    (bs : List Block) (h : (o.chain H bs).2 = true) : (o'.chain H bs).2 = true := by
  induction bs generalizing H with
  | nil => exact h
  | cons M Ms ih =>
    simp only [Options.chain, Bool.or_eq_true, verdict_iff] at h ⊢
    by_cases h' : o'.Flags H M
    · exact .inl h'
    · have ho : ¬ o.Flags H M := fun h => h' (hf H M h)
      have e : o.next H M = o'.next H M := by
        have v1 : verdict o.Flags H M = false := Bool.eq_false_iff.mpr fun h => ho ((verdict_iff _ _ _).mp h)
        have v2 : verdict o'.Flags H M = false := Bool.eq_false_iff.mpr fun h => h' ((verdict_iff _ _ _).mp h)
        unfold Options.next
        rw [v1, v2, Bool.and_false, Bool.and_false, if_neg (by decide)]
      rcases h with h | h
      · exact absurd h ho
      · rw [← e]; exact .inr (ih _ h)

theorem chain_flag_safe (o : Options) (b : Bool) (H : Regs) (bs : List Block) :
    (({ o with safe := b } : Options).chain H bs).2 = (o.chain H bs).2 := by
  induction bs generalizing H with
  | nil => rfl
  | cons M Ms ih =>
    simp only [Options.chain]
    have e : ({ o with safe := b } : Options).Flags = o.Flags := rfl
    rw [e]
    by_cases hv : verdict o.Flags H M = true
    · rw [hv]; simp
    · have hv : verdict o.Flags H M = false := by simpa using hv
      have : ({ o with safe := b } : Options).next H M = o.next H M := by
        unfold Options.next
        rw [e, hv, Bool.and_false, Bool.and_false]
      rw [this, ih]

theorem isSet_snoc {sets : List Call} (hs : ∀ op ∈ sets, isSet op = true) (x : Call) (hx : isSet x = true) :
    ∀ op ∈ sets ++ [x], isSet op = true := by
  intro op h
  rcases List.mem_append.mp h with h | h
  · exact hs op h
  · rw [List.mem_singleton.mp h]; exact hx

/-- C39: turning the bit-condition filter off, or the search for reduced-round collisions on, never loses a detection,
whatever the other settings. -/
theorem C39_more_detection (cfg : Cfg) (c : Ctx) (sets : List Call) (hs : ∀ op ∈ sets, isSet op = true)
    (x : Call) (hx : x = .setUseUBC 0 ∨ ∃ v, v ≠ 0 ∧ x = .setDetectReducedRoundCollision v)
    (ps : List (List Byte)) (c1 c2 : Ctx) (D : List Byte) (v : Word)
    (h1 : (SHA1DCInit c).run cfg (sets ++ ps.map .update) = .ok c1) (h2 : SHA1DCFinal cfg c1 = .ok (c2, D, v))
    (hv : v ≠ 0) :
    ∃ c1' c2' D' v', (SHA1DCInit c).run cfg ((sets ++ [x]) ++ ps.map .update) = .ok c1' ∧
      SHA1DCFinal cfg c1' = .ok (c2', D', v') ∧ v' ≠ 0 := by
  have hxs : isSet x = true := by rcases hx with rfl | ⟨v, _, rfl⟩ <;> rfl
  obtain ⟨c1', c2', D', v', r1, r2, _, hv'⟩ := C37_settings_first cfg c (sets ++ [x]) (isSet_snoc hs x hxs) ps
  obtain ⟨d1, d2, E, w, s1, s2, _, hw⟩ := C37_settings_first cfg c sets hs ps
  rw [h1] at s1; cases s1
  rw [h2] at s2; cases s2
  refine ⟨c1', c2', D', v', r1, r2, hv'.mpr ?_⟩
  rw [List.foldl_append, List.foldl_cons, List.foldl_nil]
  have h3 := hw.mp hv
  generalize (sets.foldl OptState.after .init) = s at h3 ⊢
  refine chain_flag_mono s.o (s.after x).o ?_ H0 _ h3
  rintro H M ⟨hd, k, dv, hk, hu, ht⟩
  rcases hx with rfl | ⟨v, hv, rfl⟩
  · exact ⟨hd, k, dv, hk, fun h => by simp [OptState.after] at h, ht⟩
  · exact ⟨hd, k, dv, hk, hu, ht.imp id fun h => ⟨by simpa [OptState.after] using hv, h.2⟩⟩

/-- C39: the safe-hash setting has no influence on the verdict. -/
theorem C39_safe_irrelevant_to_verdict (cfg : Cfg) (c : Ctx) (sets : List Call) (hs : ∀ op ∈ sets, isSet op = true)
    (b : Word) (ps : List (List Byte)) :
    ∃ c1 c2 D v c1' c2' D' v', (SHA1DCInit c).run cfg (sets ++ ps.map .update) = .ok c1 ∧
      SHA1DCFinal cfg c1 = .ok (c2, D, v) ∧
      (SHA1DCInit c).run cfg ((sets ++ [.setSafeHash b]) ++ ps.map .update) = .ok c1' ∧
      SHA1DCFinal cfg c1' = .ok (c2', D', v') ∧ (v ≠ 0 ↔ v' ≠ 0) := by
  obtain ⟨c1', c2', D', v', r1, r2, _, hv'⟩ := C37_settings_first cfg c (sets ++ [.setSafeHash b]) (isSet_snoc hs _ rfl) ps
  obtain ⟨d1, d2, E, w, s1, s2, _, hw⟩ := C37_settings_first cfg c sets hs ps
  refine ⟨d1, d2, E, w, c1', c2', D', v', s1, s2, r1, r2, ?_⟩
  rw [hw, hv', List.foldl_append, List.foldl_cons, List.foldl_nil]
  generalize (sets.foldl OptState.after .init) = s
  have := chain_flag_safe s.o (b != 0) H0 (blocks (pad ps.flatten))
  show (s.o.chain _ _).2 = true ↔ _
  rw [← this]
  rfl

/-- Instance of C38 and C39: the prefix of shattered-1.pdf with the safe hash off is flagged, and its digest is its
SHA-1, which is also that of shattered-2.pdf. -/
example (cfg : Cfg) (c : Ctx) :
    ∃ c1 c2 v, (SHA1DCInit c).run cfg [.setSafeHash 0, .update shattered1] = .ok c1 ∧
      SHA1DCFinal cfg c1 = .ok (c2, sha1 shattered2, v) ∧ v ≠ 0 := by
  obtain ⟨c1, c2, v, r1, r2⟩ := C38_safe_off_is_sha1 cfg c [.update shattered1] (by simp [keepsSafeOff])
  obtain ⟨d1, d2, D, w, d1', d2', D', w', s1, s2, s3, s4, hw⟩ := C39_safe_irrelevant_to_verdict cfg c [] (by simp) 0
    [shattered1]
  obtain ⟨e1, e2, E, u, t1, t2, _, hu⟩ := C37_settings_first cfg c [] (by simp) [shattered1]
  simp only [List.nil_append, List.map_cons, List.map_nil, List.cons_append] at s1 s3 t1
  rw [s1] at t1; cases t1
  rw [s2] at t2; cases t2
  rw [r1] at s3; cases s3
  rw [r2] at s4; cases s4
  refine ⟨c1, c2, v, r1, ?_, hw.mp (hu.mpr ?_)⟩
  · rw [r2]
    have : written [.update shattered1] = shattered1 := by simp only [written, List.append_nil]
    rw [this, shattered_sha1]
  · have e : ([shattered1] : List (List Byte)).flatten = shattered1 := by simp only [List.flatten_cons, List.flatten_nil, List.append_nil]
    rw [e, show (List.foldl OptState.after OptState.init []).o = .default from rfl, C37_default, shattered1_hash_c]

/-- Instance: detection off, the same file is hashed to its SHA-1 silently. -/
example (cfg : Cfg) (c : Ctx) :
    ∃ c1 c2, (SHA1DCInit c).run cfg [.setUseDetectColl 0, .update shattered1, .setUseUBC 0] = .ok c1 ∧
      SHA1DCFinal cfg c1 = .ok (c2, sha1 shattered1, 0) := by
  have := C38_detect_off_is_sha1 cfg c [.update shattered1, .setUseUBC 0] (by simp [keepsDetectOff])
  have e : written [.update shattered1, .setUseUBC 0] = shattered1 := by simp only [written, List.append_nil]
  rwa [e] at this

end Verif.Props
