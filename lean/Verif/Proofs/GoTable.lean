import Verif.Proofs.GoUbc
import Verif.Source.GoProgram
import Verif.Model.DvTable

/-!
The table `sha1_dvs` as it is read from the text of ubc/const.go is `Model.sha1Dvs`.
-/

namespace Verif.Source.Go

open Verif Verif.Source Verif.Model

/-- The numbers of an entry of the table. -/
structure Row where
  ty : Nat
  k : Nat
  b : Nat
  t : Nat
  mi : Nat
  mb : Nat
  dm : List Nat
deriving Lean.ToExpr, Inhabited

/-- A list of numbers. -/
def nums : List Nat → Expr
  | [] => .nil
  | n :: ns => .cons (.num n) (nums ns)

/-- The type `DvInfo`, ubc/ubc.go:8-24. -/
def dvTy : Ty :=
  .field (name! "DvType") .u32 (.field (name! "DvK") .u32 (.field (name! "DvB") .u32 (.field (name! "TestT") .u32
    (.field (name! "MaskI") .u32 (.field (name! "MaskB") .u32 (.field (name! "Dm") (.arr 80 .u32) .none))))))

/-- The expression of an entry. -/
def Row.expr (r : Row) : Expr :=
  .lit dvTy (.kv (name! "DvType") (.num r.ty) (.kv (name! "DvK") (.num r.k) (.kv (name! "DvB") (.num r.b)
    (.kv (name! "TestT") (.num r.t) (.kv (name! "MaskI") (.num r.mi) (.kv (name! "MaskB") (.num r.mb)
      (.kv (name! "Dm") (.lit (.arr 80 .u32) (nums r.dm)) .nil)))))))

/-- The expression of some entries. -/
def rowExprs : List Row → Expr
  | [] => .nil
  | r :: rs => .cons r.expr (rowExprs rs)

/-- The numbers of a list. -/
def numsOf : Expr → List Nat
  | .cons (.num n) es => n :: numsOf es
  | _ => []

/-- The numbers of an entry, read off its expression. -/
def rowOf : Expr → Row
  | .lit _ (.kv _ (.num a) (.kv _ (.num b) (.kv _ (.num c) (.kv _ (.num d) (.kv _ (.num e) (.kv _ (.num f)
      (.kv _ (.lit _ es) _))))))) => ⟨a, b, c, d, e, f, numsOf es⟩
  | _ => default

/-- The numbers of the entries. -/
def rowsOf : Expr → List Row
  | .cons e es => rowOf e :: rowsOf es
  | _ => []

/-- The expression of the table, ubc/const.go:44-624. -/
def tableExpr : Expr := match progUbc.env.globals with
  | [(_, _, e)] => e
  | _ => .nil

/-- The numbers of the table. -/
def rows : List Row := evaluated! match tableExpr with
  | .lit _ es => rowsOf es
  | _ => []

theorem globals_ubc : progUbc.env.globals =
    [(name! "ubc", name! "sha1_dvs", .lit (.slice dvTy) (rowExprs rows))] := by by_kernel

/-- An entry of the table, of the model. -/
def Row.info (r : Row) : DvInfo where
  DvType := BitVec.ofNat 32 r.ty
  DvK := BitVec.ofNat 32 r.k
  DvB := BitVec.ofNat 32 r.b
  TestT := BitVec.ofNat 32 r.t
  MaskI := BitVec.ofNat 32 r.mi
  MaskB := BitVec.ofNat 32 r.mb
  Dm := arr80 r.dm

theorem rows_info : rows.map Row.info = sha1Dvs := by by_kernel

/-- A `DvInfo` as a value. -/
def dvVal (d : DvInfo) : Val := .struct fun f =>
  if f = name! "DvType" then .u32 d.DvType
  else if f = name! "DvK" then .u32 d.DvK
  else if f = name! "DvB" then .u32 d.DvB
  else if f = name! "TestT" then .u32 d.TestT
  else if f = name! "MaskI" then .u32 d.MaskI
  else if f = name! "MaskB" then .u32 d.MaskB
  else if f = name! "Dm" then words 80 d.Dm
  else .null

theorem evs_nums (X : World) (ns : List Nat) (m : Mem) : evs X (nums ns) m = .ok (ns.map fun n : Nat => Val.const n, m) := by
  induction ns with
  | nil => rfl
  | cons n ns ih =>
    show (evs X (.num n) >>= _) m = _
    rw [bind_of (show evs X (.num n) m = .ok ([.const n], m) from rfl), bind_of ih]
    rfl

theorem fromList_nums (ns : List Nat) (h : ns.length = 80) :
    Val.arr 80 (fromList .u32 (ns.map fun n : Nat => Val.const n)) = words 80 (arr80 ns) := by
  unfold words
  congr 1
  funext j
  simp only [fromList, List.getElem?_map]
  by_cases hj : j < 80
  · have : ns[j]? = some (ns[j]'(by omega)) := List.getElem?_eq_getElem (by omega)
    simp only [this, Option.map_some, ofTy, arr80, hj, dite_true, List.getD_eq_getElem?_getD, Option.getD_some]
    rw [BitVec.ofInt_natCast]
  · rw [List.getElem?_eq_none (by omega)]
    simp [zero, hj]

theorem ofInt_nat (n : Nat) : BitVec.ofInt 32 (n : Int) = BitVec.ofNat 32 n := BitVec.ofInt_natCast ..

theorem evs_row (X : World) (r : Row) (h : r.dm.length = 80) (m : Mem) :
    evs X r.expr m = .ok ([dvVal r.info], m) := by
  have hd : evs X (.lit (.arr 80 .u32) (nums r.dm)) m = .ok ([words 80 (arr80 r.dm)], m) := by
    show (evs X (nums r.dm) >>= _) m = _
    rw [bind_of (evs_nums X _ _), ← fromList_nums _ h]
    rfl
  have hn : ∀ n : Nat, evs X (.num n) m = .ok ([.const n], m) := fun _ => rfl
  have hf : fields X (.kv (name! "DvType") (.num r.ty) (.kv (name! "DvK") (.num r.k) (.kv (name! "DvB") (.num r.b)
    (.kv (name! "TestT") (.num r.t) (.kv (name! "MaskI") (.num r.mi) (.kv (name! "MaskB") (.num r.mb)
      (.kv (name! "Dm") (.lit (.arr 80 .u32) (nums r.dm)) .nil))))))) m =
      .ok ([(name! "DvType", .const r.ty), (name! "DvK", .const r.k), (name! "DvB", .const r.b),
        (name! "TestT", .const r.t), (name! "MaskI", .const r.mi), (name! "MaskB", .const r.mb),
        (name! "Dm", words 80 (arr80 r.dm))], m) := by
    simp only [fields, bind_run, hn, hd, single_one, pure_run]
  show (fields X _ >>= _) m = _
  rw [bind_of hf]
  show Except.ok ([Val.struct _], m) = _
  congr 3
  unfold dvVal
  congr 1
  funext f
  simp only [withFields, Row.info]
  by_cases h1 : f = name! "DvType"
  · subst h1; simp [like, zero]
  by_cases h2 : f = name! "DvK"
  · subst h2; simp [like, zero]
  by_cases h3 : f = name! "DvB"
  · subst h3; simp [like, zero]
  by_cases h4 : f = name! "TestT"
  · subst h4; simp [like, zero]
  by_cases h5 : f = name! "MaskI"
  · subst h5; simp [like, zero]
  by_cases h6 : f = name! "MaskB"
  · subst h6; simp [like, zero]
  by_cases h7 : f = name! "Dm"
  · subst h7; simp [like, zero, words]
  simp [h1, h2, h3, h4, h5, h6, h7, zero]

theorem evs_rows (X : World) (rs : List Row) (h : ∀ r ∈ rs, r.dm.length = 80) (m : Mem) :
    evs X (rowExprs rs) m = .ok (rs.map fun r => dvVal r.info, m) := by
  induction rs with
  | nil => rfl
  | cons r rs ih =>
    show (evs X r.expr >>= _) m = _
    rw [bind_of (evs_row X r (h r (List.mem_cons_self ..)) m), bind_of (ih fun r hr => h r (List.mem_cons_of_mem _ hr))]
    rfl

/-- The table as an array of structs. -/
def table (ds : List DvInfo) : Val := .arr ds.length fun i => match ds[i]? with
  | some d => dvVal d
  | none => zero dvTy

theorem rows_len : ∀ r ∈ rows, r.dm.length = 80 := by decide +kernel

theorem dvs_length : sha1Dvs.length = 33 := by by_kernel

theorem ev_rows (X : World) (rs : List Row) (h : ∀ r ∈ rs, r.dm.length = 80) (m : Mem) :
    ev X (.lit (.slice dvTy) (rowExprs rs)) m =
      .ok (.slice ⟨m.next, 0, []⟩ 0 (rs.map Row.info).length (rs.map Row.info).length,
        { m with old := fun k => if k = m.next then [table (rs.map Row.info)] else m.old k, next := m.next + 1 }) := by
  have ht : Val.arr (rs.map fun r => dvVal r.info).length (fromList dvTy (rs.map fun r => dvVal r.info)) =
      table (rs.map Row.info) := by
    unfold table
    rw [List.length_map, List.length_map]
    congr 1
    funext i
    simp only [fromList, List.getElem?_map]
    cases rs[i]? with
    | none => rfl
    | some d => simp [ofTy, dvTy]
  show ((evs X (rowExprs rs) >>= _) >>= _) m = _
  simp only [bind_run, evs_rows X rs h m, alloc, ht, pure_run, single_one]
  simp only [List.length_map]

/-- The initial value of the table, ubc/const.go:44-624: a slice of a new array. -/
theorem ev_table (X : World) (m : Mem) : ev X (.lit (.slice dvTy) (rowExprs rows)) m =
    .ok (.slice ⟨m.next, 0, []⟩ 0 33 33,
      { m with old := fun k => if k = m.next then [table sha1Dvs] else m.old k, next := m.next + 1 }) := by
  rw [ev_rows X rows rows_len m, rows_info, dvs_length]

end Verif.Source.Go
