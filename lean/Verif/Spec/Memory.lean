import Verif.Model.Memory
/-
What a value in memory is, and which arrays it uses. Only the layout of the values and the memory (`Sl`, `MTable`, …, `Heap`)
are shared with the model.
-/

namespace DDL.Spec
open DDL.Mem

/-- The cells of a slice. -/
def cells (h : Heap) : Option Sl → List Cell
  | none => []
  | some s => (h.getD s.arr []).take s.len

/-- The array of a slice. -/
def arrs : Option Sl → List Nat
  | none => []
  | some s => [s.arr]

/-! ### what it is -/

/-- A slice of strings. -/
def strsAt (h : Heap) (s : Option Sl) : List Str :=
  (cells h s).filterMap fun c => match c with
    | .str t => some t
    | _ => none

/-- A reference. -/
def referenceAt (h : Heap) (r : MReference) : Reference :=
  { tableName := r.tableName, columnNames := r.columnNames.map fun s => strsAt h (some s) }

/-- A column. -/
def columnAt (h : Heap) (c : MColumn) : Column :=
  { name := c.name, dataType := c.dataType,
    constraint := { name := c.constraint.name, isPrimaryKey := c.constraint.isPrimaryKey, isUnique := c.constraint.isUnique,
                    isNotNull := c.constraint.isNotNull, isAutoincrement := c.constraint.isAutoincrement,
                    default := c.constraint.default, check := c.constraint.check, collate := c.constraint.collate,
                    references := referenceAt h c.constraint.references } }

/-- A slice of columns. -/
def columnsAt (h : Heap) (s : Option Sl) : List Column :=
  (cells h s).filterMap fun c => match c with
    | .column c => some (columnAt h c)
    | _ => none

/-- The constraints of a table. -/
def constraintsAt (h : Heap) (t : MTableConstraint) : TableConstraint :=
  { primaryKey := (cells h t.primaryKey).filterMap fun c => match c with
      | .primaryKey k => some ⟨k.name, strsAt h k.columnNames⟩
      | _ => none
    unique := (cells h t.unique).filterMap fun c => match c with
      | .unique k => some ⟨k.name, strsAt h k.columnNames⟩
      | _ => none
    check := (cells h t.check).filterMap fun c => match c with
      | .check k => some k
      | _ => none
    foreignKey := (cells h t.foreignKey).filterMap fun c => match c with
      | .foreignKey k => some ⟨k.name, strsAt h k.columnNames, referenceAt h k.references⟩
      | _ => none }

/-- A table. -/
def tableAt (h : Heap) (t : MTable) : Table :=
  { schema := t.schema, name := t.name, ifNotExists := t.ifNotExists, columns := columnsAt h t.columns,
    constraints := constraintsAt h t.constraints }

/-- The tables in a slice, as they lie in memory. -/
def tablesIn (h : Heap) (s : Option Sl) : List MTable :=
  (cells h s).filterMap fun c => match c with
    | .table t => some t
    | _ => none

/-- A slice of tables. -/
def tablesAt (h : Heap) (s : Option Sl) : List Table := (tablesIn h s).map (tableAt h)

/-! ### which arrays it uses -/

/-- The arrays that a cell leads to, but for tables. -/
def arraysOfCell : Cell → List Nat
  | .str _ | .check _ | .table _ => []
  | .column c => arrs c.constraint.references.columnNames
  | .primaryKey k | .unique k => arrs k.columnNames
  | .foreignKey k => arrs k.columnNames ++ arrs k.references.columnNames

/-- The arrays of a slice. -/
def arraysOfSlice (h : Heap) (s : Option Sl) : List Nat := arrs s ++ (cells h s).flatMap arraysOfCell

/-- The arrays of a table, each as often as it is used. -/
def arraysOfTable (h : Heap) (t : MTable) : List Nat :=
  arraysOfSlice h t.columns ++ arraysOfSlice h t.constraints.primaryKey ++ arraysOfSlice h t.constraints.unique ++
    arraysOfSlice h t.constraints.check ++ arraysOfSlice h t.constraints.foreignKey

/-- The arrays of a slice of tables. -/
def arraysOf (h : Heap) (s : Option Sl) : List Nat := arrs s ++ (tablesIn h s).flatMap (arraysOfTable h)

/-- The slices in a cell, but for tables. -/
def slicesOfCell : Cell → List (Option Sl)
  | .str _ | .check _ | .table _ => []
  | .column c => [c.constraint.references.columnNames]
  | .primaryKey k | .unique k => [k.columnNames]
  | .foreignKey k => [k.columnNames, k.references.columnNames]

/-- The slices of a table. -/
def slicesOfTable (h : Heap) (t : MTable) : List (Option Sl) :=
  [t.columns, t.constraints.primaryKey, t.constraints.unique, t.constraints.check, t.constraints.foreignKey].flatMap
    fun s => s :: (cells h s).flatMap slicesOfCell

/-- All slices in a slice of tables, itself included. -/
def slicesOf (h : Heap) (s : Option Sl) : List (Option Sl) := s :: (tablesIn h s).flatMap (slicesOfTable h)

/-- In a table, the lists without elements are nil, except lists of column names, which are not nil. -/
structure NilLists (h : Heap) (t : MTable) : Prop where
  columns : t.columns = none ↔ (tableAt h t).columns = []
  primaryKey : t.constraints.primaryKey = none ↔ (tableAt h t).constraints.primaryKey = []
  unique : t.constraints.unique = none ↔ (tableAt h t).constraints.unique = []
  check : t.constraints.check = none ↔ (tableAt h t).constraints.check = []
  foreignKey : t.constraints.foreignKey = none ↔ (tableAt h t).constraints.foreignKey = []
  names : ∀ k, (.primaryKey k ∈ cells h t.constraints.primaryKey ∨ .unique k ∈ cells h t.constraints.unique) →
    k.columnNames ≠ none
  foreign : ∀ k, .foreignKey k ∈ cells h t.constraints.foreignKey → k.columnNames ≠ none

/-- Two memories hold the same in these arrays. -/
def AgreeOn (ids : List Nat) (h h' : Heap) : Prop := ∀ i ∈ ids, h'[i]? = h[i]?

end DDL.Spec
