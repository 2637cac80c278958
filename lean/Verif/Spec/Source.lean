import Verif.Go.Semantics
import Verif.Model.Parse
/-
What it means that the program text and the model of it do the same.
-/

namespace DDL.Src
open DDL

/-! ### results as values -/

/-- `interface{}`: types.go:29. -/
def encDefault : DefaultVal → Val
  | .nil => .nil
  | .num t => .num t
  | .str s => .str s
  | .bool b => .bool b

/-- types.go:36-39; a nil slice when there is no list. -/
def encReference (r : Reference) : Val :=
  .obj .Reference [(.TableName, .str r.tableName), (.ColumnNames, match r.columnNames with
    | none => .nil
    | some l => .strs l)]

/-- types.go:18-22. -/
def encDataType (t : DataType) : Val :=
  .obj .DataType [(.Name, .str t.name), (.DigitN, .int t.digitN), (.DigitM, .int t.digitM)]

/-- The fields of a constraint (types.go:24-34). -/
def encConstraintF (c : Constraint) : State :=
  [(.Name, .str c.name), (.IsPrimaryKey, .bool c.isPrimaryKey), (.IsUnique, .bool c.isUnique),
    (.IsNotNull, .bool c.isNotNull), (.IsAutoincrement, .bool c.isAutoincrement), (.Default, encDefault c.default),
    (.Check, .str c.check), (.Collate, .str c.collate), (.References, encReference c.references)]

/-- types.go:24-34. -/
def encConstraint (c : Constraint) : Val := .obj .Constraint (encConstraintF c)

/-- The fields of a column (types.go:12-16). -/
def encColumnF (c : Column) : State :=
  [(.Name, .str c.name), (.DataType, encDataType c.dataType), (.Constraint, encConstraint c.constraint)]

/-- types.go:12-16. -/
def encColumn (c : Column) : Val := .obj .Column (encColumnF c)

/-- A slice that was never appended to is nil. -/
def encSlice (enc : α → Val) : List α → Val
  | [] => .nil
  | a :: l => .slice ((a :: l).map enc)

/-- types.go:48-51. -/
def encPrimaryKey (k : PrimaryKey) : Val := .obj .PrimaryKey [(.Name, .str k.name), (.ColumnNames, .strs k.columnNames)]
/-- types.go:53-56. -/
def encUnique (k : Unique) : Val := .obj .Unique [(.Name, .str k.name), (.ColumnNames, .strs k.columnNames)]
/-- types.go:58-61. -/
def encCheck (k : Check) : Val := .obj .Check [(.Name, .str k.name), (.Expr, .str k.expr)]
/-- types.go:63-67. -/
def encForeignKey (k : ForeignKey) : Val :=
  .obj .ForeignKey [(.Name, .str k.name), (.ColumnNames, .strs k.columnNames), (.References, encReference k.references)]

/-- The fields of types.go:41-46. -/
def encTableConstraintF (c : TableConstraint) : State :=
  [(.PrimaryKey, encSlice encPrimaryKey c.primaryKey), (.Unique, encSlice encUnique c.unique),
    (.Check, encSlice encCheck c.check), (.ForeignKey, encSlice encForeignKey c.foreignKey)]

/-- types.go:41-46. -/
def encTableConstraint (c : TableConstraint) : Val := .obj .TableConstraint (encTableConstraintF c)

/-- The fields of a table (types.go:4-10). -/
def encTableF (t : Table) : State :=
  [(.Schema, .str t.schema), (.Name, .str t.name), (.IfNotExists, .bool t.ifNotExists),
    (.Columns, encSlice encColumn t.columns), (.Constraints, encTableConstraint t.constraints)]

/-- types.go:4-10. -/
def encTable (t : Table) : Val := .obj .Table (encTableF t)

/-- An error, or nil. -/
def encErr : Option VErr → Val
  | none => .nil
  | some e => .err e.line e.near

/-- What `Parse` returns: a slice of tables and an error. -/
def encResult (r : List Table × Option VErr) : Val := .tuple [.slice (r.1.map encTable), encErr r.2]

/-! ### the same outcomes -/

/-- The source text of a call, run with so much fuel. -/
def source [CaseMap] (isNum : Str → Bool) (f : Fn) (args : List Val) (k : Nat) : Ret := env isNum k f args []

/-- Of the source text of a call and a model of it: they return the same, where one never returns neither does the other,
and the source does not panic or do what the Go compiler rules out. -/
structure Same (src : Nat → Ret) (returns : List Table × Option VErr → Prop) (hangs : Prop) : Prop where
  returns (r : List Table × Option VErr) : (∃ k, src k = .ok (encResult r) [] []) ↔ returns r
  hangs : (∀ k, src k = .timeout) ↔ hangs
  total (k : Nat) : src k = .timeout ∨ ∃ r, src k = .ok (encResult r) [] []
  more (k m : Nat) (h : k ≤ m) (hk : src k ≠ .timeout) : src m = src k

end DDL.Src
