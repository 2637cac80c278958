import Verif.Spec.Memory
import Verif.Model.Output
import Verif.Model.Value
/-
The text that `json.Marshal` (encoding/json of Go 1.22, the version of go.mod) writes for the results. The names of the
fields and their order are those of internal/types/types.go; the library is not part of /repo.

How a float64 is written is a parameter `fmt` (sign, multiple of 2^-1074).
-/

namespace DDL.Json
open DDL.Mem DDL.Spec

/-- `"0123456789abcdef"[n]`. -/
def hexDigit (n : Nat) : Char := ("0123456789abcdef".toList).getD n '0'

/-- `appendString` (encoding/json/encode.go), for one character, with `escapeHTML` as in `Marshal`. -/
def escape (c : Char) : Str :=
  if c = '"' then S "\\\""
  else if c = '\\' then S "\\\\"
  else if c = Char.ofNat 8 then S "\\b"
  else if c = Char.ofNat 12 then S "\\f"
  else if c = '\n' then S "\\n"
  else if c = '\r' then S "\\r"
  else if c = '\t' then S "\\t"
  else if c.toNat < 32 ∨ c = '<' ∨ c = '>' ∨ c = '&' then S "\\u00" ++ [hexDigit (c.toNat / 16), hexDigit (c.toNat % 16)]
  else if c = Char.ofNat 0x2028 then S "\\u2028"
  else if c = Char.ofNat 0x2029 then S "\\u2029"
  else [c]

/-- A string. -/
def str (s : Str) : Str := '"' :: (s.flatMap escape ++ ['"'])

/-- A bool. -/
def bool (b : Bool) : Str := if b then S "true" else S "false"

/-- An int (`strconv.AppendInt`). -/
def int : Int → Str
  | .ofNat n => Nat.toDigits 10 n
  | .negSucc n => '-' :: Nat.toDigits 10 (n + 1)

/-- The rest of an array. -/
def arrayRest : List Str → Str
  | [] => [']']
  | v :: l => ',' :: (v ++ arrayRest l)

/-- An array of values. -/
def array : List Str → Str
  | [] => S "[]"
  | v :: l => '[' :: (v ++ arrayRest l)

/-- A slice: nil is `null`. -/
def slice (isNil : Bool) (l : List Str) : Str := if isNil then S "null" else array l

/-- The rest of an object. -/
def objectRest : List (String × Str) → Str
  | [] => ['}']
  | (k, v) :: l => ',' :: '"' :: (S k ++ '"' :: ':' :: (v ++ objectRest l))

/-- A struct: names and values of the fields. -/
def object : List (String × Str) → Str
  | [] => S "{}"
  | (k, v) :: l => '{' :: '"' :: (S k ++ '"' :: ':' :: (v ++ objectRest l))

/-- types.go:36-39 `Reference`. -/
def reference (r : Reference) : Str :=
  object [("table_name", str r.tableName),
    ("column_names", match r.columnNames with
      | none => S "null"
      | some l => array (l.map str))]

/-- types.go:30, an interface value. For the infinities and NaN `Marshal` fails, see `marshal`. -/
def value (fmt : Bool → Nat → Str) : Go.Value → Str
  | .nil => S "null"
  | .float (.finite neg u) => fmt neg u
  | .float _ => S "null"
  | .str s => str s
  | .bool b => bool b

/-- types.go:18-22 `DataType`. -/
def dataType (t : DataType) : Str :=
  object [("name", str t.name), ("digit_n", int t.digitN), ("digit_m", int t.digitM)]

/-- types.go:24-34 `Constraint`. -/
def constraint (fmt : Bool → Nat → Str) (c : Constraint) : Str :=
  object [("name", str c.name), ("is_primary_key", bool c.isPrimaryKey), ("is_unique", bool c.isUnique),
    ("is_not_null", bool c.isNotNull), ("is_autoincrement", bool c.isAutoincrement),
    ("default", value fmt (Go.goValue c.default)), ("check", str c.check), ("collate", str c.collate),
    ("references", reference c.references)]

/-- types.go:12-16 `Column`. -/
def column (fmt : Bool → Nat → Str) (c : Column) : Str :=
  object [("name", str c.name), ("data_type", dataType c.dataType), ("constraint", constraint fmt c.constraint)]

/-- types.go:48-56 `PrimaryKey`, `Unique`. -/
def key (h : Heap) (name : Str) (s : Option Sl) : Str :=
  object [("name", str name), ("column_names", slice s.isNone ((strsAt h s).map str))]

/-- types.go:58-61 `Check`. -/
def check (c : Check) : Str := object [("name", str c.name), ("expr", str c.expr)]

/-- types.go:63-67 `ForeignKey`. -/
def foreignKey (h : Heap) (k : MForeignKey) : Str :=
  object [("name", str k.name), ("column_names", slice k.columnNames.isNone ((strsAt h k.columnNames).map str)),
    ("references", reference (referenceAt h k.references))]

/-- types.go:41-46 `TableConstraint`. -/
def tableConstraint (h : Heap) (t : MTableConstraint) : Str :=
  object
    [("primary_key", slice t.primaryKey.isNone ((cells h t.primaryKey).filterMap fun c => match c with
      | .primaryKey k => some (key h k.name k.columnNames)
      | _ => none)),
     ("unique", slice t.unique.isNone ((cells h t.unique).filterMap fun c => match c with
      | .unique k => some (key h k.name k.columnNames)
      | _ => none)),
     ("check", slice t.check.isNone ((cells h t.check).filterMap fun c => match c with
      | .check k => some (check k)
      | _ => none)),
     ("foreign_key", slice t.foreignKey.isNone ((cells h t.foreignKey).filterMap fun c => match c with
      | .foreignKey k => some (foreignKey h k)
      | _ => none))]

/-- types.go:4-10 `Table`. -/
def table (fmt : Bool → Nat → Str) (h : Heap) (t : MTable) : Str :=
  object [("schema", str t.schema), ("name", str t.name), ("if_not_exists", bool t.ifNotExists),
    ("columns", slice t.columns.isNone ((columnsAt h t.columns).map (column fmt))),
    ("constraints", tableConstraint h t.constraints)]

/-- `json.Marshal(tables)`; `none` is an error. -/
def marshal (fmt : Bool → Nat → Str) (h : Heap) (s : Option Sl) : Option Str :=
  if Out.marshalFails (tablesAt h s) then none else some (slice s.isNone ((tablesIn h s).map (table fmt h)))

end DDL.Json
