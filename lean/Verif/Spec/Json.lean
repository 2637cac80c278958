import Verif.Model.Basic
import Verif.Model.Value
/-
JSON texts (RFC 8259), written without blanks, and what they say; and the JSON that the tables are.
-/

namespace DDL.Spec

/-- What a JSON text says. A number is its text. -/
inductive J where
  | null
  | bool (b : Bool)
  | num (s : Str)
  | str (s : Str)
  | arr (l : List J)
  | obj (l : List (Str × J))

/-- The value of a hexadecimal digit. -/
def hexValue (c : Char) : Option Nat :=
  if '0'.toNat ≤ c.toNat ∧ c.toNat ≤ '9'.toNat then some (c.toNat - '0'.toNat)
  else if 'a'.toNat ≤ c.toNat ∧ c.toNat ≤ 'f'.toNat then some (c.toNat - 'a'.toNat + 10)
  else if 'A'.toNat ≤ c.toNat ∧ c.toNat ≤ 'F'.toNat then some (c.toNat - 'A'.toNat + 10)
  else none

/-- The ways to write a character inside quotes (RFC 8259, section 7). -/
inductive JChar : Char → Str → Prop
  | plain {c : Char} : 0x20 ≤ c.toNat → c ≠ '"' → c ≠ '\\' → JChar c [c]
  | short {c e : Char} : (c, e) ∈ [('"', '"'), ('\\', '\\'), ('/', '/'), (Char.ofNat 8, 'b'), (Char.ofNat 12, 'f'), ('\n', 'n'),
      ('\r', 'r'), ('\t', 't')] → JChar c ['\\', e]
  | hex {c d₁ d₂ d₃ d₄ : Char} {n₁ n₂ n₃ n₄ : Nat} : hexValue d₁ = some n₁ → hexValue d₂ = some n₂ → hexValue d₃ = some n₃ →
      hexValue d₄ = some n₄ → c.toNat = ((n₁ * 16 + n₂) * 16 + n₃) * 16 + n₄ → JChar c ['\\', 'u', d₁, d₂, d₃, d₄]

/-- The ways to write a string, without the quotes. -/
inductive JChars : Str → Str → Prop
  | nil : JChars [] []
  | cons {c : Char} {s x y : Str} : JChar c x → JChars s y → JChars (c :: s) (x ++ y)

/-- Digits. -/
def JDigits (s : Str) : Prop := s ≠ [] ∧ ∀ c ∈ s, c.isDigit = true

/-- Numbers (RFC 8259, section 6): sign, digits without leading zeros, fraction, exponent. -/
def JNumber (s : Str) : Prop :=
  ∃ sign whole frac exp, s = sign ++ whole ++ frac ++ exp ∧ (sign = [] ∨ sign = ['-']) ∧
    JDigits whole ∧ (whole.head? = some '0' → whole = ['0']) ∧
    (frac = [] ∨ ∃ ds, frac = '.' :: ds ∧ JDigits ds) ∧
    (exp = [] ∨ ∃ e sg ds, exp = e :: sg ++ ds ∧ (e = 'e' ∨ e = 'E') ∧ (sg = [] ∨ sg = ['+'] ∨ sg = ['-']) ∧ JDigits ds)

mutual
/-- The text of a JSON value. -/
inductive JText : J → Str → Prop
  | null : JText .null ['n', 'u', 'l', 'l']
  | true : JText (.bool true) ['t', 'r', 'u', 'e']
  | false : JText (.bool false) ['f', 'a', 'l', 's', 'e']
  | num {s : Str} : JNumber s → JText (.num s) s
  | str {s x : Str} : JChars s x → JText (.str s) ('"' :: (x ++ ['"']))
  | arr {l : List J} {x : Str} : JItems l x → JText (.arr l) ('[' :: (x ++ [']']))
  | obj {l : List (Str × J)} {x : Str} : JMembers l x → JText (.obj l) ('{' :: (x ++ ['}']))
/-- Values with commas in between. -/
inductive JItems : List J → Str → Prop
  | nil : JItems [] []
  | one {v : J} {x : Str} : JText v x → JItems [v] x
  | cons {v w : J} {l : List J} {x y : Str} : JText v x → JItems (w :: l) y → JItems (v :: w :: l) (x ++ ',' :: y)
/-- Names and values with commas in between. -/
inductive JMembers : List (Str × J) → Str → Prop
  | nil : JMembers [] []
  | one {k kx : Str} {v : J} {x : Str} : JChars k kx → JText v x → JMembers [(k, v)] ('"' :: (kx ++ '"' :: ':' :: x))
  | cons {k kx : Str} {v : J} {p : Str × J} {l : List (Str × J)} {x y : Str} : JChars k kx → JText v x → JMembers (p :: l) y →
      JMembers ((k, v) :: p :: l) ('"' :: (kx ++ '"' :: ':' :: (x ++ ',' :: y)))
end

/-! ### the JSON of the tables, with the names of the README -/

/-- A list; without elements it is null. -/
def J.list (l : List J) : J := if l.isEmpty then .null else .arr l

/-- A list of strings. -/
def J.strs (l : List Str) : J := .arr (l.map .str)

/-- An integer. -/
def J.int (i : Int) : J := .num (if i < 0 then '-' :: Nat.toDigits 10 i.natAbs else Nat.toDigits 10 i.natAbs)

/-- A default value; `fmt` writes numbers. -/
def J.value (fmt : Bool → Nat → Str) : Go.Value → J
  | .nil => .null
  | .float (.finite neg u) => .num (fmt neg u)
  | .float _ => .null
  | .str s => .str s
  | .bool b => .bool b

/-- A reference. -/
def J.reference (r : Reference) : J :=
  .obj [(S "table_name", .str r.tableName), (S "column_names", (r.columnNames.map J.strs).getD .null)]

/-- A column. -/
def J.column (fmt : Bool → Nat → Str) (c : Column) : J :=
  .obj [(S "name", .str c.name),
    (S "data_type", .obj [(S "name", .str c.dataType.name), (S "digit_n", .int c.dataType.digitN),
      (S "digit_m", .int c.dataType.digitM)]),
    (S "constraint", .obj [(S "name", .str c.constraint.name), (S "is_primary_key", .bool c.constraint.isPrimaryKey),
      (S "is_unique", .bool c.constraint.isUnique), (S "is_not_null", .bool c.constraint.isNotNull),
      (S "is_autoincrement", .bool c.constraint.isAutoincrement),
      (S "default", .value fmt (Go.goValue c.constraint.default)), (S "check", .str c.constraint.check),
      (S "collate", .str c.constraint.collate), (S "references", .reference c.constraint.references)])]

/-- A table. -/
def J.table (fmt : Bool → Nat → Str) (t : Table) : J :=
  .obj [(S "schema", .str t.schema), (S "name", .str t.name), (S "if_not_exists", .bool t.ifNotExists),
    (S "columns", .list (t.columns.map (.column fmt))),
    (S "constraints", .obj
      [(S "primary_key", .list (t.constraints.primaryKey.map fun k =>
        .obj [(S "name", .str k.name), (S "column_names", .strs k.columnNames)])),
       (S "unique", .list (t.constraints.unique.map fun k =>
        .obj [(S "name", .str k.name), (S "column_names", .strs k.columnNames)])),
       (S "check", .list (t.constraints.check.map fun k => .obj [(S "name", .str k.name), (S "expr", .str k.expr)])),
       (S "foreign_key", .list (t.constraints.foreignKey.map fun k =>
        .obj [(S "name", .str k.name), (S "column_names", .strs k.columnNames), (S "references", .reference k.references)]))])]

/-- The tables; an empty list of tables is `[]`. -/
def J.tables (fmt : Bool → Nat → Str) (ts : List Table) : J := .arr (ts.map (.table fmt))

/-! ### results that are the same but for the way a number was written -/

/-- A column without its default, and the value of the default. -/
def seenColumn (c : Column) : Column × Go.Value :=
  ({ c with constraint := { c.constraint with default := .nil } }, Go.goValue c.constraint.default)

/-- A table without its columns, and the columns. -/
def seen (t : Table) : Table × List (Column × Go.Value) := ({ t with columns := [] }, t.columns.map seenColumn)

end DDL.Spec
