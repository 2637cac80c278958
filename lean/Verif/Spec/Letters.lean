import Verif.Spec.Alike
/-
Specification: what letters outside ASCII can change. `strings.ToUpper` may do anything to them; the other side is the
reading in which it leaves them alone.
-/

namespace DDL.Spec

/-- There is a letter (or another character) outside ASCII in it. -/
def Foreign (t : Str) : Prop := ∃ c ∈ t, 128 ≤ c.toNat

/-- A type name, and the same when foreign letters are left alone: they differ only if there are foreign letters, and then
by the upper case of these, or in that the words BIT VARYING or CHARACTER VARYING are recognised only with it. -/
def TypeNameAs [CaseMap] (n n' : Str) : Prop :=
  n = n' ∨ Foreign n' ∧ (n = upStr n' ∨ ∃ w, n' = w ++ S " VARYING" ∧
    (upStr w = S "BIT" ∧ n = S "VARBIT" ∨ upStr w = S "CHARACTER" ∧ n = S "VARCHAR"))

/-- A default value, and the same when foreign letters are left alone: they differ only if the latter is a string with
foreign letters, whose upper case is NULL, TRUE or FALSE. -/
def DefaultAs [CaseMap] (v v' : DefaultVal) : Prop :=
  v = v' ∨ ∃ t, v' = .str t ∧ Foreign t ∧
    (upStr t = S "NULL" ∧ v = .nil ∨ upStr t = S "TRUE" ∧ v = .bool true ∨ upStr t = S "FALSE" ∧ v = .bool false)

section
variable (N : Str → Str → Prop) (D : DefaultVal → DefaultVal → Prop)

/-- Columns with the same parts, up to the name of the type and the default value. -/
structure ColumnAs (c c' : Column) : Prop where
  name : c.name = c'.name
  typeName : N c.dataType.name c'.dataType.name
  digitN : c.dataType.digitN = c'.dataType.digitN
  digitM : c.dataType.digitM = c'.dataType.digitM
  default : D c.constraint.default c'.constraint.default
  constraint : { c.constraint with default := .nil } = { c'.constraint with default := .nil }

/-- Tables with the same parts, up to names of types and default values. -/
structure TableAs (t t' : Table) : Prop where
  columns : Each (ColumnAs N D) t.columns t'.columns
  others : { t with columns := [] } = { t' with columns := [] }

end

/-- What a call returns, and the same when foreign letters are left alone. -/
structure ResultAs [CaseMap] (r r' : List Table × Option VErr) : Prop where
  tables : Each (TableAs TypeNameAs DefaultAs) r.1 r'.1
  error : r.2 = r'.2

end DDL.Spec
