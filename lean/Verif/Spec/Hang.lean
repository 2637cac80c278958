import Verif.Spec.Ast
/-
Specification: the entries of a table definition after which the code loses its place (C33, C34).
-/

namespace DDL.Spec

/-- A reference to `schema.table` or `schema.table (column)`. -/
def Ref.Qualified (r : Ref) : Prop :=
  (∃ s, r.table.schema = some s) ∧ (r.cols = none ∨ ∃ c, r.cols = some [.col c])

/-- A constraint of which the result shows nothing. -/
def ColCon.Silent : ColCon → Prop
  | .null => True
  | .other _ => True
  | _ => False

/-- A column whose last constraint of which the result shows anything is a qualified reference,
or a foreign key with a qualified reference. -/
def Item.EndsQualified : Item → Prop
  | .column c =>
    (∀ n, c.conName = .named n → ¬ Kw ["AUTOINCREMENT", "AUTO_INCREMENT"] n) ∧
    ∃ cs r cs', c.cons = cs ++ ColCon.references r :: cs' ∧ r.Qualified ∧ ∀ x ∈ cs', x.Silent
  | .foreignKey _ _ r => r.Qualified
  | _ => False

/-- Any MySQL index definition. -/
def Item.Index : Item → Prop
  | .index _ => True
  | .fulltext _ _ => True
  | _ => False

/-- A MySQL index definition (`INDEX`, `KEY`, or `FULLTEXT`/`SPATIAL` unless this has an index
name and no constraint name). -/
def Item.IsIndex : Item → Prop
  | .index _ => True
  | .fulltext n i => n ≠ .absent ∨ i = none
  | _ => False

/-- The second table begins like the first. -/
structure Begins (a b : Table) : Prop where
  schema : b.schema = a.schema
  name : b.name = a.name
  ifNotExists : b.ifNotExists = a.ifNotExists
  columns : a.columns <+: b.columns
  primaryKey : a.constraints.primaryKey <+: b.constraints.primaryKey
  unique : a.constraints.unique <+: b.constraints.unique
  check : a.constraints.check <+: b.constraints.check
  foreignKey : a.constraints.foreignKey <+: b.constraints.foreignKey

end DDL.Spec
