import Verif.Spec.Order
/-
Specification for C56: tables whose entries are put together.
-/

namespace DDL.Spec
open DDL

/-- The columns and constraints of `t`, then those of `u`. -/
def joined (t u : Table) : Table :=
  { t with
    columns := t.columns ++ u.columns
    constraints :=
      { primaryKey := t.constraints.primaryKey ++ u.constraints.primaryKey
        unique := t.constraints.unique ++ u.constraints.unique
        check := t.constraints.check ++ u.constraints.check
        foreignKey := t.constraints.foreignKey ++ u.constraints.foreignKey } }

/-- The tables have the same schema, name and `IF NOT EXISTS`. -/
def SameHead (t u : Table) : Prop := t.schema = u.schema ∧ t.name = u.name ∧ t.ifNotExists = u.ifNotExists

/-- The same columns and constraints, perhaps in another order. -/
structure Shuffled (t u : Table) : Prop where
  columns : t.columns.Perm u.columns
  primaryKey : t.constraints.primaryKey.Perm u.constraints.primaryKey
  unique : t.constraints.unique.Perm u.constraints.unique
  check : t.constraints.check.Perm u.constraints.check
  foreignKey : t.constraints.foreignKey.Perm u.constraints.foreignKey

/-- `X, Y, ..., Z` -/
def commas : List (List Str) → List Str
  | [] => []
  | [X] => X
  | X :: Xs => X ++ S "," :: commas Xs

end DDL.Spec
