import Verif.Spec.Obs
import Verif.Spec.Alike
/-
Specification: the parts of a table come from the words of a text. `P` says which words there are.
-/

namespace DDL.Spec

/-- The word as it is, or between quotes. -/
def Named (P : Str → Prop) (x : Str) : Prop :=
  P x ∨ ∃ q, (q = '"' ∨ q = '\'' ∨ q = '`') ∧ P (q :: x ++ [q])

/-- Nothing, or such a word. -/
def MaybeNamed (P : Str → Prop) (x : Str) : Prop := x = [] ∨ Named P x

/-- Words without anything in between. -/
def Joined (P : Str → Prop) (x : Str) : Prop := ∃ ws : List Str, (∀ w ∈ ws, P w) ∧ x = ws.flatten

/-- A type name: a word in upper case, or two words of which the second is VARYING. `up` is the upper case of a character. -/
def TypeFrom (up : Char → Char) (P : Str → Prop) (x : Str) : Prop :=
  ∃ w, P w ∧ (x = w.map up ∨ ∃ v, P v ∧ Kw ["VARYING"] v ∧
    (w.map up = S "BIT" ∧ x = S "VARBIT" ∨ w.map up = S "CHARACTER" ∧ x = S "VARCHAR" ∨
      x = w.map up ++ S " VARYING"))

/-- A default value: a number, a keyword, a string without its quotes, or an expression. -/
def DefaultFrom (up : Char → Char) (isNum : Str → Bool) (P : Str → Prop) : DefaultVal → Prop
  | .nil => True
  | .num t => P t ∧ isNum t = true
  | .bool b => ∃ t, P t ∧ t.map up = if b then S "TRUE" else S "FALSE"
  | .str s => Named P s ∨ Joined P s

/-- A referenced table and its columns. -/
structure RefFrom (P : Str → Prop) (r : Reference) : Prop where
  table : MaybeNamed P r.tableName
  columns : ∀ cs, r.columnNames = some cs → ∀ c ∈ cs, P c

structure ConFrom (up : Char → Char) (isNum : Str → Bool) (P : Str → Prop) (c : Constraint) : Prop where
  name : MaybeNamed P c.name
  default : DefaultFrom up isNum P c.default
  check : Joined P c.check
  collate : MaybeNamed P c.collate
  references : RefFrom P c.references

structure ColumnFrom (up : Char → Char) (isNum : Str → Bool) (P : Str → Prop) (c : Column) : Prop where
  name : Named P c.name
  type : TypeFrom up P c.dataType.name
  constraint : ConFrom up isNum P c.constraint

structure TableConFrom (P : Str → Prop) (t : TableConstraint) : Prop where
  primaryKey : ∀ k ∈ t.primaryKey, MaybeNamed P k.name ∧ ∀ c ∈ k.columnNames, P c
  unique : ∀ k ∈ t.unique, MaybeNamed P k.name ∧ ∀ c ∈ k.columnNames, P c
  check : ∀ k ∈ t.check, MaybeNamed P k.name ∧ Joined P k.expr
  foreignKey : ∀ k ∈ t.foreignKey, MaybeNamed P k.name ∧ (∀ c ∈ k.columnNames, P c) ∧ RefFrom P k.references

/-- Every part of the table comes from the words. -/
structure TableFrom (up : Char → Char) (isNum : Str → Bool) (P : Str → Prop) (t : Table) : Prop where
  schema : MaybeNamed P t.schema
  name : Named P t.name
  columns : ∀ c ∈ t.columns, ColumnFrom up isNum P c
  constraints : TableConFrom P t.constraints

/-- The words of a text, and the three that the syntax check writes out when they are there in another
form (`create`, MySQL's `KEY` for PRIMARY KEY). -/
def WordOf (toks : List Str) (t : Str) : Prop :=
  t ∈ noNewlines toks ∨ t ∈ [S "CREATE", S "PRIMARY", S "KEY"]

end DDL.Spec
