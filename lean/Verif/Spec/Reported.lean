import Verif.Spec.Denote
/-
Specification: what is reported of a column constraint that is named AUTOINCREMENT or AUTO_INCREMENT.
-/

namespace DDL.Spec

/-- The name of the constraint is AUTOINCREMENT or AUTO_INCREMENT, without quotes. -/
def ConName.Misread (n : ConName) : Prop := ∃ t, n = .named t ∧ Kw ["AUTOINCREMENT", "AUTO_INCREMENT"] t

instance (n : ConName) : Decidable n.Misread :=
  match n with
  | .named t => @decidable_of_iff _ (Kw ["AUTOINCREMENT", "AUTO_INCREMENT"] t) ⟨fun h => ⟨t, rfl, h⟩, fun ⟨_, e, h⟩ => by cases e; exact h⟩
    (by unfold Kw; infer_instance)
  | .absent => .isFalse (fun ⟨_, e, _⟩ => nomatch e)
  | .anonymous => .isFalse (fun ⟨_, e, _⟩ => nomatch e)

/-- The column as reported: such a constraint has no name, and the column is AUTOINCREMENT. -/
def columnRep (isNum : Str → Bool) (d : Rdbms) (c : ColAst) : Column :=
  if c.conName.Misread then
    { columnVal isNum d c with
      constraint := { (columnVal isNum d c).constraint with name := [], isAutoincrement := true } }
  else columnVal isNum d c

/-- The column that an entry gives. -/
def Item.columnRep? (isNum : Str → Bool) (d : Rdbms) : Item → Option Column
  | .column c => some (columnRep isNum d c)
  | _ => none

/-- The table as reported. -/
def tableRep (isNum : Str → Bool) (d : Rdbms) (t : TableAst) : Table :=
  { tableVal isNum d t with columns := t.items.filterMap (Item.columnRep? isNum d) }

/-- The tables as reported. -/
def tablesRep (isNum : Str → Bool) (d : Rdbms) (ss : List Stmt) : List Table :=
  ss.filterMap fun
    | .table t => some (tableRep isNum d t)
    | .other => none

/-- No reference to a table with a schema, no index definition. -/
def Item.Placed : Item → Prop
  | .column c => ∀ r, ColCon.references r ∈ c.cons → r.Plain
  | .foreignKey _ _ r => r.Plain
  | .index _ => False
  | .fulltext _ _ => False
  | _ => True

/-- Nothing after which the code loses its place: no reference to a table with a schema, no index definition, no unnamed
EXCLUDE followed by another entry at the start of a definition. -/
def Placed (ss : List Stmt) : Prop :=
  ∀ t, Stmt.table t ∈ ss → (∀ i ∈ t.items, i.Placed) ∧ ∀ i is, t.items = Item.exclude .absent :: i :: is → False

end DDL.Spec
