import Verif.Spec.Ast
/-
Specification, part 4: what the statements denote. `Table`, `Column` etc. are the public
result types (internal/types/types.go); nothing else of the model is used here.
-/

namespace DDL.Spec

/-- Quotes removed from names; with an unknown dialect names keep their quotes. -/
def identQuotes : Rdbms → List Char
  | .other => []
  | d => nameQuotes d

/-- Quotes removed from string values. -/
def textQuotes : Rdbms → List Char
  | .other => []
  | d => stringQuotes d

/-- A token without its first and last character. -/
def content (t : Str) : Str := t.tail.dropLast

/-- The content of a token quoted with one of `qs`; any other token as it is. -/
def unquote (qs : List Char) (t : Str) : Str :=
  match t with
  | [] => []
  | c :: _ => if c ∈ qs then content t else t

/-- The name a name token stands for. -/
def nameVal (d : Rdbms) (t : Str) : Str := unquote (identQuotes d) t

/-- The value a literal token stands for. -/
def litVal (isNum : Str → Bool) (d : Rdbms) (t : Str) : DefaultVal :=
  if isNum t then .num t
  else if t.head?.any (fun c => c ∈ textQuotes d) then .str (content t)
  else if t.map Char.toUpper = S "NULL" then .nil
  else if t.map Char.toUpper = S "TRUE" then .bool true
  else if t.map Char.toUpper = S "FALSE" then .bool false
  else .str t

/-- Several commas in a row count as one. -/
def mergeCommas : List Str → List Str
  | [] => []
  | t :: r => if t = S "," ∧ r.head? = some (S ",") then mergeCommas r else t :: mergeCommas r

/-- The text of an expression: its tokens without separators. -/
def exprText (e : List Str) : Str := (mergeCommas e).flatten

/-- Value of a default. -/
def dfltVal (isNum : Str → Bool) (d : Rdbms) : Dflt → DefaultVal
  | .lit t => litVal isNum d t
  | .expr e => .str (exprText e)

/-- The columns of a key list, as written (names keep their quotes); expressions are left out. -/
def keyCols (ks : List KeyPart) : List Str :=
  ks.filterMap fun
    | .col n => some n
    | .expr => none

/-- A reference. -/
def refVal (d : Rdbms) (r : Ref) : Reference :=
  { tableName := nameVal d r.table.name, columnNames := r.cols.map keyCols }

/-- Type name in upper case; `BIT VARYING` is `VARBIT`, `CHARACTER VARYING` is `VARCHAR`. -/
def typeName (τ : TypeAst) : Str :=
  if τ.varying then
    if τ.name.map Char.toUpper = S "BIT" then S "VARBIT" else S "VARCHAR"
  else τ.name.map Char.toUpper

/-- The `n` of `(n)` or `(n, m)`. -/
def digitNVal : Option (Nat × Option Nat) → Int
  | none => 0
  | some (n, _) => n

/-- The `m` of `(n, m)`. -/
def digitMVal : Option (Nat × Option Nat) → Int
  | some (_, some m) => m
  | _ => 0

/-- Data type. -/
def typeVal (τ : TypeAst) : DataType :=
  { name := typeName τ, digitN := digitNVal τ.digits, digitM := digitMVal τ.digits }

/-- Name of a constraint; empty if there is none. -/
def conNameVal (d : Rdbms) : ConName → Str
  | .named n => nameVal d n
  | _ => []

/-- PRIMARY KEY (MySQL: or KEY). -/
def ColCon.isPrimaryKey : ColCon → Bool
  | .primaryKey _ => true
  | _ => false

/-- UNIQUE. -/
def ColCon.isUnique : ColCon → Bool
  | .unique => true
  | _ => false

/-- NOT NULL. -/
def ColCon.isNotNull : ColCon → Bool
  | .notNull => true
  | _ => false

/-- PRIMARY KEY AUTOINCREMENT or AUTO_INCREMENT. -/
def ColCon.isAutoincrement : ColCon → Bool
  | .primaryKey a => a
  | .autoIncrement => true
  | _ => false

/-- The default value. -/
def ColCon.dflt : ColCon → Option Dflt
  | .default v => some v
  | _ => none

/-- The checked expression. -/
def ColCon.checked : ColCon → Option (List Str)
  | .check e => some e
  | _ => none

/-- The collation. -/
def ColCon.collation : ColCon → Option Str
  | .collate n => some n
  | _ => none

/-- The reference. -/
def ColCon.reference : ColCon → Option Ref
  | .references r => some r
  | _ => none

/-- The constraint fields of a column. -/
def constraintVal (isNum : Str → Bool) (d : Rdbms) (n : ConName) (cs : List ColCon) :
    Constraint :=
  { name := conNameVal d n
    isPrimaryKey := cs.any ColCon.isPrimaryKey
    isUnique := cs.any ColCon.isUnique
    isNotNull := cs.any ColCon.isNotNull
    isAutoincrement := cs.any ColCon.isAutoincrement
    default := ((cs.findSome? ColCon.dflt).map (dfltVal isNum d)).getD .nil
    check := ((cs.findSome? ColCon.checked).map exprText).getD []
    collate := ((cs.findSome? ColCon.collation).map (nameVal d)).getD []
    references := ((cs.findSome? ColCon.reference).map (refVal d)).getD {} }

/-- A column. -/
def columnVal (isNum : Str → Bool) (d : Rdbms) (c : ColAst) : Column :=
  { name := nameVal d c.name
    dataType := typeVal c.type
    constraint := constraintVal isNum d c.conName c.cons }

/-- The column an entry defines. -/
def Item.column? (isNum : Str → Bool) (d : Rdbms) : Item → Option Column
  | .column c => some (columnVal isNum d c)
  | _ => none

/-- The primary key an entry defines. -/
def Item.primaryKey? (d : Rdbms) : Item → Option PrimaryKey
  | .primaryKey n ks => some ⟨conNameVal d n, keyCols ks⟩
  | _ => none

/-- The unique constraint an entry defines. -/
def Item.unique? (d : Rdbms) : Item → Option Unique
  | .unique n ks => some ⟨conNameVal d n, keyCols ks⟩
  | _ => none

/-- The check an entry defines. -/
def Item.check? (d : Rdbms) : Item → Option Check
  | .check n e => some ⟨conNameVal d n, exprText e⟩
  | _ => none

/-- The foreign key an entry defines. -/
def Item.foreignKey? (d : Rdbms) : Item → Option ForeignKey
  | .foreignKey n ks r => some ⟨conNameVal d n, keyCols ks, refVal d r⟩
  | _ => none

/-- A table. -/
def tableVal (isNum : Str → Bool) (d : Rdbms) (t : TableAst) : Table :=
  { schema := (t.name.schema.map (nameVal d)).getD []
    name := nameVal d t.name.name
    ifNotExists := t.ifNotExists
    columns := t.items.filterMap (Item.column? isNum d)
    constraints :=
      { primaryKey := t.items.filterMap (Item.primaryKey? d)
        unique := t.items.filterMap (Item.unique? d)
        check := t.items.filterMap (Item.check? d)
        foreignKey := t.items.filterMap (Item.foreignKey? d) } }

/-- The tables of a script: one for each CREATE TABLE statement, in order. -/
def tablesVal (isNum : Str → Bool) (d : Rdbms) (ss : List Stmt) : List Table :=
  ss.filterMap fun
    | .table t => some (tableVal isNum d t)
    | .other => none

/-! ### Scripts the code reports faithfully

The exclusions are real: for each of them the code does something else (see DESIGN.md). -/

/-- The reference names a table without a schema. -/
def Ref.Plain (r : Ref) : Prop := r.table.schema = none

/-- No schema-qualified reference, and the constraint is not named like an autoincrement
constraint. -/
def ColAst.Faithful (c : ColAst) : Prop :=
  (∀ r, ColCon.references r ∈ c.cons → r.Plain) ∧
  ∀ n, c.conName = .named n → ¬ Kw ["AUTOINCREMENT", "AUTO_INCREMENT"] n

/-- No schema-qualified reference and no index definition. -/
def Item.Faithful : Item → Prop
  | .column c => c.Faithful
  | .foreignKey _ _ r => r.Plain
  | .index _ => False
  | .fulltext _ _ => False
  | _ => True

/-- The table definition does not start with an unnamed EXCLUDE followed by another entry. -/
def TableAst.Faithful (t : TableAst) : Prop :=
  (∀ i ∈ t.items, i.Faithful) ∧
  ∀ i is, t.items = Item.exclude .absent :: i :: is → False

/-- Every table of the script is reported faithfully. -/
def Faithful (ss : List Stmt) : Prop := ∀ t, Stmt.table t ∈ ss → t.Faithful

end DDL.Spec
