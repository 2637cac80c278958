import Verif.Spec.KeyWords
import Verif.Spec.Lang
import Verif.Spec.Denote
import Verif.Model.Parse
/-
Specification: scripts that differ only in the letter case of words, or only in the choice of
names, and what it means for their results to correspond.
-/

namespace DDL.Spec

/-- Two lists correspond element by element. -/
inductive Each (R : α → β → Prop) : List α → List β → Prop
  | nil : Each R [] []
  | cons (h : R a b) (hs : Each R as bs) : Each R (a :: as) (b :: bs)

/-- Upper-case form. -/
def upper (t : Str) : Str := t.map Char.toUpper

/-- Written in one case throughout. -/
def OneCase (t : Str) : Prop := (∀ c ∈ t, c.isLower = false) ∨ (∀ c ∈ t, c.isUpper = false)

/-- The same token up to letter case; a key word is written in one case on both sides, or the same
way on both sides. -/
def Recased (d : Rdbms) (t t' : Str) : Prop :=
  upper t = upper t' ∧
    (t = t' ∨ ((∃ w ∈ grammarWords d, upper t = w.toList) → OneCase t ∧ OneCase t'))

/-- A word without meaning in the dialect: usable as a name and nothing else. -/
structure Ordinary (isNum : Str → Bool) (d : Rdbms) (t : Str) : Prop where
  name : PlainName d t
  word : ∀ w ∈ grammarWords d, upper t ≠ w.toList
  number : isNum t = false

/-- `ρ` renames ordinary words to ordinary words and leaves all other tokens as they are. -/
def Renaming (isNum : Str → Bool) (d : Rdbms) (ρ : Str → Str) : Prop :=
  ∀ t, (Ordinary isNum d t → Ordinary isNum d (ρ t)) ∧ (¬ Ordinary isNum d t → ρ t = t)

/-! ### Corresponding results, for corresponding tokens -/

section
variable (d : Rdbms) (T : Str → Str → Prop)

/-- Names of corresponding tokens, or no name. -/
def NameRel (x y : Str) : Prop :=
  (x = [] ∧ y = []) ∨ ∃ t t', T t t' ∧ x = nameVal d t ∧ y = nameVal d t'

/-- Texts made of corresponding tokens. -/
def TextRel (x y : Str) : Prop := ∃ ts ts', Each T ts ts' ∧ x = ts.flatten ∧ y = ts'.flatten

/-- The same type name, made of two words, or types named by corresponding tokens, in upper case; `up` is the
upper case of a character. -/
def TypeNameRel (up : Char → Char) (x y : Str) : Prop :=
  (x = y ∧ (x = S "VARBIT" ∨ x = S "VARCHAR")) ∨ ∃ t t', T t t' ∧
    ((x = t.map up ∧ y = t'.map up) ∨ (x = t.map up ++ S " VARYING" ∧ y = t'.map up ++ S " VARYING"))

/-- Corresponding data types. -/
structure TypeRel (up : Char → Char) (x y : DataType) : Prop where
  name : TypeNameRel T up x.name y.name
  digitN : x.digitN = y.digitN
  digitM : x.digitM = y.digitM

/-- Corresponding defaults. -/
inductive DefaultRel : DefaultVal → DefaultVal → Prop
  | nil : DefaultRel .nil .nil
  | bool (b : Bool) : DefaultRel (.bool b) (.bool b)
  | num (h : T t t') : DefaultRel (.num t) (.num t')
  | str (h : T t t') (hq : ∃ q r, t = q :: r ∧ (q = '"' ∨ q = '\'' ∨ q = '`')) :
      DefaultRel (.str (content t)) (.str (content t'))
  | text (h : TextRel T x y) : DefaultRel (.str x) (.str y)

/-- Corresponding lists of columns of a reference. -/
inductive ColsRel : Option (List Str) → Option (List Str) → Prop
  | none : ColsRel none none
  | some (h : Each T xs ys) : ColsRel (some xs) (some ys)

/-- Corresponding references. -/
structure RefRel (x y : Reference) : Prop where
  tableName : NameRel d T x.tableName y.tableName
  columnNames : ColsRel T x.columnNames y.columnNames

/-- Corresponding column constraints. -/
structure ConRel (x y : Constraint) : Prop where
  name : NameRel d T x.name y.name
  isPrimaryKey : x.isPrimaryKey = y.isPrimaryKey
  isUnique : x.isUnique = y.isUnique
  isNotNull : x.isNotNull = y.isNotNull
  isAutoincrement : x.isAutoincrement = y.isAutoincrement
  default : DefaultRel T x.default y.default
  check : TextRel T x.check y.check
  collate : NameRel d T x.collate y.collate
  references : RefRel d T x.references y.references

/-- Corresponding columns. -/
structure ColRel (up : Char → Char) (x y : Column) : Prop where
  name : NameRel d T x.name y.name
  dataType : TypeRel T up x.dataType y.dataType
  constraint : ConRel d T x.constraint y.constraint

/-- Corresponding primary keys. -/
structure PrimaryKeyRel (x y : PrimaryKey) : Prop where
  name : NameRel d T x.name y.name
  columnNames : Each T x.columnNames y.columnNames

/-- Corresponding unique keys. -/
structure UniqueRel (x y : Unique) : Prop where
  name : NameRel d T x.name y.name
  columnNames : Each T x.columnNames y.columnNames

/-- Corresponding checks. -/
structure CheckRel (x y : Check) : Prop where
  name : NameRel d T x.name y.name
  expr : TextRel T x.expr y.expr

/-- Corresponding foreign keys. -/
structure ForeignKeyRel (x y : ForeignKey) : Prop where
  name : NameRel d T x.name y.name
  columnNames : Each T x.columnNames y.columnNames
  references : RefRel d T x.references y.references

/-- Corresponding table constraints. -/
structure TableConRel (x y : TableConstraint) : Prop where
  primaryKey : Each (PrimaryKeyRel d T) x.primaryKey y.primaryKey
  unique : Each (UniqueRel d T) x.unique y.unique
  check : Each (CheckRel d T) x.check y.check
  foreignKey : Each (ForeignKeyRel d T) x.foreignKey y.foreignKey

/-- Corresponding tables. -/
structure TableRel (up : Char → Char) (x y : Table) : Prop where
  schema : NameRel d T x.schema y.schema
  name : NameRel d T x.name y.name
  ifNotExists : x.ifNotExists = y.ifNotExists
  columns : Each (ColRel d T up) x.columns y.columns
  constraints : TableConRel d T x.constraints y.constraints

end

/-- `Parse` acts on the two texts in corresponding ways: corresponding tables, errors at the same
line and at corresponding tokens, and neither or both fail to return. -/
structure Corresponding [CaseMap] (isNum : Str → Bool) (d : Rdbms) (T : Str → Str → Prop)
    (ddl ddl' : List Char) : Prop where
  tables : ∀ tbs, Returns isNum ddl d (tbs, none) →
    ∃ tbs', Returns isNum ddl' d (tbs', none) ∧ Each (TableRel d T CaseMap.up) tbs tbs'
  error : ∀ e, Returns isNum ddl d ([], some e) →
    ∃ e', Returns isNum ddl' d ([], some e') ∧ e'.line = e.line ∧ T e.near e'.near
  hangs : Hangs isNum ddl d ↔ Hangs isNum ddl' d

/-! ### Results with every text in upper case -/

/-- Default in upper case. -/
def upperDefault : DefaultVal → DefaultVal
  | .nil => .nil
  | .num t => .num (upper t)
  | .str t => .str (upper t)
  | .bool b => .bool b

/-- Reference in upper case. -/
def upperRef (r : Reference) : Reference :=
  ⟨upper r.tableName, r.columnNames.map (·.map upper)⟩

/-- Column constraint in upper case. -/
def upperCon (c : Constraint) : Constraint :=
  { c with name := upper c.name, default := upperDefault c.default, check := upper c.check,
           collate := upper c.collate, references := upperRef c.references }

/-- Column in upper case. -/
def upperCol (c : Column) : Column :=
  ⟨upper c.name, ⟨upper c.dataType.name, c.dataType.digitN, c.dataType.digitM⟩,
   upperCon c.constraint⟩

/-- Table in upper case. -/
def upperTable (t : Table) : Table where
  schema := upper t.schema
  name := upper t.name
  ifNotExists := t.ifNotExists
  columns := t.columns.map upperCol
  constraints :=
    { primaryKey := t.constraints.primaryKey.map fun k => ⟨upper k.name, k.columnNames.map upper⟩
      unique := t.constraints.unique.map fun k => ⟨upper k.name, k.columnNames.map upper⟩
      check := t.constraints.check.map fun k => ⟨upper k.name, upper k.expr⟩
      foreignKey := t.constraints.foreignKey.map fun k =>
        ⟨upper k.name, k.columnNames.map upper, upperRef k.references⟩ }

end DDL.Spec
