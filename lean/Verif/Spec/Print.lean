import Verif.Spec.Grammar
import Verif.Spec.Lexeme
/-
Specification, part 6: writing table descriptions out as a script, and which descriptions can be
written (for C10). Only the public result types are used, and what a name, a literal and a lexeme
are.
-/

namespace DDL.Spec
open DDL

/-! ### The text -/

/-- The quote used for names. -/
def nameQuote : Rdbms → Char
  | .mysql => '`'
  | _ => '"'

/-- A quoted name and a blank. -/
def nameText (d : Rdbms) (n : Str) : List Char := nameQuote d :: n ++ [nameQuote d, ' ']

/-- A piece of text and a blank. -/
def piece (s : List Char) : List Char := s ++ [' ']

/-- Text if the condition holds. -/
def textIf (b : Bool) (s : List Char) : List Char := if b then s else []

/-- Decimal digits of a number. -/
def decDigits (n : Nat) : List Char :=
  if n < 10 then [Char.ofNat ('0'.toNat + n)]
  else decDigits (n / 10) ++ [Char.ofNat ('0'.toNat + n % 10)]
termination_by n
decreasing_by omega

/-- `( n )`, `( n , m )` or nothing. -/
def digitsText (n m : Int) : List Char :=
  if n = 0 then []
  else S "( " ++ piece (decDigits n.toNat) ++
    (if m = 0 then [] else S ", " ++ piece (decDigits m.toNat)) ++ S ") "

/-- Data type. -/
def typeText (d : Rdbms) (τ : DataType) : List Char :=
  piece τ.name ++ textIf (d == .postgres && τ.name == S "DOUBLE") (S "PRECISION ") ++
    digitsText τ.digitN τ.digitM

/-- `DEFAULT value` -/
def defaultText : DefaultVal → List Char
  | .nil => []
  | .num t => S "DEFAULT " ++ piece t
  | .str s => S "DEFAULT '" ++ s ++ S "' "
  | .bool true => S "DEFAULT TRUE "
  | .bool false => S "DEFAULT FALSE "

/-- `n , n , ... ` -/
def keysText : List Str → List Char
  | [] => []
  | [k] => piece k
  | k :: ks => piece k ++ S ", " ++ keysText ks

/-- `( n , n , ... ) ` -/
def keyListText (ks : List Str) : List Char := S "( " ++ keysText ks ++ S ") "

/-- `REFERENCES table [( n , ... )] ` -/
def referenceText (d : Rdbms) (r : Reference) : List Char :=
  S "REFERENCES " ++ nameText d r.tableName ++
    match r.columnNames with
    | none => []
    | some ks => keyListText ks

/-- `CONSTRAINT name ` or nothing. -/
def conNameText (d : Rdbms) (n : Str) : List Char :=
  textIf (n != []) (S "CONSTRAINT " ++ nameText d n)

/-- `COLLATE name ` or nothing: one of three words in SQLite, a quoted name in MySQL. -/
def collateText (d : Rdbms) (n : Str) : List Char :=
  textIf (n != []) (S "COLLATE " ++ if d = .mysql then nameText d n else piece n)

/-- The constraints of a column. -/
def constraintText (d : Rdbms) (c : Constraint) : List Char :=
  conNameText d c.name ++
  textIf c.isPrimaryKey (S "PRIMARY KEY ") ++
  textIf c.isAutoincrement (if d = .mysql then S "AUTO_INCREMENT " else S "AUTOINCREMENT ") ++
  textIf c.isNotNull (S "NOT NULL ") ++
  textIf c.isUnique (S "UNIQUE ") ++
  defaultText c.default ++
  collateText d c.collate ++
  textIf (c.check != []) (S "CHECK " ++ piece c.check) ++
  textIf (c.references != {}) (referenceText d c.references)

/-- A column. -/
def columnText (d : Rdbms) (c : Column) : List Char :=
  nameText d c.name ++ typeText d c.dataType ++ constraintText d c.constraint

/-- `[CONSTRAINT name] PRIMARY KEY ( ... ) ` -/
def primaryKeyText (d : Rdbms) (k : PrimaryKey) : List Char :=
  conNameText d k.name ++ S "PRIMARY KEY " ++ keyListText k.columnNames

/-- `[CONSTRAINT name] UNIQUE ( ... ) ` -/
def uniqueText (d : Rdbms) (k : Unique) : List Char :=
  conNameText d k.name ++ S "UNIQUE " ++ keyListText k.columnNames

/-- `[CONSTRAINT name] CHECK expr ` -/
def checkText (d : Rdbms) (k : Check) : List Char :=
  conNameText d k.name ++ S "CHECK " ++ piece k.expr

/-- `[CONSTRAINT name] FOREIGN KEY ( ... ) REFERENCES ... ` -/
def foreignKeyText (d : Rdbms) (k : ForeignKey) : List Char :=
  conNameText d k.name ++ S "FOREIGN KEY " ++ keyListText k.columnNames ++
    referenceText d k.references

/-- The entries of a table: columns first, then the constraints. -/
def itemTexts (d : Rdbms) (t : Table) : List (List Char) :=
  t.columns.map (columnText d) ++ t.constraints.primaryKey.map (primaryKeyText d) ++
    t.constraints.unique.map (uniqueText d) ++ t.constraints.check.map (checkText d) ++
    t.constraints.foreignKey.map (foreignKeyText d)

/-- Entries with commas between them. -/
def sepText : List (List Char) → List Char
  | [] => []
  | [x] => x
  | x :: xs => x ++ S ", " ++ sepText xs

/-- A CREATE TABLE statement. -/
def tableText (d : Rdbms) (t : Table) : List Char :=
  S "CREATE TABLE " ++ textIf t.ifNotExists (S "IF NOT EXISTS ") ++
    textIf (t.schema != []) (nameText d t.schema ++ S ". ") ++ nameText d t.name ++
    S "( " ++ sepText (itemTexts d t) ++ S ") ; "

/-- A script: the statements one after the other. -/
def scriptText (d : Rdbms) (ts : List Table) : List Char := ts.flatMap (tableText d)

/-! ### What can be written -/

/-- Content of a quoted token: no quotes and no newlines. -/
def Quotable (s : Str) : Prop := ∀ c ∈ s, c ∉ quotes ∧ c ≠ '\n'

/-- A name in a key list is reported as it is written: a quoted identifier with its quotes, or an
identifier that is not reserved. -/
def KeyName (d : Rdbms) (t : Str) : Prop :=
  (∃ q ∈ nameQuotes d, ∃ s, Quotable s ∧ t = q :: s ++ [q]) ∨ PlainName d t

/-- A list of key columns. -/
def KeyNames (d : Rdbms) (ks : List Str) : Prop := ks ≠ [] ∧ ∀ k ∈ ks, KeyName d k

/-- Tokens without layout and comments: words, punctuation, quoted text without newlines. -/
def Solid : Lexeme → Prop
  | .word _ => True
  | .punct _ => True
  | .quoted _ b => '\n' ∉ b
  | _ => False

/-- No two commas in a row. -/
def NoCommaPair : List Str → Prop
  | a :: b :: r => ¬ (a = S "," ∧ b = S ",") ∧ NoCommaPair (b :: r)
  | _ => True

/-- The text of an expression: in parentheses, balanced, without blanks. -/
def ExprOK (d : Rdbms) (s : List Char) : Prop :=
  ∃ ls e, WellFormed d ls ∧ (∀ l ∈ ls, Solid l) ∧ srcOf ls = s ∧
    toksOf ls = S "(" :: e ++ [S ")"] ∧ Bal e ∧ NoCommaPair e

/-- Digits: none, up to one, up to two. -/
def DigitsOK (k : Nat) (τ : DataType) : Prop :=
  0 ≤ τ.digitN ∧ τ.digitN < 2 ^ 63 ∧ 0 ≤ τ.digitM ∧ τ.digitM < 2 ^ 63 ∧
  (τ.digitN = 0 → τ.digitM = 0) ∧ (k = 0 → τ.digitN = 0) ∧ (k ≤ 1 → τ.digitM = 0)

/-- The types of a dialect, and how many digits they may have. -/
def types : Rdbms → List (List String × Nat)
  | .postgres =>
    [(["BIT", "CHARACTER"], 1), (["VARBIT", "VARCHAR", "CHAR"], 1), (["NUMERIC", "DECIMAL"], 2),
     (["DOUBLE"], 0), (["TIME", "TIMESTAMP"], 1), (dataTypePostgres, 0)]
  | .mysql =>
    [(["VARCHAR", "CHAR", "BINARY", "VARBINARY", "BLOB", "TEXT", "BIT", "TINYINT", "SMALLINT",
       "MEDIUMINT", "INT", "INTEGER", "BIGINT"], 1),
     (["NUMERIC", "DECIMAL", "FLOAT", "REAL", "DOUBLE"], 2),
     (["TIME", "DATETIME", "TIMESTAMP", "YEAR"], 1), (dataTypeMysql, 0)]
  | _ => [(["TEXT", "NUMERIC", "INTEGER", "REAL", "NONE"], 0)]

/-- Data type of the dialect, in upper case. -/
def TypeOK (d : Rdbms) (τ : DataType) : Prop :=
  ∃ p ∈ types d, ∃ w ∈ p.1, τ.name = w.toList ∧ DigitsOK p.2 τ

/-- Default value. -/
def DefaultOK (isNum : Str → Bool) (d : Rdbms) : DefaultVal → Prop
  | .nil => True
  | .num t => isNum t = true ∧ IsWord d t
  | .str s => Quotable s
  | .bool _ => True

/-- Collation: three of them in SQLite, in upper or lower case; none in PostgreSQL. -/
def CollateOK (d : Rdbms) (n : Str) : Prop :=
  n = [] ∨ match d with
    | .mysql => Quotable n
    | .postgres => False
    | _ => Kw ["BINARY", "NOCASE", "RTRIM"] n

/-- A reference to a table and perhaps columns of it. -/
def ReferenceOK (d : Rdbms) (r : Reference) : Prop :=
  Quotable r.tableName ∧ ∀ ks, r.columnNames = some ks → KeyNames d ks

/-- Constraints of a column. A column refers to one column at most. -/
def ConstraintOK (isNum : Str → Bool) (d : Rdbms) (c : Constraint) : Prop :=
  Quotable c.name ∧ DefaultOK isNum d c.default ∧ CollateOK d c.collate ∧
  (c.check ≠ [] → ExprOK d c.check) ∧ ReferenceOK d c.references ∧
  (∀ ks, c.references.columnNames = some ks → ks.length = 1) ∧
  (c.isAutoincrement = true → d = .mysql ∨ d = .sqlite ∧ c.isPrimaryKey = true)

/-- A column. -/
def ColumnOK (isNum : Str → Bool) (d : Rdbms) (c : Column) : Prop :=
  Quotable c.name ∧ TypeOK d c.dataType ∧ ConstraintOK isNum d c.constraint

/-- A table. A foreign key of MySQL must name the columns it refers to. -/
structure TableOK (isNum : Str → Bool) (d : Rdbms) (t : Table) : Prop where
  schema : Quotable t.schema
  name : Quotable t.name
  columns : ∀ c ∈ t.columns, ColumnOK isNum d c
  primaryKey : ∀ k ∈ t.constraints.primaryKey, Quotable k.name ∧ KeyNames d k.columnNames
  unique : ∀ k ∈ t.constraints.unique, Quotable k.name ∧ KeyNames d k.columnNames
  check : ∀ k ∈ t.constraints.check, Quotable k.name ∧ ExprOK d k.expr
  foreignKey : ∀ k ∈ t.constraints.foreignKey, Quotable k.name ∧ KeyNames d k.columnNames ∧
    ReferenceOK d k.references ∧ (d = .mysql → k.references.columnNames ≠ none)
  nonempty : itemTexts d t ≠ []

end DDL.Spec
