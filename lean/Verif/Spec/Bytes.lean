import Verif.Spec.Obs
/-
Texts and results as bytes. UTF-8 is the one of Lean's library (`String.utf8EncodeChar`). A string of
bytes inside a result is written with one character for each byte.
-/

namespace DDL.Spec

/-- The UTF-8 form of a text. -/
def utf8 (text : List Char) : List UInt8 := text.flatMap String.utf8EncodeChar

/-- The UTF-8 form, one character for each byte. -/
def utf8Str (t : Str) : Str := (utf8 t).map fun b => Char.ofNat b.toNat

/-- The text that bytes are read as: UTF-8, where a byte with which no character begins is read as U+FFFD. -/
inductive ReadAs : List UInt8 → List Char → Prop
  | nil : ReadAs [] []
  | char (c : Char) {r : List UInt8} {l : List Char} : ReadAs r l → ReadAs (String.utf8EncodeChar c ++ r) (c :: l)
  | bad (a : UInt8) {r : List UInt8} {l : List Char} : (∀ c s, a :: r ≠ String.utf8EncodeChar c ++ s) → ReadAs r l →
      ReadAs (a :: r) ('\uFFFD' :: l)

/-- Default value. -/
def utf8Default : DefaultVal → DefaultVal
  | .nil => .nil
  | .num t => .num (utf8Str t)
  | .str t => .str (utf8Str t)
  | .bool b => .bool b

/-- Reference. -/
def utf8Ref (r : Reference) : Reference := ⟨utf8Str r.tableName, r.columnNames.map (·.map utf8Str)⟩

/-- Column constraint. -/
def utf8Con (c : Constraint) : Constraint :=
  { c with name := utf8Str c.name, default := utf8Default c.default, check := utf8Str c.check,
           collate := utf8Str c.collate, references := utf8Ref c.references }

/-- Column. -/
def utf8Col (c : Column) : Column :=
  ⟨utf8Str c.name, ⟨utf8Str c.dataType.name, c.dataType.digitN, c.dataType.digitM⟩, utf8Con c.constraint⟩

/-- Table. -/
def utf8Table (t : Table) : Table where
  schema := utf8Str t.schema
  name := utf8Str t.name
  ifNotExists := t.ifNotExists
  columns := t.columns.map utf8Col
  constraints :=
    { primaryKey := t.constraints.primaryKey.map fun k => ⟨utf8Str k.name, k.columnNames.map utf8Str⟩
      unique := t.constraints.unique.map fun k => ⟨utf8Str k.name, k.columnNames.map utf8Str⟩
      check := t.constraints.check.map fun k => ⟨utf8Str k.name, utf8Str k.expr⟩
      foreignKey := t.constraints.foreignKey.map fun k =>
        ⟨utf8Str k.name, k.columnNames.map utf8Str, utf8Ref k.references⟩ }

/-- What `Parse` returns. -/
def utf8Result (r : List Table × Option VErr) : List Table × Option VErr :=
  (r.1.map utf8Table, r.2.map fun e => ⟨e.line, utf8Str e.near⟩)

end DDL.Spec
