import Verif.Spec.Obs
/-
Specification for C55: the constraints of a column written in another order.
-/

namespace DDL.Spec
open DDL

/-- Tokens, and the constraint they are meant to write. -/
structure Phrase where
  text : List Str
  con : ColCon

/-- The tokens are read as this constraint, at least when some tokens follow. -/
def Phrase.Reads (isNum : Str → Bool) (d : Rdbms) (p : Phrase) : Prop :=
  ∃ r, colConOf isNum d (p.text ++ r) p.con r

/-- The first token is the keyword `k`. -/
def Phrase.Starts (k : String) (p : Phrase) : Prop := ∃ t r, p.text = t :: r ∧ Kw [k] t

/-- `q` cannot stand directly after `p`, because its first word is then read as a part of `p`:
`NOT` after REFERENCES in SQLite (where it is the `NOT` of `NOT DEFERRABLE`), and in MySQL `NOT`
after a bare CHECK (where it is the `NOT` of `NOT ENFORCED`) and `KEY` after a bare UNIQUE. -/
def Absorbs (d : Rdbms) (p q : Phrase) : Prop :=
  match d with
  | .postgres => False
  | .mysql =>
    (∃ e, p.con = .check e ∧ p.text.length = e.length + 1 ∧ q.Starts "NOT") ∨
    (p.con = .unique ∧ p.text.length = 1 ∧ q.Starts "KEY")
  | _ => ∃ r, p.con = .references r ∧ q.Starts "NOT"

/-- No constraint takes the first word of the next one. -/
def NoneAbsorbs (d : Rdbms) : List Phrase → Prop
  | p :: q :: ps => ¬ Absorbs d p q ∧ NoneAbsorbs d (q :: ps)
  | _ => True

/-- The tokens of the constraints, one after the other. -/
def phrasesText (ps : List Phrase) : List Str := ps.flatMap Phrase.text

/-- The grammar of names, by dialect. -/
def nameDialect : Rdbms → Rdbms
  | .other => .sqlite
  | d => d

/-- `CREATE [TEMP] TABLE [IF NOT EXISTS] [schema.]name (`: SQLite has the `TEMP`. -/
def tableHead (d : Rdbms) : Lang (Bool × QName) := do
  kw ["CREATE"]
  let _ ← (match d with
    | .postgres => pure false
    | .mysql => pure false
    | _ => optWord ["TEMP", "TEMPORARY"] : Lang Bool)
  kw ["TABLE"]
  let ine ← ifNotExists
  let n ← qname (nameDialect d)
  kw ["("]
  return (ine, n)

/-- Somewhere in `ts`, after complete statements, the head of a CREATE TABLE statement and complete
entries, the definition of the column `c` of type `τ` starts, with the constraint name `cn`; `body`
are the tokens that follow. -/
def ColumnIn (isNum : Str → Bool) (d : Rdbms) (ts : List Str) (c : Str) (τ : TypeAst) (cn : ConName)
    (body : List Str) : Prop :=
  ∃ before ss start v items ty mid,
    ts = before ++ start ∧ script isNum d before ss ∧ tableHead d start v items ∧
    Entries (itemOf isNum d) items (c :: ty) ∧ Name (nameDialect d) c ∧ typeLang d ty τ mid ∧
    conNameLang d mid cn body

end DDL.Spec
