import Verif.Model.Parse
import Verif.Spec.Grammar
import Verif.Spec.Denote
import Verif.Spec.Lexeme
/-
Specification, part 5: what can be observed of a run, and the grammar of each dialect value.
-/

namespace DDL.Spec
open DDL

/-- Grammar used for an `Rdbms` value. Unknown values are read as SQLite. -/
def stmtOf (isNum : Str → Bool) : Rdbms → Lang Stmt
  | .postgres => Postgres.stmt isNum
  | .mysql => Mysql.stmt isNum
  | _ => Sqlite.stmt isNum

/-- The entries of a table definition. -/
def itemOf (isNum : Str → Bool) : Rdbms → Lang Item
  | .postgres => Postgres.item isNum
  | .mysql => Mysql.item isNum
  | _ => Sqlite.item isNum

/-- The data types. -/
def typeLang : Rdbms → Lang TypeAst
  | .postgres => Postgres.type
  | .mysql => Mysql.type
  | _ => do
    let t ← tok (Kw ["TEXT", "NUMERIC", "INTEGER", "REAL", "NONE"])
    return ⟨t, false, none⟩

/-- The type names. -/
def typeNames : Rdbms → List String
  | .postgres => "DOUBLE" :: dataTypePostgres
  | .mysql => "REAL" :: dataTypeMysql
  | _ => ["TEXT", "NUMERIC", "INTEGER", "REAL", "NONE"]

/-- `[CONSTRAINT name]` in front of the constraints of a column. -/
def conNameLang : Rdbms → Lang ConName
  | .mysql => Mysql.conName ["CHECK"]
  | .postgres => conName .postgres
  | _ => conName .sqlite

/-- The constraints of a column. -/
def colConOf (isNum : Str → Bool) : Rdbms → Lang ColCon
  | .postgres => Postgres.colCon isNum
  | .mysql => Mysql.colCon isNum
  | _ => Sqlite.colCon isNum

/-- First keywords of the constraints of a column. -/
def colConFirstOf : Rdbms → List String
  | .postgres => Postgres.colConFirst
  | .mysql => Mysql.colConFirst
  | _ => Sqlite.colConFirst

/-- `ts` is made of `L`s, each followed by a comma, and then `rest`. -/
inductive Entries (L : Lang β) : List Str → List Str → Prop
  | nil : Entries L ts ts
  | cons (h : L ts v mid) (hc : kw [","] mid () mid') (hs : Entries L mid' rest) : Entries L ts rest

/-- `ts` is a script of the dialect, and `ss` are its statements. -/
def script (isNum : Str → Bool) (d : Rdbms) (ts : List Str) (ss : List Stmt) : Prop :=
  Script (stmtOf isNum d) ts ss

/-- Somewhere in `ts`, after complete statements, `CREATE TABLE t (` and complete entries, the
definition of the column `c` of type `τ` starts, with the constraint name `cn`; `body` are the
tokens that follow. -/
def ColumnAt (isNum : Str → Bool) (d : Rdbms) (ts : List Str) (c : Str) (τ : TypeAst) (cn : ConName)
    (body : List Str) : Prop :=
  ∃ before ss cr tb t items ty mid,
    ts = before ++ cr :: tb :: t :: S "(" :: items ∧ script isNum d before ss ∧
    Kw ["TABLE"] tb ∧ ¬ Kw ["IF"] t ∧ Entries (itemOf isNum d) items (c :: ty) ∧
    Name d c ∧ typeLang d ty τ mid ∧ conNameLang d mid cn body

/-- `ts` is made of `L`s, each starting with one of `ks`, with meanings `vs`, and then `rest`. -/
inductive Reads (ks : List String) (L : Lang β) : List Str → List β → List Str → Prop
  | nil : Reads ks L ts [] ts
  | cons (hk : at_ ks ts () ts) (h : L ts v mid) (hs : Reads ks L mid vs rest) :
      Reads ks L ts (v :: vs) rest

/-- `e` are tokens of `T` that directly follow the keyword `k`: a pair of parentheses with balanced
tokens inside. -/
def ExprSrc (T : List Str) (k : String) (e : List Str) : Prop :=
  (∃ i, Bal i ∧ e = ['('] :: i ++ [[')']]) ∧ ∃ a t b, T = a ++ t :: (e ++ b) ∧ Kw [k] t

/-- `t` is a literal of `T` that directly follows the keyword `k`. -/
def LitSrc (isNum : Str → Bool) (d : Rdbms) (T : List Str) (k : String) (t : Str) : Prop :=
  Literal isNum d t ∧ ∃ a x b, T = a ++ x :: t :: b ∧ Kw [k] x

/-- `s` is the name of a token of `T`: the content of a quoted identifier, or an unquoted identifier
that is not reserved. -/
def NameOf (d : Rdbms) (T : List Str) (s : Str) : Prop :=
  ∃ t ∈ T, (StartsWith (nameQuotes d) t ∧ s = content t) ∨ (PlainName d t ∧ s = t)

/-- Tokens without the newline tokens. -/
def noNewlines (ts : List Str) : List Str := ts.filter (fun t => decide (t ≠ nl))

/-- `Lex(ddl)` returns these tokens. -/
def Lexes (d : Rdbms) (ddl : List Char) (toks : List Str) : Prop :=
  ∃ n, Lex.lexN d n ddl = .ok toks

/-- `Lex(ddl)` returns this error. -/
def LexFails (d : Rdbms) (ddl : List Char) (e : VErr) : Prop :=
  ∃ n, Lex.lexN d n ddl = .err e

/-- `Validate(tokens)` returns these tokens. -/
def Validates (isNum : Str → Bool) (d : Rdbms) (toks out : List Str) : Prop :=
  ∃ n, validateN isNum d n toks = .ok out

/-- `Validate(tokens)` returns this error. -/
def Rejects (isNum : Str → Bool) (d : Rdbms) (toks : List Str) (e : VErr) : Prop :=
  ∃ n, validateN isNum d n toks = .err e

/-- `Convert(tokens)` returns these tables. -/
def Converts [CaseMap] (isNum : Str → Bool) (d : Rdbms) (toks : List Str) (ts : List Table) : Prop :=
  ∃ n, convertN isNum d n toks = .ok ts

/-- The text passes the lexer and the syntax check: `Parse` gets as far as `Convert`. -/
def Passes (isNum : Str → Bool) (d : Rdbms) (ddl : List Char) : Prop :=
  ∃ toks out, Lexes d ddl toks ∧ Validates isNum d toks out

/-- `Parse` does the same on both texts: the same tables, or an error near the same token
(the line may differ), or both never return. -/
def SameOutcome [CaseMap] (isNum : Str → Bool) (d : Rdbms) (a b : List Char) : Prop :=
  (∀ r, Returns isNum a d (r, none) ↔ Returns isNum b d (r, none)) ∧
  (∀ r x, (∃ l, Returns isNum a d (r, some ⟨l, x⟩)) ↔ ∃ l, Returns isNum b d (r, some ⟨l, x⟩)) ∧
  (Hangs isNum a d ↔ Hangs isNum b d)

end DDL.Spec
