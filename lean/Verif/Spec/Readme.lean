import Verif.Spec.Grammar
/-
Specification: the syntax documented in README.md (lines 109-275), transcribed rule by rule.

The notation has no lookahead and no order of choice: `[A]` may be left out whatever follows. The
grammar of C04-C06 (Spec/Grammar), in contrast, says when the parser takes an optional part.

The transcription has a level `l`. At `.readme` it is what the README says; at `.accepted` the parts
marked `only l` are left out: these are the parts that fail the syntax check; at `.returned` the parts
marked `most l` are also left out: these pass the syntax check, but are not converted properly. Apart
from these marks the three are the same text, so each is a sublanguage of the one before.

Reading conventions: `RIMARY` and `INVISIBL` of the README are PRIMARY and INVISIBLE; `type_name` is
any of the types of the dialect; `[column-constraint ...]` is any number of constraints; reference
clauses and table options may be repeated, in any order; column definitions and table constraints may
be mixed; `index-option`, which the README mentions but does not define, is that of the MySQL manual.
-/

namespace DDL.Readme
open Spec (Kw Name Literal StartsWith stringQuotes PosInt Bal dataTypePostgres dataTypeMysql)

/-- How much of the README. -/
inductive Level where
  | readme
  | accepted
  | returned
  deriving DecidableEq

/-- A rule of the README. -/
inductive Bnf where
  /-- nothing -/
  | eps
  /-- not available -/
  | no
  /-- `{A | B | ...}`, key words or punctuation -/
  | kw (ks : List String)
  /-- a name -/
  | name
  /-- a name other than one of these key words -/
  | nameBut (ks : List String)
  /-- a literal value -/
  | literal
  /-- a string in quotes -/
  | string
  /-- a positive integer -/
  | number
  /-- `(...)` or `(expr)` -/
  | parens
  /-- `A B` -/
  | seq (a b : Bnf)
  /-- `{A | B}` -/
  | alt (a b : Bnf)
  /-- `[A]` -/
  | opt (a : Bnf)
  /-- `[A] ...`: any number of `A` -/
  | many (a : Bnf)
  /-- `A, ...`: one or more, with commas between -/
  | list (a : Bnf)

@[inherit_doc] scoped infixr:35 " ⬝ " => Bnf.seq
@[inherit_doc] scoped infixr:30 " ∣∣ " => Bnf.alt

/-- Any number of steps. -/
inductive Star (R : List Str → List Str → Prop) : List Str → List Str → Prop
  | nil : Star R ts ts
  | cons (h : R ts mid) (hs : Star R mid rest) : Star R ts rest

/-- One or more steps with commas between. -/
inductive Commas (R : List Str → List Str → Prop) : List Str → List Str → Prop
  | one (h : R ts rest) : Commas R ts rest
  | cons (h : R ts (S "," :: mid)) (hs : Commas R mid rest) : Commas R ts rest

/-- `r` is a possible reading of the tokens of `ts` up to `rest`. -/
def Bnf.Derives (isNum : Str → Bool) (d : Rdbms) : Bnf → List Str → List Str → Prop
  | .eps, ts, rest => ts = rest
  | .no, _, _ => False
  | .kw ks, ts, rest => ∃ t, ts = t :: rest ∧ Kw ks t
  | .name, ts, rest => ∃ t, ts = t :: rest ∧ Name d t
  | .nameBut ks, ts, rest => ∃ t, ts = t :: rest ∧ Name d t ∧ ¬ Kw ks t
  | .literal, ts, rest => ∃ t, ts = t :: rest ∧ Literal isNum d t
  | .string, ts, rest => ∃ t, ts = t :: rest ∧ StartsWith (stringQuotes d) t
  | .number, ts, rest => ∃ t n, ts = t :: rest ∧ PosInt t n
  | .parens, ts, rest => ∃ e, Bal e ∧ ts = S "(" :: e ++ S ")" :: rest
  | .seq a b, ts, rest => ∃ mid, a.Derives isNum d ts mid ∧ b.Derives isNum d mid rest
  | .alt a b, ts, rest => a.Derives isNum d ts rest ∨ b.Derives isNum d ts rest
  | .opt a, ts, rest => ts = rest ∨ a.Derives isNum d ts rest
  | .many a, ts, rest => Star (a.Derives isNum d) ts rest
  | .list a, ts, rest => Commas (a.Derives isNum d) ts rest

/-- A part of the README that the code does not accept. -/
def only (l : Level) (r : Bnf) : Bnf := if l = .readme then r else .no

/-- A part of the README that the code accepts, but does not convert properly. -/
def most (l : Level) (r : Bnf) : Bnf := if l = .returned then .no else r

open Bnf

/-! ### Common to the dialects -/

/-- A word. -/
abbrev w (k : String) : Bnf := kw [k]

/-- `[schema_name.]table_name` -/
def table : Bnf := name ⬝ opt (w "." ⬝ name)

/-- `(column_name, ...)` -/
def columns : Bnf := w "(" ⬝ list name ⬝ w ")"

/-- `ON {DELETE | UPDATE} {SET NULL | SET DEFAULT | CASCADE | RESTRICT | NO ACTION}`
(README 131, 173, 227) -/
def onClause : Bnf :=
  w "ON" ⬝ kw ["DELETE", "UPDATE"] ⬝
    ((w "SET" ⬝ kw ["NULL", "DEFAULT"]) ∣∣ kw ["CASCADE", "RESTRICT"] ∣∣ (w "NO" ⬝ w "ACTION"))

/-- `MATCH {FULL | PARTIAL | SIMPLE}` (README 172, 226) -/
def matchClause : Bnf := w "MATCH" ⬝ kw ["SIMPLE", "PARTIAL", "FULL"]

/-- The clauses after a reference, PostgreSQL and MySQL. -/
def refClauses : Bnf := many (onClause ∣∣ matchClause)

/-- `{literal-value | (expr)}` -/
def default_ : Bnf := parens ∣∣ literal

/-- `[(n)]` after a type. -/
def digits : Bnf := opt (w "(" ⬝ number ⬝ w ")")

/-- `[(n [, m])]` after a type. -/
def digits2 : Bnf := opt (w "(" ⬝ number ⬝ opt (w "," ⬝ number) ⬝ w ")")

/-- `[{WITH | WITHOUT} TIME ZONE]` -/
def zone : Bnf := opt (kw ["WITH", "WITHOUT"] ⬝ w "TIME" ⬝ w "ZONE")

/-- A column constraint: its form, its kind, and its syntax without `[CONSTRAINT name]`. -/
structure Con where
  form : String
  kind : String
  phrase : Bnf

/-! ### SQLite (README 113-152) -/
namespace Sqlite

/-- `type_name` -/
def type : Bnf := kw ["TEXT", "NUMERIC", "INTEGER", "REAL", "NONE"]

/-- README 145-148 -/
def conflict : Bnf :=
  opt (w "ON" ⬝ w "CONFLICT" ⬝ kw ["ROLLBACK", "ABORT", "FAIL", "IGNORE", "REPLACE"])

/-- README 130-133, 140-143. `MATCH name` is accepted for three names only. -/
def refClauses (l : Level) : Bnf :=
  many (onClause ∣∣
    (w "MATCH" ⬝ (kw ["SIMPLE", "PARTIAL", "FULL"] ∣∣ only l name)) ∣∣
    (opt (w "NOT") ⬝ w "DEFERRABLE" ⬝ opt (w "INITIALLY" ⬝ kw ["DEFERRED", "IMMEDIATE"])))

/-- README 120-134 -/
def colCons (l : Level) : List Con := [
  ⟨"PRIMARY KEY", "PRIMARY",
    w "PRIMARY" ⬝ w "KEY" ⬝ opt (kw ["ASC", "DESC"]) ⬝ conflict ⬝ opt (w "AUTOINCREMENT")⟩,
  ⟨"UNIQUE", "UNIQUE", w "UNIQUE" ⬝ conflict⟩,
  ⟨"NOT NULL", "NULL", w "NOT" ⬝ w "NULL" ⬝ conflict⟩,
  ⟨"CHECK", "CHECK", w "CHECK" ⬝ parens⟩,
  ⟨"DEFAULT", "DEFAULT", w "DEFAULT" ⬝ default_⟩,
  ⟨"COLLATE", "COLLATE", w "COLLATE" ⬝ kw ["BINARY", "NOCASE", "RTRIM"]⟩,
  ⟨"GENERATED", "GENERATED",
    w "GENERATED" ⬝ w "ALWAYS" ⬝ w "AS" ⬝ parens ⬝ opt (kw ["STORED", "VIRTUAL"])⟩,
  ⟨"AS", "AS", w "AS" ⬝ parens ⬝ opt (kw ["STORED", "VIRTUAL"])⟩,
  ⟨"REFERENCES", "REFERENCES",
    w "REFERENCES" ⬝ name ⬝ opt (w "(" ⬝ name ⬝ w ")") ⬝ refClauses l⟩]

/-- README 135-144 -/
def tableCon (l : Level) : Bnf :=
  opt (w "CONSTRAINT" ⬝ name) ⬝
    ((w "PRIMARY" ⬝ w "KEY" ⬝ columns ⬝ conflict) ∣∣
     (w "UNIQUE" ⬝ columns ⬝ conflict) ∣∣
     (w "CHECK" ⬝ parens) ∣∣
     (w "FOREIGN" ⬝ w "KEY" ⬝ columns ⬝ w "REFERENCES" ⬝ name ⬝ opt columns ⬝ refClauses l))

/-- README 149-152, `[WITHOUT ROWID][STRICT]`: not both. -/
def options (l : Level) : Bnf :=
  opt (w "WITHOUT" ⬝ w "ROWID" ∣∣ w "STRICT" ∣∣ only l (w "WITHOUT" ⬝ w "ROWID" ⬝ w "STRICT"))

/-- README 118 `[;]`: the semicolon may not be left out. -/
def semicolon (l : Level) : Bnf := w ";" ∣∣ only l eps

end Sqlite

/-! ### PostgreSQL (README 153-200) -/
namespace Postgres

/-- `type_name` -/
def type : Bnf :=
  (kw ["BIT", "CHARACTER"] ⬝ opt (w "VARYING") ⬝ digits) ∣∣
  (kw ["VARBIT", "VARCHAR", "CHAR"] ⬝ digits) ∣∣
  (kw ["NUMERIC", "DECIMAL"] ⬝ digits2) ∣∣
  (w "DOUBLE" ⬝ w "PRECISION") ∣∣
  (kw ["TIME", "TIMESTAMP"] ⬝ digits ⬝ zone) ∣∣
  kw (dataTypePostgres.filter (· ∉ Spec.Postgres.specialTypes))

/-- README 185-190 -/
def indexParams : Bnf :=
  opt (w "INCLUDE" ⬝ columns) ⬝ opt (w "WITH" ⬝ parens) ⬝
    opt (w "USING" ⬝ w "INDEX" ⬝ w "TABLESPACE" ⬝ name)

/-- README 160-174. `AS (expr) [STORED | VIRTUAL]` is not accepted. -/
def colCons (l : Level) : List Con := [
  ⟨"PRIMARY KEY", "PRIMARY", w "PRIMARY" ⬝ w "KEY" ⬝ indexParams⟩,
  ⟨"UNIQUE", "UNIQUE", w "UNIQUE" ⬝ indexParams⟩,
  ⟨"NOT NULL", "NULL", w "NOT" ⬝ w "NULL"⟩,
  ⟨"NULL", "NULL", w "NULL"⟩,
  ⟨"CHECK", "CHECK", w "CHECK" ⬝ parens ⬝ opt (w "NO" ⬝ w "INHERIT")⟩,
  ⟨"DEFAULT", "DEFAULT", w "DEFAULT" ⬝ default_⟩,
  ⟨"GENERATED", "GENERATED",
    w "GENERATED" ⬝ w "ALWAYS" ⬝ w "AS" ⬝ parens ⬝ w "STORED"⟩,
  ⟨"IDENTITY", "GENERATED",
    w "GENERATED" ⬝ (w "ALWAYS" ∣∣ (w "BY" ⬝ w "DEFAULT")) ⬝ w "AS" ⬝ w "IDENTITY" ⬝ opt parens⟩,
  ⟨"AS", "AS", only l (w "AS" ⬝ parens ⬝ opt (kw ["STORED", "VIRTUAL"]))⟩,
  ⟨"REFERENCES", "REFERENCES",
    w "REFERENCES" ⬝ name ⬝ opt (w "(" ⬝ name ⬝ w ")") ⬝ refClauses⟩]

/-- README 175-184. EXCLUDE without a name is not converted properly as the first entry of a table. -/
def tableCon (l : Level) : Bnf :=
  most l (w "EXCLUDE" ⬝ opt (w "USING" ⬝ name) ⬝ parens ⬝ indexParams ⬝ opt (w "WHERE" ⬝ parens)) ∣∣
  (w "CONSTRAINT" ⬝ name ⬝
    w "EXCLUDE" ⬝ opt (w "USING" ⬝ name) ⬝ parens ⬝ indexParams ⬝ opt (w "WHERE" ⬝ parens)) ∣∣
  opt (w "CONSTRAINT" ⬝ name) ⬝
    ((w "PRIMARY" ⬝ w "KEY" ⬝ columns ⬝ indexParams) ∣∣
     (w "UNIQUE" ⬝ columns ⬝ indexParams) ∣∣
     (w "CHECK" ⬝ parens ⬝ opt (w "NO" ⬝ w "INHERIT")) ∣∣
     (w "FOREIGN" ⬝ w "KEY" ⬝ columns ⬝ w "REFERENCES" ⬝ name ⬝ opt columns ⬝ refClauses))

/-- README 191-199 -/
def options : Bnf :=
  many ((w "WITH" ⬝ parens) ∣∣
    (w "WITHOUT" ⬝ w "OIDS") ∣∣
    (w "TABLESPACE" ⬝ name) ∣∣
    (w "INHERITS" ⬝ parens) ∣∣
    (w "PARTITION" ⬝ w "BY" ⬝ kw ["RANGE", "LIST", "HASH"] ⬝ parens) ∣∣
    (w "USING" ⬝ name))

end Postgres

/-! ### MySQL (README 201-275) -/
namespace Mysql

/-- `type_name` -/
def type : Bnf :=
  (kw Spec.Mysql.typesN ⬝ digits) ∣∣
  (kw Spec.Mysql.typesPS ⬝ digits2) ∣∣
  (kw Spec.Mysql.typesTime ⬝ digits ⬝ zone) ∣∣
  kw (dataTypeMysql.filter
    (· ∉ Spec.Mysql.typesN ++ Spec.Mysql.typesPS ++ Spec.Mysql.typesTime))

/-- `[=]` -/
def eq : Bnf := opt (w "=")

/-- README 208-228 -/
def colCons : List Con := [
  ⟨"PRIMARY KEY", "PRIMARY", w "PRIMARY" ⬝ w "KEY"⟩,
  ⟨"KEY", "PRIMARY", w "KEY"⟩,
  ⟨"UNIQUE", "UNIQUE", w "UNIQUE"⟩,
  ⟨"UNIQUE KEY", "UNIQUE", w "UNIQUE" ⬝ w "KEY"⟩,
  ⟨"AUTO_INCREMENT", "AUTO_INCREMENT", w "AUTO_INCREMENT"⟩,
  ⟨"NOT NULL", "NULL", w "NOT" ⬝ w "NULL"⟩,
  ⟨"NULL", "NULL", w "NULL"⟩,
  ⟨"DEFAULT", "DEFAULT", w "DEFAULT" ⬝ default_⟩,
  ⟨"VISIBLE", "VISIBLE", w "VISIBLE"⟩,
  ⟨"INVISIBLE", "INVISIBLE", w "INVISIBLE"⟩,
  ⟨"COMMENT", "COMMENT", w "COMMENT" ⬝ string⟩,
  ⟨"COLLATE", "COLLATE", w "COLLATE" ⬝ name⟩,
  ⟨"COLUMN_FORMAT", "COLUMN_FORMAT", w "COLUMN_FORMAT" ⬝ kw ["FIXED", "DYNAMIC", "DEFAULT"]⟩,
  ⟨"ENGINE_ATTRIBUTE", "ENGINE_ATTRIBUTE", w "ENGINE_ATTRIBUTE" ⬝ eq ⬝ string⟩,
  ⟨"SECONDARY_ENGINE_ATTRIBUTE", "SECONDARY_ENGINE_ATTRIBUTE",
    w "SECONDARY_ENGINE_ATTRIBUTE" ⬝ eq ⬝ string⟩,
  ⟨"STORAGE", "STORAGE", w "STORAGE" ⬝ kw ["DISK", "MEMORY"]⟩,
  ⟨"GENERATED", "GENERATED", w "GENERATED" ⬝ w "ALWAYS" ⬝ w "AS" ⬝ parens⟩,
  ⟨"AS", "GENERATED", w "AS" ⬝ parens⟩,
  ⟨"VIRTUAL", "VIRTUAL", w "VIRTUAL"⟩,
  ⟨"STORED", "STORED", w "STORED"⟩,
  ⟨"CHECK", "CHECK", w "CHECK" ⬝ parens⟩,
  ⟨"CHECK ENFORCED", "CHECK", w "CHECK" ⬝ parens ⬝ opt (w "NOT") ⬝ w "ENFORCED"⟩,
  ⟨"REFERENCES", "REFERENCES", w "REFERENCES" ⬝ name ⬝ w "(" ⬝ name ⬝ w ")" ⬝ refClauses⟩]

/-- README 240-243 -/
def keyParts : Bnf :=
  w "(" ⬝ list ((parens ∣∣ (name ⬝ digits)) ⬝ opt (kw ["ASC", "DESC"])) ⬝ w ")"

/-- `USING {BTREE | HASH}` -/
def using_ : Bnf := w "USING" ⬝ kw ["BTREE", "HASH"]

/-- `[index-option] ...`, from the MySQL manual. -/
def indexOptions : Bnf :=
  many ((w "KEY_BLOCK_SIZE" ⬝ eq ⬝ literal) ∣∣
    using_ ∣∣
    (w "WITH" ⬝ w "PARSER" ⬝ name) ∣∣
    (w "COMMENT" ⬝ string) ∣∣
    kw ["VISIBLE", "INVISIBLE"] ∣∣
    (kw ["ENGINE_ATTRIBUTE", "SECONDARY_ENGINE_ATTRIBUTE"] ⬝ eq ⬝ string))

/-- `[CONSTRAINT [symbol]]` -/
def symbol : Bnf := opt (w "CONSTRAINT" ⬝ opt name)

/-- README 229-239. Index definitions are not converted properly; after UNIQUE, `USING` is accepted
only with an index name; the table constraint `CHECK (expr) NO INHERIT` is not accepted. -/
def tableCon (l : Level) : Bnf :=
  most l (kw ["INDEX", "KEY"] ⬝ opt name ⬝ opt using_ ⬝ keyParts ⬝ indexOptions) ∣∣
  most l (kw ["FULLTEXT", "SPATIAL"] ⬝ opt (kw ["INDEX", "KEY"]) ⬝ opt name ⬝ keyParts ⬝ indexOptions) ∣∣
  (symbol ⬝ w "PRIMARY" ⬝ w "KEY" ⬝ opt using_ ⬝ keyParts ⬝ indexOptions) ∣∣
  (symbol ⬝ w "UNIQUE" ⬝ opt (kw ["INDEX", "KEY"]) ⬝
    (opt (name ⬝ opt using_) ∣∣ only l using_) ⬝ keyParts ⬝ indexOptions) ∣∣
  (symbol ⬝ w "CHECK" ⬝ parens ⬝ opt (only l (w "NO" ⬝ w "INHERIT"))) ∣∣
  (symbol ⬝ w "FOREIGN" ⬝ w "KEY" ⬝ opt name ⬝ columns ⬝ w "REFERENCES" ⬝ name ⬝ keyParts ⬝ refClauses)

/-- README 244-274 -/
def options : Bnf :=
  many ((kw ["AUTOEXTEND_SIZE", "AUTO_INCREMENT", "AVG_ROW_LENGTH", "KEY_BLOCK_SIZE", "MAX_ROWS",
      "MIN_ROWS", "STATS_SAMPLE_PAGES"] ⬝ eq ⬝ literal) ∣∣
    (opt (w "DEFAULT") ⬝ w "CHARACTER" ⬝ w "SET" ⬝ eq ⬝ name) ∣∣
    (opt (w "DEFAULT") ⬝ w "COLLATE" ⬝ eq ⬝ name) ∣∣
    (kw ["CHECKSUM", "DELAY_KEY_WRITE"] ⬝ eq ⬝ kw ["0", "1"]) ∣∣
    (kw ["COMMENT", "COMPRESSION", "CONNECTION", "ENCRYPTION", "ENGINE_ATTRIBUTE", "PASSWORD",
      "SECONDARY_ENGINE_ATTRIBUTE"] ⬝ eq ⬝ string) ∣∣
    (kw ["DATA", "INDEX"] ⬝ w "DIRECTORY" ⬝ eq ⬝ string) ∣∣
    (w "ENGINE" ⬝ eq ⬝ name) ∣∣
    (w "INSERT_METHOD" ⬝ eq ⬝ kw ["NO", "FIRST", "LAST"]) ∣∣
    (kw ["PACK_KEYS", "STATS_AUTO_RECALC", "STATS_PERSISTENT"] ⬝ eq ⬝ kw ["0", "1", "DEFAULT"]) ∣∣
    (w "ROW_FORMAT" ⬝ eq ⬝
      kw ["DEFAULT", "DYNAMIC", "FIXED", "COMPRESSED", "REDUNDANT", "COMPACT"]) ∣∣
    (w "TABLESPACE" ⬝ name ⬝ opt (w "STORAGE" ⬝ kw ["DISK", "MEMORY"])) ∣∣
    (w "UNION" ⬝ eq ⬝ w "(" ⬝ list name ⬝ w ")"))

end Mysql

/-! ### Columns, tables, scripts -/

/-- `type_name` -/
def type : Rdbms → Bnf
  | .postgres => Postgres.type
  | .mysql => Mysql.type
  | _ => Sqlite.type

/-- `column-constraint` -/
def colCons (l : Level) : Rdbms → List Con
  | .postgres => Postgres.colCons l
  | .mysql => Mysql.colCons
  | _ => Sqlite.colCons l

/-- `table-constraint` -/
def tableCon (l : Level) : Rdbms → Bnf
  | .postgres => Postgres.tableCon l
  | .mysql => Mysql.tableCon l
  | _ => Sqlite.tableCon l

/-- `[table-options];` -/
def ending (l : Level) : Rdbms → Bnf
  | .postgres => Postgres.options ⬝ w ";"
  | .mysql => Mysql.options ⬝ w ";"
  | _ => Sqlite.options l ⬝ Sqlite.semicolon l

/-- The name of a column's constraint. Two names are accepted but not converted properly. -/
def conName (l : Level) : Bnf := if l = .returned then nameBut ["AUTOINCREMENT", "AUTO_INCREMENT"] else name

/-- What may be written in front of the constraint `c`: `CONSTRAINT name`; in MySQL only in front of
CHECK, where the name may be left out. -/
def label (l : Level) (c : Con) : Rdbms → Bnf
  | .mysql => if c.kind = "CHECK" then w "CONSTRAINT" ⬝ opt (conName l) else .no
  | _ => w "CONSTRAINT" ⬝ conName l

/-- `[column-constraint ...]`: the list says which constraints, and whether they have a label. -/
inductive Cons (isNum : Str → Bool) (l : Level) (d : Rdbms) :
    List (Bool × Con) → List Str → List Str → Prop
  | nil : Cons isNum l d [] ts ts
  | cons (hc : c ∈ colCons l d)
      (hl : (if b then label l c d else .eps).Derives isNum d ts mid)
      (h : c.phrase.Derives isNum d mid mid') (hs : Cons isNum l d cs mid' rest) :
      Cons isNum l d ((b, c) :: cs) ts rest

/-- Constraints that the code does not read properly one after the other: in SQLite the NOT after a
reference is taken for NOT DEFERRABLE; in MySQL the NOT after a check is taken for NOT ENFORCED, and
UNIQUE KEY for one constraint. -/
def clashes : Rdbms → List (String × String)
  | .postgres => []
  | .mysql => [("CHECK", "NOT NULL"), ("UNIQUE", "KEY")]
  | _ => [("REFERENCES", "NOT NULL")]

/-- No neighbours of the list clash. -/
def NoClash (d : Rdbms) : List Con → Prop
  | a :: b :: l => (a.form, b.form) ∉ clashes d ∧ NoClash d (b :: l)
  | _ => True

/-- The lists of constraints which are accepted: only the first may have a label, no two are of the
same kind, no neighbours clash. -/
def Supported (d : Rdbms) (cs : List (Bool × Con)) : Prop :=
  (∀ c ∈ cs.tail, c.1 = false) ∧ (cs.map (·.2.kind)).Nodup ∧ NoClash d (cs.map (·.2))

/-- `column_name type_name [column-constraint ...]` -/
def column (isNum : Str → Bool) (l : Level) (d : Rdbms) (ts rest : List Str) : Prop :=
  ∃ mid cs, (name ⬝ type d).Derives isNum d ts mid ∧ Cons isNum l d cs mid rest ∧
    (l ≠ .readme → Supported d cs)

/-- An entry of a table definition. -/
def entry (isNum : Str → Bool) (l : Level) (d : Rdbms) (ts rest : List Str) : Prop :=
  column isNum l d ts rest ∨ (tableCon l d).Derives isNum d ts rest

/-- `[schema_name.]table_name`. In PostgreSQL, IF is a name, but not accepted here. -/
def tableName (l : Level) : Rdbms → Bnf
  | .postgres => if l = .readme then table else nameBut ["IF"] ⬝ opt (w "." ⬝ name)
  | _ => table

/-- `CREATE TABLE [IF NOT EXISTS] [schema_name.]table_name ( ... )[table-options];` -/
def statement (isNum : Str → Bool) (l : Level) (d : Rdbms) (ts rest : List Str) : Prop :=
  ∃ a b,
    (w "CREATE" ⬝ w "TABLE" ⬝ opt (w "IF" ⬝ w "NOT" ⬝ w "EXISTS") ⬝ tableName l d ⬝ w "(").Derives isNum d ts a ∧
    Commas (entry isNum l d) a b ∧ (w ")" ⬝ ending l d).Derives isNum d b rest

/-- A number of statements. -/
inductive script (isNum : Str → Bool) (l : Level) (d : Rdbms) : Nat → List Str → Prop
  | nil : script isNum l d 0 []
  | cons (h : statement isNum l d ts rest) (hs : script isNum l d n rest) : script isNum l d (n + 1) ts

end DDL.Readme
