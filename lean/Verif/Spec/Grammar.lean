import Verif.Spec.Ast
/-
Specification, part 3: the grammars of the three dialects (README.md "DDL構文サポート状況", with
the differences to the README listed in DESIGN.md).
-/

namespace DDL.Spec

/-! ### SQLite -/
namespace Sqlite

/-- `[ON CONFLICT {ROLLBACK | ABORT | FAIL | IGNORE | REPLACE}]` -/
def conflict : Lang Unit := do
  let _ ← optKw ["ON"]
    (do kw ["CONFLICT"]; kw ["ROLLBACK", "ABORT", "FAIL", "IGNORE", "REPLACE"])
  return ()

/-- Clauses after REFERENCES, any number in any order: `ON ...`, `MATCH {SIMPLE | PARTIAL |
FULL}`, `[NOT] DEFERRABLE [INITIALLY {DEFERRED | IMMEDIATE}]`. A `NOT` here always belongs to
`NOT DEFERRABLE`. -/
def refClauses : Lang Unit := do
  let _ ← Many ["ON", "MATCH", "NOT", "DEFERRABLE"]
    ((do kw ["ON"]; onAction) <|>
     (do kw ["MATCH"]; kw ["SIMPLE", "PARTIAL", "FULL"]) <|>
     (do let _ ← optWord ["NOT"]
         kw ["DEFERRABLE"]
         let _ ← optKw ["INITIALLY"] (kw ["DEFERRED", "IMMEDIATE"])
         return ()))
  return ()

/-- Column constraint. -/
def colCon (isNum : Str → Bool) : Lang ColCon :=
  (do kw ["PRIMARY"]; kw ["KEY"]; let _ ← optWord ["ASC", "DESC"]; conflict
      let a ← optWord ["AUTOINCREMENT"]
      return .primaryKey a) <|>
  (do kw ["NOT"]; kw ["NULL"]; conflict; return .notNull) <|>
  (do kw ["UNIQUE"]; conflict; return .unique) <|>
  (do kw ["CHECK"]; let e ← parens; return .check e) <|>
  (do kw ["DEFAULT"]; let v ← defaultValue isNum .sqlite; return .default v) <|>
  (do kw ["COLLATE"]; let c ← tok (Kw ["BINARY", "NOCASE", "RTRIM"]); return .collate c) <|>
  (do let r ← colRef .sqlite; refClauses; return .references r) <|>
  (do kw ["GENERATED"]; kw ["ALWAYS"]; kw ["AS"]; let _ ← parens
      let _ ← optWord ["STORED", "VIRTUAL"]
      return .other "GENERATED") <|>
  (do kw ["AS"]; let _ ← parens; let _ ← optWord ["STORED", "VIRTUAL"]; return .other "AS")

/-- First keywords of column constraints. -/
def colConFirst : List String :=
  ["PRIMARY", "NOT", "UNIQUE", "CHECK", "DEFAULT", "COLLATE", "REFERENCES", "GENERATED", "AS"]

/-- `name type [CONSTRAINT name] constraint ...` -/
def column (isNum : Str → Bool) : Lang Item := do
  let n ← name .sqlite
  let t ← tok (Kw ["TEXT", "NUMERIC", "INTEGER", "REAL", "NONE"])
  let cn ← conName .sqlite
  let cs ← colCons colConFirst (colCon isNum)
  return .column ⟨n, ⟨t, false, none⟩, cn, cs⟩

/-- Table constraint after the `[CONSTRAINT name]`. -/
def tableCon (n : ConName) : Lang Item :=
  (do kw ["PRIMARY"]; kw ["KEY"]; let cs ← nameList .sqlite; conflict
      return .primaryKey n cs) <|>
  (do kw ["UNIQUE"]; let cs ← nameList .sqlite; conflict; return .unique n cs) <|>
  (do kw ["CHECK"]; let e ← parens; return .check n e) <|>
  (do let fk ← foreignKey .sqlite n; refClauses; return fk)

/-- Entry of a table definition. -/
def item (isNum : Str → Bool) : Lang Item :=
  (do at_ ["CONSTRAINT", "PRIMARY", "UNIQUE", "CHECK", "FOREIGN"]
      let n ← conName .sqlite
      tableCon n) <|>
  column isNum

/-- `[WITHOUT ROWID [, STRICT] | STRICT [, WITHOUT ROWID]]` -/
def options : Lang Unit :=
  (do kw ["WITHOUT"]; kw ["ROWID"]; let _ ← optKw [","] (kw ["STRICT"]); return ()) <|>
  (do kw ["STRICT"]; let _ ← optKw [","] (do kw ["WITHOUT"]; kw ["ROWID"]); return ()) <|>
  (do notAt ["WITHOUT", "STRICT"])

/-- Kinds of skipped statements. -/
def otherKinds : List String := ["VIRTUAL", "VIEW", "TRIGGER", "INDEX", "UNIQUE"]

/-- Statement. -/
def stmt (isNum : Str → Bool) : Lang Stmt := do
  kw ["CREATE"]
  let _ ← optWord ["TEMP", "TEMPORARY"]
  createTable .sqlite (item isNum) options <|> other otherKinds

/-- Script. -/
def script (isNum : Str → Bool) : List Str → List Stmt → Prop := Script (stmt isNum)

end Sqlite

/-! ### PostgreSQL -/
namespace Postgres

/-- Type followed by the time zone part, if any. -/
def zone : Lang Unit := do
  let _ ← optKw ["WITH", "WITHOUT"] (do kw ["TIME"]; kw ["ZONE"])
  return ()

/-- Types with special syntax; every other type is a single word. -/
def specialTypes : List String :=
  ["BIT", "CHARACTER", "VARBIT", "VARCHAR", "CHAR", "NUMERIC", "DECIMAL", "DOUBLE", "TIME",
   "TIMESTAMP"]

/-- Data type. -/
def type : Lang TypeAst :=
  (do let n ← tok (Kw ["BIT", "CHARACTER"]); let v ← optWord ["VARYING"]; let g ← digitN
      return ⟨n, v, g⟩) <|>
  (do let n ← tok (Kw ["VARBIT", "VARCHAR", "CHAR"]); let g ← digitN; return ⟨n, false, g⟩) <|>
  (do let n ← tok (Kw ["NUMERIC", "DECIMAL"]); let g ← digitPS; return ⟨n, false, g⟩) <|>
  (do let n ← tok (Kw ["DOUBLE"]); kw ["PRECISION"]; return ⟨n, false, none⟩) <|>
  (do let n ← tok (Kw ["TIME", "TIMESTAMP"]); let g ← digitN; zone; return ⟨n, false, g⟩) <|>
  (do let n ← tok fun t => Kw dataTypePostgres t ∧ ¬ Kw specialTypes t
      return ⟨n, false, none⟩)

/-- `[INCLUDE (name, ...)] [WITH (...)] [USING INDEX TABLESPACE name]` -/
def indexParams : Lang Unit := do
  let _ ← optKw ["INCLUDE"] (nameList .postgres)
  let _ ← optKw ["WITH"] parens
  let _ ← optKw ["USING"] (do kw ["INDEX"]; kw ["TABLESPACE"]; name .postgres)
  return ()

/-- `[(...)]` -/
def optParens : Lang Unit :=
  (do at_ ["("]; let _ ← parens; return ()) <|> notAt ["("]

/-- After GENERATED. -/
def generated : Lang Unit :=
  (do kw ["ALWAYS"]; kw ["AS"]
      (do kw ["IDENTITY"]; optParens) <|> (do let _ ← parens; kw ["STORED"])) <|>
  (do kw ["BY"]; kw ["DEFAULT"]; kw ["AS"]; kw ["IDENTITY"]; optParens) <|>
  (do kw ["AS"]; kw ["IDENTITY"]; optParens)

/-- `CHECK (expr) [NO INHERIT]` -/
def check : Lang (List Str) := do
  kw ["CHECK"]
  let e ← parens
  let _ ← optKw ["NO"] (kw ["INHERIT"])
  return e

/-- Column constraint. -/
def colCon (isNum : Str → Bool) : Lang ColCon :=
  (do kw ["PRIMARY"]; kw ["KEY"]; indexParams; return .primaryKey false) <|>
  (do kw ["NOT"]; kw ["NULL"]; return .notNull) <|>
  (do kw ["NULL"]; return .null) <|>
  (do kw ["UNIQUE"]; indexParams; return .unique) <|>
  (do let e ← check; return .check e) <|>
  (do kw ["DEFAULT"]; let v ← defaultValue isNum .postgres; return .default v) <|>
  (do let r ← colRef .postgres; refClauses; return .references r) <|>
  (do kw ["GENERATED"]; generated; return .other "GENERATED")

/-- First keywords of column constraints. `AS` is one of them although no constraint starts
with it: a column followed by `AS` is rejected. -/
def colConFirst : List String :=
  ["PRIMARY", "NOT", "NULL", "UNIQUE", "CHECK", "DEFAULT", "REFERENCES", "GENERATED", "AS"]

/-- `name type [CONSTRAINT name] constraint ...` -/
def column (isNum : Str → Bool) : Lang Item := do
  let n ← name .postgres
  let t ← type
  let cn ← conName .postgres
  let cs ← colCons colConFirst (colCon isNum)
  return .column ⟨n, t, cn, cs⟩

/-- Table constraint after the `[CONSTRAINT name]`. -/
def tableCon (n : ConName) : Lang Item :=
  (do kw ["PRIMARY"]; kw ["KEY"]; let cs ← nameList .postgres; indexParams
      return .primaryKey n cs) <|>
  (do kw ["UNIQUE"]; let cs ← nameList .postgres; indexParams; return .unique n cs) <|>
  (do let e ← check; return .check n e) <|>
  (do let fk ← foreignKey .postgres n; refClauses; return fk) <|>
  (do kw ["EXCLUDE"]
      let _ ← optKw ["USING"] (name .postgres)
      let _ ← parens
      indexParams
      let _ ← optKw ["WHERE"] parens
      return .exclude n)

/-- Entry of a table definition. -/
def item (isNum : Str → Bool) : Lang Item :=
  (do at_ ["CONSTRAINT", "PRIMARY", "UNIQUE", "CHECK", "FOREIGN", "EXCLUDE"]
      let n ← conName .postgres
      tableCon n) <|>
  column isNum

/-- One table option. -/
def option : Lang Unit :=
  (do kw ["WITH"]; let _ ← parens; return ()) <|>
  (do kw ["WITHOUT"]; kw ["OIDS"]) <|>
  (do kw ["TABLESPACE"]; let _ ← name .postgres; return ()) <|>
  (do kw ["INHERITS"]; let _ ← parens; return ()) <|>
  (do kw ["PARTITION"]; kw ["BY"]; kw ["RANGE", "LIST", "HASH"]; let _ ← parens; return ()) <|>
  (do kw ["USING"]; let _ ← name .postgres; return ())

/-- Kinds of skipped statements. -/
def otherKinds : List String :=
  ["VIEW", "TRIGGER", "INDEX", "MATERIALIZED", "SEQUENCE", "FUNCTION", "TYPE", "PROCEDURE",
   "AGGREGATE", "SCHEMA", "ROLE", "USER", "GROUP", "TABLESPACE", "EXTENSION", "DATABASE",
   "LANGUAGE", "FOREIGN", "DOMAIN", "SERVER", "CONVERSION", "RULE", "COLLATION", "POLICY",
   "OPERATOR"]

/-- Statement. -/
def stmt (isNum : Str → Bool) : Lang Stmt := do
  kw ["CREATE"]
  createTable .postgres (item isNum) (Options option) <|> other otherKinds

/-- Script. -/
def script (isNum : Str → Bool) : List Str → List Stmt → Prop := Script (stmt isNum)

end Postgres

/-! ### MySQL -/
namespace Mysql

/-- `[{WITH | WITHOUT} TIME ZONE]` -/
def zone : Lang Unit := do
  let _ ← optKw ["WITH", "WITHOUT"] (do kw ["TIME"]; kw ["ZONE"])
  return ()

/-- Types with digits; every other type is a single word. -/
def typesN : List String :=
  ["VARCHAR", "CHAR", "BINARY", "VARBINARY", "BLOB", "TEXT", "BIT", "TINYINT", "SMALLINT",
   "MEDIUMINT", "INT", "INTEGER", "BIGINT"]
def typesPS : List String := ["NUMERIC", "DECIMAL", "FLOAT", "REAL", "DOUBLE"]
def typesTime : List String := ["TIME", "DATETIME", "TIMESTAMP", "YEAR"]

/-- Data type. -/
def type : Lang TypeAst :=
  (do let n ← tok (Kw typesN); let g ← digitN; return ⟨n, false, g⟩) <|>
  (do let n ← tok (Kw typesPS); let g ← digitPS; return ⟨n, false, g⟩) <|>
  (do let n ← tok (Kw typesTime); let g ← digitN; zone; return ⟨n, false, g⟩) <|>
  (do let n ← tok fun t => Kw dataTypeMysql t ∧ ¬ Kw (typesN ++ typesPS ++ typesTime) t
      return ⟨n, false, none⟩)

/-- `{name [(length)] | (expr)} [ASC | DESC]` -/
def keyPart : Lang KeyPart := do
  let k ← (do at_ ["("]; let _ ← parens; return KeyPart.expr) <|>
    (do let n ← name .mysql; let _ ← digitN; return .col n)
  let _ ← optWord ["ASC", "DESC"]
  return k

/-- `(key-part, ...)` -/
def keyList : Lang (List KeyPart) := do
  kw ["("]
  let ks ← Sep keyPart
  kw [")"]
  return ks

/-- `CHECK (expr) [NOT] [ENFORCED]`. With longest match, a `NOT` after the expression always
belongs to the check (see C35). -/
def check : Lang (List Str) := do
  kw ["CHECK"]
  let e ← parens
  let _ ← optWord ["NOT"]
  let _ ← optWord ["ENFORCED"]
  return e

/-- Column constraint. -/
def colCon (isNum : Str → Bool) : Lang ColCon :=
  (do kw ["KEY"]; return .primaryKey false) <|>
  (do kw ["PRIMARY"]; kw ["KEY"]; return .primaryKey false) <|>
  (do kw ["NOT"]; kw ["NULL"]; return .notNull) <|>
  (do kw ["NULL"]; return .null) <|>
  (do kw ["UNIQUE"]; let _ ← optWord ["KEY"]; return .unique) <|>
  (do let e ← check; return .check e) <|>
  (do kw ["DEFAULT"]
      (do at_ ["("]; let e ← parens; return .default (.expr e)) <|>
      (do notAt ["("]; let t ← literal isNum .mysql
          let _ ← optKw ["ON"] (do
            kw ["UPDATE"]; kw ["CURRENT_TIME", "CURRENT_DATE", "CURRENT_TIMESTAMP"])
          return .default (.lit t))) <|>
  (do kw ["COLLATE"]; let c ← name .mysql; return .collate c) <|>
  (do let r ← colRef .mysql; refClauses; return .references r) <|>
  (do kw ["GENERATED"]; kw ["ALWAYS"]; kw ["AS"]; let _ ← parens
      return .other "GENERATED") <|>
  (do kw ["AS"]; let _ ← parens; return .other "GENERATED") <|>
  (do kw ["COMMENT"]; let _ ← string .mysql; return .other "COMMENT") <|>
  (do kw ["COLUMN_FORMAT"]; kw ["FIXED", "DYNAMIC", "DEFAULT"]; return .other "COLUMN_FORMAT") <|>
  (do kw ["ENGINE_ATTRIBUTE"]; let _ ← optWord ["="]; let _ ← string .mysql
      return .other "ENGINE_ATTRIBUTE") <|>
  (do kw ["SECONDARY_ENGINE_ATTRIBUTE"]; let _ ← optWord ["="]; let _ ← string .mysql
      return .other "SECONDARY_ENGINE_ATTRIBUTE") <|>
  (do kw ["STORAGE"]; kw ["DISK", "MEMORY"]; return .other "STORAGE") <|>
  (do kw ["AUTO_INCREMENT"]; return .autoIncrement) <|>
  (do kw ["VISIBLE"]; return .other "VISIBLE") <|>
  (do kw ["INVISIBLE"]; return .other "INVISIBLE") <|>
  (do kw ["VIRTUAL"]; return .other "VIRTUAL") <|>
  (do kw ["STORED"]; return .other "STORED")

/-- First keywords of column constraints. -/
def colConFirst : List String :=
  ["PRIMARY", "KEY", "NOT", "NULL", "UNIQUE", "CHECK", "DEFAULT", "COLLATE", "REFERENCES",
   "GENERATED", "AS", "COMMENT", "COLUMN_FORMAT", "ENGINE_ATTRIBUTE",
   "SECONDARY_ENGINE_ATTRIBUTE", "STORAGE", "VISIBLE", "INVISIBLE", "VIRTUAL", "STORED",
   "AUTO_INCREMENT"]

/-- `[CONSTRAINT [name]]`, where the name may be left out before one of `ks`. -/
def conName (ks : List String) : Lang ConName := do
  let n ← optKw ["CONSTRAINT"]
    ((do at_ ks; return none) <|> (do notAt ks; let n ← name .mysql; return some n))
  match n with
  | none => return .absent
  | some none => return .anonymous
  | some (some n) => return .named n

/-- `name type [CONSTRAINT [name]] constraint ...` -/
def column (isNum : Str → Bool) : Lang Item := do
  let n ← name .mysql
  let t ← type
  let cn ← conName ["CHECK"]
  let cs ← colCons colConFirst (colCon isNum)
  return .column ⟨n, t, cn, cs⟩

/-- `[USING {BTREE | HASH}]` -/
def indexType : Lang Unit := do
  let _ ← optKw ["USING"] (kw ["BTREE", "HASH"])
  return ()

/-- First keywords of index options. -/
def indexOptionFirst : List String :=
  ["KEY_BLOCK_SIZE", "USING", "WITH", "COMMENT", "VISIBLE", "INVISIBLE", "ENGINE_ATTRIBUTE",
   "SECONDARY_ENGINE_ATTRIBUTE"]

/-- Index options, any number. -/
def indexOptions (isNum : Str → Bool) : Lang Unit := do
  let _ ← Many indexOptionFirst
    ((do kw ["KEY_BLOCK_SIZE"]; let _ ← optWord ["="]; let _ ← literal isNum .mysql; return ()) <|>
     (do kw ["USING"]; kw ["BTREE", "HASH"]) <|>
     (do kw ["WITH"]; kw ["PARSER"]; let _ ← name .mysql; return ()) <|>
     (do kw ["COMMENT"]; let _ ← string .mysql; return ()) <|>
     (do kw ["VISIBLE", "INVISIBLE"]) <|>
     (do kw ["ENGINE_ATTRIBUTE", "SECONDARY_ENGINE_ATTRIBUTE"]; let _ ← optWord ["="]
         let _ ← string .mysql; return ()))
  return ()

/-- A name, unless the next token is one of `ks`. -/
def nameUnless (ks : List String) : Lang (Option Str) :=
  (do at_ ks; return none) <|> (do notAt ks; let n ← name .mysql; return some n)

/-- Table constraint after the `[CONSTRAINT [name]]`. -/
def tableCon (isNum : Str → Bool) (n : ConName) : Lang Item :=
  (do kw ["PRIMARY"]; kw ["KEY"]; indexType; let cs ← keyList; indexOptions isNum
      return .primaryKey n cs) <|>
  (do kw ["UNIQUE"]; let _ ← optWord ["INDEX", "KEY"]; let _ ← nameUnless ["("]; indexType
      let cs ← keyList
      indexOptions isNum
      return .unique n cs) <|>
  (do kw ["FOREIGN"]; kw ["KEY"]; let _ ← nameUnless ["("]
      let cs ← nameList .mysql
      kw ["REFERENCES"]
      let t ← qname .mysql
      let rs ← keyList
      refClauses
      return .foreignKey n cs ⟨t, some rs⟩) <|>
  (do let e ← check; return .check n e) <|>
  (do kw ["INDEX", "KEY"]; let _ ← nameUnless ["USING", "("]; indexType
      let _ ← keyList
      indexOptions isNum
      return .index n) <|>
  (do kw ["FULLTEXT", "SPATIAL"]; let _ ← optWord ["INDEX", "KEY"]; let i ← nameUnless ["("]
      let _ ← keyList
      indexOptions isNum
      return .fulltext n i)

/-- Entry of a table definition. -/
def item (isNum : Str → Bool) : Lang Item :=
  (do at_ ["CONSTRAINT", "PRIMARY", "UNIQUE", "FOREIGN", "INDEX", "KEY", "FULLTEXT", "SPATIAL",
           "CHECK"]
      let n ← conName ["PRIMARY", "UNIQUE", "FOREIGN", "CHECK"]
      tableCon isNum n) <|>
  column isNum

/-- One table option. -/
def option (isNum : Str → Bool) : Lang Unit :=
  (do kw ["AUTOEXTEND_SIZE", "AUTO_INCREMENT", "AVG_ROW_LENGTH", "KEY_BLOCK_SIZE", "MAX_ROWS",
          "MIN_ROWS", "STATS_SAMPLE_PAGES"]
      let _ ← optWord ["="]; let _ ← literal isNum .mysql; return ()) <|>
  (do kw ["COMMENT", "ENGINE_ATTRIBUTE", "PASSWORD", "SECONDARY_ENGINE_ATTRIBUTE", "CONNECTION",
          "COMPRESSION", "ENCRYPTION"]
      let _ ← optWord ["="]; let _ ← string .mysql; return ()) <|>
  (do (do kw ["CHARACTER"]; kw ["SET"]) <|> (do kw ["COLLATE", "ENGINE"])
      let _ ← optWord ["="]; let _ ← name .mysql; return ()) <|>
  (do kw ["CHECKSUM", "DELAY_KEY_WRITE"]; let _ ← optWord ["="]; kw ["0", "1"]) <|>
  (do kw ["PACK_KEYS", "STATS_AUTO_RECALC", "STATS_PERSISTENT"]; let _ ← optWord ["="]
      kw ["0", "1", "DEFAULT"]) <|>
  (do kw ["DATA", "INDEX"]; kw ["DIRECTORY"]; let _ ← optWord ["="]
      let _ ← literal isNum .mysql; return ()) <|>
  (do kw ["TABLESPACE"]; let _ ← name .mysql
      let _ ← optKw ["STORAGE"] (kw ["DISK", "MEMORY"]); return ()) <|>
  (do kw ["DEFAULT"]
      (do kw ["CHARACTER"]; kw ["SET"]) <|> (do kw ["COLLATE"])
      let _ ← optWord ["="]; let _ ← name .mysql; return ()) <|>
  (do kw ["UNION"]; let _ ← optWord ["="]; kw ["("]; let _ ← Sep (qname .mysql); kw [")"]) <|>
  (do kw ["INSERT_METHOD"]; let _ ← optWord ["="]; kw ["NO", "FIRST", "LAST"]) <|>
  (do kw ["ROW_FORMAT"]; let _ ← optWord ["="]
      kw ["DEFAULT", "DYNAMIC", "FIXED", "COMPRESSED", "REDUNDANT", "COMPACT"])

/-- Kinds of skipped statements. -/
def otherKinds : List String :=
  ["VIEW", "TRIGGER", "INDEX", "DATABASE", "UNIQUE", "PROCEDURE", "SERVER", "FUNCTION", "USER",
   "EVENT", "SEQUENCE", "TABLESPACE", "ROLE", "LOGIN"]

/-- Statement. -/
def stmt (isNum : Str → Bool) : Lang Stmt := do
  kw ["CREATE"]
  createTable .mysql (item isNum) (Options (option isNum)) <|> other otherKinds

/-- Script. -/
def script (isNum : Str → Bool) : List Str → List Stmt → Prop := Script (stmt isNum)

end Mysql
end DDL.Spec
