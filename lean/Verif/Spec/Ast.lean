import Verif.Spec.Lang
/-
Specification, part 2: what a script says (abstract syntax), independently of the code.
Names and literals are the source tokens; `Spec/Denote.lean` gives their meaning.
-/

namespace DDL.Spec

/-- `name` or `schema.name`. -/
structure QName where
  schema : Option Str
  name : Str

/-- One entry of a key column list: a column or (MySQL) an expression. -/
inductive KeyPart where
  | col (name : Str)
  | expr

/-- `REFERENCES table [(columns)]`. -/
structure Ref where
  table : QName
  cols : Option (List KeyPart)

/-- Default value: literal token or parenthesised expression (with the parentheses). -/
inductive Dflt where
  | lit (tok : Str)
  | expr (e : List Str)

/-- Column constraint. `other kind` are the constraints which are checked but not
reported, by their first keyword. -/
inductive ColCon where
  | primaryKey (autoincrement : Bool)
  | autoIncrement
  | notNull
  | null
  | unique
  | check (e : List Str)
  | default (v : Dflt)
  | collate (name : Str)
  | references (r : Ref)
  | other (kind : String)

/-- Kind of a constraint: a column may not have two of the same kind. `NOT NULL` and `NULL`
are one kind. -/
def ColCon.kind : ColCon → String
  | primaryKey _ => "PRIMARY"
  | autoIncrement => "AUTO_INCREMENT"
  | notNull => "NULL"
  | null => "NULL"
  | unique => "UNIQUE"
  | check _ => "CHECK"
  | default _ => "DEFAULT"
  | collate _ => "COLLATE"
  | references _ => "REFERENCES"
  | other k => k

/-- Data type: first word, `VARYING` or not, digits. -/
structure TypeAst where
  name : Str
  varying : Bool := false
  digits : Option (Nat × Option Nat) := none

/-- `CONSTRAINT [name]` in front of a constraint. -/
inductive ConName where
  | absent
  | anonymous
  | named (name : Str)

/-- Column definition. -/
structure ColAst where
  name : Str
  type : TypeAst
  conName : ConName
  cons : List ColCon

/-- Entry of a table definition. -/
inductive Item where
  | column (c : ColAst)
  | primaryKey (name : ConName) (cols : List KeyPart)
  | unique (name : ConName) (cols : List KeyPart)
  | check (name : ConName) (e : List Str)
  | foreignKey (name : ConName) (cols : List KeyPart) (ref : Ref)
  /-- PostgreSQL EXCLUDE: checked, not reported -/
  | exclude (name : ConName)
  /-- MySQL INDEX, KEY -/
  | index (name : ConName)
  /-- MySQL FULLTEXT, SPATIAL, with the name of the index -/
  | fulltext (name : ConName) (index : Option Str)

/-- CREATE TABLE statement. -/
structure TableAst where
  ifNotExists : Bool
  name : QName
  items : List Item

/-- Statement: CREATE TABLE, or another CREATE statement, which is skipped. -/
inductive Stmt where
  | table (t : TableAst)
  | other

/-! ### Phrases common to the dialects -/

/-- A list of keys all of which are plain columns. -/
def colKeys (ns : List Str) : List KeyPart := ns.map KeyPart.col

/-- `[schema.]name` -/
def qname (d : Rdbms) : Lang QName := do
  let a ← name d
  let b ← optKw ["."] (name d)
  match b with
  | none => return ⟨none, a⟩
  | some b => return ⟨some a, b⟩

/-- `name, ...` -/
def names (d : Rdbms) : Lang (List Str) := Sep (name d)

/-- `(name, ...)` -/
def nameList (d : Rdbms) : Lang (List KeyPart) := do
  kw ["("]
  let ns ← names d
  kw [")"]
  return colKeys ns

/-- `[IF NOT EXISTS]` -/
def ifNotExists : Lang Bool := do
  let b ← optKw ["IF"] (do kw ["NOT"]; kw ["EXISTS"])
  return b.isSome

/-- `[CONSTRAINT name]` -/
def conName (d : Rdbms) : Lang ConName := do
  let n ← optKw ["CONSTRAINT"] (name d)
  match n with
  | none => return .absent
  | some n => return .named n

/-- `{literal | (expr)}` -/
def defaultValue (isNum : Str → Bool) (d : Rdbms) : Lang Dflt :=
  (do at_ ["("]; let e ← parens; return .expr e) <|>
  (do notAt ["("]; let t ← literal isNum d; return .lit t)

/-- `[ON {DELETE | UPDATE} {SET NULL | SET DEFAULT | CASCADE | RESTRICT | NO ACTION}]` after
the `ON`. -/
def onAction : Lang Unit := do
  kw ["DELETE", "UPDATE"]
  (do kw ["SET"]; kw ["NULL", "DEFAULT"]) <|>
    (do kw ["CASCADE", "RESTRICT"]) <|>
    (do kw ["NO"]; kw ["ACTION"])

/-- The reference clauses of PostgreSQL and MySQL, any number in any order:
`[ON ...] [MATCH {SIMPLE | PARTIAL | FULL}]`. -/
def refClauses : Lang Unit := do
  let _ ← Many ["ON", "MATCH"]
    ((do kw ["ON"]; onAction) <|> (do kw ["MATCH"]; kw ["SIMPLE", "PARTIAL", "FULL"]))
  return ()

/-- `REFERENCES table [(column)]`, the part of a column constraint before the clauses. -/
def colRef (d : Rdbms) : Lang Ref := do
  kw ["REFERENCES"]
  let t ← qname d
  let c ← optKw ["("] (do let n ← name d; kw [")"]; return colKeys [n])
  return ⟨t, c⟩

/-- `FOREIGN KEY (columns) REFERENCES table [(columns)]` -/
def foreignKey (d : Rdbms) (n : ConName) : Lang Item := do
  kw ["FOREIGN"]
  kw ["KEY"]
  let cs ← nameList d
  kw ["REFERENCES"]
  let t ← qname d
  let rs ← optKw ["("] (do let ns ← names d; kw [")"]; return colKeys ns)
  return .foreignKey n cs ⟨t, rs⟩

/-- Column constraints: any number, no kind twice. -/
def colCons (first : List String) (L : Lang ColCon) : Lang (List ColCon) :=
  (Many first L).such fun cs => (cs.map ColCon.kind).Nodup

/-- `[(n)]` -/
def digitN : Lang (Option (Nat × Option Nat)) :=
  optKw ["("] (do let n ← posInt; kw [")"]; return (n, none))

/-- `[(n [, m])]` -/
def digitPS : Lang (Option (Nat × Option Nat)) :=
  optKw ["("] (do
    let n ← posInt
    let m ← optKw [","] posInt
    kw [")"]
    return (n, m))

/-- The rest of a statement that is skipped: any tokens up to a `;`, where a
`BEGIN` ... `END` group may contain `;`. -/
inductive Body : Lang Unit
  | stop (h : kw [";"] ts () rest) : Body ts () rest
  | plain (ht : ¬ Kw [";"] t) (hb : ¬ Kw ["BEGIN"] t) (h : Body ts () rest) :
      Body (t :: ts) () rest
  | block (hb : Kw ["BEGIN"] b) (hs : ∀ t ∈ inner, ¬ Kw ["END"] t) (he : Kw ["END"] e)
      (h : Body ts () rest) : Body (b :: inner ++ e :: ts) () rest

/-- `CREATE ... <kind> ... ;` -/
def other (kinds : List String) : Lang Stmt := do
  kw kinds
  Body
  return .other

/-- Table options, until the `;`: `[,] option [,] option ...` -/
inductive Options (L : Lang Unit) : Lang Unit
  | stop (h : at_ [";"] ts () ts ∨ ts = []) : Options L ts () ts
  | more (hn : notAt [";"] ts () ts) (hc : optWord [","] ts b mid) (h : L mid () mid')
      (hs : Options L mid' () rest) : Options L ts () rest

/-- `TABLE [IF NOT EXISTS] [schema.]name ( item, ... ) options ;` -/
def createTable (d : Rdbms) (item : Lang Item) (options : Lang Unit) : Lang Stmt := do
  kw ["TABLE"]
  let ine ← ifNotExists
  let n ← qname d
  kw ["("]
  let items ← Sep item
  kw [")"]
  options
  kw [";"]
  return .table ⟨ine, n, items⟩

/-- A script: statements until the end of the input. -/
inductive Script (stmt : Lang Stmt) : List Str → List Stmt → Prop
  | nil : Script stmt [] []
  | cons (h : stmt ts s mid) (hs : Script stmt mid ss) : Script stmt ts (s :: ss)

end DDL.Spec
