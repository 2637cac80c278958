import Verif.Model.Lexer
import Verif.Model.Sqlite
import Verif.Model.Postgres
import Verif.Model.Mysql
import Verif.Model.Converter
/-
Model of ddlparse.go and of the exported methods Lex, Validate, Convert it calls.
-/

namespace DDL

/-- validator.go:26-33 `NewValidator`, and the `validate` method of the validator it selects. -/
def validateProg (isNum : Str → Bool) (d : Rdbms) (n : Nat) : Prog Unit :=
  match d with
  | .postgres => Postgres.validate isNum n
  | .mysql => Mysql.validate isNum n
  | _ => Sqlite.validate isNum n

/-- Outcome of an exported operation. -/
inductive Outcome (α : Type) where
  | ok (a : α)
  | err (e : VErr)
  | panic
  | timeout
  deriving DecidableEq, Repr

/-- `Validate(tokens)`: validator_sqlite.go:19-25, validator_postgresql.go:19-25,
validator_mysql.go:19-25, with fuel `n`. -/
def validateN (isNum : Str → Bool) (d : Rdbms) (n : Nat) (tokens : List Str) :
    Outcome (List Str) :=
  match run (validateProg isNum d n) (VS.init tokens) with
  | .ok _ s => .ok s.result
  | .fail e _ => .err e
  | .panic => .panic
  | .timeout => .timeout

/-- `Convert(tokens)`: converter.go:41-45, with fuel `n`. -/
def convertN [CaseMap] (isNum : Str → Bool) (d : Rdbms) (n : Nat) (tokens : List Str) :
    Outcome (List Table) :=
  match C.convert isNum d n [] tokens with
  | .ok ts _ => .ok ts
  | .panic => .panic
  | .timeout => .timeout

/-- ddlparse.go:36-52 `Parse`. The result is the pair of returned values: tables and error. -/
def parseN [CaseMap] (isNum : Str → Bool) (n : Nat) (ddl : List Char) (d : Rdbms) :
    Outcome (List Table × Option VErr) :=
  match Lex.lexN d n ddl with
  | .err e => .ok ([], some e)
  | .panic => .panic
  | .timeout => .timeout
  | .ok tokens =>
    match validateN isNum d n tokens with
    | .err e => .ok ([], some e)
    | .panic => .panic
    | .timeout => .timeout
    | .ok validatedTokens =>
      match convertN isNum d n validatedTokens with
      | .err e => .ok ([], some e)      -- unreachable: Convert returns no error
      | .panic => .panic
      | .timeout => .timeout
      | .ok tables => .ok (tables, none)

/-- ddlparse.go:66-76 `ParseForce`. The loop variable `err` on line 70 is a new variable: the
`err` returned on line 75 is the one of line 68, which is never assigned. -/
def parseForceLoop [CaseMap] (isNum : Str → Bool) (n : Nat) (ddl : List Char) :
    List Rdbms → Outcome (List Table × Option VErr)
  | [] => .ok ([], none)
  | d :: ds =>
    match parseN isNum n ddl d with
    | .ok (tables, none) => .ok (tables, none)
    | .ok (_, some _) => parseForceLoop isNum n ddl ds
    | .err e => .err e
    | .panic => .panic
    | .timeout => .timeout

/-- ddlparse.go:66-76 `ParseForce`. -/
def parseForceN [CaseMap] (isNum : Str → Bool) (n : Nat) (ddl : List Char) :
    Outcome (List Table × Option VErr) :=
  parseForceLoop isNum n ddl [.sqlite, .postgres, .mysql]

/-- `Parse(ddl, d)` returns `r`: some number of steps suffices. -/
def Returns [CaseMap] (isNum : Str → Bool) (ddl : List Char) (d : Rdbms)
    (r : List Table × Option VErr) : Prop :=
  ∃ n, parseN isNum n ddl d = .ok r

/-- `Parse(ddl, d)` never returns: no number of steps suffices. -/
def Hangs [CaseMap] (isNum : Str → Bool) (ddl : List Char) (d : Rdbms) : Prop :=
  ∀ n, parseN isNum n ddl d = .timeout

/-- `ParseForce(ddl)` returns `r`. -/
def ForceReturns [CaseMap] (isNum : Str → Bool) (ddl : List Char) (r : List Table × Option VErr) : Prop :=
  ∃ n, parseForceN isNum n ddl = .ok r

end DDL
