import Verif.Model.Basic
/-
Model of internal/converter/converter.go.
-/

namespace DDL

/-- Outcome of a converter method: value and remaining tokens, run-time panic, fuel exhausted. -/
inductive CRes (α : Type) where
  | ok (a : α) (rest : List Str)
  | panic
  | timeout
  deriving DecidableEq, Repr

/-- A converter method. The state (converter.go:27-33) is `tokens[c.i:]`; `size` and `i` are
implicit, `result` is returned by `convert`. -/
def CM (α : Type) := List Str → CRes α

namespace CM
def pure (a : α) : CM α := fun s => .ok a s
def bind (f : CM α) (g : α → CM β) : CM β := fun s =>
  match f s with
  | .ok a s' => g a s'
  | .panic => .panic
  | .timeout => .timeout
instance : Monad CM where
  pure := CM.pure
  bind := CM.bind
end CM

namespace C

/-- Fuel exhausted. -/
def timeout : CM α := fun _ => .timeout

/-- converter.go:56-61 `token` on the remaining tokens. -/
def tok (s : List Str) : Str := s.headD EOF

/-- converter.go:56-61 `token`. -/
def token : CM Str := fun s => .ok (tok s) s

/-- converter.go:64-66 `isOutOfRange`. -/
def isOutOfRange : CM Bool := fun s => .ok s.isEmpty s

/-- The tokens left after `next`, see `next`. -/
def nextRest : List Str → List Str
  | [] => []
  | t :: r => if t = S "," ∧ tok r = S "," then nextRest r else r

/-- converter.go:69-79 `next`: returns the token and moves on; several commas in a row count as
one. (The recursive call returns "," again, so the value is always the current token.) -/
def next : CM Str := fun s => .ok (tok s) (nextRest s)

/-- converter.go:82-88 `matchToken`. -/
def matchToken (keywords : List String) : CM Bool := fun s => .ok (isKw keywords (tok s)) s

/-- Go `if` on a `matchToken` test. -/
@[macro_inline] def ifM (c : CM Bool) (t e : CM α) : CM α := c.bind (fun b => cond b t e)

/-- `c.next()` as a statement. -/
def skip : CM Unit := fun s => .ok () (nextRest s)

/-- converter.go:91-102 `isIdentifier` on the first character. -/
def isIdentifier (d : Rdbms) (c : Char) : Bool :=
  match d with
  | .sqlite => c == '"' || c == '`'
  | .mysql => c == '`'
  | .postgres => c == '"'
  | .other => false

/-- converter.go:105-116 `isStringValue` on the first character. -/
def isStringValue (d : Rdbms) (c : Char) : Bool :=
  match d with
  | .sqlite => c == '\''
  | .mysql => c == '"' || c == '\''
  | .postgres => c == '\''
  | .other => false

/-- `token[0:1]`: panics on the empty string. -/
def headChar (t : Str) : CM Char := fun s =>
  match t with
  | [] => .panic
  | c :: _ => .ok c s

/-- `token[1 : len(token)-1]`: panics if the token is shorter than 2. (Go slices bytes; the
tokens sliced here start and end with an ASCII quote, so slicing characters is the same.) -/
def inner (t : Str) : CM Str := fun s =>
  if t.length < 2 then .panic else .ok (t.drop 1).dropLast s

/-- converter.go:175-182 `convertName`. -/
def convertName (d : Rdbms) : CM Str :=
  next.bind fun token =>
  (headChar token).bind fun c =>
  cond (isIdentifier d c) (inner token) (CM.pure token)

/-- converter.go:159-172 `convertTableName`: schema and table name. -/
def convertTableName (d : Rdbms) : CM (Str × Str) :=
  (convertName d).bind fun schemaName =>
  ifM (matchToken ["."])
    (skip.bind fun _ => (convertName d).bind fun tableName => CM.pure (schemaName, tableName))
    (CM.pure ([], schemaName))

/-- converter.go:237-250 `convertTypeDigit`. -/
def convertTypeDigit : CM (Int × Int) :=
  ifM (matchToken ["("])
    (skip.bind fun _ =>
     next.bind fun tn =>
     (ifM (matchToken [","])
       (skip.bind fun _ => next.bind fun tm => CM.pure (atoi tm).1)
       (CM.pure 0)).bind fun m =>
     skip.bind fun _ =>
     CM.pure ((atoi tn).1, m))
    (CM.pure (0, 0))

/-- converter.go:221-227: the type name when `VARYING` (the token `v`) follows. -/
def varyingName [CaseMap] (name v : Str) : Str :=
  if name = S "BIT" then S "VARBIT"
  else if name = S "CHARACTER" then S "VARCHAR"
  else name ++ S " " ++ upStr v

/-- converter.go:217-234 `convertDateType`. -/
def convertDateType [CaseMap] : CM DataType :=
  next.bind fun t =>
  (ifM (matchToken ["VARYING"])
    (next.bind fun v => CM.pure (varyingName (upStr t) v))
    (CM.pure (upStr t))).bind fun name =>
  convertTypeDigit.bind fun nm =>
  CM.pure { name := name, digitN := nm.1, digitM := nm.2 }

/-- converter.go:331-344 `convertExprAux`, with `convertExpr` inlined at its recursive call. Go
evaluates the operands of `+` from left to right. -/
def convertExprAux : Nat → CM Str
  | 0 => timeout
  | n + 1 =>
    ifM (matchToken [")"]) (CM.pure [])
      (ifM (matchToken ["("])
        (next.bind fun a =>
         (convertExprAux n).bind fun b =>
         next.bind fun c =>
         (convertExprAux n).bind fun e => CM.pure ((a ++ b ++ c) ++ e))
        (next.bind fun a =>
         (convertExprAux n).bind fun b => CM.pure (a ++ b)))

/-- converter.go:331-333 `convertExpr`. -/
def convertExpr (n : Nat) : CM Str :=
  next.bind fun a =>
  (convertExprAux n).bind fun b =>
  next.bind fun c => CM.pure (a ++ b ++ c)

/-- converter.go:347-366 `convertLiteralValue`. `isNum` is `common.IsNumericToken`. -/
def convertLiteralValue [CaseMap] (isNum : Str → Bool) (d : Rdbms) : CM DefaultVal :=
  next.bind fun token =>
  cond (isNum token) (CM.pure (.num token))
    ((headChar token).bind fun c =>
      cond (isStringValue d c)
        ((inner token).bind fun s => CM.pure (.str s))
        (CM.pure <|
          if upStr token = S "NULL" then .nil
          else if upStr token = S "TRUE" then .bool true
          else if upStr token = S "FALSE" then .bool false
          else .str token))

/-- converter.go:322-328 `convertDefaultValue`. -/
def convertDefaultValue [CaseMap] (isNum : Str → Bool) (d : Rdbms) (n : Nat) : CM DefaultVal :=
  ifM (matchToken ["("])
    ((convertExpr n).bind fun s => CM.pure (.str s))
    (convertLiteralValue isNum d)

/-- converter.go:427-436: the loop of `convertCommaSeparatedColumnNames`. -/
def columnNamesLoop : Nat → List Str → CM (List Str)
  | 0, _ => timeout
  | n + 1, ls =>
    ifM (matchToken [")"]) (CM.pure ls)
      (ifM (matchToken [","])
        (skip.bind fun _ => columnNamesLoop n ls)
        (token.bind fun t => skip.bind fun _ => columnNamesLoop n (ls ++ [t])))

/-- converter.go:424-439 `convertCommaSeparatedColumnNames`. -/
def convertCommaSeparatedColumnNames (n : Nat) : CM (List Str) :=
  skip.bind fun _ =>
  (columnNamesLoop n []).bind fun ls =>
  skip.bind fun _ => CM.pure ls

/-- converter.go:369-377 `convertReference`. -/
def convertReference (d : Rdbms) (n : Nat) : CM Reference :=
  skip.bind fun _ =>
  (convertName d).bind fun t =>
  ifM (matchToken ["("])
    ((convertCommaSeparatedColumnNames n).bind fun cs =>
      CM.pure { tableName := t, columnNames := some cs })
    (CM.pure { tableName := t, columnNames := none })

/-- converter.go:266-319 `convertConstraintAux`. -/
def convertConstraintAux [CaseMap] (isNum : Str → Bool) (d : Rdbms) : Nat → Constraint → CM Constraint
  | 0, _ => timeout
  | n + 1, con =>
    ifM (matchToken [",", ")"]) (CM.pure con) <|
    ifM (matchToken ["PRIMARY"])
      (skip.bind fun _ => skip.bind fun _ =>
        convertConstraintAux isNum d n { con with isPrimaryKey := true }) <|
    ifM (matchToken ["AUTOINCREMENT", "AUTO_INCREMENT"])
      (skip.bind fun _ =>
        convertConstraintAux isNum d n { con with isAutoincrement := true }) <|
    ifM (matchToken ["NOT"])
      (skip.bind fun _ => skip.bind fun _ =>
        convertConstraintAux isNum d n { con with isNotNull := true }) <|
    ifM (matchToken ["UNIQUE"])
      (skip.bind fun _ =>
        convertConstraintAux isNum d n { con with isUnique := true }) <|
    ifM (matchToken ["DEFAULT"])
      (skip.bind fun _ => (convertDefaultValue isNum d n).bind fun v =>
        convertConstraintAux isNum d n { con with default := v }) <|
    ifM (matchToken ["CHECK"])
      (skip.bind fun _ => (convertExpr n).bind fun e =>
        convertConstraintAux isNum d n { con with check := e }) <|
    ifM (matchToken ["COLLATE"])
      (skip.bind fun _ => (convertName d).bind fun e =>
        convertConstraintAux isNum d n { con with collate := e }) <|
    ifM (matchToken ["REFERENCES"])
      ((convertReference d n).bind fun r =>
        convertConstraintAux isNum d n { con with references := r })
    (CM.pure con)

/-- converter.go:257: words after CONSTRAINT that are not taken as its name. -/
def notConstraintName : List String :=
  ["PRIMARY", "UNIQUE", "NOT", "AUTOINCREMENT", "AUTO_INCREMENT", "DEFAULT", "CHECK",
   "REFERENCES", "COLLATE"]

/-- converter.go:253-263 `convertConstraint`. -/
def convertConstraint [CaseMap] (isNum : Str → Bool) (d : Rdbms) (n : Nat) : CM Constraint :=
  (ifM (matchToken ["CONSTRAINT"])
    (skip.bind fun _ =>
      ifM (matchToken notConstraintName) (CM.pure []) (convertName d))
    (CM.pure [])).bind fun name =>
  convertConstraintAux isNum d n { name := name }

/-- converter.go:207-214 `convertColumnDefinition`. -/
def convertColumnDefinition [CaseMap] (isNum : Str → Bool) (d : Rdbms) (n : Nat) : CM Column :=
  (convertName d).bind fun name =>
  convertDateType.bind fun dt =>
  (convertConstraint isNum d n).bind fun con =>
  CM.pure { name := name, dataType := dt, constraint := con }

/-- converter.go:380-421 `convertTableConstraint`. -/
def convertTableConstraint (d : Rdbms) (n : Nat) (tc : TableConstraint) : CM TableConstraint :=
  (ifM (matchToken ["CONSTRAINT"])
    (skip.bind fun _ =>
      ifM (matchToken ["PRIMARY", "UNIQUE", "CHECK", "FOREIGN"]) (CM.pure []) (convertName d))
    (CM.pure [])).bind fun name =>
  ifM (matchToken ["PRIMARY"])
    (skip.bind fun _ => skip.bind fun _ =>
      (convertCommaSeparatedColumnNames n).bind fun cs =>
      CM.pure { tc with primaryKey := tc.primaryKey ++ [⟨name, cs⟩] }) <|
  ifM (matchToken ["UNIQUE"])
    (skip.bind fun _ =>
      (convertCommaSeparatedColumnNames n).bind fun cs =>
      CM.pure { tc with unique := tc.unique ++ [⟨name, cs⟩] }) <|
  ifM (matchToken ["CHECK"])
    (skip.bind fun _ =>
      (convertExpr n).bind fun e =>
      CM.pure { tc with check := tc.check ++ [⟨name, e⟩] }) <|
  ifM (matchToken ["FOREIGN"])
    (skip.bind fun _ => skip.bind fun _ =>
      (convertCommaSeparatedColumnNames n).bind fun cs =>
      (convertReference d n).bind fun r =>
      CM.pure { tc with foreignKey := tc.foreignKey ++ [⟨name, cs, r⟩] })
  (CM.pure tc)

/-- converter.go:189-201: the loop of `convertTableDefinition`. -/
def tableDefinitionLoop [CaseMap] (isNum : Str → Bool) (d : Rdbms) :
    Nat → List Column → TableConstraint → CM (List Column × TableConstraint)
  | 0, _, _ => timeout
  | n + 1, cols, tc =>
    ifM (matchToken [")"]) (CM.pure (cols, tc))
      ((ifM (matchToken ["CONSTRAINT", "PRIMARY", "UNIQUE", "CHECK", "FOREIGN"])
          ((convertTableConstraint d (n + 1) tc).bind fun tc' => CM.pure (cols, tc'))
          ((convertColumnDefinition isNum d (n + 1)).bind fun c =>
            CM.pure (cols ++ [c], tc))).bind fun ct =>
        ifM (matchToken [")"]) (CM.pure ct)
          (skip.bind fun _ => tableDefinitionLoop isNum d n ct.1 ct.2))

/-- converter.go:185-204 `convertTableDefinition`. -/
def convertTableDefinition [CaseMap] (isNum : Str → Bool) (d : Rdbms) (n : Nat) :
    CM (List Column × TableConstraint) :=
  skip.bind fun _ =>
  (tableDefinitionLoop isNum d n [] {}).bind fun r =>
  skip.bind fun _ => CM.pure r

/-- converter.go:130-156 `convertTable`. The test `c.size > c.i` (line 150) adds nothing to the
test for ";". -/
def convertTable [CaseMap] (isNum : Str → Bool) (d : Rdbms) (n : Nat) : CM Table :=
  skip.bind fun _ =>
  skip.bind fun _ =>
  (ifM (matchToken ["IF"])
    (skip.bind fun _ => skip.bind fun _ => skip.bind fun _ => CM.pure true)
    (CM.pure false)).bind fun ine =>
  (convertTableName d).bind fun names =>
  (convertTableDefinition isNum d n).bind fun defs =>
  (ifM (matchToken [";"]) skip (CM.pure ())).bind fun _ =>
  CM.pure { schema := names.1, name := names.2, ifNotExists := ine,
            columns := defs.1, constraints := defs.2 }

/-- converter.go:119-127 `convert`; `acc` is `c.result`. -/
def convert [CaseMap] (isNum : Str → Bool) (d : Rdbms) : Nat → List Table → CM (List Table)
  | 0, _ => timeout
  | n + 1, acc =>
    ifM isOutOfRange (CM.pure acc)
      ((convertTable isNum d (n + 1)).bind fun t => convert isNum d n (acc ++ [t]))

end C
end DDL
