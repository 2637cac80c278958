import Verif.Model.Validator
/-
Model of internal/validator/validator_postgresql.go.
-/

namespace DDL.Postgres
open DDL V

/-- The dialect argument for the shared helpers. -/
abbrev D : Rdbms := .postgres

/-- validator_postgresql.go:243-297 `validateColumnType`. -/
def validateColumnType : Prog Unit :=
  ifM (matchTokenNext true ["BIT", "CHARACTER"])
    (do skipToken true ["VARYING"]
        validateTypeDigitN true) <|
  ifM (matchTokenNext true ["VARBIT", "VARCHAR", "CHAR"]) (validateTypeDigitN true) <|
  ifM (matchTokenNext true ["NUMERIC", "DECIMAL"]) (validateTypeDigitPS true) <|
  ifM (matchTokenNext true ["DOUBLE"]) (validateToken false ["PRECISION"]) <|
  ifM (matchTokenNext true ["TIME", "TIMESTAMP"])
    (do validateTypeDigitN true
        ifM (matchTokenNext false ["WITH", "WITHOUT"])
          (do validateToken false ["TIME"]
              validateToken false ["ZONE"])
          (.ret ()))
  (validateToken true dataTypePostgres)

/-- validator_postgresql.go:625-654 `validateIndexParameters`. -/
def validateIndexParameters (n : Nat) : Prog Unit := do
  ifM (matchTokenNext false ["INCLUDE"])
    (do validateToken false ["("]
        validateCommaSeparatedColumnNames D false n
        validateToken false [")"])
    (.ret ())
  ifM (matchTokenNext false ["WITH"]) (validateBrackets n false) (.ret ())
  ifM (matchTokenNext false ["USING"])
    (do validateToken false ["INDEX"]
        validateToken false ["TABLESPACE"]
        validateName D false)
    (.ret ())

/-- validator_postgresql.go:415-426 `validateConstraintPrimaryKey`. -/
def validateConstraintPrimaryKey (n : Nat) : Prog Unit := do
  validateToken true ["PRIMARY"]
  validateToken true ["KEY"]
  validateIndexParameters n

/-- validator_postgresql.go:429-437 `validateConstraintNotNull`. -/
def validateConstraintNotNull : Prog Unit := do
  validateToken true ["NOT"]
  validateToken true ["NULL"]

/-- validator_postgresql.go:440-445 `validateConstraintNull`. -/
def validateConstraintNull : Prog Unit := validateToken false ["NULL"]

/-- validator_postgresql.go:448-456 `validateConstraintUnique`. -/
def validateConstraintUnique (n : Nat) : Prog Unit := do
  validateToken true ["UNIQUE"]
  validateIndexParameters n

/-- validator_postgresql.go:459-472 `validateConstraintCheck`; 726-739
`validateTableConstraintCheck` has the same text. -/
def validateConstraintCheck (n : Nat) : Prog Unit := do
  validateToken true ["CHECK"]
  validateExpr n true
  ifM (matchTokenNext false ["NO"]) (validateToken false ["INHERIT"]) (.ret ())

/-- validator_postgresql.go:475-489 `validateConstraintDefault`. -/
def validateConstraintDefault (isNum : Str → Bool) (n : Nat) : Prog Unit := do
  validateToken true ["DEFAULT"]
  ifM (matchToken ["("]) (validateExpr n true) (validateLiteralValue isNum D true)

/-- validator_postgresql.go:509-528 `validateConstraintReferences`. -/
def validateConstraintReferences (n : Nat) : Prog Unit := do
  validateToken true ["REFERENCES"]
  validateTableName D true
  ifM (matchTokenNext true ["("])
    (do validateName D true
        validateToken true [")"])
    (.ret ())
  validateConstraintReferencesAux n

/-- `if v.matchToken("(") { v.validateBrackets(false) }` (validator_postgresql.go:573-577,
602-606, 613-617). -/
def optBrackets (n : Nat) : Prog Unit :=
  ifM (matchToken ["("]) (validateBrackets n false) (.ret ())

/-- validator_postgresql.go:563-622 `validateConstraintGenerated`. -/
def validateConstraintGenerated (n : Nat) : Prog Unit := do
  validateToken false ["GENERATED"]
  ifM (matchTokenNext false ["ALWAYS"])
    (do validateToken false ["AS"]
        ifM (matchTokenNext false ["IDENTITY"]) (optBrackets n) <|
          ifM (matchToken ["("])
            (do validateBrackets n false
                validateToken false ["STORED"])
            syntaxError) <|
    ifM (matchTokenNext false ["BY"])
      (do validateToken false ["DEFAULT"]
          validateToken false ["AS"]
          validateToken false ["IDENTITY"]
          optBrackets n) <|
    ifM (matchTokenNext false ["AS"])
      (do validateToken false ["IDENTITY"]
          optBrackets n)
    syntaxError

/-- validator_postgresql.go:355-360 `isColumnConstraint`. -/
def columnConstraintKinds : List String :=
  ["PRIMARY", "NOT", "NULL", "UNIQUE", "CHECK", "DEFAULT", "REFERENCES", "GENERATED", "AS"]

/-- validator_postgresql.go:386-412 `validateColumnConstraint`. -/
def validateColumnConstraint (isNum : Str → Bool) (n : Nat) : Prog Unit :=
  ifM (matchToken ["PRIMARY"]) (validateConstraintPrimaryKey n) <|
  ifM (matchToken ["NOT"]) validateConstraintNotNull <|
  ifM (matchToken ["NULL"]) validateConstraintNull <|
  ifM (matchToken ["UNIQUE"]) (validateConstraintUnique n) <|
  ifM (matchToken ["CHECK"]) (validateConstraintCheck n) <|
  ifM (matchToken ["DEFAULT"]) (validateConstraintDefault isNum n) <|
  ifM (matchToken ["REFERENCES"]) (validateConstraintReferences n) <|
  ifM (matchToken ["GENERATED", "AS"]) (validateConstraintGenerated n)
  syntaxError

/-- validator_postgresql.go:367-377: the word remembered for a constraint. -/
def constraintKey (t : Str) : Str :=
  if isKw ["NOT"] t then S "NULL" else toUpper t

/-- validator_postgresql.go:345-352, 363-383 `validateColumnConstraints` and
`validateColumnConstraintsAux`. -/
def validateColumnConstraints (isNum : Str → Bool) (n : Nat) : Prog Unit := do
  ifM (matchTokenNext true ["CONSTRAINT"]) (validateName D true) (.ret ())
  columnConstraintsAux columnConstraintKinds constraintKey (validateColumnConstraint isNum) n []

/-- validator_postgresql.go:683-703 `validateTableConstraintPrimaryKey`. -/
def validateTableConstraintPrimaryKey (n : Nat) : Prog Unit := do
  validateToken true ["PRIMARY"]
  validateToken true ["KEY"]
  validateToken true ["("]
  validateCommaSeparatedColumnNames D true n
  validateToken true [")"]
  validateIndexParameters n

/-- validator_postgresql.go:706-723 `validateTableConstraintUnique`. -/
def validateTableConstraintUnique (n : Nat) : Prog Unit := do
  validateToken true ["UNIQUE"]
  validateToken true ["("]
  validateCommaSeparatedColumnNames D true n
  validateToken true [")"]
  validateIndexParameters n

/-- validator_postgresql.go:742-776 `validateTableConstraintForeignKey`. -/
def validateTableConstraintForeignKey (n : Nat) : Prog Unit := do
  validateToken true ["FOREIGN"]
  validateToken true ["KEY"]
  validateToken true ["("]
  validateCommaSeparatedColumnNames D true n
  validateToken true [")"]
  validateToken true ["REFERENCES"]
  validateTableName D true
  ifM (matchTokenNext true ["("])
    (do validateCommaSeparatedColumnNames D true n
        validateToken true [")"])
    (.ret ())
  validateConstraintReferencesAux n

/-- validator_postgresql.go:779-800 `validateTableConstraintExclude`. -/
def validateTableConstraintExclude (n : Nat) : Prog Unit := do
  validateToken false ["EXCLUDE"]
  ifM (matchTokenNext false ["USING"]) (validateName D false) (.ret ())
  validateBrackets n false
  validateIndexParameters n
  ifM (matchTokenNext false ["WHERE"]) (validateBrackets n false) (.ret ())

/-- validator_postgresql.go:657-680 `validateTableConstraint`. -/
def validateTableConstraint (n : Nat) : Prog Unit := do
  ifM (matchTokenNext true ["CONSTRAINT"]) (validateName D true) (.ret ())
  ifM (matchToken ["PRIMARY"]) (validateTableConstraintPrimaryKey n) <|
    ifM (matchToken ["UNIQUE"]) (validateTableConstraintUnique n) <|
    ifM (matchToken ["CHECK"]) (validateConstraintCheck n) <|
    ifM (matchToken ["FOREIGN"]) (validateTableConstraintForeignKey n) <|
    ifM (matchToken ["EXCLUDE"]) (validateTableConstraintExclude n)
    syntaxError

/-- validator_postgresql.go:226-240 `validateColumnDefinition`. -/
def validateColumnDefinition (isNum : Str → Bool) (n : Nat) : Prog Unit :=
  ifM (matchToken ["CONSTRAINT", "PRIMARY", "UNIQUE", "CHECK", "FOREIGN", "EXCLUDE"])
    (validateTableConstraint n)
    (do validateName D true
        validateColumnType
        validateColumnConstraints isNum n)

/-- validator_postgresql.go:215-223 `validateColumnDefinitions`. -/
def validateColumnDefinitions (isNum : Str → Bool) : Nat → Prog Unit
  | 0 => .timeout
  | n + 1 => do
    validateColumnDefinition isNum (n + 1)
    ifM (matchTokenNext true [","]) (validateColumnDefinitions isNum n) (.ret ())

/-- validator_postgresql.go:843-851 `validateTableOptionWith`. -/
def validateTableOptionWith (n : Nat) : Prog Unit := do
  validateToken false ["WITH"]
  validateBrackets n false

/-- validator_postgresql.go:854-862 `validateTableOptionWithout`. -/
def validateTableOptionWithout : Prog Unit := do
  validateToken false ["WITHOUT"]
  validateToken false ["OIDS"]

/-- validator_postgresql.go:865-873 `validateTableOptionTablespace`. -/
def validateTableOptionTablespace : Prog Unit := do
  validateToken false ["TABLESPACE"]
  validateName D false

/-- validator_postgresql.go:876-884 `validateTableOptionInherits`. -/
def validateTableOptionInherits (n : Nat) : Prog Unit := do
  validateToken false ["INHERITS"]
  validateBrackets n false

/-- validator_postgresql.go:887-901 `validateTableOptionPartition`. -/
def validateTableOptionPartition (n : Nat) : Prog Unit := do
  validateToken false ["PARTITION"]
  validateToken false ["BY"]
  validateToken false ["RANGE", "LIST", "HASH"]
  validateBrackets n false

/-- validator_postgresql.go:904-912 `validateTableOptionUsing`. -/
def validateTableOptionUsing : Prog Unit := do
  validateToken false ["USING"]
  validateName D false

/-- validator_postgresql.go:820-840 `validateTableOption`. -/
def validateTableOption (n : Nat) : Prog Unit :=
  ifM (matchToken ["WITH"]) (validateTableOptionWith n) <|
  ifM (matchToken ["WITHOUT"]) validateTableOptionWithout <|
  ifM (matchToken ["TABLESPACE"]) validateTableOptionTablespace <|
  ifM (matchToken ["INHERITS"]) (validateTableOptionInherits n) <|
  ifM (matchToken ["PARTITION"]) (validateTableOptionPartition n) <|
  ifM (matchToken ["USING"]) validateTableOptionUsing
  syntaxError

/-- validator_postgresql.go:803-817 `validateTableOptions`. -/
def validateTableOptions : Nat → Prog Unit
  | 0 => .timeout
  | n + 1 =>
    ifM isOutOfRange (.ret ()) <|
    ifM (matchToken [";"]) (.ret ())
      (do skipToken false [","]
          validateTableOption (n + 1)
          validateTableOptions n)

/-- validator_postgresql.go:198-212 `validateTableDefinition`. -/
def validateTableDefinition (isNum : Str → Bool) (n : Nat) : Prog Unit := do
  validateToken true ["("]
  validateColumnDefinitions isNum n
  validateToken true [")"]
  validateTableOptions n

/-- validator_postgresql.go:129-147 `validateCreateTable`. -/
def validateCreateTable (isNum : Str → Bool) (n : Nat) : Prog Unit := do
  set (S "CREATE")
  validateToken true ["TABLE"]
  validateIfNotExists
  validateTableName D true
  validateTableDefinition isNum n
  validateToken true [";"]

/-- validator_postgresql.go:151-156: object kinds accepted by `validateCreateOther`. -/
def otherKinds : List String :=
  ["VIEW", "TRIGGER", "INDEX", "MATERIALIZED", "SEQUENCE", "FUNCTION", "TYPE",
   "PROCEDURE", "TYPE", "AGGREGATE", "SCHEMA", "ROLE", "USER", "GROUP",
   "TABLESPACE", "EXTENSION", "DATABASE", "LANGUAGE", "FOREIGN", "DOMAIN",
   "SERVER", "FOREIGN", "CONVERSION", "RULE", "COLLATION", "POLICY", "OPERATOR"]

/-- validator_postgresql.go:112-126 `validateDdl`. -/
def validateDdl (isNum : Str → Bool) (n : Nat) : Prog Unit := do
  validateToken false ["CREATE"]
  ifM (matchToken ["TABLE"]) (validateCreateTable isNum n) (validateCreateOther otherKinds n)

/-- validator_postgresql.go:28-36 `validate`. -/
def validate (isNum : Str → Bool) : Nat → Prog Unit
  | 0 => .timeout
  | n + 1 =>
    ifM isOutOfRange (.ret ())
      (do validateDdl isNum (n + 1)
          validate isNum n)

end DDL.Postgres
