import Verif.Model.Validator
/-
Model of internal/validator/validator_sqlite.go.
-/

namespace DDL.Sqlite
open DDL V

/-- The dialect argument for the shared helpers. -/
abbrev D : Rdbms := .sqlite

/-- validator_sqlite.go:235-239 `validateColumnType`. -/
def validateColumnType : Prog Unit :=
  validateToken true ["TEXT", "NUMERIC", "INTEGER", "REAL", "NONE"]

/-- validator_sqlite.go:485-495 `validateConflictClause`. -/
def validateConflictClause : Prog Unit :=
  ifM (matchTokenNext false ["ON"])
    (do validateToken false ["CONFLICT"]
        validateToken false ["ROLLBACK", "ABORT", "FAIL", "IGNORE", "REPLACE"])
    (.ret ())

/-- validator_sqlite.go:304-317 `validateConstraintPrimaryKey`. -/
def validateConstraintPrimaryKey : Prog Unit := do
  validateToken true ["PRIMARY"]
  validateToken true ["KEY"]
  skipToken false ["ASC", "DESC"]
  validateConflictClause
  skipToken true ["AUTOINCREMENT"]

/-- validator_sqlite.go:320-331 `validateConstraintNotNull`. -/
def validateConstraintNotNull : Prog Unit := do
  validateToken true ["NOT"]
  validateToken true ["NULL"]
  validateConflictClause

/-- validator_sqlite.go:334-342 `validateConstraintUnique`. -/
def validateConstraintUnique : Prog Unit := do
  validateToken true ["UNIQUE"]
  validateConflictClause

/-- validator_sqlite.go:345-353 `validateConstraintCheck`; 564-572
`validateTableConstraintCheck` has the same text. -/
def validateConstraintCheck (n : Nat) : Prog Unit := do
  validateToken true ["CHECK"]
  validateExpr n true

/-- validator_sqlite.go:356-370 `validateConstraintDefault`. -/
def validateConstraintDefault (isNum : Str → Bool) (n : Nat) : Prog Unit := do
  validateToken true ["DEFAULT"]
  ifM (matchToken ["("]) (validateExpr n true) (validateLiteralValue isNum D true)

/-- validator_sqlite.go:390-398 `validateConstraintCollate`. -/
def validateConstraintCollate : Prog Unit := do
  validateToken true ["COLLATE"]
  validateToken true ["BINARY", "NOCASE", "RTRIM"]

/-- validator_sqlite.go:423-465 `validateConstraintReferencesAux`. -/
def validateConstraintReferencesAux : Nat → Prog Unit
  | 0 => .timeout
  | n + 1 =>
    ifM (matchTokenNext false ["ON"])
      (do ifM (matchTokenNext false ["DELETE", "UPDATE"]) (.ret ()) syntaxError
          ifM (matchTokenNext false ["SET"])
            (validateToken false ["NULL", "DEFAULT"])
            (ifM (matchTokenNext false ["CASCADE", "RESTRICT"]) (.ret ())
              (ifM (matchTokenNext false ["NO"])
                (validateToken false ["ACTION"])
                syntaxError))
          validateConstraintReferencesAux n)
      (ifM (matchTokenNext false ["MATCH"])
        (do validateToken false ["SIMPLE", "PARTIAL", "FULL"]
            validateConstraintReferencesAux n)
        (ifM (matchToken ["NOT", "DEFERRABLE"])
          (do skipToken false ["NOT"]
              validateToken false ["DEFERRABLE"]
              ifM (matchTokenNext false ["INITIALLY"])
                (validateToken false ["DEFERRED", "IMMEDIATE"])
                (.ret ())
              validateConstraintReferencesAux n)
          (.ret ())))

/-- validator_sqlite.go:401-420 `validateConstraintReferences`. -/
def validateConstraintReferences (n : Nat) : Prog Unit := do
  validateToken true ["REFERENCES"]
  validateTableName D true
  ifM (matchTokenNext true ["("])
    (do validateName D true
        validateToken true [")"])
    (.ret ())
  validateConstraintReferencesAux n

/-- validator_sqlite.go:468-482 `validateConstraintGenerated`. -/
def validateConstraintGenerated (n : Nat) : Prog Unit := do
  ifM (matchTokenNext false ["GENERATED"]) (validateToken false ["ALWAYS"]) (.ret ())
  validateToken false ["AS"]
  validateExpr n false
  skipToken false ["STORED", "VIRTUAL"]

/-- validator_sqlite.go:267-272 `isColumnConstraint`. -/
def columnConstraintKinds : List String :=
  ["PRIMARY", "NOT", "UNIQUE", "CHECK", "DEFAULT", "COLLATE", "REFERENCES", "GENERATED", "AS"]

/-- validator_sqlite.go:275-301 `validateColumnConstraint`. -/
def validateColumnConstraint (isNum : Str → Bool) (n : Nat) : Prog Unit :=
  ifM (matchToken ["PRIMARY"]) validateConstraintPrimaryKey <|
  ifM (matchToken ["NOT"]) validateConstraintNotNull <|
  ifM (matchToken ["UNIQUE"]) validateConstraintUnique <|
  ifM (matchToken ["CHECK"]) (validateConstraintCheck n) <|
  ifM (matchToken ["DEFAULT"]) (validateConstraintDefault isNum n) <|
  ifM (matchToken ["COLLATE"]) validateConstraintCollate <|
  ifM (matchToken ["REFERENCES"]) (validateConstraintReferences n) <|
  ifM (matchToken ["GENERATED", "AS"]) (validateConstraintGenerated n)
  syntaxError

/-- validator_sqlite.go:242-264 `validateColumnConstraints` and `validateColumnConstraintsAux`. -/
def validateColumnConstraints (isNum : Str → Bool) (n : Nat) : Prog Unit := do
  ifM (matchTokenNext true ["CONSTRAINT"]) (validateName D true) (.ret ())
  columnConstraintsAux columnConstraintKinds toUpper (validateColumnConstraint isNum) n []

/-- validator_sqlite.go:521-541 `validateTableConstraintPrimaryKey`. -/
def validateTableConstraintPrimaryKey (n : Nat) : Prog Unit := do
  validateToken true ["PRIMARY"]
  validateToken true ["KEY"]
  validateToken true ["("]
  validateCommaSeparatedColumnNames D true n
  validateToken true [")"]
  validateConflictClause

/-- validator_sqlite.go:544-561 `validateTableConstraintUnique`. -/
def validateTableConstraintUnique (n : Nat) : Prog Unit := do
  validateToken true ["UNIQUE"]
  validateToken true ["("]
  validateCommaSeparatedColumnNames D true n
  validateToken true [")"]
  validateConflictClause

/-- validator_sqlite.go:575-609 `validateTableConstraintForeignKey`. -/
def validateTableConstraintForeignKey (n : Nat) : Prog Unit := do
  validateToken true ["FOREIGN"]
  validateToken true ["KEY"]
  validateToken true ["("]
  validateCommaSeparatedColumnNames D true n
  validateToken true [")"]
  validateToken true ["REFERENCES"]
  validateTableName D true
  ifM (matchTokenNext true ["("])
    (do validateCommaSeparatedColumnNames D true n
        validateToken true [")"])
    (.ret ())
  validateConstraintReferencesAux n

/-- validator_sqlite.go:498-518 `validateTableConstraint`. -/
def validateTableConstraint (n : Nat) : Prog Unit := do
  ifM (matchTokenNext true ["CONSTRAINT"]) (validateName D true) (.ret ())
  ifM (matchToken ["PRIMARY"]) (validateTableConstraintPrimaryKey n) <|
    ifM (matchToken ["UNIQUE"]) (validateTableConstraintUnique n) <|
    ifM (matchToken ["CHECK"]) (validateConstraintCheck n) <|
    ifM (matchToken ["FOREIGN"]) (validateTableConstraintForeignKey n)
    syntaxError

/-- validator_sqlite.go:218-232 `validateColumnDefinition`. -/
def validateColumnDefinition (isNum : Str → Bool) (n : Nat) : Prog Unit :=
  ifM (matchToken ["CONSTRAINT", "PRIMARY", "UNIQUE", "CHECK", "FOREIGN"])
    (validateTableConstraint n)
    (do validateName D true
        validateColumnType
        validateColumnConstraints isNum n)

/-- validator_sqlite.go:207-215 `validateColumnDefinitions`. -/
def validateColumnDefinitions (isNum : Str → Bool) : Nat → Prog Unit
  | 0 => .timeout
  | n + 1 => do
    validateColumnDefinition isNum (n + 1)
    ifM (matchTokenNext true [","]) (validateColumnDefinitions isNum n) (.ret ())

/-- validator_sqlite.go:612-636 `validateTableOptions`. -/
def validateTableOptions : Prog Unit :=
  ifM isOutOfRange (.ret ()) <|
  ifM (matchTokenNext false ["WITHOUT"])
    (do validateToken false ["ROWID"]
        ifM (matchTokenNext false [","]) (validateToken false ["STRICT"]) (.ret ()))
    (ifM (matchTokenNext false ["STRICT"])
      (ifM (matchTokenNext false [","])
        (do validateToken false ["WITHOUT"]
            validateToken false ["ROWID"])
        (.ret ()))
      (.ret ()))

/-- validator_sqlite.go:190-204 `validateTableDefinition`. -/
def validateTableDefinition (isNum : Str → Bool) (n : Nat) : Prog Unit := do
  validateToken true ["("]
  validateColumnDefinitions isNum n
  validateToken true [")"]
  validateTableOptions

/-- validator_sqlite.go:126-144 `validateCreateTable`. -/
def validateCreateTable (isNum : Str → Bool) (n : Nat) : Prog Unit := do
  set (S "CREATE")
  validateToken true ["TABLE"]
  validateIfNotExists
  validateTableName D true
  validateTableDefinition isNum n
  validateToken true [";"]

/-- validator_sqlite.go:148: object kinds accepted by `validateCreateOther`. -/
def otherKinds : List String := ["VIRTUAL", "VIEW", "TRIGGER", "INDEX", "UNIQUE"]

/-- validator_sqlite.go:108-123 `validateDdl`. -/
def validateDdl (isNum : Str → Bool) (n : Nat) : Prog Unit := do
  validateToken false ["CREATE"]
  skipToken false ["TEMP", "TEMPORARY"]
  ifM (matchToken ["TABLE"]) (validateCreateTable isNum n) (validateCreateOther otherKinds n)

/-- validator_sqlite.go:28-36 `validate`. -/
def validate (isNum : Str → Bool) : Nat → Prog Unit
  | 0 => .timeout
  | n + 1 =>
    ifM isOutOfRange (.ret ())
      (do validateDdl isNum (n + 1)
          validate isNum n)

end DDL.Sqlite
