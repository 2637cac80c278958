import Verif.Model.Validator
/-
Model of internal/validator/validator_mysql.go.
-/

namespace DDL.Mysql
open DDL V

/-- The dialect argument for the shared helpers. -/
abbrev D : Rdbms := .mysql

/-- validator_mysql.go:93-103 `validateStringValue`. -/
def validateStringValue (set : Bool) : Prog Unit :=
  .head fun c => cond (isStringValue D c) (next set) syntaxError

/-- validator_mysql.go:202-220 `validateIndexKeysAux`. -/
def validateIndexKeysAux (set : Bool) : Nat → Prog Unit
  | 0 => .timeout
  | n + 1 => do
    ifM (matchToken ["("])
      (validateExpr (n + 1) false)
      (do validateName D set
          validateTypeDigitN false)
    skipToken false ["ASC", "DESC"]
    ifM (matchTokenNext set [","]) (validateIndexKeysAux set n) (.ret ())

/-- validator_mysql.go:189-200 `validateIndexKeys`. The closing parenthesis is kept even when
`set` is false (line 196). -/
def validateIndexKeys (n : Nat) (set : Bool) : Prog Unit := do
  validateToken set ["("]
  validateIndexKeysAux set n
  validateToken true [")"]

/-- validator_mysql.go:352-397 `validateColumnType`. -/
def validateColumnType : Prog Unit :=
  ifM (matchTokenNext true ["VARCHAR", "CHAR", "BINARY", "VARBINARY", "BLOB", "TEXT"])
    (validateTypeDigitN true) <|
  ifM (matchTokenNext true ["NUMERIC", "DECIMAL", "FLOAT", "REAL", "DOUBLE"])
    (validateTypeDigitPS true) <|
  ifM (matchTokenNext true
      ["BIT", "TINYINT", "SMALLINT", "MEDIUMINT", "INT", "INTEGER", "BIGINT"])
    (validateTypeDigitN true) <|
  ifM (matchTokenNext true ["TIME", "DATETIME", "TIMESTAMP", "YEAR"])
    (do validateTypeDigitN true
        ifM (matchTokenNext false ["WITH", "WITHOUT"])
          (do validateToken false ["TIME"]
              validateToken false ["ZONE"])
          (.ret ()))
  (validateToken true dataTypeMysql)

/-- validator_mysql.go:506-520 `validateConstraintPrimaryKey`. -/
def validateConstraintPrimaryKey : Prog Unit :=
  ifM (matchToken ["KEY"])
    (do set (S "PRIMARY")
        set (S "KEY")
        next false)
    (do validateToken true ["PRIMARY"]
        validateToken true ["KEY"])

/-- validator_mysql.go:523-531 `validateConstraintNotNull`. -/
def validateConstraintNotNull : Prog Unit := do
  validateToken true ["NOT"]
  validateToken true ["NULL"]

/-- validator_mysql.go:534-539 `validateConstraintNull`. -/
def validateConstraintNull : Prog Unit := validateToken false ["NULL"]

/-- validator_mysql.go:542-548 `validateConstraintUnique`. -/
def validateConstraintUnique : Prog Unit := do
  validateToken true ["UNIQUE"]
  skipToken false ["KEY"]

/-- validator_mysql.go:551-561 `validateConstraintCheck`; `validateTableConstraintCheck`
(856-858) calls it. -/
def validateConstraintCheck (n : Nat) : Prog Unit := do
  validateToken true ["CHECK"]
  validateExpr n true
  skipToken false ["NOT"]
  skipToken false ["ENFORCED"]

/-- validator_mysql.go:564-587 `validateConstraintDefault`. -/
def validateConstraintDefault (isNum : Str → Bool) (n : Nat) : Prog Unit := do
  validateToken true ["DEFAULT"]
  ifM (matchToken ["("]) (validateExpr n true)
    (do validateLiteralValue isNum D true
        ifM (matchTokenNext false ["ON"])
          (do validateToken false ["UPDATE"]
              validateToken false ["CURRENT_TIME", "CURRENT_DATE", "CURRENT_TIMESTAMP"])
          (.ret ()))

/-- validator_mysql.go:590-598 `validateConstraintCollate`. -/
def validateConstraintCollate : Prog Unit := do
  validateToken true ["COLLATE"]
  validateName D true

/-- validator_mysql.go:601-620 `validateConstraintReferences`. -/
def validateConstraintReferences (n : Nat) : Prog Unit := do
  validateToken true ["REFERENCES"]
  validateTableName D true
  ifM (matchTokenNext true ["("])
    (do validateName D true
        validateToken true [")"])
    (.ret ())
  validateConstraintReferencesAux n

/-- validator_mysql.go:655-668 `validateConstraintGenerated`. -/
def validateConstraintGenerated (n : Nat) : Prog Unit := do
  ifM (matchTokenNext false ["GENERATED"]) (validateToken false ["ALWAYS"]) (.ret ())
  validateToken false ["AS"]
  validateExpr n false

/-- validator_mysql.go:671-679 `validateConstraintComment`. -/
def validateConstraintComment : Prog Unit := do
  validateToken false ["COMMENT"]
  validateStringValue false

/-- validator_mysql.go:682-690 `validateConstraintColumnFormat`. -/
def validateConstraintColumnFormat : Prog Unit := do
  validateToken false ["COLUMN_FORMAT"]
  validateToken false ["FIXED", "DYNAMIC", "DEFAULT"]

/-- validator_mysql.go:693-702 `validateConstraintEngineAttribute`. -/
def validateConstraintEngineAttribute : Prog Unit := do
  validateToken false ["ENGINE_ATTRIBUTE", "SECONDARY_ENGINE_ATTRIBUTE"]
  skipToken false ["="]
  validateStringValue false

/-- validator_mysql.go:705-713 `validateConstraintStorage`. -/
def validateConstraintStorage : Prog Unit := do
  validateToken false ["STORAGE"]
  validateToken false ["DISK", "MEMORY"]

/-- validator_mysql.go:716-721 `validateConstraintAutoincrement`. -/
def validateConstraintAutoincrement : Prog Unit := validateToken true ["AUTO_INCREMENT"]

/-- validator_mysql.go:412-418 `isColumnConstraint`. -/
def columnConstraintKinds : List String :=
  ["PRIMARY", "KEY", "NOT", "NULL", "UNIQUE", "CHECK", "DEFAULT", "COLLATE", "REFERENCES",
   "GENERATED", "AS", "COMMENT", "COLUMN_FORMAT", "ENGINE_ATTRIBUTE",
   "SECONDARY_ENGINE_ATTRIBUTE", "STORAGE", "VISIBLE", "INVISIBLE", "VIRTUAL", "STORED",
   "AUTO_INCREMENT"]

/-- validator_mysql.go:455-503 `validateColumnConstraint`. -/
def validateColumnConstraint (isNum : Str → Bool) (n : Nat) : Prog Unit :=
  ifM (matchToken ["PRIMARY", "KEY"]) validateConstraintPrimaryKey <|
  ifM (matchToken ["NOT"]) validateConstraintNotNull <|
  ifM (matchToken ["NULL"]) validateConstraintNull <|
  ifM (matchToken ["UNIQUE"]) validateConstraintUnique <|
  ifM (matchToken ["CHECK"]) (validateConstraintCheck n) <|
  ifM (matchToken ["DEFAULT"]) (validateConstraintDefault isNum n) <|
  ifM (matchToken ["COLLATE"]) validateConstraintCollate <|
  ifM (matchToken ["REFERENCES"]) (validateConstraintReferences n) <|
  ifM (matchToken ["GENERATED", "AS"]) (validateConstraintGenerated n) <|
  ifM (matchToken ["COMMENT"]) validateConstraintComment <|
  ifM (matchToken ["COLUMN_FORMAT"]) validateConstraintColumnFormat <|
  ifM (matchToken ["ENGINE_ATTRIBUTE", "SECONDARY_ENGINE_ATTRIBUTE"])
    validateConstraintEngineAttribute <|
  ifM (matchToken ["STORAGE"]) validateConstraintStorage <|
  ifM (matchToken ["AUTO_INCREMENT"]) validateConstraintAutoincrement <|
  ifM (matchTokenNext false ["VISIBLE", "INVISIBLE", "VIRTUAL", "STORED"]) (.ret ())
  syntaxError

/-- validator_mysql.go:425-445: the word remembered for a constraint. -/
def constraintKey (t : Str) : Str :=
  if isKw ["NOT"] t then S "NULL"
  else if isKw ["PRIMARY", "KEY"] t then S "PRIMARY"
  else if isKw ["GENERATED", "AS"] t then S "GENERATED"
  else toUpper t

/-- validator_mysql.go:400-409, 421-452 `validateColumnConstraints` and
`validateColumnConstraintsAux`. -/
def validateColumnConstraints (isNum : Str → Bool) (n : Nat) : Prog Unit := do
  ifM (matchTokenNext true ["CONSTRAINT"])
    (ifM (matchToken ["CHECK"]) (.ret ()) (validateName D true))
    (.ret ())
  columnConstraintsAux columnConstraintKinds constraintKey (validateColumnConstraint isNum) n []

/-- validator_mysql.go:885-893 `validateIndexType`. -/
def validateIndexType : Prog Unit := do
  validateToken false ["USING"]
  validateToken false ["BTREE", "HASH"]

/-- validator_mysql.go:896-937 `validateIndexOption`. -/
def validateIndexOption (isNum : Str → Bool) : Nat → Prog Unit
  | 0 => .timeout
  | n + 1 =>
    ifM (matchTokenNext false ["KEY_BLOCK_SIZE"])
      (do skipToken false ["="]
          validateLiteralValue isNum D false
          validateIndexOption isNum n) <|
    ifM (matchToken ["USING"])
      (do validateIndexType
          validateIndexOption isNum n) <|
    ifM (matchTokenNext false ["WITH"])
      (do validateToken false ["PARSER"]
          validateName D false
          validateIndexOption isNum n) <|
    ifM (matchTokenNext false ["COMMENT"])
      (do validateStringValue false
          validateIndexOption isNum n) <|
    ifM (matchTokenNext false ["VISIBLE", "INVISIBLE"]) (validateIndexOption isNum n) <|
    ifM (matchTokenNext false ["ENGINE_ATTRIBUTE", "SECONDARY_ENGINE_ATTRIBUTE"])
      (do skipToken false ["="]
          validateStringValue false
          validateIndexOption isNum n)
    (.ret ())

/-- `if v.matchToken("USING") { v.validateIndexType() }` (validator_mysql.go:779-783, 804-808,
870-874). -/
def optIndexType : Prog Unit := ifM (matchToken ["USING"]) validateIndexType (.ret ())

/-- validator_mysql.go:772-791 `validateTableConstraintPrimaryKey`. -/
def validateTableConstraintPrimaryKey (isNum : Str → Bool) (n : Nat) : Prog Unit := do
  validateToken true ["PRIMARY"]
  validateToken true ["KEY"]
  optIndexType
  validateIndexKeys n true
  validateIndexOption isNum n

/-- validator_mysql.go:794-816 `validateTableConstraintUnique`. -/
def validateTableConstraintUnique (isNum : Str → Bool) (n : Nat) : Prog Unit := do
  validateToken true ["UNIQUE"]
  skipToken false ["INDEX", "KEY"]
  ifM (matchToken ["("]) (.ret ()) (validateName D false)
  optIndexType
  validateIndexKeys n true
  validateIndexOption isNum n

/-- validator_mysql.go:819-853 `validateTableConstraintForeignKey`. -/
def validateTableConstraintForeignKey (n : Nat) : Prog Unit := do
  validateToken true ["FOREIGN"]
  validateToken true ["KEY"]
  ifM (matchToken ["("]) (.ret ()) (validateName D false)
  validateToken true ["("]
  validateCommaSeparatedColumnNames D true n
  validateToken true [")"]
  validateToken true ["REFERENCES"]
  validateTableName D true
  validateIndexKeys n true
  validateConstraintReferencesAux n

/-- validator_mysql.go:861-882 `validateTableConstraintIndex`. The condition
`!matchToken("USING") && !matchToken("(")` of line 865 is written as two nested tests. -/
def validateTableConstraintIndex (isNum : Str → Bool) (n : Nat) : Prog Unit := do
  validateToken false ["INDEX", "KEY"]
  ifM (matchToken ["USING"]) (.ret ()) (ifM (matchToken ["("]) (.ret ()) (validateName D false))
  optIndexType
  validateIndexKeys n false
  validateIndexOption isNum n

/-- validator_mysql.go:736-769 `validateTableConstraintAux`. -/
def validateTableConstraintAux (isNum : Str → Bool) (n : Nat) : Prog Unit :=
  ifM (matchToken ["PRIMARY"]) (validateTableConstraintPrimaryKey isNum n) <|
  ifM (matchToken ["UNIQUE"]) (validateTableConstraintUnique isNum n) <|
  ifM (matchToken ["FOREIGN"]) (validateTableConstraintForeignKey n) <|
  ifM (matchToken ["CHECK"]) (validateConstraintCheck n) <|
  ifM (matchToken ["INDEX", "KEY"]) (validateTableConstraintIndex isNum n) <|
  ifM (matchTokenNext false ["FULLTEXT", "SPATIAL"])
    (do skipToken false ["INDEX", "KEY"]
        ifM (matchToken ["("]) (.ret ()) (validateName D true)
        validateIndexKeys n false
        validateIndexOption isNum n)
  syntaxError

/-- validator_mysql.go:724-733 `validateTableConstraint`. -/
def validateTableConstraint (isNum : Str → Bool) (n : Nat) : Prog Unit := do
  ifM (matchTokenNext true ["CONSTRAINT"])
    (ifM (matchToken ["PRIMARY", "UNIQUE", "FOREIGN", "CHECK"]) (.ret ()) (validateName D true))
    (.ret ())
  validateTableConstraintAux isNum n

/-- validator_mysql.go:335-349 `validateColumnDefinition`. -/
def validateColumnDefinition (isNum : Str → Bool) (n : Nat) : Prog Unit :=
  ifM (matchToken ["CONSTRAINT", "PRIMARY", "UNIQUE", "FOREIGN", "INDEX", "KEY", "FULLTEXT",
      "SPATIAL", "CHECK"])
    (validateTableConstraint isNum n)
    (do validateName D true
        validateColumnType
        validateColumnConstraints isNum n)

/-- validator_mysql.go:324-332 `validateColumnDefinitions`. -/
def validateColumnDefinitions (isNum : Str → Bool) : Nat → Prog Unit
  | 0 => .timeout
  | n + 1 => do
    validateColumnDefinition isNum (n + 1)
    ifM (matchTokenNext true [","]) (validateColumnDefinitions isNum n) (.ret ())

/-- validator_mysql.go:951-959 `validateCommaSeparatedTableNames`. -/
def validateCommaSeparatedTableNames (set : Bool) : Nat → Prog Unit
  | 0 => .timeout
  | n + 1 => do
    validateTableName D set
    ifM (matchTokenNext set [","]) (validateCommaSeparatedTableNames set n) (.ret ())

/-- validator_mysql.go:1023-1030 `validateTableOptionCommonLiteral`. -/
def validateTableOptionCommonLiteral (isNum : Str → Bool) : Prog Unit := do
  next false
  skipToken false ["="]
  validateLiteralValue isNum D false

/-- validator_mysql.go:1034-1041 `validateTableOptionCommonString`. -/
def validateTableOptionCommonString : Prog Unit := do
  next false
  skipToken false ["="]
  validateStringValue false

/-- validator_mysql.go:1045-1060 `validateTableOptionCommonName`. -/
def validateTableOptionCommonName : Prog Unit := do
  ifM (matchTokenNext false ["CHARACTER"])
    (validateToken false ["SET"])
    (validateToken false ["COLLATE", "ENGINE"])
  skipToken false ["="]
  validateName D false

/-- validator_mysql.go:1064-1071 `validateTableOptionCommon01`. -/
def validateTableOptionCommon01 : Prog Unit := do
  next false
  skipToken false ["="]
  validateToken false ["0", "1"]

/-- validator_mysql.go:1075-1082 `validateTableOptionCommon01Default`. -/
def validateTableOptionCommon01Default : Prog Unit := do
  next false
  skipToken false ["="]
  validateToken false ["0", "1", "DEFAULT"]

/-- validator_mysql.go:1085-1097 `validateTableOptionDirectory`. -/
def validateTableOptionDirectory (isNum : Str → Bool) : Prog Unit := do
  validateToken false ["DATA", "INDEX"]
  validateToken false ["DIRECTORY"]
  skipToken false ["="]
  validateLiteralValue isNum D false

/-- validator_mysql.go:1100-1113 `validateTableOptionTablespace`. -/
def validateTableOptionTablespace : Prog Unit := do
  validateToken false ["TABLESPACE"]
  validateName D false
  ifM (matchTokenNext false ["STORAGE"]) (validateToken false ["DISK", "MEMORY"]) (.ret ())

/-- validator_mysql.go:1116-1134 `validateTableOptionDefault`. -/
def validateTableOptionDefault : Prog Unit := do
  validateToken false ["DEFAULT"]
  ifM (matchTokenNext false ["CHARACTER"])
    (validateToken false ["SET"])
    (ifM (matchTokenNext false ["COLLATE"]) (.ret ()) syntaxError)
  skipToken false ["="]
  validateName D false

/-- validator_mysql.go:1137-1152 `validateTableOptionUnion`. -/
def validateTableOptionUnion (n : Nat) : Prog Unit := do
  validateToken false ["UNION"]
  skipToken false ["="]
  validateToken false ["("]
  validateCommaSeparatedTableNames false n
  validateToken false [")"]

/-- validator_mysql.go:1155-1164 `validateTableOptionInsertMethod`. -/
def validateTableOptionInsertMethod : Prog Unit := do
  validateToken false ["INSERT_METHOD"]
  skipToken false ["="]
  validateToken false ["NO", "FIRST", "LAST"]

/-- validator_mysql.go:1167-1176 `validateTableOptionRowFormat`. -/
def validateTableOptionRowFormat : Prog Unit := do
  validateToken false ["ROW_FORMAT"]
  skipToken false ["="]
  validateToken false ["DEFAULT", "DYNAMIC", "FIXED", "COMPRESSED", "REDUNDANT", "COMPACT"]

/-- validator_mysql.go:977-1019 `validateTableOption`. -/
def validateTableOption (isNum : Str → Bool) (n : Nat) : Prog Unit :=
  ifM (matchToken ["AUTOEXTEND_SIZE", "AUTO_INCREMENT", "AVG_ROW_LENGTH",
      "KEY_BLOCK_SIZE", "MAX_ROWS", "MIN_ROWS", "STATS_SAMPLE_PAGES"])
    (validateTableOptionCommonLiteral isNum) <|
  ifM (matchToken ["COMMENT", "ENGINE_ATTRIBUTE", "PASSWORD", "SECONDARY_ENGINE_ATTRIBUTE",
      "CONNECTION", "COMPRESSION", "ENCRYPTION"])
    validateTableOptionCommonString <|
  ifM (matchToken ["COLLATE", "ENGINE", "CHARACTER"]) validateTableOptionCommonName <|
  ifM (matchToken ["CHECKSUM", "DELAY_KEY_WRITE"]) validateTableOptionCommon01 <|
  ifM (matchToken ["PACK_KEYS", "STATS_AUTO_RECALC", "STATS_PERSISTENT"])
    validateTableOptionCommon01Default <|
  ifM (matchToken ["DATA", "INDEX"]) (validateTableOptionDirectory isNum) <|
  ifM (matchToken ["TABLESPACE"]) validateTableOptionTablespace <|
  ifM (matchToken ["DEFAULT"]) validateTableOptionDefault <|
  ifM (matchToken ["UNION"]) (validateTableOptionUnion n) <|
  ifM (matchToken ["INSERT_METHOD"]) validateTableOptionInsertMethod <|
  ifM (matchToken ["ROW_FORMAT"]) validateTableOptionRowFormat
  syntaxError

/-- validator_mysql.go:962-974 `validateTableOptions`. -/
def validateTableOptions (isNum : Str → Bool) : Nat → Prog Unit
  | 0 => .timeout
  | n + 1 =>
    ifM isOutOfRange (.ret ()) <|
    ifM (matchToken [";"]) (.ret ())
      (do skipToken false [","]
          validateTableOption isNum (n + 1)
          validateTableOptions isNum n)

/-- validator_mysql.go:307-321 `validateTableDefinition`. -/
def validateTableDefinition (isNum : Str → Bool) (n : Nat) : Prog Unit := do
  validateToken true ["("]
  validateColumnDefinitions isNum n
  validateToken true [")"]
  validateTableOptions isNum n

/-- validator_mysql.go:240-258 `validateCreateTable`. -/
def validateCreateTable (isNum : Str → Bool) (n : Nat) : Prog Unit := do
  set (S "CREATE")
  validateToken true ["TABLE"]
  validateIfNotExists
  validateTableName D true
  validateTableDefinition isNum n
  validateToken true [";"]

/-- validator_mysql.go:262-265: object kinds accepted by `validateCreateOther`. -/
def otherKinds : List String :=
  ["VIEW", "TRIGGER", "INDEX", "DATABASE", "UNIQUE", "PROCEDURE", "SERVER",
   "FUNCTION", "USER", "EVENT", "SEQUENCE", "TABLESPACE", "ROLE", "LOGIN"]

/-- validator_mysql.go:223-237 `validateDdl`. -/
def validateDdl (isNum : Str → Bool) (n : Nat) : Prog Unit := do
  validateToken false ["CREATE"]
  ifM (matchToken ["TABLE"]) (validateCreateTable isNum n) (validateCreateOther otherKinds n)

/-- validator_mysql.go:28-36 `validate`. -/
def validate (isNum : Str → Bool) : Nat → Prog Unit
  | 0 => .timeout
  | n + 1 =>
    ifM isOutOfRange (.ret ())
      (do validateDdl isNum (n + 1)
          validate isNum n)

end DDL.Mysql
