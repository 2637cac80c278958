/-
Generated by tools/gen_go.py from the sources in /repo. Do not edit.
The names that occur in the code.
-/

namespace DDL.Src

/-- Parameters and local variables. -/
inductive Var where
  | «begin» | c | char | check | column | columns | constraint | constraints | dataType | ddl | element | err | f
  | foreignKey | key | keywords | l | line | ls | m | n | name | near | pattern | primaryKey | rdbms | reference
  | ret | s | schemaName | «set» | slice | str | table | tableConstraint | tableName | tables | tc | tmp | token
  | tokens | unique | v | validatedTokens
  deriving DecidableEq, Repr

/-- Fields of structs. -/
inductive Fld where
  | Check | Collate | ColumnNames | Columns | Constraint | Constraints | DataType | Default | DigitM | DigitN | Expr
  | ForeignKey | IfNotExists | IsAutoincrement | IsNotNull | IsPrimaryKey | IsUnique | Name | PrimaryKey | References
  | Schema | TableName | Unique | ddlr | i | line | rdbms | result | size | tokens
  deriving DecidableEq, Repr

/-- Struct types. -/
inductive Ty where
  | Check | Column | Constraint | DataType | ForeignKey | PrimaryKey | Reference | Table | TableConstraint | Unique
  | converter | lexer | mysqlValidator | postgresqlValidator | sqliteValidator
  deriving DecidableEq, Repr

/-- Methods called through an interface. -/
inductive Mth where
  | Lex | Validate | Convert
  deriving DecidableEq, Repr

/-- Functions and methods; the first two letters stand for the file. -/
inductive Fn where
  | co_NewValidateError | co_Filter | co_MapSlice | co_Contains | co_Remove | co_IsPositiveIntegerToken
  | co_IsNumericToken | lx_NewLexer | lx_Lex | lx_init | lx_next | lx_char | lx_appendToken | lx_isOutOfRange
  | lx_lexError | lx_lex | lx_lexHyphen | lx_lexSlash | lx_lexAsterisk | lx_lexDoubleQuote | lx_lexSingleQuote
  | lx_lexBackQuote | lx_lexSharp | lx_lexEOL | lx_lexSpace | lx_lexSymbol | lx_skipComment | lx_skipMultiLineComment
  | lx_lexStringDoubleQuote | lx_lexStringSingleQuote | lx_lexStringBackQuote | va_NewValidator | va_init | va_token
  | va_set | va_isOutOfRange | va_next | va_syntaxError | va_matchToken | va_matchTokenNext | va_validateToken
  | va_validateBrackets | va_validateBracketsAux | sq_NewSQLiteValidator | sq_Validate | sq_validate
  | sq_isStringValue | sq_isIdentifier | sq_isValidName | sq_validateName | sq_validateTableName
  | sq_validateColumnName | sq_validateCommaSeparatedColumnNames | sq_validateExpr | sq_validateDdl
  | sq_validateCreateTable | sq_validateCreateOther | sq_validateIfNotExists | sq_validateTableDefinition
  | sq_validateColumnDefinitions | sq_validateColumnDefinition | sq_validateColumnType | sq_validateColumnConstraints
  | sq_validateColumnConstraintsAux | sq_isColumnConstraint | sq_validateColumnConstraint
  | sq_validateConstraintPrimaryKey | sq_validateConstraintNotNull | sq_validateConstraintUnique
  | sq_validateConstraintCheck | sq_validateConstraintDefault | sq_validateLiteralValue
  | sq_validateConstraintCollate | sq_validateConstraintReferences | sq_validateConstraintReferencesAux
  | sq_validateConstraintGenerated | sq_validateConflictClause | sq_validateTableConstraint
  | sq_validateTableConstraintPrimaryKey | sq_validateTableConstraintUnique | sq_validateTableConstraintCheck
  | sq_validateTableConstraintForeignKey | sq_validateTableOptions | pg_NewPostgreSQLValidator | pg_Validate
  | pg_validate | pg_isStringValue | pg_isIdentifier | pg_isValidName | pg_validateName | pg_validateTableName
  | pg_validateColumnName | pg_validateExpr | pg_validateCommaSeparatedColumnNames | pg_validateDdl
  | pg_validateCreateTable | pg_validateCreateOther | pg_validateIfNotExists | pg_validateTableDefinition
  | pg_validateColumnDefinitions | pg_validateColumnDefinition | pg_validateColumnType | pg_validateTypeDigitN
  | pg_validateTypeDigitP | pg_validateTypeDigitPS | pg_validatePositiveInteger | pg_validateColumnConstraints
  | pg_isColumnConstraint | pg_validateColumnConstraintsAux | pg_validateColumnConstraint
  | pg_validateConstraintPrimaryKey | pg_validateConstraintNotNull | pg_validateConstraintNull
  | pg_validateConstraintUnique | pg_validateConstraintCheck | pg_validateConstraintDefault | pg_validateLiteralValue
  | pg_validateConstraintReferences | pg_validateConstraintReferencesAux | pg_validateConstraintGenerated
  | pg_validateIndexParameters | pg_validateTableConstraint | pg_validateTableConstraintPrimaryKey
  | pg_validateTableConstraintUnique | pg_validateTableConstraintCheck | pg_validateTableConstraintForeignKey
  | pg_validateTableConstraintExclude | pg_validateTableOptions | pg_validateTableOption | pg_validateTableOptionWith
  | pg_validateTableOptionWithout | pg_validateTableOptionTablespace | pg_validateTableOptionInherits
  | pg_validateTableOptionPartition | pg_validateTableOptionUsing | my_NewMySQLValidator | my_Validate | my_validate
  | my_isStringValue | my_isIdentifier | my_isValidName | my_validateName | my_validateTableName
  | my_validateColumnName | my_validateStringValue | my_validateTypeDigitN | my_validateTypeDigitP
  | my_validateTypeDigitPS | my_validatePositiveInteger | my_validateExpr | my_validateLiteralValue
  | my_validateIndexKeys | my_validateIndexKeysAux | my_validateDdl | my_validateCreateTable | my_validateCreateOther
  | my_validateIfNotExists | my_validateTableDefinition | my_validateColumnDefinitions | my_validateColumnDefinition
  | my_validateColumnType | my_validateColumnConstraints | my_isColumnConstraint | my_validateColumnConstraintsAux
  | my_validateColumnConstraint | my_validateConstraintPrimaryKey | my_validateConstraintNotNull
  | my_validateConstraintNull | my_validateConstraintUnique | my_validateConstraintCheck
  | my_validateConstraintDefault | my_validateConstraintCollate | my_validateConstraintReferences
  | my_validateConstraintReferencesAux | my_validateConstraintGenerated | my_validateConstraintComment
  | my_validateConstraintColumnFormat | my_validateConstraintEngineAttribute | my_validateConstraintStorage
  | my_validateConstraintAutoincrement | my_validateTableConstraint | my_validateTableConstraintAux
  | my_validateTableConstraintPrimaryKey | my_validateTableConstraintUnique | my_validateTableConstraintForeignKey
  | my_validateTableConstraintCheck | my_validateTableConstraintIndex | my_validateIndexType | my_validateIndexOption
  | my_validateCommaSeparatedColumnNames | my_validateCommaSeparatedTableNames | my_validateTableOptions
  | my_validateTableOption | my_validateTableOptionCommonLiteral | my_validateTableOptionCommonString
  | my_validateTableOptionCommonName | my_validateTableOptionCommon01 | my_validateTableOptionCommon01Default
  | my_validateTableOptionDirectory | my_validateTableOptionTablespace | my_validateTableOptionDefault
  | my_validateTableOptionUnion | my_validateTableOptionInsertMethod | my_validateTableOptionRowFormat
  | cv_NewConverter | cv_Convert | cv_init | cv_token | cv_isOutOfRange | cv_next | cv_matchToken | cv_isIdentifier
  | cv_isStringValue | cv_convert | cv_convertTable | cv_convertTableName | cv_convertName
  | cv_convertTableDefinition | cv_convertColumnDefinition | cv_convertDateType | cv_convertTypeDigit
  | cv_convertConstraint | cv_convertConstraintAux | cv_convertDefaultValue | cv_convertExpr | cv_convertExprAux
  | cv_convertLiteralValue | cv_convertReference | cv_convertTableConstraint | cv_convertCommaSeparatedColumnNames
  | dp_Parse | dp_ParseSQLite | dp_ParsePostgreSQL | dp_ParseMySQL | dp_ParseForce
  deriving DecidableEq, Repr

end DDL.Src
