import Verif.Go.SrcCommon
import Verif.Go.SrcLexer
import Verif.Go.SrcValidator
import Verif.Go.SrcSqlite
import Verif.Go.SrcPostgres
import Verif.Go.SrcMysql
import Verif.Go.SrcConverter
import Verif.Go.SrcTop
/-
Generated by tools/gen_go.py from the sources in /repo. Do not edit.
The whole program.
-/

namespace DDL.Src

/-- The declaration of a function. -/
def decl : Fn → Decl
  | .co_NewValidateError => Tree.co_NewValidateError
  | .co_Filter => Tree.co_Filter
  | .co_MapSlice => Tree.co_MapSlice
  | .co_Contains => Tree.co_Contains
  | .co_Remove => Tree.co_Remove
  | .co_IsPositiveIntegerToken => Tree.co_IsPositiveIntegerToken
  | .co_IsNumericToken => Tree.co_IsNumericToken
  | .lx_NewLexer => Tree.lx_NewLexer
  | .lx_Lex => Tree.lx_Lex
  | .lx_init => Tree.lx_init
  | .lx_next => Tree.lx_next
  | .lx_char => Tree.lx_char
  | .lx_appendToken => Tree.lx_appendToken
  | .lx_isOutOfRange => Tree.lx_isOutOfRange
  | .lx_lexError => Tree.lx_lexError
  | .lx_lex => Tree.lx_lex
  | .lx_lexHyphen => Tree.lx_lexHyphen
  | .lx_lexSlash => Tree.lx_lexSlash
  | .lx_lexAsterisk => Tree.lx_lexAsterisk
  | .lx_lexDoubleQuote => Tree.lx_lexDoubleQuote
  | .lx_lexSingleQuote => Tree.lx_lexSingleQuote
  | .lx_lexBackQuote => Tree.lx_lexBackQuote
  | .lx_lexSharp => Tree.lx_lexSharp
  | .lx_lexEOL => Tree.lx_lexEOL
  | .lx_lexSpace => Tree.lx_lexSpace
  | .lx_lexSymbol => Tree.lx_lexSymbol
  | .lx_skipComment => Tree.lx_skipComment
  | .lx_skipMultiLineComment => Tree.lx_skipMultiLineComment
  | .lx_lexStringDoubleQuote => Tree.lx_lexStringDoubleQuote
  | .lx_lexStringSingleQuote => Tree.lx_lexStringSingleQuote
  | .lx_lexStringBackQuote => Tree.lx_lexStringBackQuote
  | .va_NewValidator => Tree.va_NewValidator
  | .va_init => Tree.va_init
  | .va_token => Tree.va_token
  | .va_set => Tree.va_set
  | .va_isOutOfRange => Tree.va_isOutOfRange
  | .va_next => Tree.va_next
  | .va_syntaxError => Tree.va_syntaxError
  | .va_matchToken => Tree.va_matchToken
  | .va_matchTokenNext => Tree.va_matchTokenNext
  | .va_validateToken => Tree.va_validateToken
  | .va_validateBrackets => Tree.va_validateBrackets
  | .va_validateBracketsAux => Tree.va_validateBracketsAux
  | .sq_NewSQLiteValidator => Tree.sq_NewSQLiteValidator
  | .sq_Validate => Tree.sq_Validate
  | .sq_validate => Tree.sq_validate
  | .sq_isStringValue => Tree.sq_isStringValue
  | .sq_isIdentifier => Tree.sq_isIdentifier
  | .sq_isValidName => Tree.sq_isValidName
  | .sq_validateName => Tree.sq_validateName
  | .sq_validateTableName => Tree.sq_validateTableName
  | .sq_validateColumnName => Tree.sq_validateColumnName
  | .sq_validateCommaSeparatedColumnNames => Tree.sq_validateCommaSeparatedColumnNames
  | .sq_validateExpr => Tree.sq_validateExpr
  | .sq_validateDdl => Tree.sq_validateDdl
  | .sq_validateCreateTable => Tree.sq_validateCreateTable
  | .sq_validateCreateOther => Tree.sq_validateCreateOther
  | .sq_validateIfNotExists => Tree.sq_validateIfNotExists
  | .sq_validateTableDefinition => Tree.sq_validateTableDefinition
  | .sq_validateColumnDefinitions => Tree.sq_validateColumnDefinitions
  | .sq_validateColumnDefinition => Tree.sq_validateColumnDefinition
  | .sq_validateColumnType => Tree.sq_validateColumnType
  | .sq_validateColumnConstraints => Tree.sq_validateColumnConstraints
  | .sq_validateColumnConstraintsAux => Tree.sq_validateColumnConstraintsAux
  | .sq_isColumnConstraint => Tree.sq_isColumnConstraint
  | .sq_validateColumnConstraint => Tree.sq_validateColumnConstraint
  | .sq_validateConstraintPrimaryKey => Tree.sq_validateConstraintPrimaryKey
  | .sq_validateConstraintNotNull => Tree.sq_validateConstraintNotNull
  | .sq_validateConstraintUnique => Tree.sq_validateConstraintUnique
  | .sq_validateConstraintCheck => Tree.sq_validateConstraintCheck
  | .sq_validateConstraintDefault => Tree.sq_validateConstraintDefault
  | .sq_validateLiteralValue => Tree.sq_validateLiteralValue
  | .sq_validateConstraintCollate => Tree.sq_validateConstraintCollate
  | .sq_validateConstraintReferences => Tree.sq_validateConstraintReferences
  | .sq_validateConstraintReferencesAux => Tree.sq_validateConstraintReferencesAux
  | .sq_validateConstraintGenerated => Tree.sq_validateConstraintGenerated
  | .sq_validateConflictClause => Tree.sq_validateConflictClause
  | .sq_validateTableConstraint => Tree.sq_validateTableConstraint
  | .sq_validateTableConstraintPrimaryKey => Tree.sq_validateTableConstraintPrimaryKey
  | .sq_validateTableConstraintUnique => Tree.sq_validateTableConstraintUnique
  | .sq_validateTableConstraintCheck => Tree.sq_validateTableConstraintCheck
  | .sq_validateTableConstraintForeignKey => Tree.sq_validateTableConstraintForeignKey
  | .sq_validateTableOptions => Tree.sq_validateTableOptions
  | .pg_NewPostgreSQLValidator => Tree.pg_NewPostgreSQLValidator
  | .pg_Validate => Tree.pg_Validate
  | .pg_validate => Tree.pg_validate
  | .pg_isStringValue => Tree.pg_isStringValue
  | .pg_isIdentifier => Tree.pg_isIdentifier
  | .pg_isValidName => Tree.pg_isValidName
  | .pg_validateName => Tree.pg_validateName
  | .pg_validateTableName => Tree.pg_validateTableName
  | .pg_validateColumnName => Tree.pg_validateColumnName
  | .pg_validateExpr => Tree.pg_validateExpr
  | .pg_validateCommaSeparatedColumnNames => Tree.pg_validateCommaSeparatedColumnNames
  | .pg_validateDdl => Tree.pg_validateDdl
  | .pg_validateCreateTable => Tree.pg_validateCreateTable
  | .pg_validateCreateOther => Tree.pg_validateCreateOther
  | .pg_validateIfNotExists => Tree.pg_validateIfNotExists
  | .pg_validateTableDefinition => Tree.pg_validateTableDefinition
  | .pg_validateColumnDefinitions => Tree.pg_validateColumnDefinitions
  | .pg_validateColumnDefinition => Tree.pg_validateColumnDefinition
  | .pg_validateColumnType => Tree.pg_validateColumnType
  | .pg_validateTypeDigitN => Tree.pg_validateTypeDigitN
  | .pg_validateTypeDigitP => Tree.pg_validateTypeDigitP
  | .pg_validateTypeDigitPS => Tree.pg_validateTypeDigitPS
  | .pg_validatePositiveInteger => Tree.pg_validatePositiveInteger
  | .pg_validateColumnConstraints => Tree.pg_validateColumnConstraints
  | .pg_isColumnConstraint => Tree.pg_isColumnConstraint
  | .pg_validateColumnConstraintsAux => Tree.pg_validateColumnConstraintsAux
  | .pg_validateColumnConstraint => Tree.pg_validateColumnConstraint
  | .pg_validateConstraintPrimaryKey => Tree.pg_validateConstraintPrimaryKey
  | .pg_validateConstraintNotNull => Tree.pg_validateConstraintNotNull
  | .pg_validateConstraintNull => Tree.pg_validateConstraintNull
  | .pg_validateConstraintUnique => Tree.pg_validateConstraintUnique
  | .pg_validateConstraintCheck => Tree.pg_validateConstraintCheck
  | .pg_validateConstraintDefault => Tree.pg_validateConstraintDefault
  | .pg_validateLiteralValue => Tree.pg_validateLiteralValue
  | .pg_validateConstraintReferences => Tree.pg_validateConstraintReferences
  | .pg_validateConstraintReferencesAux => Tree.pg_validateConstraintReferencesAux
  | .pg_validateConstraintGenerated => Tree.pg_validateConstraintGenerated
  | .pg_validateIndexParameters => Tree.pg_validateIndexParameters
  | .pg_validateTableConstraint => Tree.pg_validateTableConstraint
  | .pg_validateTableConstraintPrimaryKey => Tree.pg_validateTableConstraintPrimaryKey
  | .pg_validateTableConstraintUnique => Tree.pg_validateTableConstraintUnique
  | .pg_validateTableConstraintCheck => Tree.pg_validateTableConstraintCheck
  | .pg_validateTableConstraintForeignKey => Tree.pg_validateTableConstraintForeignKey
  | .pg_validateTableConstraintExclude => Tree.pg_validateTableConstraintExclude
  | .pg_validateTableOptions => Tree.pg_validateTableOptions
  | .pg_validateTableOption => Tree.pg_validateTableOption
  | .pg_validateTableOptionWith => Tree.pg_validateTableOptionWith
  | .pg_validateTableOptionWithout => Tree.pg_validateTableOptionWithout
  | .pg_validateTableOptionTablespace => Tree.pg_validateTableOptionTablespace
  | .pg_validateTableOptionInherits => Tree.pg_validateTableOptionInherits
  | .pg_validateTableOptionPartition => Tree.pg_validateTableOptionPartition
  | .pg_validateTableOptionUsing => Tree.pg_validateTableOptionUsing
  | .my_NewMySQLValidator => Tree.my_NewMySQLValidator
  | .my_Validate => Tree.my_Validate
  | .my_validate => Tree.my_validate
  | .my_isStringValue => Tree.my_isStringValue
  | .my_isIdentifier => Tree.my_isIdentifier
  | .my_isValidName => Tree.my_isValidName
  | .my_validateName => Tree.my_validateName
  | .my_validateTableName => Tree.my_validateTableName
  | .my_validateColumnName => Tree.my_validateColumnName
  | .my_validateStringValue => Tree.my_validateStringValue
  | .my_validateTypeDigitN => Tree.my_validateTypeDigitN
  | .my_validateTypeDigitP => Tree.my_validateTypeDigitP
  | .my_validateTypeDigitPS => Tree.my_validateTypeDigitPS
  | .my_validatePositiveInteger => Tree.my_validatePositiveInteger
  | .my_validateExpr => Tree.my_validateExpr
  | .my_validateLiteralValue => Tree.my_validateLiteralValue
  | .my_validateIndexKeys => Tree.my_validateIndexKeys
  | .my_validateIndexKeysAux => Tree.my_validateIndexKeysAux
  | .my_validateDdl => Tree.my_validateDdl
  | .my_validateCreateTable => Tree.my_validateCreateTable
  | .my_validateCreateOther => Tree.my_validateCreateOther
  | .my_validateIfNotExists => Tree.my_validateIfNotExists
  | .my_validateTableDefinition => Tree.my_validateTableDefinition
  | .my_validateColumnDefinitions => Tree.my_validateColumnDefinitions
  | .my_validateColumnDefinition => Tree.my_validateColumnDefinition
  | .my_validateColumnType => Tree.my_validateColumnType
  | .my_validateColumnConstraints => Tree.my_validateColumnConstraints
  | .my_isColumnConstraint => Tree.my_isColumnConstraint
  | .my_validateColumnConstraintsAux => Tree.my_validateColumnConstraintsAux
  | .my_validateColumnConstraint => Tree.my_validateColumnConstraint
  | .my_validateConstraintPrimaryKey => Tree.my_validateConstraintPrimaryKey
  | .my_validateConstraintNotNull => Tree.my_validateConstraintNotNull
  | .my_validateConstraintNull => Tree.my_validateConstraintNull
  | .my_validateConstraintUnique => Tree.my_validateConstraintUnique
  | .my_validateConstraintCheck => Tree.my_validateConstraintCheck
  | .my_validateConstraintDefault => Tree.my_validateConstraintDefault
  | .my_validateConstraintCollate => Tree.my_validateConstraintCollate
  | .my_validateConstraintReferences => Tree.my_validateConstraintReferences
  | .my_validateConstraintReferencesAux => Tree.my_validateConstraintReferencesAux
  | .my_validateConstraintGenerated => Tree.my_validateConstraintGenerated
  | .my_validateConstraintComment => Tree.my_validateConstraintComment
  | .my_validateConstraintColumnFormat => Tree.my_validateConstraintColumnFormat
  | .my_validateConstraintEngineAttribute => Tree.my_validateConstraintEngineAttribute
  | .my_validateConstraintStorage => Tree.my_validateConstraintStorage
  | .my_validateConstraintAutoincrement => Tree.my_validateConstraintAutoincrement
  | .my_validateTableConstraint => Tree.my_validateTableConstraint
  | .my_validateTableConstraintAux => Tree.my_validateTableConstraintAux
  | .my_validateTableConstraintPrimaryKey => Tree.my_validateTableConstraintPrimaryKey
  | .my_validateTableConstraintUnique => Tree.my_validateTableConstraintUnique
  | .my_validateTableConstraintForeignKey => Tree.my_validateTableConstraintForeignKey
  | .my_validateTableConstraintCheck => Tree.my_validateTableConstraintCheck
  | .my_validateTableConstraintIndex => Tree.my_validateTableConstraintIndex
  | .my_validateIndexType => Tree.my_validateIndexType
  | .my_validateIndexOption => Tree.my_validateIndexOption
  | .my_validateCommaSeparatedColumnNames => Tree.my_validateCommaSeparatedColumnNames
  | .my_validateCommaSeparatedTableNames => Tree.my_validateCommaSeparatedTableNames
  | .my_validateTableOptions => Tree.my_validateTableOptions
  | .my_validateTableOption => Tree.my_validateTableOption
  | .my_validateTableOptionCommonLiteral => Tree.my_validateTableOptionCommonLiteral
  | .my_validateTableOptionCommonString => Tree.my_validateTableOptionCommonString
  | .my_validateTableOptionCommonName => Tree.my_validateTableOptionCommonName
  | .my_validateTableOptionCommon01 => Tree.my_validateTableOptionCommon01
  | .my_validateTableOptionCommon01Default => Tree.my_validateTableOptionCommon01Default
  | .my_validateTableOptionDirectory => Tree.my_validateTableOptionDirectory
  | .my_validateTableOptionTablespace => Tree.my_validateTableOptionTablespace
  | .my_validateTableOptionDefault => Tree.my_validateTableOptionDefault
  | .my_validateTableOptionUnion => Tree.my_validateTableOptionUnion
  | .my_validateTableOptionInsertMethod => Tree.my_validateTableOptionInsertMethod
  | .my_validateTableOptionRowFormat => Tree.my_validateTableOptionRowFormat
  | .cv_NewConverter => Tree.cv_NewConverter
  | .cv_Convert => Tree.cv_Convert
  | .cv_init => Tree.cv_init
  | .cv_token => Tree.cv_token
  | .cv_isOutOfRange => Tree.cv_isOutOfRange
  | .cv_next => Tree.cv_next
  | .cv_matchToken => Tree.cv_matchToken
  | .cv_isIdentifier => Tree.cv_isIdentifier
  | .cv_isStringValue => Tree.cv_isStringValue
  | .cv_convert => Tree.cv_convert
  | .cv_convertTable => Tree.cv_convertTable
  | .cv_convertTableName => Tree.cv_convertTableName
  | .cv_convertName => Tree.cv_convertName
  | .cv_convertTableDefinition => Tree.cv_convertTableDefinition
  | .cv_convertColumnDefinition => Tree.cv_convertColumnDefinition
  | .cv_convertDateType => Tree.cv_convertDateType
  | .cv_convertTypeDigit => Tree.cv_convertTypeDigit
  | .cv_convertConstraint => Tree.cv_convertConstraint
  | .cv_convertConstraintAux => Tree.cv_convertConstraintAux
  | .cv_convertDefaultValue => Tree.cv_convertDefaultValue
  | .cv_convertExpr => Tree.cv_convertExpr
  | .cv_convertExprAux => Tree.cv_convertExprAux
  | .cv_convertLiteralValue => Tree.cv_convertLiteralValue
  | .cv_convertReference => Tree.cv_convertReference
  | .cv_convertTableConstraint => Tree.cv_convertTableConstraint
  | .cv_convertCommaSeparatedColumnNames => Tree.cv_convertCommaSeparatedColumnNames
  | .dp_Parse => Tree.dp_Parse
  | .dp_ParseSQLite => Tree.dp_ParseSQLite
  | .dp_ParsePostgreSQL => Tree.dp_ParsePostgreSQL
  | .dp_ParseMySQL => Tree.dp_ParseMySQL
  | .dp_ParseForce => Tree.dp_ParseForce

/-- The method that a call through an interface reaches. -/
def impl : Ty → Mth → Option Fn
  | .converter, .Convert => some .cv_Convert
  | .lexer, .Lex => some .lx_Lex
  | .mysqlValidator, .Validate => some .my_Validate
  | .postgresqlValidator, .Validate => some .pg_Validate
  | .sqliteValidator, .Validate => some .sq_Validate
  | _, _ => none

end DDL.Src
