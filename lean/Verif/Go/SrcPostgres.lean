import Verif.Go.Syntax
/-
Generated by tools/gen_go.py from the sources in /repo. Do not edit.
Syntax trees of internal/validator/validator_postgresql.go.
-/

set_option maxRecDepth 4000

namespace DDL.Src.Tree

/-- `DataType_PostgreSQL`. -/
def DataType_PostgreSQL : List String := [
  "BIGINT", "INT8", "BIGSERIAL", "SERIAL8", "BIT", "VARBIT", "BOOLEAN", "BOOL", "BOX", "BYTEA", "CHARACTER", "CHAR",
  "VARCHAR", "CIDR", "CIRCLE", "DATE", "FLOAT8", "INET", "INTEGER", "INT", "INT4", "JSON", "JSONB", "LINE", "LSEG",
  "MACADDR", "MACADDR8", "MONEY", "NUMERIC", "DECIMAL", "PATH", "PG_LSN", "PG_SNAPSHOT", "POINT", "POLYGON", "REAL",
  "FLOAT4", "SMALLINT", "INT2", "SMALLSERIAL", "SERIAL2", "SERIAL", "SERIAL4", "TEXT", "TIME", "TIMETZ", "TIMESTAMP",
  "TIMESTAMPTZ", "TSQUERY", "TSVECTOR", "TXID_SNAPSHOT", "UUID", "XML"]

/-- `ReservedWords_PostgreSQL`. -/
def ReservedWords_PostgreSQL : List String := [
  "A", "ABS", "ADA", "ALIAS", "ALL", "ALLOCATE", "ANALYSE", "ANALYZE", "AND", "ANY", "ARE", "ARRAY", "AS", "ASC",
  "ASENSITIVE", "ASYMMETRIC", "ATOMIC", "ATTRIBUTE", "ATTRIBUTES", "AUTHORIZATION", "AVG", "BASE64", "BERNOULLI",
  "BETWEEN", "BINARY", "BITVAR", "BIT_LENGTH", "BLOB", "BOTH", "BREADTH", "C", "CALL", "CARDINALITY", "CASE", "CAST",
  "CATALOG", "CATALOG_NAME", "CEIL", "CEILING", "CHARACTERS", "CHARACTER_LENGTH", "CHARACTER_SET_CATALOG",
  "CHARACTER_SET_NAME", "CHARACTER_SET_SCHEMA", "CHAR_LENGTH", "CHECK", "CHECKED", "CLASS_ORIGIN", "CLOB", "COBOL",
  "COLLATE", "COLLATION", "COLLATION_CATALOG", "COLLATION_NAME", "COLLATION_SCHEMA", "COLLECT", "COLUMN",
  "COLUMN_NAME", "COMMAND_FUNCTION", "COMMAND_FUNCTION_CODE", "COMPLETION", "CONDITION", "CONDITION_NUMBER",
  "CONNECT", "CONNECTION_NAME", "CONSTRAINT", "CONSTRAINT_CATALOG", "CONSTRAINT_NAME", "CONSTRAINT_SCHEMA",
  "CONSTRUCTOR", "CONTAINS", "CONTINUE", "CONVERT", "CORR", "CORRESPONDING", "COUNT", "COVAR_POP", "COVAR_SAMP",
  "CREATE", "CROSS", "CUBE", "CUME_DIST", "CURRENT", "CURRENT_DATE", "CURRENT_DEFAULT_TRANSFORM_GROUP",
  "CURRENT_PATH", "CURRENT_ROLE", "CURRENT_TIME", "CURRENT_TIMESTAMP", "CURRENT_TRANSFORM_GROUP_FOR_TYPE",
  "CURRENT_USER", "CURSOR_NAME", "DATA", "DATE", "DATETIME_INTERVAL_CODE", "DATETIME_INTERVAL_PRECISION", "DEFAULT",
  "DEFERRABLE", "DEFINED", "DEGREE", "DENSE_RANK", "DEPTH", "DEREF", "DERIVED", "DESC", "DESCRIBE", "DESCRIPTOR",
  "DESTROY", "DESTRUCTOR", "DETERMINISTIC", "DIAGNOSTICS", "DISCONNECT", "DISPATCH", "DISTINCT", "DO", "DYNAMIC",
  "DYNAMIC_FUNCTION", "DYNAMIC_FUNCTION_CODE", "ELEMENT", "ELSE", "END", "END-EXEC", "EQUALS", "EVERY", "EXCEPT",
  "EXCEPTION", "EXCLUDE", "EXEC", "EXISTING", "EXP", "FALSE", "FILTER", "FINAL", "FLOOR", "FOLLOWING", "FOR",
  "FOREIGN", "FORTRAN", "FOUND", "FREE", "FREEZE", "FROM", "FULL", "FUSION", "G", "GENERAL", "GENERATED", "GET",
  "GO", "GOTO", "GRANT", "GROUP", "GROUPING", "HAVING", "HEX", "HIERARCHY", "HOST", "IDENTITY", "IGNORE", "ILIKE",
  "IMPLEMENTATION", "IN", "INDICATOR", "INFIX", "INITIALIZE", "INITIALLY", "INNER", "INSTANCE", "INSTANTIABLE",
  "INTERSECT", "INTERSECTION", "INTO", "IS", "ISNULL", "ITERATE", "JOIN", "K", "KEY_MEMBER", "KEY_TYPE", "LATERAL",
  "LEADING", "LEFT", "LENGTH", "LESS", "LIKE", "LIMIT", "LN", "LOCALTIME", "LOCALTIMESTAMP", "LOCATOR", "LOWER", "M",
  "MAP", "MATCHED", "MAX", "MEMBER", "MERGE", "MESSAGE_LENGTH", "MESSAGE_OCTET_LENGTH", "MESSAGE_TEXT", "METHOD",
  "MIN", "MOD", "MODIFIES", "MODIFY", "MODULE", "MORE", "MULTISET", "MUMPS", "NATURAL", "NCLOB", "NESTING", "NEW",
  "NORMALIZE", "NORMALIZED", "NOT", "NOTNULL", "NULL", "NULLABLE", "NUMBER", "OCTETS", "OCTET_LENGTH", "OFF",
  "OFFSET", "OLD", "ON", "ONLY", "OPEN", "OPERATION", "OPTIONS", "OR", "ORDER", "ORDERING", "ORDINALITY", "OTHERS",
  "OUTER", "OUTPUT", "OVER", "OVERLAPS", "OVERRIDING", "PAD", "PARAMETER", "PARAMETERS", "PARAMETER_MODE",
  "PARAMETER_NAME", "PARAMETER_ORDINAL_POSITION", "PARAMETER_SPECIFIC_CATALOG", "PARAMETER_SPECIFIC_NAME",
  "PARAMETER_SPECIFIC_SCHEMA", "PARTITION", "PASCAL", "PATH", "PERCENTILE_CONT", "PERCENTILE_DISC", "PERCENT_RANK",
  "PLACING", "PLI", "POSTFIX", "POWER", "PRECEDING", "PREFIX", "PREORDER", "PRIMARY", "PUBLIC", "RANGE", "RANK",
  "READS", "RECURSIVE", "REF", "REFERENCES", "REFERENCING", "REGR_AVGX", "REGR_AVGY", "REGR_COUNT", "REGR_INTERCEPT",
  "REGR_R2", "REGR_SLOPE", "REGR_SXX", "REGR_SXY", "REGR_SYY", "RESULT", "RETURN", "RETURNED_CARDINALITY",
  "RETURNED_LENGTH", "RETURNED_OCTET_LENGTH", "RETURNED_SQLSTATE", "RETURNING", "RIGHT", "ROLLUP", "ROUTINE",
  "ROUTINE_CATALOG", "ROUTINE_NAME", "ROUTINE_SCHEMA", "ROW_COUNT", "ROW_NUMBER", "SCALE", "SCHEMA_NAME", "SCOPE",
  "SCOPE_CATALOG", "SCOPE_NAME", "SCOPE_SCHEMA", "SECTION", "SELECT", "SELF", "SENSITIVE", "SERVER_NAME",
  "SESSION_USER", "SETS", "SIMILAR", "SIZE", "SOME", "SOURCE", "SPACE", "SPECIFIC", "SPECIFICTYPE", "SPECIFIC_NAME",
  "SQL", "SQLCODE", "SQLERROR", "SQLEXCEPTION", "SQLSTATE", "SQLWARNING", "SQRT", "STATE", "STATIC", "STDDEV_POP",
  "STDDEV_SAMP", "STRUCTURE", "STYLE", "SUBCLASS_ORIGIN", "SUBLIST", "SUBMULTISET", "SUM", "SYMMETRIC",
  "SYSTEM_USER", "TABLE", "TABLESAMPLE", "TABLE_NAME", "TERMINATE", "THAN", "THEN", "TIES", "TIMEZONE_HOUR",
  "TIMEZONE_MINUTE", "TO", "TOP_LEVEL_COUNT", "TRAILING", "TRANSACTIONS_COMMITTED", "TRANSACTIONS_ROLLED_BACK",
  "TRANSACTION_ACTIVE", "TRANSFORM", "TRANSFORMS", "TRANSLATE", "TRANSLATION", "TRIGGER_CATALOG", "TRIGGER_NAME",
  "TRIGGER_SCHEMA", "TRUE", "UESCAPE", "UNBOUNDED", "UNDER", "UNION", "UNIQUE", "UNNAMED", "UNNEST", "UPPER",
  "USAGE", "USER", "USER_DEFINED_TYPE_CATALOG", "USER_DEFINED_TYPE_CODE", "USER_DEFINED_TYPE_NAME",
  "USER_DEFINED_TYPE_SCHEMA", "USING", "VARIABLE", "VAR_POP", "VAR_SAMP", "VERBOSE", "WHEN", "WHENEVER", "WHERE",
  "WIDTH_BUCKET", "WINDOW", "WITH", "WITHIN", "XMLAGG", "XMLBINARY", "XMLCOMMENT", "XMLNAMESPACES"]

/-- validator_postgresql.go:14-16 `NewPostgreSQLValidator`. -/
def pg_NewPostgreSQLValidator : Decl :=
  { params := [],
    body :=
    (.ret (.lit (.obj .postgresqlValidator [(.tokens, .nil), (.size, .int 0), (.i, .int 0), (.line, .int 0), (.result, .nil)]))) }

/-- validator_postgresql.go:19-25 `Validate`. -/
def pg_Validate : Decl :=
  { params := [(.tokens, false)],
    body :=
    (.seq (.expr (.call .va_init (.cons (.var .tokens) .nil)))
      (.seq (.block (.seq (.define (.var .err) (.call .pg_validate .nil))
            (.ite (.ne (.var .err) (.lit .nil))
              (.block (.ret (.tuple (.cons (.lit .nil) (.cons (.var .err) .nil)))))
              .skip)))
        (.ret (.tuple (.cons (.field .result) (.cons (.lit .nil) .nil)))))) }

/-- validator_postgresql.go:28-36 `validate`. -/
def pg_validate : Decl :=
  { params := [],
    body :=
    (.seq (.ite (.call .va_isOutOfRange .nil)
        (.block (.ret (.lit .nil)))
        .skip)
      (.seq (.block (.seq (.define (.var .err) (.call .pg_validateDdl .nil))
            (.ite (.ne (.var .err) (.lit .nil))
              (.block (.ret (.var .err)))
              .skip)))
        (.ret (.call .pg_validate .nil)))) }

/-- validator_postgresql.go:39-41 `isStringValue`. -/
def pg_isStringValue : Decl :=
  { params := [(.token, false)],
    body :=
    (.ret (.eq (.slice (.var .token) (.lit (.int 0)) (.lit (.int 1))) (.lit (.str (S "'"))))) }

/-- validator_postgresql.go:44-46 `isIdentifier`. -/
def pg_isIdentifier : Decl :=
  { params := [(.token, false)],
    body :=
    (.ret (.eq (.slice (.var .token) (.lit (.int 0)) (.lit (.int 1))) (.lit (.str (S "\""))))) }

/-- validator_postgresql.go:49-57 `isValidName`. -/
def pg_isValidName : Decl :=
  { params := [(.name, false)],
    body :=
    (.ite (.call .pg_isIdentifier (.cons (.var .name) .nil))
      (.block (.ret (.lit (.bool true))))
      (.block (.seq (.define (.var .pattern) (.lib .compile (.cons (.lit (.str (S "^[a-zA-Z_][a-zA-Z0-9_]*$"))) .nil)))
          (.ret (.and (.lib .matchString (.cons (.var .pattern) (.cons (.var .name) .nil))) (.not (.call .co_Contains (.cons (.lit (.kws ReservedWords_PostgreSQL)) (.cons (.lib .toUpper (.cons (.var .name) .nil)) .nil))))))))) }

/-- validator_postgresql.go:60-70 `validateName`. -/
def pg_validateName : Decl :=
  { params := [(.«set», false)],
    body :=
    (.seq (.ite (.call .pg_isValidName (.cons (.call .va_token .nil) .nil))
        (.block (.seq (.ite (.var .«set»)
              (.block (.expr (.call .va_set (.cons (.call .va_next .nil) .nil))))
              (.block (.expr (.call .va_next .nil))))
            (.ret (.lit .nil))))
        .skip)
      (.ret (.call .va_syntaxError .nil))) }

/-- validator_postgresql.go:73-88 `validateTableName`. -/
def pg_validateTableName : Decl :=
  { params := [(.«set», false)],
    body :=
    (.seq (.block (.seq (.define (.var .err) (.call .pg_validateName (.cons (.var .«set») .nil)))
          (.ite (.ne (.var .err) (.lit .nil))
            (.block (.ret (.var .err)))
            .skip)))
      (.seq (.ite (.call .va_matchToken (.cons (.lit (.kws ["."])) .nil))
          (.block (.seq (.ite (.var .«set»)
                (.block (.expr (.call .va_set (.cons (.call .va_next .nil) .nil))))
                (.block (.expr (.call .va_next .nil))))
              (.block (.seq (.define (.var .err) (.call .pg_validateName (.cons (.var .«set») .nil)))
                  (.ite (.ne (.var .err) (.lit .nil))
                    (.block (.ret (.var .err)))
                    .skip)))))
          .skip)
        (.ret (.lit .nil)))) }

/-- validator_postgresql.go:91-93 `validateColumnName`. -/
def pg_validateColumnName : Decl :=
  { params := [(.«set», false)],
    body :=
    (.ret (.call .pg_validateName (.cons (.var .«set») .nil))) }

/-- validator_postgresql.go:96-98 `validateExpr`. -/
def pg_validateExpr : Decl :=
  { params := [(.«set», false)],
    body :=
    (.ret (.call .va_validateBrackets (.cons (.var .«set») .nil))) }

/-- validator_postgresql.go:101-109 `validateCommaSeparatedColumnNames`. -/
def pg_validateCommaSeparatedColumnNames : Decl :=
  { params := [(.«set», false)],
    body :=
    (.seq (.block (.seq (.define (.var .err) (.call .pg_validateColumnName (.cons (.var .«set») .nil)))
          (.ite (.ne (.var .err) (.lit .nil))
            (.block (.ret (.var .err)))
            .skip)))
      (.seq (.ite (.call .va_matchTokenNext (.cons (.var .«set») (.cons (.lit (.kws [","])) .nil)))
          (.block (.ret (.call .pg_validateCommaSeparatedColumnNames (.cons (.var .«set») .nil))))
          .skip)
        (.ret (.lit .nil)))) }

/-- validator_postgresql.go:112-126 `validateDdl`. -/
def pg_validateDdl : Decl :=
  { params := [],
    body :=
    (.seq (.block (.seq (.define (.var .err) (.call .va_validateToken (.cons (.lit (.bool false)) (.cons (.lit (.kws ["CREATE"])) .nil))))
          (.ite (.ne (.var .err) (.lit .nil))
            (.block (.ret (.var .err)))
            .skip)))
      (.seq (.ite (.call .va_matchToken (.cons (.lit (.kws ["TABLE"])) .nil))
          (.block (.block (.seq (.define (.var .err) (.call .pg_validateCreateTable .nil))
                (.ite (.ne (.var .err) (.lit .nil))
                  (.block (.ret (.var .err)))
                  .skip))))
          (.block (.block (.seq (.define (.var .err) (.call .pg_validateCreateOther .nil))
                (.ite (.ne (.var .err) (.lit .nil))
                  (.block (.ret (.var .err)))
                  .skip)))))
        (.ret (.lit .nil)))) }

/-- validator_postgresql.go:129-147 `validateCreateTable`. -/
def pg_validateCreateTable : Decl :=
  { params := [],
    body :=
    (.seq (.expr (.call .va_set (.cons (.lit (.str (S "CREATE"))) .nil)))
      (.seq (.block (.seq (.define (.var .err) (.call .va_validateToken (.cons (.lit (.bool true)) (.cons (.lit (.kws ["TABLE"])) .nil))))
            (.ite (.ne (.var .err) (.lit .nil))
              (.block (.ret (.var .err)))
              .skip)))
        (.seq (.block (.seq (.define (.var .err) (.call .pg_validateIfNotExists .nil))
              (.ite (.ne (.var .err) (.lit .nil))
                (.block (.ret (.var .err)))
                .skip)))
          (.seq (.block (.seq (.define (.var .err) (.call .pg_validateTableName (.cons (.lit (.bool true)) .nil)))
                (.ite (.ne (.var .err) (.lit .nil))
                  (.block (.ret (.var .err)))
                  .skip)))
            (.seq (.block (.seq (.define (.var .err) (.call .pg_validateTableDefinition .nil))
                  (.ite (.ne (.var .err) (.lit .nil))
                    (.block (.ret (.var .err)))
                    .skip)))
              (.seq (.block (.seq (.define (.var .err) (.call .va_validateToken (.cons (.lit (.bool true)) (.cons (.lit (.kws [";"])) .nil))))
                    (.ite (.ne (.var .err) (.lit .nil))
                      (.block (.ret (.var .err)))
                      .skip)))
                (.ret (.lit .nil)))))))) }

/-- validator_postgresql.go:150-182 `validateCreateOther`. -/
def pg_validateCreateOther : Decl :=
  { params := [],
    body :=
    (.seq (.block (.seq (.define (.var .err) (.call .va_validateToken (.cons (.lit (.bool false)) (.cons (.lit (.kws ["VIEW", "TRIGGER", "INDEX", "MATERIALIZED", "SEQUENCE", "FUNCTION", "TYPE", "PROCEDURE", "TYPE", "AGGREGATE", "SCHEMA", "ROLE", "USER", "GROUP", "TABLESPACE", "EXTENSION", "DATABASE", "LANGUAGE", "FOREIGN", "DOMAIN", "SERVER", "FOREIGN", "CONVERSION", "RULE", "COLLATION", "POLICY", "OPERATOR"])) .nil))))
          (.ite (.ne (.var .err) (.lit .nil))
            (.block (.ret (.var .err)))
            .skip)))
      (.seq (.define (.var .«begin») (.lit (.bool false)))
        (.seq (.loop (.lit (.bool true))
            (.block (.seq (.ite (.call .va_isOutOfRange .nil)
                  (.block (.ret (.call .va_syntaxError .nil)))
                  .skip)
                (.seq (.ite (.call .va_matchToken (.cons (.lit (.kws ["BEGIN"])) .nil))
                    (.block (.assign (.var .«begin») (.lit (.bool true))))
                    .skip)
                  (.seq (.ite (.var .«begin»)
                      (.block (.ite (.call .va_matchToken (.cons (.lit (.kws ["END"])) .nil))
                          (.block (.assign (.var .«begin») (.lit (.bool false))))
                          .skip))
                      (.block (.ite (.call .va_matchToken (.cons (.lit (.kws [";"])) .nil))
                          (.block .brk)
                          .skip)))
                    (.expr (.call .va_next .nil)))))))
          (.seq (.block (.seq (.define (.var .err) (.call .va_validateToken (.cons (.lit (.bool false)) (.cons (.lit (.kws [";"])) .nil))))
                (.ite (.ne (.var .err) (.lit .nil))
                  (.block (.ret (.var .err)))
                  .skip)))
            (.ret (.lit .nil)))))) }

/-- validator_postgresql.go:185-195 `validateIfNotExists`. -/
def pg_validateIfNotExists : Decl :=
  { params := [],
    body :=
    (.seq (.ite (.call .va_matchTokenNext (.cons (.lit (.bool true)) (.cons (.lit (.kws ["IF"])) .nil)))
        (.block (.seq (.block (.seq (.define (.var .err) (.call .va_validateToken (.cons (.lit (.bool true)) (.cons (.lit (.kws ["NOT"])) .nil))))
                (.ite (.ne (.var .err) (.lit .nil))
                  (.block (.ret (.var .err)))
                  .skip)))
            (.block (.seq (.define (.var .err) (.call .va_validateToken (.cons (.lit (.bool true)) (.cons (.lit (.kws ["EXISTS"])) .nil))))
                (.ite (.ne (.var .err) (.lit .nil))
                  (.block (.ret (.var .err)))
                  .skip)))))
        .skip)
      (.ret (.lit .nil))) }

/-- validator_postgresql.go:198-212 `validateTableDefinition`. -/
def pg_validateTableDefinition : Decl :=
  { params := [],
    body :=
    (.seq (.block (.seq (.define (.var .err) (.call .va_validateToken (.cons (.lit (.bool true)) (.cons (.lit (.kws ["("])) .nil))))
          (.ite (.ne (.var .err) (.lit .nil))
            (.block (.ret (.var .err)))
            .skip)))
      (.seq (.block (.seq (.define (.var .err) (.call .pg_validateColumnDefinitions .nil))
            (.ite (.ne (.var .err) (.lit .nil))
              (.block (.ret (.var .err)))
              .skip)))
        (.seq (.block (.seq (.define (.var .err) (.call .va_validateToken (.cons (.lit (.bool true)) (.cons (.lit (.kws [")"])) .nil))))
              (.ite (.ne (.var .err) (.lit .nil))
                (.block (.ret (.var .err)))
                .skip)))
          (.seq (.block (.seq (.define (.var .err) (.call .pg_validateTableOptions .nil))
                (.ite (.ne (.var .err) (.lit .nil))
                  (.block (.ret (.var .err)))
                  .skip)))
            (.ret (.lit .nil)))))) }

/-- validator_postgresql.go:215-223 `validateColumnDefinitions`. -/
def pg_validateColumnDefinitions : Decl :=
  { params := [],
    body :=
    (.seq (.block (.seq (.define (.var .err) (.call .pg_validateColumnDefinition .nil))
          (.ite (.ne (.var .err) (.lit .nil))
            (.block (.ret (.var .err)))
            .skip)))
      (.seq (.ite (.call .va_matchTokenNext (.cons (.lit (.bool true)) (.cons (.lit (.kws [","])) .nil)))
          (.block (.ret (.call .pg_validateColumnDefinitions .nil)))
          .skip)
        (.ret (.lit .nil)))) }

/-- validator_postgresql.go:226-240 `validateColumnDefinition`. -/
def pg_validateColumnDefinition : Decl :=
  { params := [],
    body :=
    (.seq (.ite (.call .va_matchToken (.cons (.lit (.kws ["CONSTRAINT", "PRIMARY", "UNIQUE", "CHECK", "FOREIGN", "EXCLUDE"])) .nil))
        (.block (.ret (.call .pg_validateTableConstraint .nil)))
        .skip)
      (.seq (.block (.seq (.define (.var .err) (.call .pg_validateColumnName (.cons (.lit (.bool true)) .nil)))
            (.ite (.ne (.var .err) (.lit .nil))
              (.block (.ret (.var .err)))
              .skip)))
        (.seq (.block (.seq (.define (.var .err) (.call .pg_validateColumnType .nil))
              (.ite (.ne (.var .err) (.lit .nil))
                (.block (.ret (.var .err)))
                .skip)))
          (.seq (.block (.seq (.define (.var .err) (.call .pg_validateColumnConstraints .nil))
                (.ite (.ne (.var .err) (.lit .nil))
                  (.block (.ret (.var .err)))
                  .skip)))
            (.ret (.lit .nil)))))) }

/-- validator_postgresql.go:243-297 `validateColumnType`. -/
def pg_validateColumnType : Decl :=
  { params := [],
    body :=
    (.seq (.ite (.call .va_matchTokenNext (.cons (.lit (.bool true)) (.cons (.lit (.kws ["BIT", "CHARACTER"])) .nil)))
        (.block (.seq (.expr (.call .va_matchTokenNext (.cons (.lit (.bool true)) (.cons (.lit (.kws ["VARYING"])) .nil))))
            (.seq (.block (.seq (.define (.var .err) (.call .pg_validateTypeDigitN .nil))
                  (.ite (.ne (.var .err) (.lit .nil))
                    (.block (.ret (.var .err)))
                    .skip)))
              (.ret (.lit .nil)))))
        .skip)
      (.seq (.ite (.call .va_matchTokenNext (.cons (.lit (.bool true)) (.cons (.lit (.kws ["VARBIT", "VARCHAR", "CHAR"])) .nil)))
          (.block (.seq (.block (.seq (.define (.var .err) (.call .pg_validateTypeDigitN .nil))
                  (.ite (.ne (.var .err) (.lit .nil))
                    (.block (.ret (.var .err)))
                    .skip)))
              (.ret (.lit .nil))))
          .skip)
        (.seq (.ite (.call .va_matchTokenNext (.cons (.lit (.bool true)) (.cons (.lit (.kws ["NUMERIC", "DECIMAL"])) .nil)))
            (.block (.seq (.block (.seq (.define (.var .err) (.call .pg_validateTypeDigitPS .nil))
                    (.ite (.ne (.var .err) (.lit .nil))
                      (.block (.ret (.var .err)))
                      .skip)))
                (.ret (.lit .nil))))
            .skip)
          (.seq (.ite (.call .va_matchTokenNext (.cons (.lit (.bool true)) (.cons (.lit (.kws ["DOUBLE"])) .nil)))
              (.block (.seq (.block (.seq (.define (.var .err) (.call .va_validateToken (.cons (.lit (.bool false)) (.cons (.lit (.kws ["PRECISION"])) .nil))))
                      (.ite (.ne (.var .err) (.lit .nil))
                        (.block (.ret (.var .err)))
                        .skip)))
                  (.ret (.lit .nil))))
              .skip)
            (.seq (.ite (.call .va_matchTokenNext (.cons (.lit (.bool true)) (.cons (.lit (.kws ["TIME", "TIMESTAMP"])) .nil)))
                (.block (.seq (.block (.seq (.define (.var .err) (.call .pg_validateTypeDigitP .nil))
                        (.ite (.ne (.var .err) (.lit .nil))
                          (.block (.ret (.var .err)))
                          .skip)))
                    (.seq (.ite (.call .va_matchTokenNext (.cons (.lit (.bool false)) (.cons (.lit (.kws ["WITH", "WITHOUT"])) .nil)))
                        (.block (.seq (.block (.seq (.define (.var .err) (.call .va_validateToken (.cons (.lit (.bool false)) (.cons (.lit (.kws ["TIME"])) .nil))))
                                (.ite (.ne (.var .err) (.lit .nil))
                                  (.block (.ret (.var .err)))
                                  .skip)))
                            (.block (.seq (.define (.var .err) (.call .va_validateToken (.cons (.lit (.bool false)) (.cons (.lit (.kws ["ZONE"])) .nil))))
                                (.ite (.ne (.var .err) (.lit .nil))
                                  (.block (.ret (.var .err)))
                                  .skip)))))
                        .skip)
                      (.ret (.lit .nil)))))
                .skip)
              (.seq (.block (.seq (.define (.var .err) (.call .va_validateToken (.cons (.lit (.bool true)) (.cons (.lit (.kws DataType_PostgreSQL)) .nil))))
                    (.ite (.ne (.var .err) (.lit .nil))
                      (.block (.ret (.var .err)))
                      .skip)))
                (.ret (.lit .nil)))))))) }

/-- validator_postgresql.go:300-310 `validateTypeDigitN`. -/
def pg_validateTypeDigitN : Decl :=
  { params := [],
    body :=
    (.seq (.ite (.call .va_matchTokenNext (.cons (.lit (.bool true)) (.cons (.lit (.kws ["("])) .nil)))
        (.block (.seq (.block (.seq (.define (.var .err) (.call .pg_validatePositiveInteger .nil))
                (.ite (.ne (.var .err) (.lit .nil))
                  (.block (.ret (.var .err)))
                  .skip)))
            (.block (.seq (.define (.var .err) (.call .va_validateToken (.cons (.lit (.bool true)) (.cons (.lit (.kws [")"])) .nil))))
                (.ite (.ne (.var .err) (.lit .nil))
                  (.block (.ret (.var .err)))
                  .skip)))))
        .skip)
      (.ret (.lit .nil))) }

/-- validator_postgresql.go:313-315 `validateTypeDigitP`. -/
def pg_validateTypeDigitP : Decl :=
  { params := [],
    body :=
    (.ret (.call .pg_validateTypeDigitN .nil)) }

/-- validator_postgresql.go:318-333 `validateTypeDigitPS`. -/
def pg_validateTypeDigitPS : Decl :=
  { params := [],
    body :=
    (.seq (.ite (.call .va_matchTokenNext (.cons (.lit (.bool true)) (.cons (.lit (.kws ["("])) .nil)))
        (.block (.seq (.block (.seq (.define (.var .err) (.call .pg_validatePositiveInteger .nil))
                (.ite (.ne (.var .err) (.lit .nil))
                  (.block (.ret (.var .err)))
                  .skip)))
            (.seq (.ite (.call .va_matchTokenNext (.cons (.lit (.bool true)) (.cons (.lit (.kws [","])) .nil)))
                (.block (.block (.seq (.define (.var .err) (.call .pg_validatePositiveInteger .nil))
                      (.ite (.ne (.var .err) (.lit .nil))
                        (.block (.ret (.var .err)))
                        .skip))))
                .skip)
              (.block (.seq (.define (.var .err) (.call .va_validateToken (.cons (.lit (.bool true)) (.cons (.lit (.kws [")"])) .nil))))
                  (.ite (.ne (.var .err) (.lit .nil))
                    (.block (.ret (.var .err)))
                    .skip))))))
        .skip)
      (.ret (.lit .nil))) }

/-- validator_postgresql.go:336-342 `validatePositiveInteger`. -/
def pg_validatePositiveInteger : Decl :=
  { params := [],
    body :=
    (.seq (.ite (.not (.call .co_IsPositiveIntegerToken (.cons (.call .va_token .nil) .nil)))
        (.block (.ret (.call .va_syntaxError .nil)))
        .skip)
      (.seq (.expr (.call .va_set (.cons (.call .va_next .nil) .nil)))
        (.ret (.lit .nil)))) }

/-- validator_postgresql.go:345-352 `validateColumnConstraints`. -/
def pg_validateColumnConstraints : Decl :=
  { params := [],
    body :=
    (.seq (.ite (.call .va_matchTokenNext (.cons (.lit (.bool true)) (.cons (.lit (.kws ["CONSTRAINT"])) .nil)))
        (.block (.block (.seq (.define (.var .err) (.call .pg_validateName (.cons (.lit (.bool true)) .nil)))
              (.ite (.ne (.var .err) (.lit .nil))
                (.block (.ret (.var .err)))
                .skip))))
        .skip)
      (.ret (.call .pg_validateColumnConstraintsAux (.cons (.lit (.strs [])) .nil)))) }

/-- validator_postgresql.go:355-360 `isColumnConstraint`. -/
def pg_isColumnConstraint : Decl :=
  { params := [(.token, false)],
    body :=
    (.ret (.call .va_matchToken (.cons (.lit (.kws ["PRIMARY", "NOT", "NULL", "UNIQUE", "CHECK", "DEFAULT", "REFERENCES", "GENERATED", "AS"])) .nil))) }

/-- validator_postgresql.go:363-383 `validateColumnConstraintsAux`. -/
def pg_validateColumnConstraintsAux : Decl :=
  { params := [(.ls, false)],
    body :=
    (.seq (.ite (.not (.call .pg_isColumnConstraint (.cons (.call .va_token .nil) .nil)))
        (.block (.ret (.lit .nil)))
        .skip)
      (.seq (.ite (.call .va_matchToken (.cons (.lit (.kws ["NOT"])) .nil))
          (.block (.seq (.ite (.call .co_Contains (.cons (.var .ls) (.cons (.lit (.str (S "NULL"))) .nil)))
                (.block (.ret (.call .va_syntaxError .nil)))
                .skip)
              (.assign (.var .ls) (.lib .append (.cons (.var .ls) (.cons (.lib .toUpper (.cons (.lit (.str (S "NULL"))) .nil)) .nil))))))
          (.block (.seq (.ite (.call .co_Contains (.cons (.var .ls) (.cons (.lib .toUpper (.cons (.call .va_token .nil) .nil)) .nil)))
                (.block (.ret (.call .va_syntaxError .nil)))
                .skip)
              (.assign (.var .ls) (.lib .append (.cons (.var .ls) (.cons (.lib .toUpper (.cons (.call .va_token .nil) .nil)) .nil)))))))
        (.seq (.block (.seq (.define (.var .err) (.call .pg_validateColumnConstraint .nil))
              (.ite (.ne (.var .err) (.lit .nil))
                (.block (.ret (.var .err)))
                .skip)))
          (.ret (.call .pg_validateColumnConstraintsAux (.cons (.var .ls) .nil)))))) }

/-- validator_postgresql.go:386-412 `validateColumnConstraint`. -/
def pg_validateColumnConstraint : Decl :=
  { params := [],
    body :=
    (.seq (.ite (.call .va_matchToken (.cons (.lit (.kws ["PRIMARY"])) .nil))
        (.block (.ret (.call .pg_validateConstraintPrimaryKey .nil)))
        .skip)
      (.seq (.ite (.call .va_matchToken (.cons (.lit (.kws ["NOT"])) .nil))
          (.block (.ret (.call .pg_validateConstraintNotNull .nil)))
          .skip)
        (.seq (.ite (.call .va_matchToken (.cons (.lit (.kws ["NULL"])) .nil))
            (.block (.ret (.call .pg_validateConstraintNull .nil)))
            .skip)
          (.seq (.ite (.call .va_matchToken (.cons (.lit (.kws ["UNIQUE"])) .nil))
              (.block (.ret (.call .pg_validateConstraintUnique .nil)))
              .skip)
            (.seq (.ite (.call .va_matchToken (.cons (.lit (.kws ["CHECK"])) .nil))
                (.block (.ret (.call .pg_validateConstraintCheck .nil)))
                .skip)
              (.seq (.ite (.call .va_matchToken (.cons (.lit (.kws ["DEFAULT"])) .nil))
                  (.block (.ret (.call .pg_validateConstraintDefault .nil)))
                  .skip)
                (.seq (.ite (.call .va_matchToken (.cons (.lit (.kws ["REFERENCES"])) .nil))
                    (.block (.ret (.call .pg_validateConstraintReferences .nil)))
                    .skip)
                  (.seq (.ite (.call .va_matchToken (.cons (.lit (.kws ["GENERATED", "AS"])) .nil))
                      (.block (.ret (.call .pg_validateConstraintGenerated .nil)))
                      .skip)
                    (.ret (.call .va_syntaxError .nil)))))))))) }

/-- validator_postgresql.go:415-426 `validateConstraintPrimaryKey`. -/
def pg_validateConstraintPrimaryKey : Decl :=
  { params := [],
    body :=
    (.seq (.block (.seq (.define (.var .err) (.call .va_validateToken (.cons (.lit (.bool true)) (.cons (.lit (.kws ["PRIMARY"])) .nil))))
          (.ite (.ne (.var .err) (.lit .nil))
            (.block (.ret (.var .err)))
            .skip)))
      (.seq (.block (.seq (.define (.var .err) (.call .va_validateToken (.cons (.lit (.bool true)) (.cons (.lit (.kws ["KEY"])) .nil))))
            (.ite (.ne (.var .err) (.lit .nil))
              (.block (.ret (.var .err)))
              .skip)))
        (.seq (.block (.seq (.define (.var .err) (.call .pg_validateIndexParameters .nil))
              (.ite (.ne (.var .err) (.lit .nil))
                (.block (.ret (.var .err)))
                .skip)))
          (.ret (.lit .nil))))) }

/-- validator_postgresql.go:429-437 `validateConstraintNotNull`. -/
def pg_validateConstraintNotNull : Decl :=
  { params := [],
    body :=
    (.seq (.block (.seq (.define (.var .err) (.call .va_validateToken (.cons (.lit (.bool true)) (.cons (.lit (.kws ["NOT"])) .nil))))
          (.ite (.ne (.var .err) (.lit .nil))
            (.block (.ret (.var .err)))
            .skip)))
      (.seq (.block (.seq (.define (.var .err) (.call .va_validateToken (.cons (.lit (.bool true)) (.cons (.lit (.kws ["NULL"])) .nil))))
            (.ite (.ne (.var .err) (.lit .nil))
              (.block (.ret (.var .err)))
              .skip)))
        (.ret (.lit .nil)))) }

/-- validator_postgresql.go:440-445 `validateConstraintNull`. -/
def pg_validateConstraintNull : Decl :=
  { params := [],
    body :=
    (.seq (.block (.seq (.define (.var .err) (.call .va_validateToken (.cons (.lit (.bool false)) (.cons (.lit (.kws ["NULL"])) .nil))))
          (.ite (.ne (.var .err) (.lit .nil))
            (.block (.ret (.var .err)))
            .skip)))
      (.ret (.lit .nil))) }

/-- validator_postgresql.go:448-456 `validateConstraintUnique`. -/
def pg_validateConstraintUnique : Decl :=
  { params := [],
    body :=
    (.seq (.block (.seq (.define (.var .err) (.call .va_validateToken (.cons (.lit (.bool true)) (.cons (.lit (.kws ["UNIQUE"])) .nil))))
          (.ite (.ne (.var .err) (.lit .nil))
            (.block (.ret (.var .err)))
            .skip)))
      (.seq (.block (.seq (.define (.var .err) (.call .pg_validateIndexParameters .nil))
            (.ite (.ne (.var .err) (.lit .nil))
              (.block (.ret (.var .err)))
              .skip)))
        (.ret (.lit .nil)))) }

/-- validator_postgresql.go:459-472 `validateConstraintCheck`. -/
def pg_validateConstraintCheck : Decl :=
  { params := [],
    body :=
    (.seq (.block (.seq (.define (.var .err) (.call .va_validateToken (.cons (.lit (.bool true)) (.cons (.lit (.kws ["CHECK"])) .nil))))
          (.ite (.ne (.var .err) (.lit .nil))
            (.block (.ret (.var .err)))
            .skip)))
      (.seq (.block (.seq (.define (.var .err) (.call .pg_validateExpr (.cons (.lit (.bool true)) .nil)))
            (.ite (.ne (.var .err) (.lit .nil))
              (.block (.ret (.var .err)))
              .skip)))
        (.seq (.ite (.call .va_matchTokenNext (.cons (.lit (.bool false)) (.cons (.lit (.kws ["NO"])) .nil)))
            (.block (.block (.seq (.define (.var .err) (.call .va_validateToken (.cons (.lit (.bool false)) (.cons (.lit (.kws ["INHERIT"])) .nil))))
                  (.ite (.ne (.var .err) (.lit .nil))
                    (.block (.ret (.var .err)))
                    .skip))))
            .skip)
          (.ret (.lit .nil))))) }

/-- validator_postgresql.go:475-489 `validateConstraintDefault`. -/
def pg_validateConstraintDefault : Decl :=
  { params := [],
    body :=
    (.seq (.block (.seq (.define (.var .err) (.call .va_validateToken (.cons (.lit (.bool true)) (.cons (.lit (.kws ["DEFAULT"])) .nil))))
          (.ite (.ne (.var .err) (.lit .nil))
            (.block (.ret (.var .err)))
            .skip)))
      (.seq (.ite (.call .va_matchToken (.cons (.lit (.kws ["("])) .nil))
          (.block (.block (.seq (.define (.var .err) (.call .pg_validateExpr (.cons (.lit (.bool true)) .nil)))
                (.ite (.ne (.var .err) (.lit .nil))
                  (.block (.ret (.var .err)))
                  .skip))))
          (.block (.block (.seq (.define (.var .err) (.call .pg_validateLiteralValue .nil))
                (.ite (.ne (.var .err) (.lit .nil))
                  (.block (.ret (.var .err)))
                  .skip)))))
        (.ret (.lit .nil)))) }

/-- validator_postgresql.go:492-506 `validateLiteralValue`. -/
def pg_validateLiteralValue : Decl :=
  { params := [],
    body :=
    (.seq (.ite (.call .co_IsNumericToken (.cons (.call .va_token .nil) .nil))
        (.block (.seq (.expr (.call .va_set (.cons (.call .va_next .nil) .nil)))
            (.ret (.lit .nil))))
        .skip)
      (.seq (.ite (.call .pg_isStringValue (.cons (.call .va_token .nil) .nil))
          (.block (.seq (.expr (.call .va_set (.cons (.call .va_next .nil) .nil)))
              (.ret (.lit .nil))))
          .skip)
        (.seq (.define (.var .ls) (.lit (.kws ["NULL", "TRUE", "FALSE", "CURRENT_TIME", "CURRENT_DATE", "CURRENT_TIMESTAMP"])))
          (.seq (.block (.seq (.define (.var .err) (.call .va_validateToken (.cons (.lit (.bool true)) (.cons (.var .ls) .nil))))
                (.ite (.ne (.var .err) (.lit .nil))
                  (.block (.ret (.var .err)))
                  .skip)))
            (.ret (.lit .nil)))))) }

/-- validator_postgresql.go:509-528 `validateConstraintReferences`. -/
def pg_validateConstraintReferences : Decl :=
  { params := [],
    body :=
    (.seq (.block (.seq (.define (.var .err) (.call .va_validateToken (.cons (.lit (.bool true)) (.cons (.lit (.kws ["REFERENCES"])) .nil))))
          (.ite (.ne (.var .err) (.lit .nil))
            (.block (.ret (.var .err)))
            .skip)))
      (.seq (.block (.seq (.define (.var .err) (.call .pg_validateTableName (.cons (.lit (.bool true)) .nil)))
            (.ite (.ne (.var .err) (.lit .nil))
              (.block (.ret (.var .err)))
              .skip)))
        (.seq (.ite (.call .va_matchTokenNext (.cons (.lit (.bool true)) (.cons (.lit (.kws ["("])) .nil)))
            (.block (.seq (.block (.seq (.define (.var .err) (.call .pg_validateColumnName (.cons (.lit (.bool true)) .nil)))
                    (.ite (.ne (.var .err) (.lit .nil))
                      (.block (.ret (.var .err)))
                      .skip)))
                (.block (.seq (.define (.var .err) (.call .va_validateToken (.cons (.lit (.bool true)) (.cons (.lit (.kws [")"])) .nil))))
                    (.ite (.ne (.var .err) (.lit .nil))
                      (.block (.ret (.var .err)))
                      .skip)))))
            .skip)
          (.seq (.block (.seq (.define (.var .err) (.call .pg_validateConstraintReferencesAux .nil))
                (.ite (.ne (.var .err) (.lit .nil))
                  (.block (.ret (.var .err)))
                  .skip)))
            (.ret (.lit .nil)))))) }

/-- validator_postgresql.go:531-560 `validateConstraintReferencesAux`. -/
def pg_validateConstraintReferencesAux : Decl :=
  { params := [],
    body :=
    (.seq (.ite (.call .va_matchTokenNext (.cons (.lit (.bool false)) (.cons (.lit (.kws ["ON"])) .nil)))
        (.block (.seq (.block (.seq (.define (.var .err) (.call .va_validateToken (.cons (.lit (.bool false)) (.cons (.lit (.kws ["DELETE", "UPDATE"])) .nil))))
                (.ite (.ne (.var .err) (.lit .nil))
                  (.block (.ret (.var .err)))
                  .skip)))
            (.seq (.ite (.call .va_matchTokenNext (.cons (.lit (.bool false)) (.cons (.lit (.kws ["SET"])) .nil)))
                (.block (.block (.seq (.define (.var .err) (.call .va_validateToken (.cons (.lit (.bool false)) (.cons (.lit (.kws ["NULL", "DEFAULT"])) .nil))))
                      (.ite (.ne (.var .err) (.lit .nil))
                        (.block (.ret (.var .err)))
                        .skip))))
                (.block (.ite (.call .va_matchTokenNext (.cons (.lit (.bool false)) (.cons (.lit (.kws ["CASCADE", "RESTRICT"])) .nil)))
                    (.block .skip)
                    (.block (.ite (.call .va_matchTokenNext (.cons (.lit (.bool false)) (.cons (.lit (.kws ["NO"])) .nil)))
                        (.block (.block (.seq (.define (.var .err) (.call .va_validateToken (.cons (.lit (.bool false)) (.cons (.lit (.kws ["ACTION"])) .nil))))
                              (.ite (.ne (.var .err) (.lit .nil))
                                (.block (.ret (.var .err)))
                                .skip))))
                        (.block (.ret (.call .va_syntaxError .nil))))))))
              (.ret (.call .pg_validateConstraintReferencesAux .nil)))))
        .skip)
      (.seq (.ite (.call .va_matchTokenNext (.cons (.lit (.bool false)) (.cons (.lit (.kws ["MATCH"])) .nil)))
          (.block (.seq (.block (.seq (.define (.var .err) (.call .va_validateToken (.cons (.lit (.bool false)) (.cons (.lit (.kws ["SIMPLE", "PARTIAL", "FULL"])) .nil))))
                  (.ite (.ne (.var .err) (.lit .nil))
                    (.block (.ret (.var .err)))
                    .skip)))
              (.ret (.call .pg_validateConstraintReferencesAux .nil))))
          .skip)
        (.ret (.lit .nil)))) }

/-- validator_postgresql.go:563-622 `validateConstraintGenerated`. -/
def pg_validateConstraintGenerated : Decl :=
  { params := [],
    body :=
    (.seq (.block (.seq (.define (.var .err) (.call .va_validateToken (.cons (.lit (.bool false)) (.cons (.lit (.kws ["GENERATED"])) .nil))))
          (.ite (.ne (.var .err) (.lit .nil))
            (.block (.ret (.var .err)))
            .skip)))
      (.seq (.ite (.call .va_matchTokenNext (.cons (.lit (.bool false)) (.cons (.lit (.kws ["ALWAYS"])) .nil)))
          (.block (.seq (.block (.seq (.define (.var .err) (.call .va_validateToken (.cons (.lit (.bool false)) (.cons (.lit (.kws ["AS"])) .nil))))
                  (.ite (.ne (.var .err) (.lit .nil))
                    (.block (.ret (.var .err)))
                    .skip)))
              (.ite (.call .va_matchTokenNext (.cons (.lit (.bool false)) (.cons (.lit (.kws ["IDENTITY"])) .nil)))
                (.block (.seq (.ite (.call .va_matchToken (.cons (.lit (.kws ["("])) .nil))
                      (.block (.block (.seq (.define (.var .err) (.call .va_validateBrackets (.cons (.lit (.bool false)) .nil)))
                            (.ite (.ne (.var .err) (.lit .nil))
                              (.block (.ret (.var .err)))
                              .skip))))
                      .skip)
                    (.ret (.lit .nil))))
                (.block (.ite (.call .va_matchToken (.cons (.lit (.kws ["("])) .nil))
                    (.block (.seq (.block (.seq (.define (.var .err) (.call .va_validateBrackets (.cons (.lit (.bool false)) .nil)))
                            (.ite (.ne (.var .err) (.lit .nil))
                              (.block (.ret (.var .err)))
                              .skip)))
                        (.seq (.block (.seq (.define (.var .err) (.call .va_validateToken (.cons (.lit (.bool false)) (.cons (.lit (.kws ["STORED"])) .nil))))
                              (.ite (.ne (.var .err) (.lit .nil))
                                (.block (.ret (.var .err)))
                                .skip)))
                          (.ret (.lit .nil)))))
                    (.block (.ret (.call .va_syntaxError .nil))))))))
          (.block (.ite (.call .va_matchTokenNext (.cons (.lit (.bool false)) (.cons (.lit (.kws ["BY"])) .nil)))
              (.block (.seq (.block (.seq (.define (.var .err) (.call .va_validateToken (.cons (.lit (.bool false)) (.cons (.lit (.kws ["DEFAULT"])) .nil))))
                      (.ite (.ne (.var .err) (.lit .nil))
                        (.block (.ret (.var .err)))
                        .skip)))
                  (.seq (.block (.seq (.define (.var .err) (.call .va_validateToken (.cons (.lit (.bool false)) (.cons (.lit (.kws ["AS"])) .nil))))
                        (.ite (.ne (.var .err) (.lit .nil))
                          (.block (.ret (.var .err)))
                          .skip)))
                    (.seq (.block (.seq (.define (.var .err) (.call .va_validateToken (.cons (.lit (.bool false)) (.cons (.lit (.kws ["IDENTITY"])) .nil))))
                          (.ite (.ne (.var .err) (.lit .nil))
                            (.block (.ret (.var .err)))
                            .skip)))
                      (.seq (.ite (.call .va_matchToken (.cons (.lit (.kws ["("])) .nil))
                          (.block (.block (.seq (.define (.var .err) (.call .va_validateBrackets (.cons (.lit (.bool false)) .nil)))
                                (.ite (.ne (.var .err) (.lit .nil))
                                  (.block (.ret (.var .err)))
                                  .skip))))
                          .skip)
                        (.ret (.lit .nil)))))))
              (.block (.ite (.call .va_matchTokenNext (.cons (.lit (.bool false)) (.cons (.lit (.kws ["AS"])) .nil)))
                  (.block (.seq (.block (.seq (.define (.var .err) (.call .va_validateToken (.cons (.lit (.bool false)) (.cons (.lit (.kws ["IDENTITY"])) .nil))))
                          (.ite (.ne (.var .err) (.lit .nil))
                            (.block (.ret (.var .err)))
                            .skip)))
                      (.seq (.ite (.call .va_matchToken (.cons (.lit (.kws ["("])) .nil))
                          (.block (.block (.seq (.define (.var .err) (.call .va_validateBrackets (.cons (.lit (.bool false)) .nil)))
                                (.ite (.ne (.var .err) (.lit .nil))
                                  (.block (.ret (.var .err)))
                                  .skip))))
                          .skip)
                        (.ret (.lit .nil)))))
                  .skip)))))
        (.ret (.call .va_syntaxError .nil)))) }

/-- validator_postgresql.go:625-654 `validateIndexParameters`. -/
def pg_validateIndexParameters : Decl :=
  { params := [],
    body :=
    (.seq (.ite (.call .va_matchTokenNext (.cons (.lit (.bool false)) (.cons (.lit (.kws ["INCLUDE"])) .nil)))
        (.block (.seq (.block (.seq (.define (.var .err) (.call .va_validateToken (.cons (.lit (.bool false)) (.cons (.lit (.kws ["("])) .nil))))
                (.ite (.ne (.var .err) (.lit .nil))
                  (.block (.ret (.var .err)))
                  .skip)))
            (.seq (.block (.seq (.define (.var .err) (.call .pg_validateCommaSeparatedColumnNames (.cons (.lit (.bool false)) .nil)))
                  (.ite (.ne (.var .err) (.lit .nil))
                    (.block (.ret (.var .err)))
                    .skip)))
              (.block (.seq (.define (.var .err) (.call .va_validateToken (.cons (.lit (.bool false)) (.cons (.lit (.kws [")"])) .nil))))
                  (.ite (.ne (.var .err) (.lit .nil))
                    (.block (.ret (.var .err)))
                    .skip))))))
        .skip)
      (.seq (.ite (.call .va_matchTokenNext (.cons (.lit (.bool false)) (.cons (.lit (.kws ["WITH"])) .nil)))
          (.block (.block (.seq (.define (.var .err) (.call .va_validateBrackets (.cons (.lit (.bool false)) .nil)))
                (.ite (.ne (.var .err) (.lit .nil))
                  (.block (.ret (.var .err)))
                  .skip))))
          .skip)
        (.seq (.ite (.call .va_matchTokenNext (.cons (.lit (.bool false)) (.cons (.lit (.kws ["USING"])) .nil)))
            (.block (.seq (.block (.seq (.define (.var .err) (.call .va_validateToken (.cons (.lit (.bool false)) (.cons (.lit (.kws ["INDEX"])) .nil))))
                    (.ite (.ne (.var .err) (.lit .nil))
                      (.block (.ret (.var .err)))
                      .skip)))
                (.seq (.block (.seq (.define (.var .err) (.call .va_validateToken (.cons (.lit (.bool false)) (.cons (.lit (.kws ["TABLESPACE"])) .nil))))
                      (.ite (.ne (.var .err) (.lit .nil))
                        (.block (.ret (.var .err)))
                        .skip)))
                  (.block (.seq (.define (.var .err) (.call .pg_validateName (.cons (.lit (.bool false)) .nil)))
                      (.ite (.ne (.var .err) (.lit .nil))
                        (.block (.ret (.var .err)))
                        .skip))))))
            .skip)
          (.ret (.lit .nil))))) }

/-- validator_postgresql.go:657-680 `validateTableConstraint`. -/
def pg_validateTableConstraint : Decl :=
  { params := [],
    body :=
    (.seq (.ite (.call .va_matchTokenNext (.cons (.lit (.bool true)) (.cons (.lit (.kws ["CONSTRAINT"])) .nil)))
        (.block (.block (.seq (.define (.var .err) (.call .pg_validateName (.cons (.lit (.bool true)) .nil)))
              (.ite (.ne (.var .err) (.lit .nil))
                (.block (.ret (.var .err)))
                .skip))))
        .skip)
      (.seq (.ite (.call .va_matchToken (.cons (.lit (.kws ["PRIMARY"])) .nil))
          (.block (.ret (.call .pg_validateTableConstraintPrimaryKey .nil)))
          .skip)
        (.seq (.ite (.call .va_matchToken (.cons (.lit (.kws ["UNIQUE"])) .nil))
            (.block (.ret (.call .pg_validateTableConstraintUnique .nil)))
            .skip)
          (.seq (.ite (.call .va_matchToken (.cons (.lit (.kws ["CHECK"])) .nil))
              (.block (.ret (.call .pg_validateTableConstraintCheck .nil)))
              .skip)
            (.seq (.ite (.call .va_matchToken (.cons (.lit (.kws ["FOREIGN"])) .nil))
                (.block (.ret (.call .pg_validateTableConstraintForeignKey .nil)))
                .skip)
              (.seq (.ite (.call .va_matchToken (.cons (.lit (.kws ["EXCLUDE"])) .nil))
                  (.block (.ret (.call .pg_validateTableConstraintExclude .nil)))
                  .skip)
                (.ret (.call .va_syntaxError .nil)))))))) }

/-- validator_postgresql.go:683-703 `validateTableConstraintPrimaryKey`. -/
def pg_validateTableConstraintPrimaryKey : Decl :=
  { params := [],
    body :=
    (.seq (.block (.seq (.define (.var .err) (.call .va_validateToken (.cons (.lit (.bool true)) (.cons (.lit (.kws ["PRIMARY"])) .nil))))
          (.ite (.ne (.var .err) (.lit .nil))
            (.block (.ret (.var .err)))
            .skip)))
      (.seq (.block (.seq (.define (.var .err) (.call .va_validateToken (.cons (.lit (.bool true)) (.cons (.lit (.kws ["KEY"])) .nil))))
            (.ite (.ne (.var .err) (.lit .nil))
              (.block (.ret (.var .err)))
              .skip)))
        (.seq (.block (.seq (.define (.var .err) (.call .va_validateToken (.cons (.lit (.bool true)) (.cons (.lit (.kws ["("])) .nil))))
              (.ite (.ne (.var .err) (.lit .nil))
                (.block (.ret (.var .err)))
                .skip)))
          (.seq (.block (.seq (.define (.var .err) (.call .pg_validateCommaSeparatedColumnNames (.cons (.lit (.bool true)) .nil)))
                (.ite (.ne (.var .err) (.lit .nil))
                  (.block (.ret (.var .err)))
                  .skip)))
            (.seq (.block (.seq (.define (.var .err) (.call .va_validateToken (.cons (.lit (.bool true)) (.cons (.lit (.kws [")"])) .nil))))
                  (.ite (.ne (.var .err) (.lit .nil))
                    (.block (.ret (.var .err)))
                    .skip)))
              (.seq (.block (.seq (.define (.var .err) (.call .pg_validateIndexParameters .nil))
                    (.ite (.ne (.var .err) (.lit .nil))
                      (.block (.ret (.var .err)))
                      .skip)))
                (.ret (.lit .nil)))))))) }

/-- validator_postgresql.go:706-723 `validateTableConstraintUnique`. -/
def pg_validateTableConstraintUnique : Decl :=
  { params := [],
    body :=
    (.seq (.block (.seq (.define (.var .err) (.call .va_validateToken (.cons (.lit (.bool true)) (.cons (.lit (.kws ["UNIQUE"])) .nil))))
          (.ite (.ne (.var .err) (.lit .nil))
            (.block (.ret (.var .err)))
            .skip)))
      (.seq (.block (.seq (.define (.var .err) (.call .va_validateToken (.cons (.lit (.bool true)) (.cons (.lit (.kws ["("])) .nil))))
            (.ite (.ne (.var .err) (.lit .nil))
              (.block (.ret (.var .err)))
              .skip)))
        (.seq (.block (.seq (.define (.var .err) (.call .pg_validateCommaSeparatedColumnNames (.cons (.lit (.bool true)) .nil)))
              (.ite (.ne (.var .err) (.lit .nil))
                (.block (.ret (.var .err)))
                .skip)))
          (.seq (.block (.seq (.define (.var .err) (.call .va_validateToken (.cons (.lit (.bool true)) (.cons (.lit (.kws [")"])) .nil))))
                (.ite (.ne (.var .err) (.lit .nil))
                  (.block (.ret (.var .err)))
                  .skip)))
            (.seq (.block (.seq (.define (.var .err) (.call .pg_validateIndexParameters .nil))
                  (.ite (.ne (.var .err) (.lit .nil))
                    (.block (.ret (.var .err)))
                    .skip)))
              (.ret (.lit .nil))))))) }

/-- validator_postgresql.go:726-739 `validateTableConstraintCheck`. -/
def pg_validateTableConstraintCheck : Decl :=
  { params := [],
    body :=
    (.seq (.block (.seq (.define (.var .err) (.call .va_validateToken (.cons (.lit (.bool true)) (.cons (.lit (.kws ["CHECK"])) .nil))))
          (.ite (.ne (.var .err) (.lit .nil))
            (.block (.ret (.var .err)))
            .skip)))
      (.seq (.block (.seq (.define (.var .err) (.call .pg_validateExpr (.cons (.lit (.bool true)) .nil)))
            (.ite (.ne (.var .err) (.lit .nil))
              (.block (.ret (.var .err)))
              .skip)))
        (.seq (.ite (.call .va_matchTokenNext (.cons (.lit (.bool false)) (.cons (.lit (.kws ["NO"])) .nil)))
            (.block (.block (.seq (.define (.var .err) (.call .va_validateToken (.cons (.lit (.bool false)) (.cons (.lit (.kws ["INHERIT"])) .nil))))
                  (.ite (.ne (.var .err) (.lit .nil))
                    (.block (.ret (.var .err)))
                    .skip))))
            .skip)
          (.ret (.lit .nil))))) }

/-- validator_postgresql.go:742-776 `validateTableConstraintForeignKey`. -/
def pg_validateTableConstraintForeignKey : Decl :=
  { params := [],
    body :=
    (.seq (.block (.seq (.define (.var .err) (.call .va_validateToken (.cons (.lit (.bool true)) (.cons (.lit (.kws ["FOREIGN"])) .nil))))
          (.ite (.ne (.var .err) (.lit .nil))
            (.block (.ret (.var .err)))
            .skip)))
      (.seq (.block (.seq (.define (.var .err) (.call .va_validateToken (.cons (.lit (.bool true)) (.cons (.lit (.kws ["KEY"])) .nil))))
            (.ite (.ne (.var .err) (.lit .nil))
              (.block (.ret (.var .err)))
              .skip)))
        (.seq (.block (.seq (.define (.var .err) (.call .va_validateToken (.cons (.lit (.bool true)) (.cons (.lit (.kws ["("])) .nil))))
              (.ite (.ne (.var .err) (.lit .nil))
                (.block (.ret (.var .err)))
                .skip)))
          (.seq (.block (.seq (.define (.var .err) (.call .pg_validateCommaSeparatedColumnNames (.cons (.lit (.bool true)) .nil)))
                (.ite (.ne (.var .err) (.lit .nil))
                  (.block (.ret (.var .err)))
                  .skip)))
            (.seq (.block (.seq (.define (.var .err) (.call .va_validateToken (.cons (.lit (.bool true)) (.cons (.lit (.kws [")"])) .nil))))
                  (.ite (.ne (.var .err) (.lit .nil))
                    (.block (.ret (.var .err)))
                    .skip)))
              (.seq (.block (.seq (.define (.var .err) (.call .va_validateToken (.cons (.lit (.bool true)) (.cons (.lit (.kws ["REFERENCES"])) .nil))))
                    (.ite (.ne (.var .err) (.lit .nil))
                      (.block (.ret (.var .err)))
                      .skip)))
                (.seq (.block (.seq (.define (.var .err) (.call .pg_validateTableName (.cons (.lit (.bool true)) .nil)))
                      (.ite (.ne (.var .err) (.lit .nil))
                        (.block (.ret (.var .err)))
                        .skip)))
                  (.seq (.ite (.call .va_matchTokenNext (.cons (.lit (.bool true)) (.cons (.lit (.kws ["("])) .nil)))
                      (.block (.seq (.block (.seq (.define (.var .err) (.call .pg_validateCommaSeparatedColumnNames (.cons (.lit (.bool true)) .nil)))
                              (.ite (.ne (.var .err) (.lit .nil))
                                (.block (.ret (.var .err)))
                                .skip)))
                          (.block (.seq (.define (.var .err) (.call .va_validateToken (.cons (.lit (.bool true)) (.cons (.lit (.kws [")"])) .nil))))
                              (.ite (.ne (.var .err) (.lit .nil))
                                (.block (.ret (.var .err)))
                                .skip)))))
                      .skip)
                    (.seq (.block (.seq (.define (.var .err) (.call .pg_validateConstraintReferencesAux .nil))
                          (.ite (.ne (.var .err) (.lit .nil))
                            (.block (.ret (.var .err)))
                            .skip)))
                      (.ret (.lit .nil))))))))))) }

/-- validator_postgresql.go:779-800 `validateTableConstraintExclude`. -/
def pg_validateTableConstraintExclude : Decl :=
  { params := [],
    body :=
    (.seq (.block (.seq (.define (.var .err) (.call .va_validateToken (.cons (.lit (.bool false)) (.cons (.lit (.kws ["EXCLUDE"])) .nil))))
          (.ite (.ne (.var .err) (.lit .nil))
            (.block (.ret (.var .err)))
            .skip)))
      (.seq (.ite (.call .va_matchTokenNext (.cons (.lit (.bool false)) (.cons (.lit (.kws ["USING"])) .nil)))
          (.block (.block (.seq (.define (.var .err) (.call .pg_validateName (.cons (.lit (.bool false)) .nil)))
                (.ite (.ne (.var .err) (.lit .nil))
                  (.block (.ret (.var .err)))
                  .skip))))
          .skip)
        (.seq (.block (.seq (.define (.var .err) (.call .va_validateBrackets (.cons (.lit (.bool false)) .nil)))
              (.ite (.ne (.var .err) (.lit .nil))
                (.block (.ret (.var .err)))
                .skip)))
          (.seq (.block (.seq (.define (.var .err) (.call .pg_validateIndexParameters .nil))
                (.ite (.ne (.var .err) (.lit .nil))
                  (.block (.ret (.var .err)))
                  .skip)))
            (.seq (.ite (.call .va_matchTokenNext (.cons (.lit (.bool false)) (.cons (.lit (.kws ["WHERE"])) .nil)))
                (.block (.block (.seq (.define (.var .err) (.call .va_validateBrackets (.cons (.lit (.bool false)) .nil)))
                      (.ite (.ne (.var .err) (.lit .nil))
                        (.block (.ret (.var .err)))
                        .skip))))
                .skip)
              (.ret (.lit .nil))))))) }

/-- validator_postgresql.go:803-817 `validateTableOptions`. -/
def pg_validateTableOptions : Decl :=
  { params := [],
    body :=
    (.seq (.ite (.call .va_isOutOfRange .nil)
        (.block (.ret (.lit .nil)))
        .skip)
      (.seq (.ite (.call .va_matchToken (.cons (.lit (.kws [";"])) .nil))
          (.block (.ret (.lit .nil)))
          .skip)
        (.seq (.ite (.call .va_matchToken (.cons (.lit (.kws [","])) .nil))
            (.block (.expr (.call .va_next .nil)))
            .skip)
          (.seq (.block (.seq (.define (.var .err) (.call .pg_validateTableOption .nil))
                (.ite (.ne (.var .err) (.lit .nil))
                  (.block (.ret (.var .err)))
                  .skip)))
            (.ret (.call .pg_validateTableOptions .nil)))))) }

/-- validator_postgresql.go:820-840 `validateTableOption`. -/
def pg_validateTableOption : Decl :=
  { params := [],
    body :=
    (.seq (.ite (.call .va_matchToken (.cons (.lit (.kws ["WITH"])) .nil))
        (.block (.ret (.call .pg_validateTableOptionWith .nil)))
        .skip)
      (.seq (.ite (.call .va_matchToken (.cons (.lit (.kws ["WITHOUT"])) .nil))
          (.block (.ret (.call .pg_validateTableOptionWithout .nil)))
          .skip)
        (.seq (.ite (.call .va_matchToken (.cons (.lit (.kws ["TABLESPACE"])) .nil))
            (.block (.ret (.call .pg_validateTableOptionTablespace .nil)))
            .skip)
          (.seq (.ite (.call .va_matchToken (.cons (.lit (.kws ["INHERITS"])) .nil))
              (.block (.ret (.call .pg_validateTableOptionInherits .nil)))
              .skip)
            (.seq (.ite (.call .va_matchToken (.cons (.lit (.kws ["PARTITION"])) .nil))
                (.block (.ret (.call .pg_validateTableOptionPartition .nil)))
                .skip)
              (.seq (.ite (.call .va_matchToken (.cons (.lit (.kws ["USING"])) .nil))
                  (.block (.ret (.call .pg_validateTableOptionUsing .nil)))
                  .skip)
                (.ret (.call .va_syntaxError .nil)))))))) }

/-- validator_postgresql.go:843-851 `validateTableOptionWith`. -/
def pg_validateTableOptionWith : Decl :=
  { params := [],
    body :=
    (.seq (.block (.seq (.define (.var .err) (.call .va_validateToken (.cons (.lit (.bool false)) (.cons (.lit (.kws ["WITH"])) .nil))))
          (.ite (.ne (.var .err) (.lit .nil))
            (.block (.ret (.var .err)))
            .skip)))
      (.seq (.block (.seq (.define (.var .err) (.call .va_validateBrackets (.cons (.lit (.bool false)) .nil)))
            (.ite (.ne (.var .err) (.lit .nil))
              (.block (.ret (.var .err)))
              .skip)))
        (.ret (.lit .nil)))) }

/-- validator_postgresql.go:854-862 `validateTableOptionWithout`. -/
def pg_validateTableOptionWithout : Decl :=
  { params := [],
    body :=
    (.seq (.block (.seq (.define (.var .err) (.call .va_validateToken (.cons (.lit (.bool false)) (.cons (.lit (.kws ["WITHOUT"])) .nil))))
          (.ite (.ne (.var .err) (.lit .nil))
            (.block (.ret (.var .err)))
            .skip)))
      (.seq (.block (.seq (.define (.var .err) (.call .va_validateToken (.cons (.lit (.bool false)) (.cons (.lit (.kws ["OIDS"])) .nil))))
            (.ite (.ne (.var .err) (.lit .nil))
              (.block (.ret (.var .err)))
              .skip)))
        (.ret (.lit .nil)))) }

/-- validator_postgresql.go:865-873 `validateTableOptionTablespace`. -/
def pg_validateTableOptionTablespace : Decl :=
  { params := [],
    body :=
    (.seq (.block (.seq (.define (.var .err) (.call .va_validateToken (.cons (.lit (.bool false)) (.cons (.lit (.kws ["TABLESPACE"])) .nil))))
          (.ite (.ne (.var .err) (.lit .nil))
            (.block (.ret (.var .err)))
            .skip)))
      (.seq (.block (.seq (.define (.var .err) (.call .pg_validateName (.cons (.lit (.bool false)) .nil)))
            (.ite (.ne (.var .err) (.lit .nil))
              (.block (.ret (.var .err)))
              .skip)))
        (.ret (.lit .nil)))) }

/-- validator_postgresql.go:876-884 `validateTableOptionInherits`. -/
def pg_validateTableOptionInherits : Decl :=
  { params := [],
    body :=
    (.seq (.block (.seq (.define (.var .err) (.call .va_validateToken (.cons (.lit (.bool false)) (.cons (.lit (.kws ["INHERITS"])) .nil))))
          (.ite (.ne (.var .err) (.lit .nil))
            (.block (.ret (.var .err)))
            .skip)))
      (.seq (.block (.seq (.define (.var .err) (.call .va_validateBrackets (.cons (.lit (.bool false)) .nil)))
            (.ite (.ne (.var .err) (.lit .nil))
              (.block (.ret (.var .err)))
              .skip)))
        (.ret (.lit .nil)))) }

/-- validator_postgresql.go:887-901 `validateTableOptionPartition`. -/
def pg_validateTableOptionPartition : Decl :=
  { params := [],
    body :=
    (.seq (.block (.seq (.define (.var .err) (.call .va_validateToken (.cons (.lit (.bool false)) (.cons (.lit (.kws ["PARTITION"])) .nil))))
          (.ite (.ne (.var .err) (.lit .nil))
            (.block (.ret (.var .err)))
            .skip)))
      (.seq (.block (.seq (.define (.var .err) (.call .va_validateToken (.cons (.lit (.bool false)) (.cons (.lit (.kws ["BY"])) .nil))))
            (.ite (.ne (.var .err) (.lit .nil))
              (.block (.ret (.var .err)))
              .skip)))
        (.seq (.block (.seq (.define (.var .err) (.call .va_validateToken (.cons (.lit (.bool false)) (.cons (.lit (.kws ["RANGE", "LIST", "HASH"])) .nil))))
              (.ite (.ne (.var .err) (.lit .nil))
                (.block (.ret (.var .err)))
                .skip)))
          (.seq (.block (.seq (.define (.var .err) (.call .va_validateBrackets (.cons (.lit (.bool false)) .nil)))
                (.ite (.ne (.var .err) (.lit .nil))
                  (.block (.ret (.var .err)))
                  .skip)))
            (.ret (.lit .nil)))))) }

/-- validator_postgresql.go:904-912 `validateTableOptionUsing`. -/
def pg_validateTableOptionUsing : Decl :=
  { params := [],
    body :=
    (.seq (.block (.seq (.define (.var .err) (.call .va_validateToken (.cons (.lit (.bool false)) (.cons (.lit (.kws ["USING"])) .nil))))
          (.ite (.ne (.var .err) (.lit .nil))
            (.block (.ret (.var .err)))
            .skip)))
      (.seq (.block (.seq (.define (.var .err) (.call .pg_validateName (.cons (.lit (.bool false)) .nil)))
            (.ite (.ne (.var .err) (.lit .nil))
              (.block (.ret (.var .err)))
              .skip)))
        (.ret (.lit .nil)))) }

end DDL.Src.Tree
