import Verif.Go.Syntax
/-
Generated by tools/gen_go.py from the sources in /repo. Do not edit.
Syntax trees of internal/validator/validator_mysql.go.
-/

set_option maxRecDepth 4000

namespace DDL.Src.Tree

/-- `DataType_MySQL`. -/
def DataType_MySQL : List String := [
  "SERIAL", "BOOL", "BOOLEAN", "INTEGER", "INT", "SMALLINT", "TINYINT", "MEDIUMINT", "BIGINT", "DECIMAL", "NUMERIC",
  "FLOAT", "DOUBLE", "BIT", "DATE", "DATETIME", "TIMESTAMP", "TIME", "YEAR", "CHAR", "VARCHAR", "BINARY",
  "VARBINARY", "BLOB", "TEXT", "GEOMETRY", "POINT", "LINESTRING", "POLYGON", "MULTIPOINT", "MULTILINESTRING",
  "MULTIPOLYGON", "GEOMETRYCOLLECTION", "JSON"]

/-- `ReservedWords_MySQL`. -/
def ReservedWords_MySQL : List String := [
  "AUTO_INCREMENT", "ACCESSIBLE", "ADD", "ALL", "ALTER", "ANALYZE", "AND", "ARRAY", "AS", "ASC", "ASENSITIVE",
  "BEFORE", "BETWEEN", "BIGINT", "BINARY", "BLOB", "BOTH", "BY", "CALL", "CASCADE", "CASE", "CHANGE", "CHAR",
  "CHARACTER", "CHECK", "COLLATE", "COLUMN", "CONDITION", "CONSTRAINT", "CONTINUE", "CONVERT", "CREATE", "CROSS",
  "CUBE", "CUME_DIST", "CURRENT_DATE", "CURRENT_TIME", "CURRENT_TIMESTAMP", "CURRENT_USER", "CURSOR", "DATABASE",
  "DATABASES", "DAY_HOUR", "DAY_MICROSECOND", "DAY_MINUTE", "DAY_SECOND", "DEC", "DECIMAL", "DECLARE", "DEFAULT",
  "DELAYED", "DELETE", "DENSE_RANK", "DESC", "DESCRIBE", "DETERMINISTIC", "DISTINCT", "DISTINCTROW", "DIV", "DOUBLE",
  "DROP", "DUAL", "EACH", "ELSE", "ELSEIF", "EMPTY", "ENCLOSED", "ESCAPED", "EXCEPT", "EXISTS", "EXIT", "EXPLAIN",
  "FALSE", "FETCH", "FIRST_VALUE", "FLOAT", "FLOAT4", "FLOAT8", "FOR", "FORCE", "FOREIGN", "FROM", "FULLTEXT",
  "FUNCTION", "GENERATED", "GET", "GRANT", "GROUP", "GROUPING", "GROUPS", "HAVING", "HIGH_PRIORITY",
  "HOUR_MICROSECOND", "HOUR_MINUTE", "HOUR_SECOND", "IF", "IGNORE", "IN", "INDEX", "INFILEx", "INNER", "INOUT",
  "INSENSITIVE", "INSERT", "INT", "INT1", "INT2", "INT3", "INT4", "INT8", "INTEGER", "INTERVAL", "INTO",
  "IO_AFTER_GTIDS", "IO_BEFORE_GTIDS", "IS", "ITERATE", "JOIN", "JSON_TABLE", "KEY", "KEYS", "KILL", "LAG",
  "LAST_VALUE", "LATERAL", "LEAD", "LEADING", "LEAVE", "LEFT", "LIKE", "LIMIT", "LINEAR", "LINES", "LOAD",
  "LOCALTIME", "LOCALTIMESTAMP", "LOCK", "LONG", "LONGBLOB", "LONGTEXT", "LOOP", "LOW_PRIORITY", "MASTER",
  "MASTER_BIND", "MASTER_SSL_VERIFY_SERVER_CERT", "MATCH", "MAXVALUE", "MEDIUMBLOB", "MEDIUMINT", "MEDIUMTEXT",
  "MEMBER", "MIDDLEINT", "MINUTE_MICROSECOND", "MINUTE_SECOND", "MOD", "MODIFIES", "NATURAL", "NOT",
  "NO_WRITE_TO_BINLOG", "NTH_VALUE", "NTILE", "NULL", "NUMERIC", "OF", "ON", "OPTIMIZE", "OPTIMIZER_COSTS", "OPTION",
  "OPTIONALLY", "OR", "ORDER", "OUT", "OUTER", "OUTFILE", "OVER", "PARTITION", "PERCENT_RANK", "PRECISION",
  "PRIMARY", "PROCEDURE", "PURGE", "RANGE", "RANK", "READ", "READS", "READ_WRITE", "REAL", "RECURSIVE", "REFERENCES",
  "REGEXP", "RELEASE", "RENAME", "REPEAT", "REPLACE", "REQUIRE", "RESIGNAL", "RESTRICT", "RETURN", "REVOKE", "RIGHT",
  "RLIKE", "ROW", "ROWS", "ROW_NUMBER", "SCHEMA", "SCHEMAS", "SECOND_MICROSECOND", "SELECT", "SENSITIVE",
  "SEPARATOR", "SET", "SHOW", "SIGNAL", "SMALLINT", "SPATIAL", "SPECIFIC", "SQL", "SQLEXCEPTION", "SQLSTATE",
  "SQLWARNING", "SQL_BIG_RESULT", "SQL_CALC_FOUND_ROWS", "SQL_SMALL_RESULT", "SSL", "STARTING", "STORED",
  "STRAIGHT_JOIN", "SYSTEM", "TABLE", "TERMINATED", "THEN", "TINYBLOB", "TINYINT", "TINYTEXT", "TO", "TRAILING",
  "TRIGGER", "TRUE", "UNDO", "UNION", "UNIQUE", "UNLOCK", "UNSIGNED", "UPDATE", "USAGE", "USE", "USING", "UTC_DATE",
  "UTC_TIME", "UTC_TIMESTAMP", "VALUES", "VARBINARY", "VARCHAR", "VARCHARACTER", "VARYING", "VIRTUAL", "WHEN",
  "WHERE", "WHILE", "WINDOW", "WITH", "WRITE", "XOR", "YEAR_MONTH", "ZEROFILL"]

/-- validator_mysql.go:14-16 `NewMySQLValidator`. -/
def my_NewMySQLValidator : Decl :=
  { params := [],
    body :=
    (.ret (.lit (.obj .mysqlValidator [(.tokens, .nil), (.size, .int 0), (.i, .int 0), (.line, .int 0), (.result, .nil)]))) }

/-- validator_mysql.go:19-25 `Validate`. -/
def my_Validate : Decl :=
  { params := [(.tokens, false)],
    body :=
    (.seq (.expr (.call .va_init (.cons (.var .tokens) .nil)))
      (.seq (.block (.seq (.define (.var .err) (.call .my_validate .nil))
            (.ite (.ne (.var .err) (.lit .nil))
              (.block (.ret (.tuple (.cons (.lit .nil) (.cons (.var .err) .nil)))))
              .skip)))
        (.ret (.tuple (.cons (.field .result) (.cons (.lit .nil) .nil)))))) }

/-- validator_mysql.go:28-36 `validate`. -/
def my_validate : Decl :=
  { params := [],
    body :=
    (.seq (.ite (.call .va_isOutOfRange .nil)
        (.block (.ret (.lit .nil)))
        .skip)
      (.seq (.block (.seq (.define (.var .err) (.call .my_validateDdl .nil))
            (.ite (.ne (.var .err) (.lit .nil))
              (.block (.ret (.var .err)))
              .skip)))
        (.ret (.call .my_validate .nil)))) }

/-- validator_mysql.go:39-42 `isStringValue`. -/
def my_isStringValue : Decl :=
  { params := [(.token, false)],
    body :=
    (.seq (.define (.var .tmp) (.slice (.var .token) (.lit (.int 0)) (.lit (.int 1))))
      (.ret (.or (.eq (.var .tmp) (.lit (.str (S "\"")))) (.eq (.var .tmp) (.lit (.str (S "'"))))))) }

/-- validator_mysql.go:45-47 `isIdentifier`. -/
def my_isIdentifier : Decl :=
  { params := [(.token, false)],
    body :=
    (.ret (.eq (.slice (.var .token) (.lit (.int 0)) (.lit (.int 1))) (.lit (.str (S "`"))))) }

/-- validator_mysql.go:50-58 `isValidName`. -/
def my_isValidName : Decl :=
  { params := [(.name, false)],
    body :=
    (.ite (.call .my_isIdentifier (.cons (.var .name) .nil))
      (.block (.ret (.lit (.bool true))))
      (.block (.seq (.define (.var .pattern) (.lib .compile (.cons (.lit (.str (S "^[a-zA-Z_][a-zA-Z0-9_]*$"))) .nil)))
          (.ret (.and (.lib .matchString (.cons (.var .pattern) (.cons (.var .name) .nil))) (.not (.call .co_Contains (.cons (.lit (.kws ReservedWords_MySQL)) (.cons (.lib .toUpper (.cons (.var .name) .nil)) .nil))))))))) }

/-- validator_mysql.go:61-71 `validateName`. -/
def my_validateName : Decl :=
  { params := [(.«set», false)],
    body :=
    (.seq (.ite (.call .my_isValidName (.cons (.call .va_token .nil) .nil))
        (.block (.seq (.ite (.var .«set»)
              (.block (.expr (.call .va_set (.cons (.call .va_next .nil) .nil))))
              (.block (.expr (.call .va_next .nil))))
            (.ret (.lit .nil))))
        .skip)
      (.ret (.call .va_syntaxError .nil))) }

/-- validator_mysql.go:74-85 `validateTableName`. -/
def my_validateTableName : Decl :=
  { params := [(.«set», false)],
    body :=
    (.seq (.block (.seq (.define (.var .err) (.call .my_validateName (.cons (.var .«set») .nil)))
          (.ite (.ne (.var .err) (.lit .nil))
            (.block (.ret (.var .err)))
            .skip)))
      (.seq (.ite (.call .va_matchTokenNext (.cons (.var .«set») (.cons (.lit (.kws ["."])) .nil)))
          (.block (.block (.seq (.define (.var .err) (.call .my_validateName (.cons (.var .«set») .nil)))
                (.ite (.ne (.var .err) (.lit .nil))
                  (.block (.ret (.var .err)))
                  .skip))))
          .skip)
        (.ret (.lit .nil)))) }

/-- validator_mysql.go:88-90 `validateColumnName`. -/
def my_validateColumnName : Decl :=
  { params := [(.«set», false)],
    body :=
    (.ret (.call .my_validateName (.cons (.var .«set») .nil))) }

/-- validator_mysql.go:93-103 `validateStringValue`. -/
def my_validateStringValue : Decl :=
  { params := [(.«set», false)],
    body :=
    (.seq (.ite (.not (.call .my_isStringValue (.cons (.call .va_token .nil) .nil)))
        (.block (.ret (.call .va_syntaxError .nil)))
        .skip)
      (.seq (.ite (.var .«set»)
          (.block (.expr (.call .va_set (.cons (.call .va_next .nil) .nil))))
          (.block (.expr (.call .va_next .nil))))
        (.ret (.lit .nil)))) }

/-- validator_mysql.go:107-117 `validateTypeDigitN`. -/
def my_validateTypeDigitN : Decl :=
  { params := [(.«set», false)],
    body :=
    (.seq (.ite (.call .va_matchTokenNext (.cons (.var .«set») (.cons (.lit (.kws ["("])) .nil)))
        (.block (.seq (.block (.seq (.define (.var .err) (.call .my_validatePositiveInteger (.cons (.var .«set») .nil)))
                (.ite (.ne (.var .err) (.lit .nil))
                  (.block (.ret (.var .err)))
                  .skip)))
            (.block (.seq (.define (.var .err) (.call .va_validateToken (.cons (.var .«set») (.cons (.lit (.kws [")"])) .nil))))
                (.ite (.ne (.var .err) (.lit .nil))
                  (.block (.ret (.var .err)))
                  .skip)))))
        .skip)
      (.ret (.lit .nil))) }

/-- validator_mysql.go:121-123 `validateTypeDigitP`. -/
def my_validateTypeDigitP : Decl :=
  { params := [(.«set», false)],
    body :=
    (.ret (.call .my_validateTypeDigitN (.cons (.var .«set») .nil))) }

/-- validator_mysql.go:127-142 `validateTypeDigitPS`. -/
def my_validateTypeDigitPS : Decl :=
  { params := [(.«set», false)],
    body :=
    (.seq (.ite (.call .va_matchTokenNext (.cons (.var .«set») (.cons (.lit (.kws ["("])) .nil)))
        (.block (.seq (.block (.seq (.define (.var .err) (.call .my_validatePositiveInteger (.cons (.var .«set») .nil)))
                (.ite (.ne (.var .err) (.lit .nil))
                  (.block (.ret (.var .err)))
                  .skip)))
            (.seq (.ite (.call .va_matchTokenNext (.cons (.var .«set») (.cons (.lit (.kws [","])) .nil)))
                (.block (.block (.seq (.define (.var .err) (.call .my_validatePositiveInteger (.cons (.var .«set») .nil)))
                      (.ite (.ne (.var .err) (.lit .nil))
                        (.block (.ret (.var .err)))
                        .skip))))
                .skip)
              (.block (.seq (.define (.var .err) (.call .va_validateToken (.cons (.var .«set») (.cons (.lit (.kws [")"])) .nil))))
                  (.ite (.ne (.var .err) (.lit .nil))
                    (.block (.ret (.var .err)))
                    .skip))))))
        .skip)
      (.ret (.lit .nil))) }

/-- validator_mysql.go:145-156 `validatePositiveInteger`. -/
def my_validatePositiveInteger : Decl :=
  { params := [(.«set», false)],
    body :=
    (.seq (.ite (.not (.call .co_IsPositiveIntegerToken (.cons (.call .va_token .nil) .nil)))
        (.block (.ret (.call .va_syntaxError .nil)))
        .skip)
      (.seq (.ite (.var .«set»)
          (.block (.expr (.call .va_set (.cons (.call .va_next .nil) .nil))))
          (.block (.expr (.call .va_next .nil))))
        (.ret (.lit .nil)))) }

/-- validator_mysql.go:159-161 `validateExpr`. -/
def my_validateExpr : Decl :=
  { params := [(.«set», false)],
    body :=
    (.ret (.call .va_validateBrackets (.cons (.var .«set») .nil))) }

/-- validator_mysql.go:164-186 `validateLiteralValue`. -/
def my_validateLiteralValue : Decl :=
  { params := [(.«set», false)],
    body :=
    (.seq (.ite (.call .co_IsNumericToken (.cons (.call .va_token .nil) .nil))
        (.block (.seq (.ite (.var .«set»)
              (.block (.expr (.call .va_set (.cons (.call .va_next .nil) .nil))))
              (.block (.expr (.call .va_next .nil))))
            (.ret (.lit .nil))))
        .skip)
      (.seq (.ite (.call .my_isStringValue (.cons (.call .va_token .nil) .nil))
          (.block (.seq (.ite (.var .«set»)
                (.block (.expr (.call .va_set (.cons (.call .va_next .nil) .nil))))
                (.block (.expr (.call .va_next .nil))))
              (.ret (.lit .nil))))
          .skip)
        (.seq (.define (.var .ls) (.lit (.kws ["NULL", "TRUE", "FALSE", "CURRENT_TIME", "CURRENT_DATE", "CURRENT_TIMESTAMP"])))
          (.seq (.block (.seq (.define (.var .err) (.call .va_validateToken (.cons (.var .«set») (.cons (.var .ls) .nil))))
                (.ite (.ne (.var .err) (.lit .nil))
                  (.block (.ret (.var .err)))
                  .skip)))
            (.ret (.lit .nil)))))) }

/-- validator_mysql.go:189-200 `validateIndexKeys`. -/
def my_validateIndexKeys : Decl :=
  { params := [(.«set», false)],
    body :=
    (.seq (.block (.seq (.define (.var .err) (.call .va_validateToken (.cons (.var .«set») (.cons (.lit (.kws ["("])) .nil))))
          (.ite (.ne (.var .err) (.lit .nil))
            (.block (.ret (.var .err)))
            .skip)))
      (.seq (.block (.seq (.define (.var .err) (.call .my_validateIndexKeysAux (.cons (.var .«set») .nil)))
            (.ite (.ne (.var .err) (.lit .nil))
              (.block (.ret (.var .err)))
              .skip)))
        (.seq (.block (.seq (.define (.var .err) (.call .va_validateToken (.cons (.lit (.bool true)) (.cons (.lit (.kws [")"])) .nil))))
              (.ite (.ne (.var .err) (.lit .nil))
                (.block (.ret (.var .err)))
                .skip)))
          (.ret (.lit .nil))))) }

/-- validator_mysql.go:202-220 `validateIndexKeysAux`. -/
def my_validateIndexKeysAux : Decl :=
  { params := [(.«set», false)],
    body :=
    (.seq (.ite (.call .va_matchToken (.cons (.lit (.kws ["("])) .nil))
        (.block (.block (.seq (.define (.var .err) (.call .my_validateExpr (.cons (.lit (.bool false)) .nil)))
              (.ite (.ne (.var .err) (.lit .nil))
                (.block (.ret (.var .err)))
                .skip))))
        (.block (.seq (.block (.seq (.define (.var .err) (.call .my_validateName (.cons (.var .«set») .nil)))
                (.ite (.ne (.var .err) (.lit .nil))
                  (.block (.ret (.var .err)))
                  .skip)))
            (.block (.seq (.define (.var .err) (.call .my_validateTypeDigitN (.cons (.lit (.bool false)) .nil)))
                (.ite (.ne (.var .err) (.lit .nil))
                  (.block (.ret (.var .err)))
                  .skip))))))
      (.seq (.expr (.call .va_matchTokenNext (.cons (.lit (.bool false)) (.cons (.lit (.kws ["ASC", "DESC"])) .nil))))
        (.seq (.ite (.call .va_matchTokenNext (.cons (.var .«set») (.cons (.lit (.kws [","])) .nil)))
            (.block (.ret (.call .my_validateIndexKeysAux (.cons (.var .«set») .nil))))
            .skip)
          (.ret (.lit .nil))))) }

/-- validator_mysql.go:223-237 `validateDdl`. -/
def my_validateDdl : Decl :=
  { params := [],
    body :=
    (.seq (.block (.seq (.define (.var .err) (.call .va_validateToken (.cons (.lit (.bool false)) (.cons (.lit (.kws ["CREATE"])) .nil))))
          (.ite (.ne (.var .err) (.lit .nil))
            (.block (.ret (.var .err)))
            .skip)))
      (.seq (.ite (.call .va_matchToken (.cons (.lit (.kws ["TABLE"])) .nil))
          (.block (.block (.seq (.define (.var .err) (.call .my_validateCreateTable .nil))
                (.ite (.ne (.var .err) (.lit .nil))
                  (.block (.ret (.var .err)))
                  .skip))))
          (.block (.block (.seq (.define (.var .err) (.call .my_validateCreateOther .nil))
                (.ite (.ne (.var .err) (.lit .nil))
                  (.block (.ret (.var .err)))
                  .skip)))))
        (.ret (.lit .nil)))) }

/-- validator_mysql.go:240-258 `validateCreateTable`. -/
def my_validateCreateTable : Decl :=
  { params := [],
    body :=
    (.seq (.expr (.call .va_set (.cons (.lit (.str (S "CREATE"))) .nil)))
      (.seq (.block (.seq (.define (.var .err) (.call .va_validateToken (.cons (.lit (.bool true)) (.cons (.lit (.kws ["TABLE"])) .nil))))
            (.ite (.ne (.var .err) (.lit .nil))
              (.block (.ret (.var .err)))
              .skip)))
        (.seq (.block (.seq (.define (.var .err) (.call .my_validateIfNotExists .nil))
              (.ite (.ne (.var .err) (.lit .nil))
                (.block (.ret (.var .err)))
                .skip)))
          (.seq (.block (.seq (.define (.var .err) (.call .my_validateTableName (.cons (.lit (.bool true)) .nil)))
                (.ite (.ne (.var .err) (.lit .nil))
                  (.block (.ret (.var .err)))
                  .skip)))
            (.seq (.block (.seq (.define (.var .err) (.call .my_validateTableDefinition .nil))
                  (.ite (.ne (.var .err) (.lit .nil))
                    (.block (.ret (.var .err)))
                    .skip)))
              (.seq (.block (.seq (.define (.var .err) (.call .va_validateToken (.cons (.lit (.bool true)) (.cons (.lit (.kws [";"])) .nil))))
                    (.ite (.ne (.var .err) (.lit .nil))
                      (.block (.ret (.var .err)))
                      .skip)))
                (.ret (.lit .nil)))))))) }

/-- validator_mysql.go:261-291 `validateCreateOther`. -/
def my_validateCreateOther : Decl :=
  { params := [],
    body :=
    (.seq (.block (.seq (.define (.var .err) (.call .va_validateToken (.cons (.lit (.bool false)) (.cons (.lit (.kws ["VIEW", "TRIGGER", "INDEX", "DATABASE", "UNIQUE", "PROCEDURE", "SERVER", "FUNCTION", "USER", "EVENT", "SEQUENCE", "TABLESPACE", "ROLE", "LOGIN"])) .nil))))
          (.ite (.ne (.var .err) (.lit .nil))
            (.block (.ret (.var .err)))
            .skip)))
      (.seq (.define (.var .«begin») (.lit (.bool false)))
        (.seq (.loop (.lit (.bool true))
            (.block (.seq (.ite (.call .va_isOutOfRange .nil)
                  (.block (.ret (.call .va_syntaxError .nil)))
                  .skip)
                (.seq (.ite (.call .va_matchToken (.cons (.lit (.kws ["BEGIN"])) .nil))
                    (.block (.assign (.var .«begin») (.lit (.bool true))))
                    .skip)
                  (.seq (.ite (.var .«begin»)
                      (.block (.ite (.call .va_matchToken (.cons (.lit (.kws ["END"])) .nil))
                          (.block (.assign (.var .«begin») (.lit (.bool false))))
                          .skip))
                      (.block (.ite (.call .va_matchToken (.cons (.lit (.kws [";"])) .nil))
                          (.block .brk)
                          .skip)))
                    (.expr (.call .va_next .nil)))))))
          (.seq (.block (.seq (.define (.var .err) (.call .va_validateToken (.cons (.lit (.bool false)) (.cons (.lit (.kws [";"])) .nil))))
                (.ite (.ne (.var .err) (.lit .nil))
                  (.block (.ret (.var .err)))
                  .skip)))
            (.ret (.lit .nil)))))) }

/-- validator_mysql.go:294-304 `validateIfNotExists`. -/
def my_validateIfNotExists : Decl :=
  { params := [],
    body :=
    (.seq (.ite (.call .va_matchTokenNext (.cons (.lit (.bool true)) (.cons (.lit (.kws ["IF"])) .nil)))
        (.block (.seq (.block (.seq (.define (.var .err) (.call .va_validateToken (.cons (.lit (.bool true)) (.cons (.lit (.kws ["NOT"])) .nil))))
                (.ite (.ne (.var .err) (.lit .nil))
                  (.block (.ret (.var .err)))
                  .skip)))
            (.block (.seq (.define (.var .err) (.call .va_validateToken (.cons (.lit (.bool true)) (.cons (.lit (.kws ["EXISTS"])) .nil))))
                (.ite (.ne (.var .err) (.lit .nil))
                  (.block (.ret (.var .err)))
                  .skip)))))
        .skip)
      (.ret (.lit .nil))) }

/-- validator_mysql.go:307-321 `validateTableDefinition`. -/
def my_validateTableDefinition : Decl :=
  { params := [],
    body :=
    (.seq (.block (.seq (.define (.var .err) (.call .va_validateToken (.cons (.lit (.bool true)) (.cons (.lit (.kws ["("])) .nil))))
          (.ite (.ne (.var .err) (.lit .nil))
            (.block (.ret (.var .err)))
            .skip)))
      (.seq (.block (.seq (.define (.var .err) (.call .my_validateColumnDefinitions .nil))
            (.ite (.ne (.var .err) (.lit .nil))
              (.block (.ret (.var .err)))
              .skip)))
        (.seq (.block (.seq (.define (.var .err) (.call .va_validateToken (.cons (.lit (.bool true)) (.cons (.lit (.kws [")"])) .nil))))
              (.ite (.ne (.var .err) (.lit .nil))
                (.block (.ret (.var .err)))
                .skip)))
          (.seq (.block (.seq (.define (.var .err) (.call .my_validateTableOptions .nil))
                (.ite (.ne (.var .err) (.lit .nil))
                  (.block (.ret (.var .err)))
                  .skip)))
            (.ret (.lit .nil)))))) }

/-- validator_mysql.go:324-332 `validateColumnDefinitions`. -/
def my_validateColumnDefinitions : Decl :=
  { params := [],
    body :=
    (.seq (.block (.seq (.define (.var .err) (.call .my_validateColumnDefinition .nil))
          (.ite (.ne (.var .err) (.lit .nil))
            (.block (.ret (.var .err)))
            .skip)))
      (.seq (.ite (.call .va_matchTokenNext (.cons (.lit (.bool true)) (.cons (.lit (.kws [","])) .nil)))
          (.block (.ret (.call .my_validateColumnDefinitions .nil)))
          .skip)
        (.ret (.lit .nil)))) }

/-- validator_mysql.go:335-349 `validateColumnDefinition`. -/
def my_validateColumnDefinition : Decl :=
  { params := [],
    body :=
    (.seq (.ite (.call .va_matchToken (.cons (.lit (.kws ["CONSTRAINT", "PRIMARY", "UNIQUE", "FOREIGN", "INDEX", "KEY", "FULLTEXT", "SPATIAL", "CHECK"])) .nil))
        (.block (.ret (.call .my_validateTableConstraint .nil)))
        .skip)
      (.seq (.block (.seq (.define (.var .err) (.call .my_validateColumnName (.cons (.lit (.bool true)) .nil)))
            (.ite (.ne (.var .err) (.lit .nil))
              (.block (.ret (.var .err)))
              .skip)))
        (.seq (.block (.seq (.define (.var .err) (.call .my_validateColumnType .nil))
              (.ite (.ne (.var .err) (.lit .nil))
                (.block (.ret (.var .err)))
                .skip)))
          (.seq (.block (.seq (.define (.var .err) (.call .my_validateColumnConstraints .nil))
                (.ite (.ne (.var .err) (.lit .nil))
                  (.block (.ret (.var .err)))
                  .skip)))
            (.ret (.lit .nil)))))) }

/-- validator_mysql.go:352-397 `validateColumnType`. -/
def my_validateColumnType : Decl :=
  { params := [],
    body :=
    (.seq (.ite (.call .va_matchTokenNext (.cons (.lit (.bool true)) (.cons (.lit (.kws ["VARCHAR", "CHAR", "BINARY", "VARBINARY", "BLOB", "TEXT"])) .nil)))
        (.block (.seq (.block (.seq (.define (.var .err) (.call .my_validateTypeDigitN (.cons (.lit (.bool true)) .nil)))
                (.ite (.ne (.var .err) (.lit .nil))
                  (.block (.ret (.var .err)))
                  .skip)))
            (.ret (.lit .nil))))
        .skip)
      (.seq (.ite (.call .va_matchTokenNext (.cons (.lit (.bool true)) (.cons (.lit (.kws ["NUMERIC", "DECIMAL", "FLOAT", "REAL", "DOUBLE"])) .nil)))
          (.block (.seq (.block (.seq (.define (.var .err) (.call .my_validateTypeDigitPS (.cons (.lit (.bool true)) .nil)))
                  (.ite (.ne (.var .err) (.lit .nil))
                    (.block (.ret (.var .err)))
                    .skip)))
              (.ret (.lit .nil))))
          .skip)
        (.seq (.ite (.call .va_matchTokenNext (.cons (.lit (.bool true)) (.cons (.lit (.kws ["BIT", "TINYINT", "SMALLINT", "MEDIUMINT", "INT", "INTEGER", "BIGINT"])) .nil)))
            (.block (.seq (.block (.seq (.define (.var .err) (.call .my_validateTypeDigitP (.cons (.lit (.bool true)) .nil)))
                    (.ite (.ne (.var .err) (.lit .nil))
                      (.block (.ret (.var .err)))
                      .skip)))
                (.ret (.lit .nil))))
            .skip)
          (.seq (.ite (.call .va_matchTokenNext (.cons (.lit (.bool true)) (.cons (.lit (.kws ["TIME", "DATETIME", "TIMESTAMP", "YEAR"])) .nil)))
              (.block (.seq (.block (.seq (.define (.var .err) (.call .my_validateTypeDigitP (.cons (.lit (.bool true)) .nil)))
                      (.ite (.ne (.var .err) (.lit .nil))
                        (.block (.ret (.var .err)))
                        .skip)))
                  (.seq (.ite (.call .va_matchTokenNext (.cons (.lit (.bool false)) (.cons (.lit (.kws ["WITH", "WITHOUT"])) .nil)))
                      (.block (.seq (.block (.seq (.define (.var .err) (.call .va_validateToken (.cons (.lit (.bool false)) (.cons (.lit (.kws ["TIME"])) .nil))))
                              (.ite (.ne (.var .err) (.lit .nil))
                                (.block (.ret (.var .err)))
                                .skip)))
                          (.block (.seq (.define (.var .err) (.call .va_validateToken (.cons (.lit (.bool false)) (.cons (.lit (.kws ["ZONE"])) .nil))))
                              (.ite (.ne (.var .err) (.lit .nil))
                                (.block (.ret (.var .err)))
                                .skip)))))
                      .skip)
                    (.ret (.lit .nil)))))
              .skip)
            (.seq (.block (.seq (.define (.var .err) (.call .va_validateToken (.cons (.lit (.bool true)) (.cons (.lit (.kws DataType_MySQL)) .nil))))
                  (.ite (.ne (.var .err) (.lit .nil))
                    (.block (.ret (.var .err)))
                    .skip)))
              (.ret (.lit .nil))))))) }

/-- validator_mysql.go:400-409 `validateColumnConstraints`. -/
def my_validateColumnConstraints : Decl :=
  { params := [],
    body :=
    (.seq (.ite (.call .va_matchTokenNext (.cons (.lit (.bool true)) (.cons (.lit (.kws ["CONSTRAINT"])) .nil)))
        (.block (.ite (.not (.call .va_matchToken (.cons (.lit (.kws ["CHECK"])) .nil)))
            (.block (.block (.seq (.define (.var .err) (.call .my_validateName (.cons (.lit (.bool true)) .nil)))
                  (.ite (.ne (.var .err) (.lit .nil))
                    (.block (.ret (.var .err)))
                    .skip))))
            .skip))
        .skip)
      (.ret (.call .my_validateColumnConstraintsAux (.cons (.lit (.strs [])) .nil)))) }

/-- validator_mysql.go:412-418 `isColumnConstraint`. -/
def my_isColumnConstraint : Decl :=
  { params := [(.token, false)],
    body :=
    (.ret (.call .va_matchToken (.cons (.lit (.kws ["PRIMARY", "KEY", "NOT", "NULL", "UNIQUE", "CHECK", "DEFAULT", "COLLATE", "REFERENCES", "GENERATED", "AS", "COMMENT", "COLUMN_FORMAT", "ENGINE_ATTRIBUTE", "SECONDARY_ENGINE_ATTRIBUTE", "STORAGE", "VISIBLE", "INVISIBLE", "VIRTUAL", "STORED", "AUTO_INCREMENT"])) .nil))) }

/-- validator_mysql.go:421-452 `validateColumnConstraintsAux`. -/
def my_validateColumnConstraintsAux : Decl :=
  { params := [(.ls, false)],
    body :=
    (.seq (.ite (.not (.call .my_isColumnConstraint (.cons (.call .va_token .nil) .nil)))
        (.block (.ret (.lit .nil)))
        .skip)
      (.seq (.ite (.call .va_matchToken (.cons (.lit (.kws ["NOT"])) .nil))
          (.block (.seq (.ite (.call .co_Contains (.cons (.var .ls) (.cons (.lit (.str (S "NULL"))) .nil)))
                (.block (.ret (.call .va_syntaxError .nil)))
                .skip)
              (.assign (.var .ls) (.lib .append (.cons (.var .ls) (.cons (.lit (.str (S "NULL"))) .nil))))))
          (.block (.ite (.call .va_matchToken (.cons (.lit (.kws ["PRIMARY", "KEY"])) .nil))
              (.block (.seq (.ite (.call .co_Contains (.cons (.var .ls) (.cons (.lit (.str (S "PRIMARY"))) .nil)))
                    (.block (.ret (.call .va_syntaxError .nil)))
                    .skip)
                  (.assign (.var .ls) (.lib .append (.cons (.var .ls) (.cons (.lit (.str (S "PRIMARY"))) .nil))))))
              (.block (.ite (.call .va_matchToken (.cons (.lit (.kws ["GENERATED", "AS"])) .nil))
                  (.block (.seq (.ite (.call .co_Contains (.cons (.var .ls) (.cons (.lit (.str (S "GENERATED"))) .nil)))
                        (.block (.ret (.call .va_syntaxError .nil)))
                        .skip)
                      (.assign (.var .ls) (.lib .append (.cons (.var .ls) (.cons (.lit (.str (S "GENERATED"))) .nil))))))
                  (.block (.seq (.ite (.call .co_Contains (.cons (.var .ls) (.cons (.lib .toUpper (.cons (.call .va_token .nil) .nil)) .nil)))
                        (.block (.ret (.call .va_syntaxError .nil)))
                        .skip)
                      (.assign (.var .ls) (.lib .append (.cons (.var .ls) (.cons (.lib .toUpper (.cons (.call .va_token .nil) .nil)) .nil)))))))))))
        (.seq (.block (.seq (.define (.var .err) (.call .my_validateColumnConstraint .nil))
              (.ite (.ne (.var .err) (.lit .nil))
                (.block (.ret (.var .err)))
                .skip)))
          (.ret (.call .my_validateColumnConstraintsAux (.cons (.var .ls) .nil)))))) }

/-- validator_mysql.go:455-503 `validateColumnConstraint`. -/
def my_validateColumnConstraint : Decl :=
  { params := [],
    body :=
    (.seq (.ite (.call .va_matchToken (.cons (.lit (.kws ["PRIMARY", "KEY"])) .nil))
        (.block (.ret (.call .my_validateConstraintPrimaryKey .nil)))
        .skip)
      (.seq (.ite (.call .va_matchToken (.cons (.lit (.kws ["NOT"])) .nil))
          (.block (.ret (.call .my_validateConstraintNotNull .nil)))
          .skip)
        (.seq (.ite (.call .va_matchToken (.cons (.lit (.kws ["NULL"])) .nil))
            (.block (.ret (.call .my_validateConstraintNull .nil)))
            .skip)
          (.seq (.ite (.call .va_matchToken (.cons (.lit (.kws ["UNIQUE"])) .nil))
              (.block (.ret (.call .my_validateConstraintUnique .nil)))
              .skip)
            (.seq (.ite (.call .va_matchToken (.cons (.lit (.kws ["CHECK"])) .nil))
                (.block (.ret (.call .my_validateConstraintCheck .nil)))
                .skip)
              (.seq (.ite (.call .va_matchToken (.cons (.lit (.kws ["DEFAULT"])) .nil))
                  (.block (.ret (.call .my_validateConstraintDefault .nil)))
                  .skip)
                (.seq (.ite (.call .va_matchToken (.cons (.lit (.kws ["COLLATE"])) .nil))
                    (.block (.ret (.call .my_validateConstraintCollate .nil)))
                    .skip)
                  (.seq (.ite (.call .va_matchToken (.cons (.lit (.kws ["REFERENCES"])) .nil))
                      (.block (.ret (.call .my_validateConstraintReferences .nil)))
                      .skip)
                    (.seq (.ite (.call .va_matchToken (.cons (.lit (.kws ["GENERATED", "AS"])) .nil))
                        (.block (.ret (.call .my_validateConstraintGenerated .nil)))
                        .skip)
                      (.seq (.ite (.call .va_matchToken (.cons (.lit (.kws ["COMMENT"])) .nil))
                          (.block (.ret (.call .my_validateConstraintComment .nil)))
                          .skip)
                        (.seq (.ite (.call .va_matchToken (.cons (.lit (.kws ["COLUMN_FORMAT"])) .nil))
                            (.block (.ret (.call .my_validateConstraintColumnFormat .nil)))
                            .skip)
                          (.seq (.ite (.call .va_matchToken (.cons (.lit (.kws ["ENGINE_ATTRIBUTE", "SECONDARY_ENGINE_ATTRIBUTE"])) .nil))
                              (.block (.ret (.call .my_validateConstraintEngineAttribute .nil)))
                              .skip)
                            (.seq (.ite (.call .va_matchToken (.cons (.lit (.kws ["STORAGE"])) .nil))
                                (.block (.ret (.call .my_validateConstraintStorage .nil)))
                                .skip)
                              (.seq (.ite (.call .va_matchToken (.cons (.lit (.kws ["AUTO_INCREMENT"])) .nil))
                                  (.block (.ret (.call .my_validateConstraintAutoincrement .nil)))
                                  .skip)
                                (.seq (.ite (.call .va_matchTokenNext (.cons (.lit (.bool false)) (.cons (.lit (.kws ["VISIBLE", "INVISIBLE", "VIRTUAL", "STORED"])) .nil)))
                                    (.block (.ret (.lit .nil)))
                                    .skip)
                                  (.ret (.call .va_syntaxError .nil))))))))))))))))) }

/-- validator_mysql.go:506-520 `validateConstraintPrimaryKey`. -/
def my_validateConstraintPrimaryKey : Decl :=
  { params := [],
    body :=
    (.seq (.ite (.call .va_matchToken (.cons (.lit (.kws ["KEY"])) .nil))
        (.block (.seq (.expr (.call .va_set (.cons (.lit (.str (S "PRIMARY"))) .nil)))
            (.seq (.expr (.call .va_set (.cons (.lit (.str (S "KEY"))) .nil)))
              (.seq (.expr (.call .va_next .nil))
                (.ret (.lit .nil))))))
        .skip)
      (.seq (.block (.seq (.define (.var .err) (.call .va_validateToken (.cons (.lit (.bool true)) (.cons (.lit (.kws ["PRIMARY"])) .nil))))
            (.ite (.ne (.var .err) (.lit .nil))
              (.block (.ret (.var .err)))
              .skip)))
        (.seq (.block (.seq (.define (.var .err) (.call .va_validateToken (.cons (.lit (.bool true)) (.cons (.lit (.kws ["KEY"])) .nil))))
              (.ite (.ne (.var .err) (.lit .nil))
                (.block (.ret (.var .err)))
                .skip)))
          (.ret (.lit .nil))))) }

/-- validator_mysql.go:523-531 `validateConstraintNotNull`. -/
def my_validateConstraintNotNull : Decl :=
  { params := [],
    body :=
    (.seq (.block (.seq (.define (.var .err) (.call .va_validateToken (.cons (.lit (.bool true)) (.cons (.lit (.kws ["NOT"])) .nil))))
          (.ite (.ne (.var .err) (.lit .nil))
            (.block (.ret (.var .err)))
            .skip)))
      (.seq (.block (.seq (.define (.var .err) (.call .va_validateToken (.cons (.lit (.bool true)) (.cons (.lit (.kws ["NULL"])) .nil))))
            (.ite (.ne (.var .err) (.lit .nil))
              (.block (.ret (.var .err)))
              .skip)))
        (.ret (.lit .nil)))) }

/-- validator_mysql.go:534-539 `validateConstraintNull`. -/
def my_validateConstraintNull : Decl :=
  { params := [],
    body :=
    (.seq (.block (.seq (.define (.var .err) (.call .va_validateToken (.cons (.lit (.bool false)) (.cons (.lit (.kws ["NULL"])) .nil))))
          (.ite (.ne (.var .err) (.lit .nil))
            (.block (.ret (.var .err)))
            .skip)))
      (.ret (.lit .nil))) }

/-- validator_mysql.go:542-548 `validateConstraintUnique`. -/
def my_validateConstraintUnique : Decl :=
  { params := [],
    body :=
    (.seq (.block (.seq (.define (.var .err) (.call .va_validateToken (.cons (.lit (.bool true)) (.cons (.lit (.kws ["UNIQUE"])) .nil))))
          (.ite (.ne (.var .err) (.lit .nil))
            (.block (.ret (.var .err)))
            .skip)))
      (.seq (.expr (.call .va_matchTokenNext (.cons (.lit (.bool false)) (.cons (.lit (.kws ["KEY"])) .nil))))
        (.ret (.lit .nil)))) }

/-- validator_mysql.go:551-561 `validateConstraintCheck`. -/
def my_validateConstraintCheck : Decl :=
  { params := [],
    body :=
    (.seq (.block (.seq (.define (.var .err) (.call .va_validateToken (.cons (.lit (.bool true)) (.cons (.lit (.kws ["CHECK"])) .nil))))
          (.ite (.ne (.var .err) (.lit .nil))
            (.block (.ret (.var .err)))
            .skip)))
      (.seq (.block (.seq (.define (.var .err) (.call .my_validateExpr (.cons (.lit (.bool true)) .nil)))
            (.ite (.ne (.var .err) (.lit .nil))
              (.block (.ret (.var .err)))
              .skip)))
        (.seq (.expr (.call .va_matchTokenNext (.cons (.lit (.bool false)) (.cons (.lit (.kws ["NOT"])) .nil))))
          (.seq (.expr (.call .va_matchTokenNext (.cons (.lit (.bool false)) (.cons (.lit (.kws ["ENFORCED"])) .nil))))
            (.ret (.lit .nil)))))) }

/-- validator_mysql.go:564-587 `validateConstraintDefault`. -/
def my_validateConstraintDefault : Decl :=
  { params := [],
    body :=
    (.seq (.block (.seq (.define (.var .err) (.call .va_validateToken (.cons (.lit (.bool true)) (.cons (.lit (.kws ["DEFAULT"])) .nil))))
          (.ite (.ne (.var .err) (.lit .nil))
            (.block (.ret (.var .err)))
            .skip)))
      (.seq (.ite (.call .va_matchToken (.cons (.lit (.kws ["("])) .nil))
          (.block (.block (.seq (.define (.var .err) (.call .my_validateExpr (.cons (.lit (.bool true)) .nil)))
                (.ite (.ne (.var .err) (.lit .nil))
                  (.block (.ret (.var .err)))
                  .skip))))
          (.block (.seq (.block (.seq (.define (.var .err) (.call .my_validateLiteralValue (.cons (.lit (.bool true)) .nil)))
                  (.ite (.ne (.var .err) (.lit .nil))
                    (.block (.ret (.var .err)))
                    .skip)))
              (.ite (.call .va_matchTokenNext (.cons (.lit (.bool false)) (.cons (.lit (.kws ["ON"])) .nil)))
                (.block (.seq (.block (.seq (.define (.var .err) (.call .va_validateToken (.cons (.lit (.bool false)) (.cons (.lit (.kws ["UPDATE"])) .nil))))
                        (.ite (.ne (.var .err) (.lit .nil))
                          (.block (.ret (.var .err)))
                          .skip)))
                    (.block (.seq (.define (.var .err) (.call .va_validateToken (.cons (.lit (.bool false)) (.cons (.lit (.kws ["CURRENT_TIME", "CURRENT_DATE", "CURRENT_TIMESTAMP"])) .nil))))
                        (.ite (.ne (.var .err) (.lit .nil))
                          (.block (.ret (.var .err)))
                          .skip)))))
                .skip))))
        (.ret (.lit .nil)))) }

/-- validator_mysql.go:590-598 `validateConstraintCollate`. -/
def my_validateConstraintCollate : Decl :=
  { params := [],
    body :=
    (.seq (.block (.seq (.define (.var .err) (.call .va_validateToken (.cons (.lit (.bool true)) (.cons (.lit (.kws ["COLLATE"])) .nil))))
          (.ite (.ne (.var .err) (.lit .nil))
            (.block (.ret (.var .err)))
            .skip)))
      (.seq (.block (.seq (.define (.var .err) (.call .my_validateName (.cons (.lit (.bool true)) .nil)))
            (.ite (.ne (.var .err) (.lit .nil))
              (.block (.ret (.var .err)))
              .skip)))
        (.ret (.lit .nil)))) }

/-- validator_mysql.go:601-620 `validateConstraintReferences`. -/
def my_validateConstraintReferences : Decl :=
  { params := [],
    body :=
    (.seq (.block (.seq (.define (.var .err) (.call .va_validateToken (.cons (.lit (.bool true)) (.cons (.lit (.kws ["REFERENCES"])) .nil))))
          (.ite (.ne (.var .err) (.lit .nil))
            (.block (.ret (.var .err)))
            .skip)))
      (.seq (.block (.seq (.define (.var .err) (.call .my_validateTableName (.cons (.lit (.bool true)) .nil)))
            (.ite (.ne (.var .err) (.lit .nil))
              (.block (.ret (.var .err)))
              .skip)))
        (.seq (.ite (.call .va_matchTokenNext (.cons (.lit (.bool true)) (.cons (.lit (.kws ["("])) .nil)))
            (.block (.seq (.block (.seq (.define (.var .err) (.call .my_validateColumnName (.cons (.lit (.bool true)) .nil)))
                    (.ite (.ne (.var .err) (.lit .nil))
                      (.block (.ret (.var .err)))
                      .skip)))
                (.block (.seq (.define (.var .err) (.call .va_validateToken (.cons (.lit (.bool true)) (.cons (.lit (.kws [")"])) .nil))))
                    (.ite (.ne (.var .err) (.lit .nil))
                      (.block (.ret (.var .err)))
                      .skip)))))
            .skip)
          (.seq (.block (.seq (.define (.var .err) (.call .my_validateConstraintReferencesAux .nil))
                (.ite (.ne (.var .err) (.lit .nil))
                  (.block (.ret (.call .va_syntaxError .nil)))
                  .skip)))
            (.ret (.lit .nil)))))) }

/-- validator_mysql.go:623-652 `validateConstraintReferencesAux`. -/
def my_validateConstraintReferencesAux : Decl :=
  { params := [],
    body :=
    (.seq (.ite (.call .va_matchTokenNext (.cons (.lit (.bool false)) (.cons (.lit (.kws ["ON"])) .nil)))
        (.block (.seq (.block (.seq (.define (.var .err) (.call .va_validateToken (.cons (.lit (.bool false)) (.cons (.lit (.kws ["DELETE", "UPDATE"])) .nil))))
                (.ite (.ne (.var .err) (.lit .nil))
                  (.block (.ret (.var .err)))
                  .skip)))
            (.seq (.ite (.call .va_matchTokenNext (.cons (.lit (.bool false)) (.cons (.lit (.kws ["SET"])) .nil)))
                (.block (.block (.seq (.define (.var .err) (.call .va_validateToken (.cons (.lit (.bool false)) (.cons (.lit (.kws ["NULL", "DEFAULT"])) .nil))))
                      (.ite (.ne (.var .err) (.lit .nil))
                        (.block (.ret (.var .err)))
                        .skip))))
                (.block (.ite (.call .va_matchTokenNext (.cons (.lit (.bool false)) (.cons (.lit (.kws ["CASCADE", "RESTRICT"])) .nil)))
                    (.block .skip)
                    (.block (.ite (.call .va_matchTokenNext (.cons (.lit (.bool false)) (.cons (.lit (.kws ["NO"])) .nil)))
                        (.block (.block (.seq (.define (.var .err) (.call .va_validateToken (.cons (.lit (.bool false)) (.cons (.lit (.kws ["ACTION"])) .nil))))
                              (.ite (.ne (.var .err) (.lit .nil))
                                (.block (.ret (.var .err)))
                                .skip))))
                        (.block (.ret (.call .va_syntaxError .nil))))))))
              (.ret (.call .my_validateConstraintReferencesAux .nil)))))
        .skip)
      (.seq (.ite (.call .va_matchTokenNext (.cons (.lit (.bool false)) (.cons (.lit (.kws ["MATCH"])) .nil)))
          (.block (.seq (.block (.seq (.define (.var .err) (.call .va_validateToken (.cons (.lit (.bool false)) (.cons (.lit (.kws ["SIMPLE", "PARTIAL", "FULL"])) .nil))))
                  (.ite (.ne (.var .err) (.lit .nil))
                    (.block (.ret (.var .err)))
                    .skip)))
              (.ret (.call .my_validateConstraintReferencesAux .nil))))
          .skip)
        (.ret (.lit .nil)))) }

/-- validator_mysql.go:655-668 `validateConstraintGenerated`. -/
def my_validateConstraintGenerated : Decl :=
  { params := [],
    body :=
    (.seq (.ite (.call .va_matchTokenNext (.cons (.lit (.bool false)) (.cons (.lit (.kws ["GENERATED"])) .nil)))
        (.block (.block (.seq (.define (.var .err) (.call .va_validateToken (.cons (.lit (.bool false)) (.cons (.lit (.kws ["ALWAYS"])) .nil))))
              (.ite (.ne (.var .err) (.lit .nil))
                (.block (.ret (.var .err)))
                .skip))))
        .skip)
      (.seq (.block (.seq (.define (.var .err) (.call .va_validateToken (.cons (.lit (.bool false)) (.cons (.lit (.kws ["AS"])) .nil))))
            (.ite (.ne (.var .err) (.lit .nil))
              (.block (.ret (.var .err)))
              .skip)))
        (.seq (.block (.seq (.define (.var .err) (.call .my_validateExpr (.cons (.lit (.bool false)) .nil)))
              (.ite (.ne (.var .err) (.lit .nil))
                (.block (.ret (.var .err)))
                .skip)))
          (.ret (.lit .nil))))) }

/-- validator_mysql.go:671-679 `validateConstraintComment`. -/
def my_validateConstraintComment : Decl :=
  { params := [],
    body :=
    (.seq (.block (.seq (.define (.var .err) (.call .va_validateToken (.cons (.lit (.bool false)) (.cons (.lit (.kws ["COMMENT"])) .nil))))
          (.ite (.ne (.var .err) (.lit .nil))
            (.block (.ret (.var .err)))
            .skip)))
      (.seq (.block (.seq (.define (.var .err) (.call .my_validateStringValue (.cons (.lit (.bool false)) .nil)))
            (.ite (.ne (.var .err) (.lit .nil))
              (.block (.ret (.var .err)))
              .skip)))
        (.ret (.lit .nil)))) }

/-- validator_mysql.go:682-690 `validateConstraintColumnFormat`. -/
def my_validateConstraintColumnFormat : Decl :=
  { params := [],
    body :=
    (.seq (.block (.seq (.define (.var .err) (.call .va_validateToken (.cons (.lit (.bool false)) (.cons (.lit (.kws ["COLUMN_FORMAT"])) .nil))))
          (.ite (.ne (.var .err) (.lit .nil))
            (.block (.ret (.var .err)))
            .skip)))
      (.seq (.block (.seq (.define (.var .err) (.call .va_validateToken (.cons (.lit (.bool false)) (.cons (.lit (.kws ["FIXED", "DYNAMIC", "DEFAULT"])) .nil))))
            (.ite (.ne (.var .err) (.lit .nil))
              (.block (.ret (.var .err)))
              .skip)))
        (.ret (.lit .nil)))) }

/-- validator_mysql.go:693-702 `validateConstraintEngineAttribute`. -/
def my_validateConstraintEngineAttribute : Decl :=
  { params := [],
    body :=
    (.seq (.block (.seq (.define (.var .err) (.call .va_validateToken (.cons (.lit (.bool false)) (.cons (.lit (.kws ["ENGINE_ATTRIBUTE", "SECONDARY_ENGINE_ATTRIBUTE"])) .nil))))
          (.ite (.ne (.var .err) (.lit .nil))
            (.block (.ret (.var .err)))
            .skip)))
      (.seq (.expr (.call .va_matchTokenNext (.cons (.lit (.bool false)) (.cons (.lit (.kws ["="])) .nil))))
        (.seq (.block (.seq (.define (.var .err) (.call .my_validateStringValue (.cons (.lit (.bool false)) .nil)))
              (.ite (.ne (.var .err) (.lit .nil))
                (.block (.ret (.var .err)))
                .skip)))
          (.ret (.lit .nil))))) }

/-- validator_mysql.go:705-713 `validateConstraintStorage`. -/
def my_validateConstraintStorage : Decl :=
  { params := [],
    body :=
    (.seq (.block (.seq (.define (.var .err) (.call .va_validateToken (.cons (.lit (.bool false)) (.cons (.lit (.kws ["STORAGE"])) .nil))))
          (.ite (.ne (.var .err) (.lit .nil))
            (.block (.ret (.var .err)))
            .skip)))
      (.seq (.block (.seq (.define (.var .err) (.call .va_validateToken (.cons (.lit (.bool false)) (.cons (.lit (.kws ["DISK", "MEMORY"])) .nil))))
            (.ite (.ne (.var .err) (.lit .nil))
              (.block (.ret (.var .err)))
              .skip)))
        (.ret (.lit .nil)))) }

/-- validator_mysql.go:716-721 `validateConstraintAutoincrement`. -/
def my_validateConstraintAutoincrement : Decl :=
  { params := [],
    body :=
    (.seq (.block (.seq (.define (.var .err) (.call .va_validateToken (.cons (.lit (.bool true)) (.cons (.lit (.kws ["AUTO_INCREMENT"])) .nil))))
          (.ite (.ne (.var .err) (.lit .nil))
            (.block (.ret (.var .err)))
            .skip)))
      (.ret (.lit .nil))) }

/-- validator_mysql.go:724-733 `validateTableConstraint`. -/
def my_validateTableConstraint : Decl :=
  { params := [],
    body :=
    (.seq (.ite (.call .va_matchTokenNext (.cons (.lit (.bool true)) (.cons (.lit (.kws ["CONSTRAINT"])) .nil)))
        (.block (.ite (.not (.call .va_matchToken (.cons (.lit (.kws ["PRIMARY", "UNIQUE", "FOREIGN", "CHECK"])) .nil)))
            (.block (.block (.seq (.define (.var .err) (.call .my_validateName (.cons (.lit (.bool true)) .nil)))
                  (.ite (.ne (.var .err) (.lit .nil))
                    (.block (.ret (.var .err)))
                    .skip))))
            .skip))
        .skip)
      (.ret (.call .my_validateTableConstraintAux .nil))) }

/-- validator_mysql.go:736-769 `validateTableConstraintAux`. -/
def my_validateTableConstraintAux : Decl :=
  { params := [],
    body :=
    (.seq (.ite (.call .va_matchToken (.cons (.lit (.kws ["PRIMARY"])) .nil))
        (.block (.ret (.call .my_validateTableConstraintPrimaryKey .nil)))
        .skip)
      (.seq (.ite (.call .va_matchToken (.cons (.lit (.kws ["UNIQUE"])) .nil))
          (.block (.ret (.call .my_validateTableConstraintUnique .nil)))
          .skip)
        (.seq (.ite (.call .va_matchToken (.cons (.lit (.kws ["FOREIGN"])) .nil))
            (.block (.ret (.call .my_validateTableConstraintForeignKey .nil)))
            .skip)
          (.seq (.ite (.call .va_matchToken (.cons (.lit (.kws ["CHECK"])) .nil))
              (.block (.ret (.call .my_validateTableConstraintCheck .nil)))
              .skip)
            (.seq (.ite (.call .va_matchToken (.cons (.lit (.kws ["INDEX", "KEY"])) .nil))
                (.block (.ret (.call .my_validateTableConstraintIndex .nil)))
                .skip)
              (.seq (.ite (.call .va_matchTokenNext (.cons (.lit (.bool false)) (.cons (.lit (.kws ["FULLTEXT", "SPATIAL"])) .nil)))
                  (.block (.seq (.expr (.call .va_matchTokenNext (.cons (.lit (.bool false)) (.cons (.lit (.kws ["INDEX", "KEY"])) .nil))))
                      (.seq (.ite (.not (.call .va_matchToken (.cons (.lit (.kws ["("])) .nil)))
                          (.block (.block (.seq (.define (.var .err) (.call .my_validateName (.cons (.lit (.bool true)) .nil)))
                                (.ite (.ne (.var .err) (.lit .nil))
                                  (.block (.ret (.var .err)))
                                  .skip))))
                          .skip)
                        (.seq (.block (.seq (.define (.var .err) (.call .my_validateIndexKeys (.cons (.lit (.bool false)) .nil)))
                              (.ite (.ne (.var .err) (.lit .nil))
                                (.block (.ret (.var .err)))
                                .skip)))
                          (.seq (.block (.seq (.define (.var .err) (.call .my_validateIndexOption .nil))
                                (.ite (.ne (.var .err) (.lit .nil))
                                  (.block (.ret (.var .err)))
                                  .skip)))
                            (.ret (.lit .nil)))))))
                  .skip)
                (.ret (.call .va_syntaxError .nil)))))))) }

/-- validator_mysql.go:772-791 `validateTableConstraintPrimaryKey`. -/
def my_validateTableConstraintPrimaryKey : Decl :=
  { params := [],
    body :=
    (.seq (.block (.seq (.define (.var .err) (.call .va_validateToken (.cons (.lit (.bool true)) (.cons (.lit (.kws ["PRIMARY"])) .nil))))
          (.ite (.ne (.var .err) (.lit .nil))
            (.block (.ret (.var .err)))
            .skip)))
      (.seq (.block (.seq (.define (.var .err) (.call .va_validateToken (.cons (.lit (.bool true)) (.cons (.lit (.kws ["KEY"])) .nil))))
            (.ite (.ne (.var .err) (.lit .nil))
              (.block (.ret (.var .err)))
              .skip)))
        (.seq (.ite (.call .va_matchToken (.cons (.lit (.kws ["USING"])) .nil))
            (.block (.block (.seq (.define (.var .err) (.call .my_validateIndexType .nil))
                  (.ite (.ne (.var .err) (.lit .nil))
                    (.block (.ret (.var .err)))
                    .skip))))
            .skip)
          (.seq (.block (.seq (.define (.var .err) (.call .my_validateIndexKeys (.cons (.lit (.bool true)) .nil)))
                (.ite (.ne (.var .err) (.lit .nil))
                  (.block (.ret (.var .err)))
                  .skip)))
            (.seq (.block (.seq (.define (.var .err) (.call .my_validateIndexOption .nil))
                  (.ite (.ne (.var .err) (.lit .nil))
                    (.block (.ret (.var .err)))
                    .skip)))
              (.ret (.lit .nil))))))) }

/-- validator_mysql.go:794-816 `validateTableConstraintUnique`. -/
def my_validateTableConstraintUnique : Decl :=
  { params := [],
    body :=
    (.seq (.block (.seq (.define (.var .err) (.call .va_validateToken (.cons (.lit (.bool true)) (.cons (.lit (.kws ["UNIQUE"])) .nil))))
          (.ite (.ne (.var .err) (.lit .nil))
            (.block (.ret (.var .err)))
            .skip)))
      (.seq (.expr (.call .va_matchTokenNext (.cons (.lit (.bool false)) (.cons (.lit (.kws ["INDEX", "KEY"])) .nil))))
        (.seq (.ite (.not (.call .va_matchToken (.cons (.lit (.kws ["("])) .nil)))
            (.block (.block (.seq (.define (.var .err) (.call .my_validateName (.cons (.lit (.bool false)) .nil)))
                  (.ite (.ne (.var .err) (.lit .nil))
                    (.block (.ret (.var .err)))
                    .skip))))
            .skip)
          (.seq (.ite (.call .va_matchToken (.cons (.lit (.kws ["USING"])) .nil))
              (.block (.block (.seq (.define (.var .err) (.call .my_validateIndexType .nil))
                    (.ite (.ne (.var .err) (.lit .nil))
                      (.block (.ret (.var .err)))
                      .skip))))
              .skip)
            (.seq (.block (.seq (.define (.var .err) (.call .my_validateIndexKeys (.cons (.lit (.bool true)) .nil)))
                  (.ite (.ne (.var .err) (.lit .nil))
                    (.block (.ret (.var .err)))
                    .skip)))
              (.seq (.block (.seq (.define (.var .err) (.call .my_validateIndexOption .nil))
                    (.ite (.ne (.var .err) (.lit .nil))
                      (.block (.ret (.var .err)))
                      .skip)))
                (.ret (.lit .nil)))))))) }

/-- validator_mysql.go:819-853 `validateTableConstraintForeignKey`. -/
def my_validateTableConstraintForeignKey : Decl :=
  { params := [],
    body :=
    (.seq (.block (.seq (.define (.var .err) (.call .va_validateToken (.cons (.lit (.bool true)) (.cons (.lit (.kws ["FOREIGN"])) .nil))))
          (.ite (.ne (.var .err) (.lit .nil))
            (.block (.ret (.var .err)))
            .skip)))
      (.seq (.block (.seq (.define (.var .err) (.call .va_validateToken (.cons (.lit (.bool true)) (.cons (.lit (.kws ["KEY"])) .nil))))
            (.ite (.ne (.var .err) (.lit .nil))
              (.block (.ret (.var .err)))
              .skip)))
        (.seq (.ite (.not (.call .va_matchToken (.cons (.lit (.kws ["("])) .nil)))
            (.block (.block (.seq (.define (.var .err) (.call .my_validateName (.cons (.lit (.bool false)) .nil)))
                  (.ite (.ne (.var .err) (.lit .nil))
                    (.block (.ret (.var .err)))
                    .skip))))
            .skip)
          (.seq (.block (.seq (.define (.var .err) (.call .va_validateToken (.cons (.lit (.bool true)) (.cons (.lit (.kws ["("])) .nil))))
                (.ite (.ne (.var .err) (.lit .nil))
                  (.block (.ret (.var .err)))
                  .skip)))
            (.seq (.block (.seq (.define (.var .err) (.call .my_validateCommaSeparatedColumnNames (.cons (.lit (.bool true)) .nil)))
                  (.ite (.ne (.var .err) (.lit .nil))
                    (.block (.ret (.var .err)))
                    .skip)))
              (.seq (.block (.seq (.define (.var .err) (.call .va_validateToken (.cons (.lit (.bool true)) (.cons (.lit (.kws [")"])) .nil))))
                    (.ite (.ne (.var .err) (.lit .nil))
                      (.block (.ret (.var .err)))
                      .skip)))
                (.seq (.block (.seq (.define (.var .err) (.call .va_validateToken (.cons (.lit (.bool true)) (.cons (.lit (.kws ["REFERENCES"])) .nil))))
                      (.ite (.ne (.var .err) (.lit .nil))
                        (.block (.ret (.var .err)))
                        .skip)))
                  (.seq (.block (.seq (.define (.var .err) (.call .my_validateTableName (.cons (.lit (.bool true)) .nil)))
                        (.ite (.ne (.var .err) (.lit .nil))
                          (.block (.ret (.var .err)))
                          .skip)))
                    (.seq (.block (.seq (.define (.var .err) (.call .my_validateIndexKeys (.cons (.lit (.bool true)) .nil)))
                          (.ite (.ne (.var .err) (.lit .nil))
                            (.block (.ret (.call .va_syntaxError .nil)))
                            .skip)))
                      (.seq (.block (.seq (.define (.var .err) (.call .my_validateConstraintReferencesAux .nil))
                            (.ite (.ne (.var .err) (.lit .nil))
                              (.block (.ret (.var .err)))
                              .skip)))
                        (.ret (.lit .nil)))))))))))) }

/-- validator_mysql.go:856-858 `validateTableConstraintCheck`. -/
def my_validateTableConstraintCheck : Decl :=
  { params := [],
    body :=
    (.ret (.call .my_validateConstraintCheck .nil)) }

/-- validator_mysql.go:861-882 `validateTableConstraintIndex`. -/
def my_validateTableConstraintIndex : Decl :=
  { params := [],
    body :=
    (.seq (.block (.seq (.define (.var .err) (.call .va_validateToken (.cons (.lit (.bool false)) (.cons (.lit (.kws ["INDEX", "KEY"])) .nil))))
          (.ite (.ne (.var .err) (.lit .nil))
            (.block (.ret (.var .err)))
            .skip)))
      (.seq (.ite (.and (.not (.call .va_matchToken (.cons (.lit (.kws ["USING"])) .nil))) (.not (.call .va_matchToken (.cons (.lit (.kws ["("])) .nil))))
          (.block (.block (.seq (.define (.var .err) (.call .my_validateName (.cons (.lit (.bool false)) .nil)))
                (.ite (.ne (.var .err) (.lit .nil))
                  (.block (.ret (.var .err)))
                  .skip))))
          .skip)
        (.seq (.ite (.call .va_matchToken (.cons (.lit (.kws ["USING"])) .nil))
            (.block (.block (.seq (.define (.var .err) (.call .my_validateIndexType .nil))
                  (.ite (.ne (.var .err) (.lit .nil))
                    (.block (.ret (.var .err)))
                    .skip))))
            .skip)
          (.seq (.block (.seq (.define (.var .err) (.call .my_validateIndexKeys (.cons (.lit (.bool false)) .nil)))
                (.ite (.ne (.var .err) (.lit .nil))
                  (.block (.ret (.var .err)))
                  .skip)))
            (.seq (.block (.seq (.define (.var .err) (.call .my_validateIndexOption .nil))
                  (.ite (.ne (.var .err) (.lit .nil))
                    (.block (.ret (.var .err)))
                    .skip)))
              (.ret (.lit .nil))))))) }

/-- validator_mysql.go:885-893 `validateIndexType`. -/
def my_validateIndexType : Decl :=
  { params := [],
    body :=
    (.seq (.block (.seq (.define (.var .err) (.call .va_validateToken (.cons (.lit (.bool false)) (.cons (.lit (.kws ["USING"])) .nil))))
          (.ite (.ne (.var .err) (.lit .nil))
            (.block (.ret (.var .err)))
            .skip)))
      (.seq (.block (.seq (.define (.var .err) (.call .va_validateToken (.cons (.lit (.bool false)) (.cons (.lit (.kws ["BTREE", "HASH"])) .nil))))
            (.ite (.ne (.var .err) (.lit .nil))
              (.block (.ret (.var .err)))
              .skip)))
        (.ret (.lit .nil)))) }

/-- validator_mysql.go:896-937 `validateIndexOption`. -/
def my_validateIndexOption : Decl :=
  { params := [],
    body :=
    (.seq (.ite (.call .va_matchTokenNext (.cons (.lit (.bool false)) (.cons (.lit (.kws ["KEY_BLOCK_SIZE"])) .nil)))
        (.block (.seq (.expr (.call .va_matchTokenNext (.cons (.lit (.bool false)) (.cons (.lit (.kws ["="])) .nil))))
            (.seq (.block (.seq (.define (.var .err) (.call .my_validateLiteralValue (.cons (.lit (.bool false)) .nil)))
                  (.ite (.ne (.var .err) (.lit .nil))
                    (.block (.ret (.var .err)))
                    .skip)))
              (.ret (.call .my_validateIndexOption .nil)))))
        (.block (.ite (.call .va_matchToken (.cons (.lit (.kws ["USING"])) .nil))
            (.block (.seq (.block (.seq (.define (.var .err) (.call .my_validateIndexType .nil))
                    (.ite (.ne (.var .err) (.lit .nil))
                      (.block (.ret (.var .err)))
                      .skip)))
                (.ret (.call .my_validateIndexOption .nil))))
            (.block (.ite (.call .va_matchTokenNext (.cons (.lit (.bool false)) (.cons (.lit (.kws ["WITH"])) .nil)))
                (.block (.seq (.block (.seq (.define (.var .err) (.call .va_validateToken (.cons (.lit (.bool false)) (.cons (.lit (.kws ["PARSER"])) .nil))))
                        (.ite (.ne (.var .err) (.lit .nil))
                          (.block (.ret (.var .err)))
                          .skip)))
                    (.seq (.block (.seq (.define (.var .err) (.call .my_validateName (.cons (.lit (.bool false)) .nil)))
                          (.ite (.ne (.var .err) (.lit .nil))
                            (.block (.ret (.var .err)))
                            .skip)))
                      (.ret (.call .my_validateIndexOption .nil)))))
                (.block (.ite (.call .va_matchTokenNext (.cons (.lit (.bool false)) (.cons (.lit (.kws ["COMMENT"])) .nil)))
                    (.block (.seq (.block (.seq (.define (.var .err) (.call .my_validateStringValue (.cons (.lit (.bool false)) .nil)))
                            (.ite (.ne (.var .err) (.lit .nil))
                              (.block (.ret (.var .err)))
                              .skip)))
                        (.ret (.call .my_validateIndexOption .nil))))
                    (.block (.ite (.call .va_matchTokenNext (.cons (.lit (.bool false)) (.cons (.lit (.kws ["VISIBLE", "INVISIBLE"])) .nil)))
                        (.block (.ret (.call .my_validateIndexOption .nil)))
                        (.block (.ite (.call .va_matchTokenNext (.cons (.lit (.bool false)) (.cons (.lit (.kws ["ENGINE_ATTRIBUTE", "SECONDARY_ENGINE_ATTRIBUTE"])) .nil)))
                            (.block (.seq (.expr (.call .va_matchTokenNext (.cons (.lit (.bool false)) (.cons (.lit (.kws ["="])) .nil))))
                                (.seq (.block (.seq (.define (.var .err) (.call .my_validateStringValue (.cons (.lit (.bool false)) .nil)))
                                      (.ite (.ne (.var .err) (.lit .nil))
                                        (.block (.ret (.var .err)))
                                        .skip)))
                                  (.ret (.call .my_validateIndexOption .nil)))))
                            .skip)))))))))))
      (.ret (.lit .nil))) }

/-- validator_mysql.go:940-948 `validateCommaSeparatedColumnNames`. -/
def my_validateCommaSeparatedColumnNames : Decl :=
  { params := [(.«set», false)],
    body :=
    (.seq (.block (.seq (.define (.var .err) (.call .my_validateColumnName (.cons (.var .«set») .nil)))
          (.ite (.ne (.var .err) (.lit .nil))
            (.block (.ret (.var .err)))
            .skip)))
      (.seq (.ite (.call .va_matchTokenNext (.cons (.var .«set») (.cons (.lit (.kws [","])) .nil)))
          (.block (.ret (.call .my_validateCommaSeparatedColumnNames (.cons (.var .«set») .nil))))
          .skip)
        (.ret (.lit .nil)))) }

/-- validator_mysql.go:951-959 `validateCommaSeparatedTableNames`. -/
def my_validateCommaSeparatedTableNames : Decl :=
  { params := [(.«set», false)],
    body :=
    (.seq (.block (.seq (.define (.var .err) (.call .my_validateTableName (.cons (.var .«set») .nil)))
          (.ite (.ne (.var .err) (.lit .nil))
            (.block (.ret (.var .err)))
            .skip)))
      (.seq (.ite (.call .va_matchTokenNext (.cons (.var .«set») (.cons (.lit (.kws [","])) .nil)))
          (.block (.ret (.call .my_validateCommaSeparatedTableNames (.cons (.var .«set») .nil))))
          .skip)
        (.ret (.lit .nil)))) }

/-- validator_mysql.go:962-974 `validateTableOptions`. -/
def my_validateTableOptions : Decl :=
  { params := [],
    body :=
    (.seq (.ite (.call .va_isOutOfRange .nil)
        (.block (.ret (.lit .nil)))
        .skip)
      (.seq (.ite (.call .va_matchToken (.cons (.lit (.kws [";"])) .nil))
          (.block (.ret (.lit .nil)))
          .skip)
        (.seq (.expr (.call .va_matchTokenNext (.cons (.lit (.bool false)) (.cons (.lit (.kws [","])) .nil))))
          (.seq (.block (.seq (.define (.var .err) (.call .my_validateTableOption .nil))
                (.ite (.ne (.var .err) (.lit .nil))
                  (.block (.ret (.var .err)))
                  .skip)))
            (.ret (.call .my_validateTableOptions .nil)))))) }

/-- validator_mysql.go:977-1019 `validateTableOption`. -/
def my_validateTableOption : Decl :=
  { params := [],
    body :=
    (.seq (.ite (.call .va_matchToken (.cons (.lit (.kws ["AUTOEXTEND_SIZE", "AUTO_INCREMENT", "AVG_ROW_LENGTH", "KEY_BLOCK_SIZE", "MAX_ROWS", "MIN_ROWS", "STATS_SAMPLE_PAGES"])) .nil))
        (.block (.ret (.call .my_validateTableOptionCommonLiteral .nil)))
        .skip)
      (.seq (.ite (.call .va_matchToken (.cons (.lit (.kws ["COMMENT", "ENGINE_ATTRIBUTE", "PASSWORD", "SECONDARY_ENGINE_ATTRIBUTE", "CONNECTION", "COMPRESSION", "ENCRYPTION"])) .nil))
          (.block (.ret (.call .my_validateTableOptionCommonString .nil)))
          .skip)
        (.seq (.ite (.call .va_matchToken (.cons (.lit (.kws ["COLLATE", "ENGINE", "CHARACTER"])) .nil))
            (.block (.ret (.call .my_validateTableOptionCommonName .nil)))
            .skip)
          (.seq (.ite (.call .va_matchToken (.cons (.lit (.kws ["CHECKSUM", "DELAY_KEY_WRITE"])) .nil))
              (.block (.ret (.call .my_validateTableOptionCommon01 .nil)))
              .skip)
            (.seq (.ite (.call .va_matchToken (.cons (.lit (.kws ["PACK_KEYS", "STATS_AUTO_RECALC", "STATS_PERSISTENT"])) .nil))
                (.block (.ret (.call .my_validateTableOptionCommon01Default .nil)))
                .skip)
              (.seq (.ite (.call .va_matchToken (.cons (.lit (.kws ["DATA", "INDEX"])) .nil))
                  (.block (.ret (.call .my_validateTableOptionDirectory .nil)))
                  .skip)
                (.seq (.ite (.call .va_matchToken (.cons (.lit (.kws ["TABLESPACE"])) .nil))
                    (.block (.ret (.call .my_validateTableOptionTablespace .nil)))
                    .skip)
                  (.seq (.ite (.call .va_matchToken (.cons (.lit (.kws ["DEFAULT"])) .nil))
                      (.block (.ret (.call .my_validateTableOptionDefault .nil)))
                      .skip)
                    (.seq (.ite (.call .va_matchToken (.cons (.lit (.kws ["UNION"])) .nil))
                        (.block (.ret (.call .my_validateTableOptionUnion .nil)))
                        .skip)
                      (.seq (.ite (.call .va_matchToken (.cons (.lit (.kws ["INSERT_METHOD"])) .nil))
                          (.block (.ret (.call .my_validateTableOptionInsertMethod .nil)))
                          .skip)
                        (.seq (.ite (.call .va_matchToken (.cons (.lit (.kws ["ROW_FORMAT"])) .nil))
                            (.block (.ret (.call .my_validateTableOptionRowFormat .nil)))
                            .skip)
                          (.ret (.call .va_syntaxError .nil))))))))))))) }

/-- validator_mysql.go:1023-1030 `validateTableOptionCommonLiteral`. -/
def my_validateTableOptionCommonLiteral : Decl :=
  { params := [],
    body :=
    (.seq (.expr (.call .va_next .nil))
      (.seq (.expr (.call .va_matchTokenNext (.cons (.lit (.bool false)) (.cons (.lit (.kws ["="])) .nil))))
        (.seq (.block (.seq (.define (.var .err) (.call .my_validateLiteralValue (.cons (.lit (.bool false)) .nil)))
              (.ite (.ne (.var .err) (.lit .nil))
                (.block (.ret (.var .err)))
                .skip)))
          (.ret (.lit .nil))))) }

/-- validator_mysql.go:1034-1041 `validateTableOptionCommonString`. -/
def my_validateTableOptionCommonString : Decl :=
  { params := [],
    body :=
    (.seq (.expr (.call .va_next .nil))
      (.seq (.expr (.call .va_matchTokenNext (.cons (.lit (.bool false)) (.cons (.lit (.kws ["="])) .nil))))
        (.seq (.block (.seq (.define (.var .err) (.call .my_validateStringValue (.cons (.lit (.bool false)) .nil)))
              (.ite (.ne (.var .err) (.lit .nil))
                (.block (.ret (.var .err)))
                .skip)))
          (.ret (.lit .nil))))) }

/-- validator_mysql.go:1045-1060 `validateTableOptionCommonName`. -/
def my_validateTableOptionCommonName : Decl :=
  { params := [],
    body :=
    (.seq (.ite (.call .va_matchTokenNext (.cons (.lit (.bool false)) (.cons (.lit (.kws ["CHARACTER"])) .nil)))
        (.block (.block (.seq (.define (.var .err) (.call .va_validateToken (.cons (.lit (.bool false)) (.cons (.lit (.kws ["SET"])) .nil))))
              (.ite (.ne (.var .err) (.lit .nil))
                (.block (.ret (.var .err)))
                .skip))))
        (.block (.block (.seq (.define (.var .err) (.call .va_validateToken (.cons (.lit (.bool false)) (.cons (.lit (.kws ["COLLATE", "ENGINE"])) .nil))))
              (.ite (.ne (.var .err) (.lit .nil))
                (.block (.ret (.var .err)))
                .skip)))))
      (.seq (.expr (.call .va_matchTokenNext (.cons (.lit (.bool false)) (.cons (.lit (.kws ["="])) .nil))))
        (.seq (.block (.seq (.define (.var .err) (.call .my_validateName (.cons (.lit (.bool false)) .nil)))
              (.ite (.ne (.var .err) (.lit .nil))
                (.block (.ret (.var .err)))
                .skip)))
          (.ret (.lit .nil))))) }

/-- validator_mysql.go:1064-1071 `validateTableOptionCommon01`. -/
def my_validateTableOptionCommon01 : Decl :=
  { params := [],
    body :=
    (.seq (.expr (.call .va_next .nil))
      (.seq (.expr (.call .va_matchTokenNext (.cons (.lit (.bool false)) (.cons (.lit (.kws ["="])) .nil))))
        (.seq (.block (.seq (.define (.var .err) (.call .va_validateToken (.cons (.lit (.bool false)) (.cons (.lit (.kws ["0", "1"])) .nil))))
              (.ite (.ne (.var .err) (.lit .nil))
                (.block (.ret (.var .err)))
                .skip)))
          (.ret (.lit .nil))))) }

/-- validator_mysql.go:1075-1082 `validateTableOptionCommon01Default`. -/
def my_validateTableOptionCommon01Default : Decl :=
  { params := [],
    body :=
    (.seq (.expr (.call .va_next .nil))
      (.seq (.expr (.call .va_matchTokenNext (.cons (.lit (.bool false)) (.cons (.lit (.kws ["="])) .nil))))
        (.seq (.block (.seq (.define (.var .err) (.call .va_validateToken (.cons (.lit (.bool false)) (.cons (.lit (.kws ["0", "1", "DEFAULT"])) .nil))))
              (.ite (.ne (.var .err) (.lit .nil))
                (.block (.ret (.var .err)))
                .skip)))
          (.ret (.lit .nil))))) }

/-- validator_mysql.go:1085-1097 `validateTableOptionDirectory`. -/
def my_validateTableOptionDirectory : Decl :=
  { params := [],
    body :=
    (.seq (.block (.seq (.define (.var .err) (.call .va_validateToken (.cons (.lit (.bool false)) (.cons (.lit (.kws ["DATA", "INDEX"])) .nil))))
          (.ite (.ne (.var .err) (.lit .nil))
            (.block (.ret (.var .err)))
            .skip)))
      (.seq (.block (.seq (.define (.var .err) (.call .va_validateToken (.cons (.lit (.bool false)) (.cons (.lit (.kws ["DIRECTORY"])) .nil))))
            (.ite (.ne (.var .err) (.lit .nil))
              (.block (.ret (.var .err)))
              .skip)))
        (.seq (.expr (.call .va_matchTokenNext (.cons (.lit (.bool false)) (.cons (.lit (.kws ["="])) .nil))))
          (.seq (.block (.seq (.define (.var .err) (.call .my_validateLiteralValue (.cons (.lit (.bool false)) .nil)))
                (.ite (.ne (.var .err) (.lit .nil))
                  (.block (.ret (.var .err)))
                  .skip)))
            (.ret (.lit .nil)))))) }

/-- validator_mysql.go:1100-1113 `validateTableOptionTablespace`. -/
def my_validateTableOptionTablespace : Decl :=
  { params := [],
    body :=
    (.seq (.block (.seq (.define (.var .err) (.call .va_validateToken (.cons (.lit (.bool false)) (.cons (.lit (.kws ["TABLESPACE"])) .nil))))
          (.ite (.ne (.var .err) (.lit .nil))
            (.block (.ret (.var .err)))
            .skip)))
      (.seq (.block (.seq (.define (.var .err) (.call .my_validateName (.cons (.lit (.bool false)) .nil)))
            (.ite (.ne (.var .err) (.lit .nil))
              (.block (.ret (.var .err)))
              .skip)))
        (.seq (.ite (.call .va_matchTokenNext (.cons (.lit (.bool false)) (.cons (.lit (.kws ["STORAGE"])) .nil)))
            (.block (.block (.seq (.define (.var .err) (.call .va_validateToken (.cons (.lit (.bool false)) (.cons (.lit (.kws ["DISK", "MEMORY"])) .nil))))
                  (.ite (.ne (.var .err) (.lit .nil))
                    (.block (.ret (.var .err)))
                    .skip))))
            .skip)
          (.ret (.lit .nil))))) }

/-- validator_mysql.go:1116-1134 `validateTableOptionDefault`. -/
def my_validateTableOptionDefault : Decl :=
  { params := [],
    body :=
    (.seq (.block (.seq (.define (.var .err) (.call .va_validateToken (.cons (.lit (.bool false)) (.cons (.lit (.kws ["DEFAULT"])) .nil))))
          (.ite (.ne (.var .err) (.lit .nil))
            (.block (.ret (.var .err)))
            .skip)))
      (.seq (.ite (.call .va_matchTokenNext (.cons (.lit (.bool false)) (.cons (.lit (.kws ["CHARACTER"])) .nil)))
          (.block (.block (.seq (.define (.var .err) (.call .va_validateToken (.cons (.lit (.bool false)) (.cons (.lit (.kws ["SET"])) .nil))))
                (.ite (.ne (.var .err) (.lit .nil))
                  (.block (.ret (.var .err)))
                  .skip))))
          (.block (.ite (.call .va_matchTokenNext (.cons (.lit (.bool false)) (.cons (.lit (.kws ["COLLATE"])) .nil)))
              (.block .skip)
              (.block (.ret (.call .va_syntaxError .nil))))))
        (.seq (.expr (.call .va_matchTokenNext (.cons (.lit (.bool false)) (.cons (.lit (.kws ["="])) .nil))))
          (.seq (.block (.seq (.define (.var .err) (.call .my_validateName (.cons (.lit (.bool false)) .nil)))
                (.ite (.ne (.var .err) (.lit .nil))
                  (.block (.ret (.var .err)))
                  .skip)))
            (.ret (.lit .nil)))))) }

/-- validator_mysql.go:1137-1152 `validateTableOptionUnion`. -/
def my_validateTableOptionUnion : Decl :=
  { params := [],
    body :=
    (.seq (.block (.seq (.define (.var .err) (.call .va_validateToken (.cons (.lit (.bool false)) (.cons (.lit (.kws ["UNION"])) .nil))))
          (.ite (.ne (.var .err) (.lit .nil))
            (.block (.ret (.var .err)))
            .skip)))
      (.seq (.expr (.call .va_matchTokenNext (.cons (.lit (.bool false)) (.cons (.lit (.kws ["="])) .nil))))
        (.seq (.block (.seq (.define (.var .err) (.call .va_validateToken (.cons (.lit (.bool false)) (.cons (.lit (.kws ["("])) .nil))))
              (.ite (.ne (.var .err) (.lit .nil))
                (.block (.ret (.var .err)))
                .skip)))
          (.seq (.block (.seq (.define (.var .err) (.call .my_validateCommaSeparatedTableNames (.cons (.lit (.bool false)) .nil)))
                (.ite (.ne (.var .err) (.lit .nil))
                  (.block (.ret (.var .err)))
                  .skip)))
            (.seq (.block (.seq (.define (.var .err) (.call .va_validateToken (.cons (.lit (.bool false)) (.cons (.lit (.kws [")"])) .nil))))
                  (.ite (.ne (.var .err) (.lit .nil))
                    (.block (.ret (.var .err)))
                    .skip)))
              (.ret (.lit .nil))))))) }

/-- validator_mysql.go:1155-1164 `validateTableOptionInsertMethod`. -/
def my_validateTableOptionInsertMethod : Decl :=
  { params := [],
    body :=
    (.seq (.block (.seq (.define (.var .err) (.call .va_validateToken (.cons (.lit (.bool false)) (.cons (.lit (.kws ["INSERT_METHOD"])) .nil))))
          (.ite (.ne (.var .err) (.lit .nil))
            (.block (.ret (.var .err)))
            .skip)))
      (.seq (.expr (.call .va_matchTokenNext (.cons (.lit (.bool false)) (.cons (.lit (.kws ["="])) .nil))))
        (.seq (.block (.seq (.define (.var .err) (.call .va_validateToken (.cons (.lit (.bool false)) (.cons (.lit (.kws ["NO", "FIRST", "LAST"])) .nil))))
              (.ite (.ne (.var .err) (.lit .nil))
                (.block (.ret (.var .err)))
                .skip)))
          (.ret (.lit .nil))))) }

/-- validator_mysql.go:1167-1176 `validateTableOptionRowFormat`. -/
def my_validateTableOptionRowFormat : Decl :=
  { params := [],
    body :=
    (.seq (.block (.seq (.define (.var .err) (.call .va_validateToken (.cons (.lit (.bool false)) (.cons (.lit (.kws ["ROW_FORMAT"])) .nil))))
          (.ite (.ne (.var .err) (.lit .nil))
            (.block (.ret (.var .err)))
            .skip)))
      (.seq (.expr (.call .va_matchTokenNext (.cons (.lit (.bool false)) (.cons (.lit (.kws ["="])) .nil))))
        (.seq (.block (.seq (.define (.var .err) (.call .va_validateToken (.cons (.lit (.bool false)) (.cons (.lit (.kws ["DEFAULT", "DYNAMIC", "FIXED", "COMPRESSED", "REDUNDANT", "COMPACT"])) .nil))))
              (.ite (.ne (.var .err) (.lit .nil))
                (.block (.ret (.var .err)))
                .skip)))
          (.ret (.lit .nil))))) }

end DDL.Src.Tree
