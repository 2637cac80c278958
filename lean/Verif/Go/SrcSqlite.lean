import Verif.Go.Syntax
/-
Generated by tools/gen_go.py from the sources in /repo. Do not edit.
Syntax trees of internal/validator/validator_sqlite.go.
-/

set_option maxRecDepth 4000

namespace DDL.Src.Tree

/-- `ReservedWords_SQLite`. -/
def ReservedWords_SQLite : List String := [
  "ABORT", "ACTION", "ADD", "AFTER", "ALL", "ALTER", "ANALYZE", "AND", "AS", "ASC", "ATTACH", "AUTOINCREMENT",
  "BEFORE", "BEGIN", "BETWEEN", "BY", "CASCADE", "CASE", "CAST", "CHECK", "COLLATE", "COLUMN", "COMMIT", "CONFLICT",
  "CONSTRAINT", "CREATE", "CROSS", "CURRENT", "CURRENT_DATE", "CURRENT_TIME", "CURRENT_TIMESTAMP", "DATABASE",
  "DEFAULT", "DEFERRABLE", "DEFERRED", "DELETE", "DESC", "DETACH", "DISTINCT", "DO", "DROP", "EACH", "ELSE", "END",
  "ESCAPE", "EXCEPT", "EXCLUSIVE", "EXISTS", "EXPLAIN", "FAIL", "FILTER", "FOLLOWING", "FOR", "FOREIGN", "FROM",
  "FULL", "GLOB", "GROUP", "HAVING", "IF", "IGNORE", "IMMEDIATE", "IN", "INDEX", "INDEXED", "INITIALLY", "INNER",
  "INSERT", "INSTEAD", "INTERSECT", "INTO", "IS", "ISNULL", "JOIN", "KEY", "LEFT", "LIKE", "LIMIT", "MATCH",
  "NATURAL", "NO", "NOT", "NOTHING", "NOTNULL", "NULL", "OF", "OFFSET", "ON", "OR", "ORDER", "OUTER", "OVER",
  "PARTITION", "PLAN", "PRAGMA", "PRECEDING", "PRIMARY", "QUERY", "RAISE", "RANGE", "RECURSIVE", "REFERENCES",
  "REGEXP", "REINDEX", "RELEASE", "RENAME", "REPLACE", "RESTRICT", "RIGHT", "ROLLBACK", "ROW", "ROWS", "SAVEPOINT",
  "SELECT", "SET", "TABLE", "TEMP", "TEMPORARY", "THEN", "TO", "TRANSACTION", "TRIGGER", "UNBOUNDED", "UNION",
  "UNIQUE", "UPDATE", "USING", "VACUUM", "VALUES", "VIEW", "VIRTUAL", "WHEN", "WHERE", "WINDOW", "WITH", "WITHOUT"]

/-- validator_sqlite.go:14-16 `NewSQLiteValidator`. -/
def sq_NewSQLiteValidator : Decl :=
  { params := [],
    body :=
    (.ret (.lit (.obj .sqliteValidator [(.tokens, .nil), (.size, .int 0), (.i, .int 0), (.line, .int 0), (.result, .nil)]))) }

/-- validator_sqlite.go:19-25 `Validate`. -/
def sq_Validate : Decl :=
  { params := [(.tokens, false)],
    body :=
    (.seq (.expr (.call .va_init (.cons (.var .tokens) .nil)))
      (.seq (.block (.seq (.define (.var .err) (.call .sq_validate .nil))
            (.ite (.ne (.var .err) (.lit .nil))
              (.block (.ret (.tuple (.cons (.lit .nil) (.cons (.var .err) .nil)))))
              .skip)))
        (.ret (.tuple (.cons (.field .result) (.cons (.lit .nil) .nil)))))) }

/-- validator_sqlite.go:28-36 `validate`. -/
def sq_validate : Decl :=
  { params := [],
    body :=
    (.seq (.ite (.call .va_isOutOfRange .nil)
        (.block (.ret (.lit .nil)))
        .skip)
      (.seq (.block (.seq (.define (.var .err) (.call .sq_validateDdl .nil))
            (.ite (.ne (.var .err) (.lit .nil))
              (.block (.ret (.var .err)))
              .skip)))
        (.ret (.call .sq_validate .nil)))) }

/-- validator_sqlite.go:39-41 `isStringValue`. -/
def sq_isStringValue : Decl :=
  { params := [(.token, false)],
    body :=
    (.ret (.eq (.slice (.var .token) (.lit (.int 0)) (.lit (.int 1))) (.lit (.str (S "'"))))) }

/-- validator_sqlite.go:44-47 `isIdentifier`. -/
def sq_isIdentifier : Decl :=
  { params := [(.token, false)],
    body :=
    (.seq (.define (.var .tmp) (.slice (.var .token) (.lit (.int 0)) (.lit (.int 1))))
      (.ret (.or (.eq (.var .tmp) (.lit (.str (S "\"")))) (.eq (.var .tmp) (.lit (.str (S "`"))))))) }

/-- validator_sqlite.go:50-58 `isValidName`. -/
def sq_isValidName : Decl :=
  { params := [(.name, false)],
    body :=
    (.ite (.call .sq_isIdentifier (.cons (.var .name) .nil))
      (.block (.ret (.lit (.bool true))))
      (.block (.seq (.define (.var .pattern) (.lib .compile (.cons (.lit (.str (S "^[a-zA-Z_][a-zA-Z0-9_]*$"))) .nil)))
          (.ret (.and (.lib .matchString (.cons (.var .pattern) (.cons (.var .name) .nil))) (.not (.call .co_Contains (.cons (.lit (.kws ReservedWords_SQLite)) (.cons (.lib .toUpper (.cons (.var .name) .nil)) .nil))))))))) }

/-- validator_sqlite.go:61-71 `validateName`. -/
def sq_validateName : Decl :=
  { params := [(.«set», false)],
    body :=
    (.seq (.ite (.call .sq_isValidName (.cons (.call .va_token .nil) .nil))
        (.block (.seq (.ite (.var .«set»)
              (.block (.expr (.call .va_set (.cons (.call .va_next .nil) .nil))))
              (.block (.expr (.call .va_next .nil))))
            (.ret (.lit .nil))))
        .skip)
      (.ret (.call .va_syntaxError .nil))) }

/-- validator_sqlite.go:74-84 `validateTableName`. -/
def sq_validateTableName : Decl :=
  { params := [(.«set», false)],
    body :=
    (.seq (.block (.seq (.define (.var .err) (.call .sq_validateName (.cons (.var .«set») .nil)))
          (.ite (.ne (.var .err) (.lit .nil))
            (.block (.ret (.var .err)))
            .skip)))
      (.seq (.ite (.call .va_matchTokenNext (.cons (.var .«set») (.cons (.lit (.kws ["."])) .nil)))
          (.block (.block (.seq (.define (.var .err) (.call .sq_validateName (.cons (.var .«set») .nil)))
                (.ite (.ne (.var .err) (.lit .nil))
                  (.block (.ret (.var .err)))
                  .skip))))
          .skip)
        (.ret (.lit .nil)))) }

/-- validator_sqlite.go:87-89 `validateColumnName`. -/
def sq_validateColumnName : Decl :=
  { params := [(.«set», false)],
    body :=
    (.ret (.call .sq_validateName (.cons (.var .«set») .nil))) }

/-- validator_sqlite.go:92-100 `validateCommaSeparatedColumnNames`. -/
def sq_validateCommaSeparatedColumnNames : Decl :=
  { params := [(.«set», false)],
    body :=
    (.seq (.block (.seq (.define (.var .err) (.call .sq_validateColumnName (.cons (.var .«set») .nil)))
          (.ite (.ne (.var .err) (.lit .nil))
            (.block (.ret (.var .err)))
            .skip)))
      (.seq (.ite (.call .va_matchTokenNext (.cons (.var .«set») (.cons (.lit (.kws [","])) .nil)))
          (.block (.ret (.call .sq_validateCommaSeparatedColumnNames (.cons (.var .«set») .nil))))
          .skip)
        (.ret (.lit .nil)))) }

/-- validator_sqlite.go:103-105 `validateExpr`. -/
def sq_validateExpr : Decl :=
  { params := [(.«set», false)],
    body :=
    (.ret (.call .va_validateBrackets (.cons (.var .«set») .nil))) }

/-- validator_sqlite.go:108-123 `validateDdl`. -/
def sq_validateDdl : Decl :=
  { params := [],
    body :=
    (.seq (.block (.seq (.define (.var .err) (.call .va_validateToken (.cons (.lit (.bool false)) (.cons (.lit (.kws ["CREATE"])) .nil))))
          (.ite (.ne (.var .err) (.lit .nil))
            (.block (.ret (.var .err)))
            .skip)))
      (.seq (.expr (.call .va_matchTokenNext (.cons (.lit (.bool false)) (.cons (.lit (.kws ["TEMP", "TEMPORARY"])) .nil))))
        (.seq (.ite (.call .va_matchToken (.cons (.lit (.kws ["TABLE"])) .nil))
            (.block (.block (.seq (.define (.var .err) (.call .sq_validateCreateTable .nil))
                  (.ite (.ne (.var .err) (.lit .nil))
                    (.block (.ret (.var .err)))
                    .skip))))
            (.block (.block (.seq (.define (.var .err) (.call .sq_validateCreateOther .nil))
                  (.ite (.ne (.var .err) (.lit .nil))
                    (.block (.ret (.var .err)))
                    .skip)))))
          (.ret (.lit .nil))))) }

/-- validator_sqlite.go:126-144 `validateCreateTable`. -/
def sq_validateCreateTable : Decl :=
  { params := [],
    body :=
    (.seq (.expr (.call .va_set (.cons (.lit (.str (S "CREATE"))) .nil)))
      (.seq (.block (.seq (.define (.var .err) (.call .va_validateToken (.cons (.lit (.bool true)) (.cons (.lit (.kws ["TABLE"])) .nil))))
            (.ite (.ne (.var .err) (.lit .nil))
              (.block (.ret (.var .err)))
              .skip)))
        (.seq (.block (.seq (.define (.var .err) (.call .sq_validateIfNotExists .nil))
              (.ite (.ne (.var .err) (.lit .nil))
                (.block (.ret (.var .err)))
                .skip)))
          (.seq (.block (.seq (.define (.var .err) (.call .sq_validateTableName (.cons (.lit (.bool true)) .nil)))
                (.ite (.ne (.var .err) (.lit .nil))
                  (.block (.ret (.var .err)))
                  .skip)))
            (.seq (.block (.seq (.define (.var .err) (.call .sq_validateTableDefinition .nil))
                  (.ite (.ne (.var .err) (.lit .nil))
                    (.block (.ret (.var .err)))
                    .skip)))
              (.seq (.block (.seq (.define (.var .err) (.call .va_validateToken (.cons (.lit (.bool true)) (.cons (.lit (.kws [";"])) .nil))))
                    (.ite (.ne (.var .err) (.lit .nil))
                      (.block (.ret (.var .err)))
                      .skip)))
                (.ret (.lit .nil)))))))) }

/-- validator_sqlite.go:147-174 `validateCreateOther`. -/
def sq_validateCreateOther : Decl :=
  { params := [],
    body :=
    (.seq (.block (.seq (.define (.var .err) (.call .va_validateToken (.cons (.lit (.bool false)) (.cons (.lit (.kws ["VIRTUAL", "VIEW", "TRIGGER", "INDEX", "UNIQUE"])) .nil))))
          (.ite (.ne (.var .err) (.lit .nil))
            (.block (.ret (.var .err)))
            .skip)))
      (.seq (.define (.var .«begin») (.lit (.bool false)))
        (.seq (.loop (.lit (.bool true))
            (.block (.seq (.ite (.call .va_isOutOfRange .nil)
                  (.block (.ret (.call .va_syntaxError .nil)))
                  .skip)
                (.seq (.ite (.call .va_matchToken (.cons (.lit (.kws ["BEGIN"])) .nil))
                    (.block (.assign (.var .«begin») (.lit (.bool true))))
                    .skip)
                  (.seq (.ite (.var .«begin»)
                      (.block (.ite (.call .va_matchToken (.cons (.lit (.kws ["END"])) .nil))
                          (.block (.assign (.var .«begin») (.lit (.bool false))))
                          .skip))
                      (.block (.ite (.call .va_matchToken (.cons (.lit (.kws [";"])) .nil))
                          (.block .brk)
                          .skip)))
                    (.expr (.call .va_next .nil)))))))
          (.seq (.block (.seq (.define (.var .err) (.call .va_validateToken (.cons (.lit (.bool false)) (.cons (.lit (.kws [";"])) .nil))))
                (.ite (.ne (.var .err) (.lit .nil))
                  (.block (.ret (.var .err)))
                  .skip)))
            (.ret (.lit .nil)))))) }

/-- validator_sqlite.go:177-187 `validateIfNotExists`. -/
def sq_validateIfNotExists : Decl :=
  { params := [],
    body :=
    (.seq (.ite (.call .va_matchTokenNext (.cons (.lit (.bool true)) (.cons (.lit (.kws ["IF"])) .nil)))
        (.block (.seq (.block (.seq (.define (.var .err) (.call .va_validateToken (.cons (.lit (.bool true)) (.cons (.lit (.kws ["NOT"])) .nil))))
                (.ite (.ne (.var .err) (.lit .nil))
                  (.block (.ret (.var .err)))
                  .skip)))
            (.block (.seq (.define (.var .err) (.call .va_validateToken (.cons (.lit (.bool true)) (.cons (.lit (.kws ["EXISTS"])) .nil))))
                (.ite (.ne (.var .err) (.lit .nil))
                  (.block (.ret (.var .err)))
                  .skip)))))
        .skip)
      (.ret (.lit .nil))) }

/-- validator_sqlite.go:190-204 `validateTableDefinition`. -/
def sq_validateTableDefinition : Decl :=
  { params := [],
    body :=
    (.seq (.block (.seq (.define (.var .err) (.call .va_validateToken (.cons (.lit (.bool true)) (.cons (.lit (.kws ["("])) .nil))))
          (.ite (.ne (.var .err) (.lit .nil))
            (.block (.ret (.var .err)))
            .skip)))
      (.seq (.block (.seq (.define (.var .err) (.call .sq_validateColumnDefinitions .nil))
            (.ite (.ne (.var .err) (.lit .nil))
              (.block (.ret (.var .err)))
              .skip)))
        (.seq (.block (.seq (.define (.var .err) (.call .va_validateToken (.cons (.lit (.bool true)) (.cons (.lit (.kws [")"])) .nil))))
              (.ite (.ne (.var .err) (.lit .nil))
                (.block (.ret (.var .err)))
                .skip)))
          (.seq (.block (.seq (.define (.var .err) (.call .sq_validateTableOptions .nil))
                (.ite (.ne (.var .err) (.lit .nil))
                  (.block (.ret (.var .err)))
                  .skip)))
            (.ret (.lit .nil)))))) }

/-- validator_sqlite.go:207-215 `validateColumnDefinitions`. -/
def sq_validateColumnDefinitions : Decl :=
  { params := [],
    body :=
    (.seq (.block (.seq (.define (.var .err) (.call .sq_validateColumnDefinition .nil))
          (.ite (.ne (.var .err) (.lit .nil))
            (.block (.ret (.var .err)))
            .skip)))
      (.seq (.ite (.call .va_matchTokenNext (.cons (.lit (.bool true)) (.cons (.lit (.kws [","])) .nil)))
          (.block (.ret (.call .sq_validateColumnDefinitions .nil)))
          .skip)
        (.ret (.lit .nil)))) }

/-- validator_sqlite.go:218-232 `validateColumnDefinition`. -/
def sq_validateColumnDefinition : Decl :=
  { params := [],
    body :=
    (.seq (.ite (.call .va_matchToken (.cons (.lit (.kws ["CONSTRAINT", "PRIMARY", "UNIQUE", "CHECK", "FOREIGN"])) .nil))
        (.block (.ret (.call .sq_validateTableConstraint .nil)))
        .skip)
      (.seq (.block (.seq (.define (.var .err) (.call .sq_validateColumnName (.cons (.lit (.bool true)) .nil)))
            (.ite (.ne (.var .err) (.lit .nil))
              (.block (.ret (.var .err)))
              .skip)))
        (.seq (.block (.seq (.define (.var .err) (.call .sq_validateColumnType .nil))
              (.ite (.ne (.var .err) (.lit .nil))
                (.block (.ret (.var .err)))
                .skip)))
          (.seq (.block (.seq (.define (.var .err) (.call .sq_validateColumnConstraints .nil))
                (.ite (.ne (.var .err) (.lit .nil))
                  (.block (.ret (.var .err)))
                  .skip)))
            (.ret (.lit .nil)))))) }

/-- validator_sqlite.go:235-239 `validateColumnType`. -/
def sq_validateColumnType : Decl :=
  { params := [],
    body :=
    (.ret (.call .va_validateToken (.cons (.lit (.bool true)) (.cons (.lit (.kws ["TEXT", "NUMERIC", "INTEGER", "REAL", "NONE"])) .nil)))) }

/-- validator_sqlite.go:242-249 `validateColumnConstraints`. -/
def sq_validateColumnConstraints : Decl :=
  { params := [],
    body :=
    (.seq (.ite (.call .va_matchTokenNext (.cons (.lit (.bool true)) (.cons (.lit (.kws ["CONSTRAINT"])) .nil)))
        (.block (.block (.seq (.define (.var .err) (.call .sq_validateName (.cons (.lit (.bool true)) .nil)))
              (.ite (.ne (.var .err) (.lit .nil))
                (.block (.ret (.var .err)))
                .skip))))
        .skip)
      (.ret (.call .sq_validateColumnConstraintsAux (.cons (.lit (.strs [])) .nil)))) }

/-- validator_sqlite.go:252-264 `validateColumnConstraintsAux`. -/
def sq_validateColumnConstraintsAux : Decl :=
  { params := [(.ls, false)],
    body :=
    (.seq (.ite (.not (.call .sq_isColumnConstraint (.cons (.call .va_token .nil) .nil)))
        (.block (.ret (.lit .nil)))
        .skip)
      (.seq (.ite (.call .co_Contains (.cons (.var .ls) (.cons (.lib .toUpper (.cons (.call .va_token .nil) .nil)) .nil)))
          (.block (.ret (.call .va_syntaxError .nil)))
          .skip)
        (.seq (.assign (.var .ls) (.lib .append (.cons (.var .ls) (.cons (.lib .toUpper (.cons (.call .va_token .nil) .nil)) .nil))))
          (.seq (.block (.seq (.define (.var .err) (.call .sq_validateColumnConstraint .nil))
                (.ite (.ne (.var .err) (.lit .nil))
                  (.block (.ret (.var .err)))
                  .skip)))
            (.ret (.call .sq_validateColumnConstraintsAux (.cons (.var .ls) .nil))))))) }

/-- validator_sqlite.go:267-272 `isColumnConstraint`. -/
def sq_isColumnConstraint : Decl :=
  { params := [(.token, false)],
    body :=
    (.ret (.call .va_matchToken (.cons (.lit (.kws ["PRIMARY", "NOT", "UNIQUE", "CHECK", "DEFAULT", "COLLATE", "REFERENCES", "GENERATED", "AS"])) .nil))) }

/-- validator_sqlite.go:275-301 `validateColumnConstraint`. -/
def sq_validateColumnConstraint : Decl :=
  { params := [],
    body :=
    (.seq (.ite (.call .va_matchToken (.cons (.lit (.kws ["PRIMARY"])) .nil))
        (.block (.ret (.call .sq_validateConstraintPrimaryKey .nil)))
        .skip)
      (.seq (.ite (.call .va_matchToken (.cons (.lit (.kws ["NOT"])) .nil))
          (.block (.ret (.call .sq_validateConstraintNotNull .nil)))
          .skip)
        (.seq (.ite (.call .va_matchToken (.cons (.lit (.kws ["UNIQUE"])) .nil))
            (.block (.ret (.call .sq_validateConstraintUnique .nil)))
            .skip)
          (.seq (.ite (.call .va_matchToken (.cons (.lit (.kws ["CHECK"])) .nil))
              (.block (.ret (.call .sq_validateConstraintCheck .nil)))
              .skip)
            (.seq (.ite (.call .va_matchToken (.cons (.lit (.kws ["DEFAULT"])) .nil))
                (.block (.ret (.call .sq_validateConstraintDefault .nil)))
                .skip)
              (.seq (.ite (.call .va_matchToken (.cons (.lit (.kws ["COLLATE"])) .nil))
                  (.block (.ret (.call .sq_validateConstraintCollate .nil)))
                  .skip)
                (.seq (.ite (.call .va_matchToken (.cons (.lit (.kws ["REFERENCES"])) .nil))
                    (.block (.ret (.call .sq_validateConstraintReferences .nil)))
                    .skip)
                  (.seq (.ite (.call .va_matchToken (.cons (.lit (.kws ["GENERATED", "AS"])) .nil))
                      (.block (.ret (.call .sq_validateConstraintGenerated .nil)))
                      .skip)
                    (.ret (.call .va_syntaxError .nil)))))))))) }

/-- validator_sqlite.go:304-317 `validateConstraintPrimaryKey`. -/
def sq_validateConstraintPrimaryKey : Decl :=
  { params := [],
    body :=
    (.seq (.block (.seq (.define (.var .err) (.call .va_validateToken (.cons (.lit (.bool true)) (.cons (.lit (.kws ["PRIMARY"])) .nil))))
          (.ite (.ne (.var .err) (.lit .nil))
            (.block (.ret (.var .err)))
            .skip)))
      (.seq (.block (.seq (.define (.var .err) (.call .va_validateToken (.cons (.lit (.bool true)) (.cons (.lit (.kws ["KEY"])) .nil))))
            (.ite (.ne (.var .err) (.lit .nil))
              (.block (.ret (.var .err)))
              .skip)))
        (.seq (.expr (.call .va_matchTokenNext (.cons (.lit (.bool false)) (.cons (.lit (.kws ["ASC", "DESC"])) .nil))))
          (.seq (.block (.seq (.define (.var .err) (.call .sq_validateConflictClause .nil))
                (.ite (.ne (.var .err) (.lit .nil))
                  (.block (.ret (.var .err)))
                  .skip)))
            (.seq (.expr (.call .va_matchTokenNext (.cons (.lit (.bool true)) (.cons (.lit (.kws ["AUTOINCREMENT"])) .nil))))
              (.ret (.lit .nil))))))) }

/-- validator_sqlite.go:320-331 `validateConstraintNotNull`. -/
def sq_validateConstraintNotNull : Decl :=
  { params := [],
    body :=
    (.seq (.block (.seq (.define (.var .err) (.call .va_validateToken (.cons (.lit (.bool true)) (.cons (.lit (.kws ["NOT"])) .nil))))
          (.ite (.ne (.var .err) (.lit .nil))
            (.block (.ret (.var .err)))
            .skip)))
      (.seq (.block (.seq (.define (.var .err) (.call .va_validateToken (.cons (.lit (.bool true)) (.cons (.lit (.kws ["NULL"])) .nil))))
            (.ite (.ne (.var .err) (.lit .nil))
              (.block (.ret (.var .err)))
              .skip)))
        (.seq (.block (.seq (.define (.var .err) (.call .sq_validateConflictClause .nil))
              (.ite (.ne (.var .err) (.lit .nil))
                (.block (.ret (.var .err)))
                .skip)))
          (.ret (.lit .nil))))) }

/-- validator_sqlite.go:334-342 `validateConstraintUnique`. -/
def sq_validateConstraintUnique : Decl :=
  { params := [],
    body :=
    (.seq (.block (.seq (.define (.var .err) (.call .va_validateToken (.cons (.lit (.bool true)) (.cons (.lit (.kws ["UNIQUE"])) .nil))))
          (.ite (.ne (.var .err) (.lit .nil))
            (.block (.ret (.var .err)))
            .skip)))
      (.seq (.block (.seq (.define (.var .err) (.call .sq_validateConflictClause .nil))
            (.ite (.ne (.var .err) (.lit .nil))
              (.block (.ret (.var .err)))
              .skip)))
        (.ret (.lit .nil)))) }

/-- validator_sqlite.go:345-353 `validateConstraintCheck`. -/
def sq_validateConstraintCheck : Decl :=
  { params := [],
    body :=
    (.seq (.block (.seq (.define (.var .err) (.call .va_validateToken (.cons (.lit (.bool true)) (.cons (.lit (.kws ["CHECK"])) .nil))))
          (.ite (.ne (.var .err) (.lit .nil))
            (.block (.ret (.var .err)))
            .skip)))
      (.seq (.block (.seq (.define (.var .err) (.call .sq_validateExpr (.cons (.lit (.bool true)) .nil)))
            (.ite (.ne (.var .err) (.lit .nil))
              (.block (.ret (.var .err)))
              .skip)))
        (.ret (.lit .nil)))) }

/-- validator_sqlite.go:356-370 `validateConstraintDefault`. -/
def sq_validateConstraintDefault : Decl :=
  { params := [],
    body :=
    (.seq (.block (.seq (.define (.var .err) (.call .va_validateToken (.cons (.lit (.bool true)) (.cons (.lit (.kws ["DEFAULT"])) .nil))))
          (.ite (.ne (.var .err) (.lit .nil))
            (.block (.ret (.var .err)))
            .skip)))
      (.seq (.ite (.call .va_matchToken (.cons (.lit (.kws ["("])) .nil))
          (.block (.block (.seq (.define (.var .err) (.call .sq_validateExpr (.cons (.lit (.bool true)) .nil)))
                (.ite (.ne (.var .err) (.lit .nil))
                  (.block (.ret (.var .err)))
                  .skip))))
          (.block (.block (.seq (.define (.var .err) (.call .sq_validateLiteralValue .nil))
                (.ite (.ne (.var .err) (.lit .nil))
                  (.block (.ret (.var .err)))
                  .skip)))))
        (.ret (.lit .nil)))) }

/-- validator_sqlite.go:373-387 `validateLiteralValue`. -/
def sq_validateLiteralValue : Decl :=
  { params := [],
    body :=
    (.seq (.ite (.call .co_IsNumericToken (.cons (.call .va_token .nil) .nil))
        (.block (.seq (.expr (.call .va_set (.cons (.call .va_next .nil) .nil)))
            (.ret (.lit .nil))))
        .skip)
      (.seq (.ite (.call .sq_isStringValue (.cons (.call .va_token .nil) .nil))
          (.block (.seq (.expr (.call .va_set (.cons (.call .va_next .nil) .nil)))
              (.ret (.lit .nil))))
          .skip)
        (.seq (.define (.var .ls) (.lit (.kws ["NULL", "TRUE", "FALSE", "CURRENT_TIME", "CURRENT_DATE", "CURRENT_TIMESTAMP"])))
          (.seq (.block (.seq (.define (.var .err) (.call .va_validateToken (.cons (.lit (.bool true)) (.cons (.var .ls) .nil))))
                (.ite (.ne (.var .err) (.lit .nil))
                  (.block (.ret (.var .err)))
                  .skip)))
            (.ret (.lit .nil)))))) }

/-- validator_sqlite.go:390-398 `validateConstraintCollate`. -/
def sq_validateConstraintCollate : Decl :=
  { params := [],
    body :=
    (.seq (.block (.seq (.define (.var .err) (.call .va_validateToken (.cons (.lit (.bool true)) (.cons (.lit (.kws ["COLLATE"])) .nil))))
          (.ite (.ne (.var .err) (.lit .nil))
            (.block (.ret (.var .err)))
            .skip)))
      (.seq (.block (.seq (.define (.var .err) (.call .va_validateToken (.cons (.lit (.bool true)) (.cons (.lit (.kws ["BINARY", "NOCASE", "RTRIM"])) .nil))))
            (.ite (.ne (.var .err) (.lit .nil))
              (.block (.ret (.var .err)))
              .skip)))
        (.ret (.lit .nil)))) }

/-- validator_sqlite.go:401-420 `validateConstraintReferences`. -/
def sq_validateConstraintReferences : Decl :=
  { params := [],
    body :=
    (.seq (.block (.seq (.define (.var .err) (.call .va_validateToken (.cons (.lit (.bool true)) (.cons (.lit (.kws ["REFERENCES"])) .nil))))
          (.ite (.ne (.var .err) (.lit .nil))
            (.block (.ret (.var .err)))
            .skip)))
      (.seq (.block (.seq (.define (.var .err) (.call .sq_validateTableName (.cons (.lit (.bool true)) .nil)))
            (.ite (.ne (.var .err) (.lit .nil))
              (.block (.ret (.var .err)))
              .skip)))
        (.seq (.ite (.call .va_matchTokenNext (.cons (.lit (.bool true)) (.cons (.lit (.kws ["("])) .nil)))
            (.block (.seq (.block (.seq (.define (.var .err) (.call .sq_validateColumnName (.cons (.lit (.bool true)) .nil)))
                    (.ite (.ne (.var .err) (.lit .nil))
                      (.block (.ret (.var .err)))
                      .skip)))
                (.block (.seq (.define (.var .err) (.call .va_validateToken (.cons (.lit (.bool true)) (.cons (.lit (.kws [")"])) .nil))))
                    (.ite (.ne (.var .err) (.lit .nil))
                      (.block (.ret (.var .err)))
                      .skip)))))
            .skip)
          (.seq (.block (.seq (.define (.var .err) (.call .sq_validateConstraintReferencesAux .nil))
                (.ite (.ne (.var .err) (.lit .nil))
                  (.block (.ret (.var .err)))
                  .skip)))
            (.ret (.lit .nil)))))) }

/-- validator_sqlite.go:423-465 `validateConstraintReferencesAux`. -/
def sq_validateConstraintReferencesAux : Decl :=
  { params := [],
    body :=
    (.seq (.ite (.call .va_matchTokenNext (.cons (.lit (.bool false)) (.cons (.lit (.kws ["ON"])) .nil)))
        (.block (.seq (.ite (.not (.call .va_matchTokenNext (.cons (.lit (.bool false)) (.cons (.lit (.kws ["DELETE", "UPDATE"])) .nil))))
              (.block (.ret (.call .va_syntaxError .nil)))
              .skip)
            (.seq (.ite (.call .va_matchTokenNext (.cons (.lit (.bool false)) (.cons (.lit (.kws ["SET"])) .nil)))
                (.block (.block (.seq (.define (.var .err) (.call .va_validateToken (.cons (.lit (.bool false)) (.cons (.lit (.kws ["NULL", "DEFAULT"])) .nil))))
                      (.ite (.ne (.var .err) (.lit .nil))
                        (.block (.ret (.var .err)))
                        .skip))))
                (.block (.ite (.call .va_matchTokenNext (.cons (.lit (.bool false)) (.cons (.lit (.kws ["CASCADE", "RESTRICT"])) .nil)))
                    (.block .skip)
                    (.block (.ite (.call .va_matchTokenNext (.cons (.lit (.bool false)) (.cons (.lit (.kws ["NO"])) .nil)))
                        (.block (.block (.seq (.define (.var .err) (.call .va_validateToken (.cons (.lit (.bool false)) (.cons (.lit (.kws ["ACTION"])) .nil))))
                              (.ite (.ne (.var .err) (.lit .nil))
                                (.block (.ret (.var .err)))
                                .skip))))
                        (.block (.ret (.call .va_syntaxError .nil))))))))
              (.ret (.call .sq_validateConstraintReferencesAux .nil)))))
        .skip)
      (.seq (.ite (.call .va_matchTokenNext (.cons (.lit (.bool false)) (.cons (.lit (.kws ["MATCH"])) .nil)))
          (.block (.seq (.block (.seq (.define (.var .err) (.call .va_validateToken (.cons (.lit (.bool false)) (.cons (.lit (.kws ["SIMPLE", "PARTIAL", "FULL"])) .nil))))
                  (.ite (.ne (.var .err) (.lit .nil))
                    (.block (.ret (.var .err)))
                    .skip)))
              (.ret (.call .sq_validateConstraintReferencesAux .nil))))
          .skip)
        (.seq (.ite (.call .va_matchToken (.cons (.lit (.kws ["NOT", "DEFERRABLE"])) .nil))
            (.block (.seq (.expr (.call .va_matchTokenNext (.cons (.lit (.bool false)) (.cons (.lit (.kws ["NOT"])) .nil))))
                (.seq (.block (.seq (.define (.var .err) (.call .va_validateToken (.cons (.lit (.bool false)) (.cons (.lit (.kws ["DEFERRABLE"])) .nil))))
                      (.ite (.ne (.var .err) (.lit .nil))
                        (.block (.ret (.var .err)))
                        .skip)))
                  (.seq (.ite (.call .va_matchTokenNext (.cons (.lit (.bool false)) (.cons (.lit (.kws ["INITIALLY"])) .nil)))
                      (.block (.block (.seq (.define (.var .err) (.call .va_validateToken (.cons (.lit (.bool false)) (.cons (.lit (.kws ["DEFERRED", "IMMEDIATE"])) .nil))))
                            (.ite (.ne (.var .err) (.lit .nil))
                              (.block (.ret (.var .err)))
                              .skip))))
                      .skip)
                    (.ret (.call .sq_validateConstraintReferencesAux .nil))))))
            .skip)
          (.ret (.lit .nil))))) }

/-- validator_sqlite.go:468-482 `validateConstraintGenerated`. -/
def sq_validateConstraintGenerated : Decl :=
  { params := [],
    body :=
    (.seq (.ite (.call .va_matchTokenNext (.cons (.lit (.bool false)) (.cons (.lit (.kws ["GENERATED"])) .nil)))
        (.block (.block (.seq (.define (.var .err) (.call .va_validateToken (.cons (.lit (.bool false)) (.cons (.lit (.kws ["ALWAYS"])) .nil))))
              (.ite (.ne (.var .err) (.lit .nil))
                (.block (.ret (.var .err)))
                .skip))))
        .skip)
      (.seq (.block (.seq (.define (.var .err) (.call .va_validateToken (.cons (.lit (.bool false)) (.cons (.lit (.kws ["AS"])) .nil))))
            (.ite (.ne (.var .err) (.lit .nil))
              (.block (.ret (.var .err)))
              .skip)))
        (.seq (.block (.seq (.define (.var .err) (.call .sq_validateExpr (.cons (.lit (.bool false)) .nil)))
              (.ite (.ne (.var .err) (.lit .nil))
                (.block (.ret (.var .err)))
                .skip)))
          (.seq (.expr (.call .va_matchTokenNext (.cons (.lit (.bool false)) (.cons (.lit (.kws ["STORED", "VIRTUAL"])) .nil))))
            (.ret (.lit .nil)))))) }

/-- validator_sqlite.go:485-495 `validateConflictClause`. -/
def sq_validateConflictClause : Decl :=
  { params := [],
    body :=
    (.seq (.ite (.call .va_matchTokenNext (.cons (.lit (.bool false)) (.cons (.lit (.kws ["ON"])) .nil)))
        (.block (.seq (.block (.seq (.define (.var .err) (.call .va_validateToken (.cons (.lit (.bool false)) (.cons (.lit (.kws ["CONFLICT"])) .nil))))
                (.ite (.ne (.var .err) (.lit .nil))
                  (.block (.ret (.var .err)))
                  .skip)))
            (.block (.seq (.define (.var .err) (.call .va_validateToken (.cons (.lit (.bool false)) (.cons (.lit (.kws ["ROLLBACK", "ABORT", "FAIL", "IGNORE", "REPLACE"])) .nil))))
                (.ite (.ne (.var .err) (.lit .nil))
                  (.block (.ret (.var .err)))
                  .skip)))))
        .skip)
      (.ret (.lit .nil))) }

/-- validator_sqlite.go:498-518 `validateTableConstraint`. -/
def sq_validateTableConstraint : Decl :=
  { params := [],
    body :=
    (.seq (.ite (.call .va_matchTokenNext (.cons (.lit (.bool true)) (.cons (.lit (.kws ["CONSTRAINT"])) .nil)))
        (.block (.block (.seq (.define (.var .err) (.call .sq_validateName (.cons (.lit (.bool true)) .nil)))
              (.ite (.ne (.var .err) (.lit .nil))
                (.block (.ret (.var .err)))
                .skip))))
        .skip)
      (.seq (.ite (.call .va_matchToken (.cons (.lit (.kws ["PRIMARY"])) .nil))
          (.block (.ret (.call .sq_validateTableConstraintPrimaryKey .nil)))
          .skip)
        (.seq (.ite (.call .va_matchToken (.cons (.lit (.kws ["UNIQUE"])) .nil))
            (.block (.ret (.call .sq_validateTableConstraintUnique .nil)))
            .skip)
          (.seq (.ite (.call .va_matchToken (.cons (.lit (.kws ["CHECK"])) .nil))
              (.block (.ret (.call .sq_validateTableConstraintCheck .nil)))
              .skip)
            (.seq (.ite (.call .va_matchToken (.cons (.lit (.kws ["FOREIGN"])) .nil))
                (.block (.ret (.call .sq_validateTableConstraintForeignKey .nil)))
                .skip)
              (.ret (.call .va_syntaxError .nil))))))) }

/-- validator_sqlite.go:521-541 `validateTableConstraintPrimaryKey`. -/
def sq_validateTableConstraintPrimaryKey : Decl :=
  { params := [],
    body :=
    (.seq (.block (.seq (.define (.var .err) (.call .va_validateToken (.cons (.lit (.bool true)) (.cons (.lit (.kws ["PRIMARY"])) .nil))))
          (.ite (.ne (.var .err) (.lit .nil))
            (.block (.ret (.var .err)))
            .skip)))
      (.seq (.block (.seq (.define (.var .err) (.call .va_validateToken (.cons (.lit (.bool true)) (.cons (.lit (.kws ["KEY"])) .nil))))
            (.ite (.ne (.var .err) (.lit .nil))
              (.block (.ret (.var .err)))
              .skip)))
        (.seq (.block (.seq (.define (.var .err) (.call .va_validateToken (.cons (.lit (.bool true)) (.cons (.lit (.kws ["("])) .nil))))
              (.ite (.ne (.var .err) (.lit .nil))
                (.block (.ret (.var .err)))
                .skip)))
          (.seq (.block (.seq (.define (.var .err) (.call .sq_validateCommaSeparatedColumnNames (.cons (.lit (.bool true)) .nil)))
                (.ite (.ne (.var .err) (.lit .nil))
                  (.block (.ret (.call .va_syntaxError .nil)))
                  .skip)))
            (.seq (.block (.seq (.define (.var .err) (.call .va_validateToken (.cons (.lit (.bool true)) (.cons (.lit (.kws [")"])) .nil))))
                  (.ite (.ne (.var .err) (.lit .nil))
                    (.block (.ret (.var .err)))
                    .skip)))
              (.seq (.block (.seq (.define (.var .err) (.call .sq_validateConflictClause .nil))
                    (.ite (.ne (.var .err) (.lit .nil))
                      (.block (.ret (.var .err)))
                      .skip)))
                (.ret (.lit .nil)))))))) }

/-- validator_sqlite.go:544-561 `validateTableConstraintUnique`. -/
def sq_validateTableConstraintUnique : Decl :=
  { params := [],
    body :=
    (.seq (.block (.seq (.define (.var .err) (.call .va_validateToken (.cons (.lit (.bool true)) (.cons (.lit (.kws ["UNIQUE"])) .nil))))
          (.ite (.ne (.var .err) (.lit .nil))
            (.block (.ret (.var .err)))
            .skip)))
      (.seq (.block (.seq (.define (.var .err) (.call .va_validateToken (.cons (.lit (.bool true)) (.cons (.lit (.kws ["("])) .nil))))
            (.ite (.ne (.var .err) (.lit .nil))
              (.block (.ret (.var .err)))
              .skip)))
        (.seq (.block (.seq (.define (.var .err) (.call .sq_validateCommaSeparatedColumnNames (.cons (.lit (.bool true)) .nil)))
              (.ite (.ne (.var .err) (.lit .nil))
                (.block (.ret (.var .err)))
                .skip)))
          (.seq (.block (.seq (.define (.var .err) (.call .va_validateToken (.cons (.lit (.bool true)) (.cons (.lit (.kws [")"])) .nil))))
                (.ite (.ne (.var .err) (.lit .nil))
                  (.block (.ret (.var .err)))
                  .skip)))
            (.seq (.block (.seq (.define (.var .err) (.call .sq_validateConflictClause .nil))
                  (.ite (.ne (.var .err) (.lit .nil))
                    (.block (.ret (.var .err)))
                    .skip)))
              (.ret (.lit .nil))))))) }

/-- validator_sqlite.go:564-572 `validateTableConstraintCheck`. -/
def sq_validateTableConstraintCheck : Decl :=
  { params := [],
    body :=
    (.seq (.block (.seq (.define (.var .err) (.call .va_validateToken (.cons (.lit (.bool true)) (.cons (.lit (.kws ["CHECK"])) .nil))))
          (.ite (.ne (.var .err) (.lit .nil))
            (.block (.ret (.var .err)))
            .skip)))
      (.seq (.block (.seq (.define (.var .err) (.call .sq_validateExpr (.cons (.lit (.bool true)) .nil)))
            (.ite (.ne (.var .err) (.lit .nil))
              (.block (.ret (.var .err)))
              .skip)))
        (.ret (.lit .nil)))) }

/-- validator_sqlite.go:575-609 `validateTableConstraintForeignKey`. -/
def sq_validateTableConstraintForeignKey : Decl :=
  { params := [],
    body :=
    (.seq (.block (.seq (.define (.var .err) (.call .va_validateToken (.cons (.lit (.bool true)) (.cons (.lit (.kws ["FOREIGN"])) .nil))))
          (.ite (.ne (.var .err) (.lit .nil))
            (.block (.ret (.var .err)))
            .skip)))
      (.seq (.block (.seq (.define (.var .err) (.call .va_validateToken (.cons (.lit (.bool true)) (.cons (.lit (.kws ["KEY"])) .nil))))
            (.ite (.ne (.var .err) (.lit .nil))
              (.block (.ret (.var .err)))
              .skip)))
        (.seq (.block (.seq (.define (.var .err) (.call .va_validateToken (.cons (.lit (.bool true)) (.cons (.lit (.kws ["("])) .nil))))
              (.ite (.ne (.var .err) (.lit .nil))
                (.block (.ret (.var .err)))
                .skip)))
          (.seq (.block (.seq (.define (.var .err) (.call .sq_validateCommaSeparatedColumnNames (.cons (.lit (.bool true)) .nil)))
                (.ite (.ne (.var .err) (.lit .nil))
                  (.block (.ret (.var .err)))
                  .skip)))
            (.seq (.block (.seq (.define (.var .err) (.call .va_validateToken (.cons (.lit (.bool true)) (.cons (.lit (.kws [")"])) .nil))))
                  (.ite (.ne (.var .err) (.lit .nil))
                    (.block (.ret (.var .err)))
                    .skip)))
              (.seq (.block (.seq (.define (.var .err) (.call .va_validateToken (.cons (.lit (.bool true)) (.cons (.lit (.kws ["REFERENCES"])) .nil))))
                    (.ite (.ne (.var .err) (.lit .nil))
                      (.block (.ret (.var .err)))
                      .skip)))
                (.seq (.block (.seq (.define (.var .err) (.call .sq_validateTableName (.cons (.lit (.bool true)) .nil)))
                      (.ite (.ne (.var .err) (.lit .nil))
                        (.block (.ret (.var .err)))
                        .skip)))
                  (.seq (.ite (.call .va_matchTokenNext (.cons (.lit (.bool true)) (.cons (.lit (.kws ["("])) .nil)))
                      (.block (.seq (.block (.seq (.define (.var .err) (.call .sq_validateCommaSeparatedColumnNames (.cons (.lit (.bool true)) .nil)))
                              (.ite (.ne (.var .err) (.lit .nil))
                                (.block (.ret (.var .err)))
                                .skip)))
                          (.block (.seq (.define (.var .err) (.call .va_validateToken (.cons (.lit (.bool true)) (.cons (.lit (.kws [")"])) .nil))))
                              (.ite (.ne (.var .err) (.lit .nil))
                                (.block (.ret (.var .err)))
                                .skip)))))
                      .skip)
                    (.seq (.block (.seq (.define (.var .err) (.call .sq_validateConstraintReferencesAux .nil))
                          (.ite (.ne (.var .err) (.lit .nil))
                            (.block (.ret (.var .err)))
                            .skip)))
                      (.ret (.lit .nil))))))))))) }

/-- validator_sqlite.go:612-636 `validateTableOptions`. -/
def sq_validateTableOptions : Decl :=
  { params := [],
    body :=
    (.seq (.ite (.call .va_isOutOfRange .nil)
        (.block (.ret (.lit .nil)))
        .skip)
      (.seq (.ite (.call .va_matchTokenNext (.cons (.lit (.bool false)) (.cons (.lit (.kws ["WITHOUT"])) .nil)))
          (.block (.seq (.block (.seq (.define (.var .err) (.call .va_validateToken (.cons (.lit (.bool false)) (.cons (.lit (.kws ["ROWID"])) .nil))))
                  (.ite (.ne (.var .err) (.lit .nil))
                    (.block (.ret (.var .err)))
                    .skip)))
              (.ite (.call .va_matchTokenNext (.cons (.lit (.bool false)) (.cons (.lit (.kws [","])) .nil)))
                (.block (.block (.seq (.define (.var .err) (.call .va_validateToken (.cons (.lit (.bool false)) (.cons (.lit (.kws ["STRICT"])) .nil))))
                      (.ite (.ne (.var .err) (.lit .nil))
                        (.block (.ret (.var .err)))
                        .skip))))
                .skip)))
          (.block (.ite (.call .va_matchTokenNext (.cons (.lit (.bool false)) (.cons (.lit (.kws ["STRICT"])) .nil)))
              (.block (.ite (.call .va_matchTokenNext (.cons (.lit (.bool false)) (.cons (.lit (.kws [","])) .nil)))
                  (.block (.seq (.block (.seq (.define (.var .err) (.call .va_validateToken (.cons (.lit (.bool false)) (.cons (.lit (.kws ["WITHOUT"])) .nil))))
                          (.ite (.ne (.var .err) (.lit .nil))
                            (.block (.ret (.var .err)))
                            .skip)))
                      (.block (.seq (.define (.var .err) (.call .va_validateToken (.cons (.lit (.bool false)) (.cons (.lit (.kws ["ROWID"])) .nil))))
                          (.ite (.ne (.var .err) (.lit .nil))
                            (.block (.ret (.var .err)))
                            .skip)))))
                  .skip))
              .skip)))
        (.ret (.lit .nil)))) }

end DDL.Src.Tree
