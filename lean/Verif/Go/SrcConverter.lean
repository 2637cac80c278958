import Verif.Go.Syntax
/-
Generated by tools/gen_go.py from the sources in /repo. Do not edit.
Syntax trees of internal/converter/converter.go.
-/

set_option maxRecDepth 4000

namespace DDL.Src.Tree

/-- converter.go:36-38 `NewConverter`. -/
def cv_NewConverter : Decl :=
  { params := [(.rdbms, false)],
    body :=
    (.ret (.mk .converter [(.rdbms, .str []), (.tokens, .nil), (.size, .int 0), (.i, .int 0), (.result, .nil)] .rdbms (.var .rdbms))) }

/-- converter.go:41-45 `Convert`. -/
def cv_Convert : Decl :=
  { params := [(.tokens, false)],
    body :=
    (.seq (.expr (.call .cv_init (.cons (.var .tokens) .nil)))
      (.seq (.expr (.call .cv_convert .nil))
        (.ret (.field .result)))) }

/-- converter.go:48-53 `init`. -/
def cv_init : Decl :=
  { params := [(.tokens, false)],
    body :=
    (.seq (.assign (.recv .tokens) (.var .tokens))
      (.seq (.assign (.recv .size) (.lib .len (.cons (.field .tokens) .nil)))
        (.seq (.assign (.recv .i) (.lit (.int 0)))
          (.assign (.recv .result) (.lit (.slice [])))))) }

/-- converter.go:56-61 `token`. -/
def cv_token : Decl :=
  { params := [],
    body :=
    (.seq (.ite (.call .cv_isOutOfRange .nil)
        (.block (.ret (.lit (.str (S "<EOF>")))))
        .skip)
      (.ret (.index (.field .tokens) (.field .i)))) }

/-- converter.go:64-66 `isOutOfRange`. -/
def cv_isOutOfRange : Decl :=
  { params := [],
    body :=
    (.ret (.gt (.field .i) (.sub (.field .size) (.lit (.int 1))))) }

/-- converter.go:69-79 `next`. -/
def cv_next : Decl :=
  { params := [],
    body :=
    (.seq (.ite (.call .cv_isOutOfRange .nil)
        (.block (.ret (.lit (.str (S "<EOF>")))))
        .skip)
      (.seq (.define (.var .token) (.call .cv_token .nil))
        (.seq (.assign (.recv .i) (.add (.field .i) (.lit (.int 1))))
          (.seq (.ite (.and (.eq (.var .token) (.lit (.str (S ",")))) (.eq (.call .cv_token .nil) (.lit (.str (S ",")))))
              (.block (.ret (.call .cv_next .nil)))
              .skip)
            (.ret (.var .token)))))) }

/-- converter.go:82-88 `matchToken`. -/
def cv_matchToken : Decl :=
  { params := [(.keywords, false)],
    body :=
    (.ret (.call .co_Contains (.cons (.lib .appendAll (.cons (.call .co_MapSlice (.cons (.var .keywords) (.cons (.lit (.fn .toLower)) .nil))) (.cons (.call .co_MapSlice (.cons (.var .keywords) (.cons (.lit (.fn .toUpper)) .nil))) .nil))) (.cons (.call .cv_token .nil) .nil)))) }

/-- converter.go:91-102 `isIdentifier`. -/
def cv_isIdentifier : Decl :=
  { params := [(.token, false)],
    body :=
    (.seq (.define (.var .tc) (.slice (.var .token) (.lit (.int 0)) (.lit (.int 1))))
      (.seq (.ite (.eq (.field .rdbms) (.lit (.rdbms .sqlite)))
          (.block (.ret (.or (.eq (.var .tc) (.lit (.str (S "\"")))) (.eq (.var .tc) (.lit (.str (S "`")))))))
          (.ite (.eq (.field .rdbms) (.lit (.rdbms .mysql)))
            (.block (.ret (.eq (.var .tc) (.lit (.str (S "`"))))))
            (.ite (.eq (.field .rdbms) (.lit (.rdbms .postgres)))
              (.block (.ret (.eq (.var .tc) (.lit (.str (S "\""))))))
              .skip)))
        (.ret (.lit (.bool false))))) }

/-- converter.go:105-116 `isStringValue`. -/
def cv_isStringValue : Decl :=
  { params := [(.token, false)],
    body :=
    (.seq (.define (.var .tc) (.slice (.var .token) (.lit (.int 0)) (.lit (.int 1))))
      (.seq (.ite (.eq (.field .rdbms) (.lit (.rdbms .sqlite)))
          (.block (.ret (.eq (.var .tc) (.lit (.str (S "'"))))))
          (.ite (.eq (.field .rdbms) (.lit (.rdbms .mysql)))
            (.block (.ret (.or (.eq (.var .tc) (.lit (.str (S "\"")))) (.eq (.var .tc) (.lit (.str (S "'")))))))
            (.ite (.eq (.field .rdbms) (.lit (.rdbms .postgres)))
              (.block (.ret (.eq (.var .tc) (.lit (.str (S "'"))))))
              .skip)))
        (.ret (.lit (.bool false))))) }

/-- converter.go:119-127 `convert`. -/
def cv_convert : Decl :=
  { params := [],
    body :=
    (.seq (.ite (.call .cv_isOutOfRange .nil)
        (.block (.ret (.tuple .nil)))
        (.block (.seq (.define (.var .table) (.call .cv_convertTable .nil))
            (.assign (.recv .result) (.lib .append (.cons (.field .result) (.cons (.var .table) .nil)))))))
      (.expr (.call .cv_convert .nil))) }

/-- converter.go:130-156 `convertTable`. -/
def cv_convertTable : Decl :=
  { params := [],
    body :=
    (.seq (.define (.var .table) (.lit (.obj .Table [(.Schema, .str []), (.Name, .str []), (.IfNotExists, .bool false), (.Columns, .nil), (.Constraints, .obj .TableConstraint [(.PrimaryKey, .nil), (.Unique, .nil), (.Check, .nil), (.ForeignKey, .nil)])])))
      (.seq (.expr (.call .cv_next .nil))
        (.seq (.expr (.call .cv_next .nil))
          (.seq (.ite (.call .cv_matchToken (.cons (.lit (.kws ["IF"])) .nil))
              (.block (.seq (.expr (.call .cv_next .nil))
                  (.seq (.expr (.call .cv_next .nil))
                    (.seq (.expr (.call .cv_next .nil))
                      (.assign (.fld .table .IfNotExists) (.lit (.bool true)))))))
              .skip)
            (.seq (.define2 (.var .schemaName) (.var .tableName) (.call .cv_convertTableName .nil))
              (.seq (.define2 (.var .columns) (.var .constraints) (.call .cv_convertTableDefinition .nil))
                (.seq (.assign (.fld .table .Schema) (.var .schemaName))
                  (.seq (.assign (.fld .table .Name) (.var .tableName))
                    (.seq (.assign (.fld .table .Columns) (.var .columns))
                      (.seq (.assign (.fld .table .Constraints) (.var .constraints))
                        (.seq (.ite (.gt (.field .size) (.field .i))
                            (.block (.ite (.call .cv_matchToken (.cons (.lit (.kws [";"])) .nil))
                                (.block (.expr (.call .cv_next .nil)))
                                .skip))
                            .skip)
                          (.ret (.var .table))))))))))))) }

/-- converter.go:159-172 `convertTableName`. -/
def cv_convertTableName : Decl :=
  { params := [],
    body :=
    (.seq (.define (.var .schemaName) (.call .cv_convertName .nil))
      (.seq (.define (.var .tableName) (.lit (.str (S ""))))
        (.seq (.ite (.call .cv_matchToken (.cons (.lit (.kws ["."])) .nil))
            (.block (.seq (.expr (.call .cv_next .nil))
                (.assign (.var .tableName) (.call .cv_convertName .nil))))
            (.block (.seq (.assign (.var .tableName) (.var .schemaName))
                (.assign (.var .schemaName) (.lit (.str (S "")))))))
          (.ret (.tuple (.cons (.var .schemaName) (.cons (.var .tableName) .nil))))))) }

/-- converter.go:175-182 `convertName`. -/
def cv_convertName : Decl :=
  { params := [],
    body :=
    (.seq (.define (.var .token) (.call .cv_next .nil))
      (.ite (.call .cv_isIdentifier (.cons (.var .token) .nil))
        (.block (.ret (.slice (.var .token) (.lit (.int 1)) (.sub (.lib .len (.cons (.var .token) .nil)) (.lit (.int 1))))))
        (.block (.ret (.var .token))))) }

/-- converter.go:185-204 `convertTableDefinition`. -/
def cv_convertTableDefinition : Decl :=
  { params := [],
    body :=
    (.seq (.expr (.call .cv_next .nil))
      (.seq (.define (.var .columns) (.lit (.nil)))
        (.seq (.define (.var .constraints) (.lit (.obj .TableConstraint [(.PrimaryKey, .nil), (.Unique, .nil), (.Check, .nil), (.ForeignKey, .nil)])))
          (.seq (.loop (.not (.call .cv_matchToken (.cons (.lit (.kws [")"])) .nil)))
              (.block (.seq (.ite (.call .cv_matchToken (.cons (.lit (.kws ["CONSTRAINT", "PRIMARY", "UNIQUE", "CHECK", "FOREIGN"])) .nil))
                    (.block (.expr (.call .cv_convertTableConstraint (.cons (.addr .constraints) .nil))))
                    (.block (.seq (.define (.var .column) (.call .cv_convertColumnDefinition .nil))
                        (.assign (.var .columns) (.lib .append (.cons (.var .columns) (.cons (.var .column) .nil)))))))
                  (.seq (.ite (.call .cv_matchToken (.cons (.lit (.kws [")"])) .nil))
                      (.block .brk)
                      .skip)
                    (.expr (.call .cv_next .nil))))))
            (.seq (.expr (.call .cv_next .nil))
              (.ret (.tuple (.cons (.var .columns) (.cons (.var .constraints) .nil))))))))) }

/-- converter.go:207-214 `convertColumnDefinition`. -/
def cv_convertColumnDefinition : Decl :=
  { params := [],
    body :=
    (.seq (.define (.var .column) (.lit (.obj .Column [(.Name, .str []), (.DataType, .obj .DataType [(.Name, .str []), (.DigitN, .int 0), (.DigitM, .int 0)]), (.Constraint, .obj .Constraint [(.Name, .str []), (.IsPrimaryKey, .bool false), (.IsUnique, .bool false), (.IsNotNull, .bool false), (.IsAutoincrement, .bool false), (.Default, .nil), (.Check, .str []), (.Collate, .str []), (.References, .obj .Reference [(.TableName, .str []), (.ColumnNames, .nil)])])])))
      (.seq (.assign (.fld .column .Name) (.call .cv_convertName .nil))
        (.seq (.assign (.fld .column .DataType) (.call .cv_convertDateType .nil))
          (.seq (.assign (.fld .column .Constraint) (.call .cv_convertConstraint .nil))
            (.ret (.var .column)))))) }

/-- converter.go:217-234 `convertDateType`. -/
def cv_convertDateType : Decl :=
  { params := [],
    body :=
    (.seq (.define (.var .dataType) (.lit (.obj .DataType [(.Name, .str []), (.DigitN, .int 0), (.DigitM, .int 0)])))
      (.seq (.assign (.fld .dataType .Name) (.lib .toUpper (.cons (.call .cv_next .nil) .nil)))
        (.seq (.ite (.call .cv_matchToken (.cons (.lit (.kws ["VARYING"])) .nil))
            (.block (.seq (.ite (.eq (.sel (.var .dataType) .Name) (.lit (.str (S "BIT"))))
                  (.block (.assign (.fld .dataType .Name) (.lit (.str (S "VARBIT")))))
                  (.block (.ite (.eq (.sel (.var .dataType) .Name) (.lit (.str (S "CHARACTER"))))
                      (.block (.assign (.fld .dataType .Name) (.lit (.str (S "VARCHAR")))))
                      (.block (.assign (.fld .dataType .Name) (.add (.sel (.var .dataType) .Name) (.add (.lit (.str (S " "))) (.lib .toUpper (.cons (.call .cv_token .nil) .nil)))))))))
                (.expr (.call .cv_next .nil))))
            .skip)
          (.seq (.define2 (.var .n) (.var .m) (.call .cv_convertTypeDigit .nil))
            (.seq (.assign (.fld .dataType .DigitN) (.var .n))
              (.seq (.assign (.fld .dataType .DigitM) (.var .m))
                (.ret (.var .dataType)))))))) }

/-- converter.go:237-250 `convertTypeDigit`. -/
def cv_convertTypeDigit : Decl :=
  { params := [],
    body :=
    (.seq (.define (.var .n) (.lit (.int 0)))
      (.seq (.define (.var .m) (.lit (.int 0)))
        (.seq (.ite (.call .cv_matchToken (.cons (.lit (.kws ["("])) .nil))
            (.block (.seq (.expr (.call .cv_next .nil))
                (.seq (.assign2 (.var .n) .blank (.lib .atoi (.cons (.call .cv_next .nil) .nil)))
                  (.seq (.ite (.call .cv_matchToken (.cons (.lit (.kws [","])) .nil))
                      (.block (.seq (.expr (.call .cv_next .nil))
                          (.assign2 (.var .m) .blank (.lib .atoi (.cons (.call .cv_next .nil) .nil)))))
                      .skip)
                    (.expr (.call .cv_next .nil))))))
            .skip)
          (.ret (.tuple (.cons (.var .n) (.cons (.var .m) .nil))))))) }

/-- converter.go:253-263 `convertConstraint`. -/
def cv_convertConstraint : Decl :=
  { params := [],
    body :=
    (.seq (.define (.var .constraint) (.lit (.obj .Constraint [(.Name, .str []), (.IsPrimaryKey, .bool false), (.IsUnique, .bool false), (.IsNotNull, .bool false), (.IsAutoincrement, .bool false), (.Default, .nil), (.Check, .str []), (.Collate, .str []), (.References, .obj .Reference [(.TableName, .str []), (.ColumnNames, .nil)])])))
      (.seq (.ite (.call .cv_matchToken (.cons (.lit (.kws ["CONSTRAINT"])) .nil))
          (.block (.seq (.expr (.call .cv_next .nil))
              (.ite (.not (.call .cv_matchToken (.cons (.lit (.kws ["PRIMARY", "UNIQUE", "NOT", "AUTOINCREMENT", "AUTO_INCREMENT", "DEFAULT", "CHECK", "REFERENCES", "COLLATE"])) .nil)))
                (.block (.assign (.fld .constraint .Name) (.call .cv_convertName .nil)))
                .skip)))
          .skip)
        (.seq (.expr (.call .cv_convertConstraintAux (.cons (.addr .constraint) .nil)))
          (.ret (.var .constraint))))) }

/-- converter.go:266-319 `convertConstraintAux`. -/
def cv_convertConstraintAux : Decl :=
  { params := [(.constraint, true)],
    body :=
    (.seq (.ite (.call .cv_matchToken (.cons (.lit (.kws [",", ")"])) .nil))
        (.block (.ret (.tuple .nil)))
        .skip)
      (.seq (.ite (.call .cv_matchToken (.cons (.lit (.kws ["PRIMARY"])) .nil))
          (.block (.seq (.expr (.call .cv_next .nil))
              (.seq (.expr (.call .cv_next .nil))
                (.seq (.assign (.fld .constraint .IsPrimaryKey) (.lit (.bool true)))
                  (.seq (.expr (.call .cv_convertConstraintAux (.cons (.addr .constraint) .nil)))
                    (.ret (.tuple .nil)))))))
          .skip)
        (.seq (.ite (.call .cv_matchToken (.cons (.lit (.kws ["AUTOINCREMENT", "AUTO_INCREMENT"])) .nil))
            (.block (.seq (.expr (.call .cv_next .nil))
                (.seq (.assign (.fld .constraint .IsAutoincrement) (.lit (.bool true)))
                  (.seq (.expr (.call .cv_convertConstraintAux (.cons (.addr .constraint) .nil)))
                    (.ret (.tuple .nil))))))
            .skip)
          (.seq (.ite (.call .cv_matchToken (.cons (.lit (.kws ["NOT"])) .nil))
              (.block (.seq (.expr (.call .cv_next .nil))
                  (.seq (.expr (.call .cv_next .nil))
                    (.seq (.assign (.fld .constraint .IsNotNull) (.lit (.bool true)))
                      (.seq (.expr (.call .cv_convertConstraintAux (.cons (.addr .constraint) .nil)))
                        (.ret (.tuple .nil)))))))
              .skip)
            (.seq (.ite (.call .cv_matchToken (.cons (.lit (.kws ["UNIQUE"])) .nil))
                (.block (.seq (.expr (.call .cv_next .nil))
                    (.seq (.assign (.fld .constraint .IsUnique) (.lit (.bool true)))
                      (.seq (.expr (.call .cv_convertConstraintAux (.cons (.addr .constraint) .nil)))
                        (.ret (.tuple .nil))))))
                .skip)
              (.seq (.ite (.call .cv_matchToken (.cons (.lit (.kws ["DEFAULT"])) .nil))
                  (.block (.seq (.expr (.call .cv_next .nil))
                      (.seq (.assign (.fld .constraint .Default) (.call .cv_convertDefaultValue .nil))
                        (.seq (.expr (.call .cv_convertConstraintAux (.cons (.addr .constraint) .nil)))
                          (.ret (.tuple .nil))))))
                  .skip)
                (.seq (.ite (.call .cv_matchToken (.cons (.lit (.kws ["CHECK"])) .nil))
                    (.block (.seq (.expr (.call .cv_next .nil))
                        (.seq (.assign (.fld .constraint .Check) (.call .cv_convertExpr .nil))
                          (.seq (.expr (.call .cv_convertConstraintAux (.cons (.addr .constraint) .nil)))
                            (.ret (.tuple .nil))))))
                    .skip)
                  (.seq (.ite (.call .cv_matchToken (.cons (.lit (.kws ["COLLATE"])) .nil))
                      (.block (.seq (.expr (.call .cv_next .nil))
                          (.seq (.assign (.fld .constraint .Collate) (.call .cv_convertName .nil))
                            (.seq (.expr (.call .cv_convertConstraintAux (.cons (.addr .constraint) .nil)))
                              (.ret (.tuple .nil))))))
                      .skip)
                    (.ite (.call .cv_matchToken (.cons (.lit (.kws ["REFERENCES"])) .nil))
                      (.block (.seq (.assign (.fld .constraint .References) (.call .cv_convertReference .nil))
                          (.seq (.expr (.call .cv_convertConstraintAux (.cons (.addr .constraint) .nil)))
                            (.ret (.tuple .nil)))))
                      .skip))))))))) }

/-- converter.go:322-328 `convertDefaultValue`. -/
def cv_convertDefaultValue : Decl :=
  { params := [],
    body :=
    (.ite (.call .cv_matchToken (.cons (.lit (.kws ["("])) .nil))
      (.block (.ret (.call .cv_convertExpr .nil)))
      (.block (.ret (.call .cv_convertLiteralValue .nil)))) }

/-- converter.go:331-333 `convertExpr`. -/
def cv_convertExpr : Decl :=
  { params := [],
    body :=
    (.ret (.add (.add (.call .cv_next .nil) (.call .cv_convertExprAux .nil)) (.call .cv_next .nil))) }

/-- converter.go:336-344 `convertExprAux`. -/
def cv_convertExprAux : Decl :=
  { params := [],
    body :=
    (.seq (.ite (.call .cv_matchToken (.cons (.lit (.kws [")"])) .nil))
        (.block (.ret (.lit (.str (S "")))))
        .skip)
      (.seq (.ite (.call .cv_matchToken (.cons (.lit (.kws ["("])) .nil))
          (.block (.ret (.add (.call .cv_convertExpr .nil) (.call .cv_convertExprAux .nil))))
          .skip)
        (.ret (.add (.call .cv_next .nil) (.call .cv_convertExprAux .nil))))) }

/-- converter.go:347-366 `convertLiteralValue`. -/
def cv_convertLiteralValue : Decl :=
  { params := [],
    body :=
    (.seq (.define (.var .token) (.call .cv_next .nil))
      (.seq (.ite (.call .co_IsNumericToken (.cons (.var .token) .nil))
          (.block (.seq (.define2 (.var .n) .blank (.lib .parseFloat (.cons (.var .token) (.cons (.lit (.int 64)) .nil))))
              (.ret (.var .n))))
          .skip)
        (.seq (.ite (.call .cv_isStringValue (.cons (.var .token) .nil))
            (.block (.ret (.slice (.var .token) (.lit (.int 1)) (.sub (.lib .len (.cons (.var .token) .nil)) (.lit (.int 1))))))
            .skip)
          (.seq (.ite (.eq (.lib .toUpper (.cons (.var .token) .nil)) (.lit (.str (S "NULL"))))
              (.block (.ret (.lit .nil)))
              .skip)
            (.seq (.ite (.eq (.lib .toUpper (.cons (.var .token) .nil)) (.lit (.str (S "TRUE"))))
                (.block (.ret (.lit (.bool true))))
                .skip)
              (.seq (.ite (.eq (.lib .toUpper (.cons (.var .token) .nil)) (.lit (.str (S "FALSE"))))
                  (.block (.ret (.lit (.bool false))))
                  .skip)
                (.ret (.var .token)))))))) }

/-- converter.go:369-377 `convertReference`. -/
def cv_convertReference : Decl :=
  { params := [],
    body :=
    (.seq (.define (.var .reference) (.lit (.obj .Reference [(.TableName, .str []), (.ColumnNames, .nil)])))
      (.seq (.expr (.call .cv_next .nil))
        (.seq (.assign (.fld .reference .TableName) (.call .cv_convertName .nil))
          (.seq (.ite (.call .cv_matchToken (.cons (.lit (.kws ["("])) .nil))
              (.block (.assign (.fld .reference .ColumnNames) (.call .cv_convertCommaSeparatedColumnNames .nil)))
              .skip)
            (.ret (.var .reference)))))) }

/-- converter.go:380-421 `convertTableConstraint`. -/
def cv_convertTableConstraint : Decl :=
  { params := [(.tableConstraint, true)],
    body :=
    (.seq (.define (.var .name) (.lit (.str (S ""))))
      (.seq (.ite (.call .cv_matchToken (.cons (.lit (.kws ["CONSTRAINT"])) .nil))
          (.block (.seq (.expr (.call .cv_next .nil))
              (.ite (.not (.call .cv_matchToken (.cons (.lit (.kws ["PRIMARY", "UNIQUE", "CHECK", "FOREIGN"])) .nil)))
                (.block (.assign (.var .name) (.call .cv_convertName .nil)))
                .skip)))
          .skip)
        (.seq (.ite (.call .cv_matchToken (.cons (.lit (.kws ["PRIMARY"])) .nil))
            (.block (.seq (.define (.var .primaryKey) (.lit (.obj .PrimaryKey [(.Name, .str []), (.ColumnNames, .nil)])))
                (.seq (.expr (.call .cv_next .nil))
                  (.seq (.expr (.call .cv_next .nil))
                    (.seq (.assign (.fld .primaryKey .Name) (.var .name))
                      (.seq (.assign (.fld .primaryKey .ColumnNames) (.call .cv_convertCommaSeparatedColumnNames .nil))
                        (.assign (.fld .tableConstraint .PrimaryKey) (.lib .append (.cons (.sel (.var .tableConstraint) .PrimaryKey) (.cons (.var .primaryKey) .nil))))))))))
            (.block (.ite (.call .cv_matchToken (.cons (.lit (.kws ["UNIQUE"])) .nil))
                (.block (.seq (.define (.var .unique) (.lit (.obj .Unique [(.Name, .str []), (.ColumnNames, .nil)])))
                    (.seq (.expr (.call .cv_next .nil))
                      (.seq (.assign (.fld .unique .Name) (.var .name))
                        (.seq (.assign (.fld .unique .ColumnNames) (.call .cv_convertCommaSeparatedColumnNames .nil))
                          (.assign (.fld .tableConstraint .Unique) (.lib .append (.cons (.sel (.var .tableConstraint) .Unique) (.cons (.var .unique) .nil)))))))))
                (.block (.ite (.call .cv_matchToken (.cons (.lit (.kws ["CHECK"])) .nil))
                    (.block (.seq (.define (.var .check) (.lit (.obj .Check [(.Name, .str []), (.Expr, .str [])])))
                        (.seq (.expr (.call .cv_next .nil))
                          (.seq (.assign (.fld .check .Name) (.var .name))
                            (.seq (.assign (.fld .check .Expr) (.call .cv_convertExpr .nil))
                              (.assign (.fld .tableConstraint .Check) (.lib .append (.cons (.sel (.var .tableConstraint) .Check) (.cons (.var .check) .nil)))))))))
                    (.block (.ite (.call .cv_matchToken (.cons (.lit (.kws ["FOREIGN"])) .nil))
                        (.block (.seq (.define (.var .foreignKey) (.lit (.obj .ForeignKey [(.Name, .str []), (.ColumnNames, .nil), (.References, .obj .Reference [(.TableName, .str []), (.ColumnNames, .nil)])])))
                            (.seq (.expr (.call .cv_next .nil))
                              (.seq (.expr (.call .cv_next .nil))
                                (.seq (.assign (.fld .foreignKey .Name) (.var .name))
                                  (.seq (.assign (.fld .foreignKey .ColumnNames) (.call .cv_convertCommaSeparatedColumnNames .nil))
                                    (.seq (.assign (.fld .foreignKey .References) (.call .cv_convertReference .nil))
                                      (.assign (.fld .tableConstraint .ForeignKey) (.lib .append (.cons (.sel (.var .tableConstraint) .ForeignKey) (.cons (.var .foreignKey) .nil)))))))))))
                        .skip)))))))
          (.ret (.tuple .nil))))) }

/-- converter.go:424-439 `convertCommaSeparatedColumnNames`. -/
def cv_convertCommaSeparatedColumnNames : Decl :=
  { params := [],
    body :=
    (.seq (.expr (.call .cv_next .nil))
      (.seq (.define (.var .ls) (.lit (.strs [])))
        (.seq (.loop (.lit (.bool true))
            (.block (.seq (.ite (.call .cv_matchToken (.cons (.lit (.kws [")"])) .nil))
                  (.block .brk)
                  (.block (.ite (.call .cv_matchToken (.cons (.lit (.kws [","])) .nil))
                      (.block (.seq (.expr (.call .cv_next .nil))
                          .cont))
                      .skip)))
                (.seq (.assign (.var .ls) (.lib .append (.cons (.var .ls) (.cons (.call .cv_token .nil) .nil))))
                  (.expr (.call .cv_next .nil))))))
          (.seq (.expr (.call .cv_next .nil))
            (.ret (.var .ls)))))) }

end DDL.Src.Tree
