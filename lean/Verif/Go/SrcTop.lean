import Verif.Go.Syntax
/-
Generated by tools/gen_go.py from the sources in /repo. Do not edit.
Syntax trees of ddlparse.go.
-/

set_option maxRecDepth 4000

namespace DDL.Src.Tree

/-- ddlparse.go:36-52 `Parse`. -/
def dp_Parse : Decl :=
  { params := [(.ddl, false), (.rdbms, false)],
    body :=
    (.seq (.define (.var .l) (.call .lx_NewLexer (.cons (.var .rdbms) .nil)))
      (.seq (.define (.var .v) (.call .va_NewValidator (.cons (.var .rdbms) .nil)))
        (.seq (.define (.var .c) (.call .cv_NewConverter (.cons (.var .rdbms) .nil)))
          (.seq (.define2 (.var .tokens) (.var .err) (.invoke .l .Lex (.cons (.var .ddl) .nil)))
            (.seq (.ite (.ne (.var .err) (.lit .nil))
                (.block (.ret (.tuple (.cons (.lit (.slice [])) (.cons (.var .err) .nil)))))
                .skip)
              (.seq (.define2 (.var .validatedTokens) (.var .err) (.invoke .v .Validate (.cons (.var .tokens) .nil)))
                (.seq (.ite (.ne (.var .err) (.lit .nil))
                    (.block (.ret (.tuple (.cons (.lit (.slice [])) (.cons (.var .err) .nil)))))
                    .skip)
                  (.ret (.tuple (.cons (.invoke .c .Convert (.cons (.var .validatedTokens) .nil)) (.cons (.lit .nil) .nil))))))))))) }

/-- ddlparse.go:54-56 `ParseSQLite`. -/
def dp_ParseSQLite : Decl :=
  { params := [(.ddl, false)],
    body :=
    (.ret (.call .dp_Parse (.cons (.var .ddl) (.cons (.lit (.rdbms .sqlite)) .nil)))) }

/-- ddlparse.go:58-60 `ParsePostgreSQL`. -/
def dp_ParsePostgreSQL : Decl :=
  { params := [(.ddl, false)],
    body :=
    (.ret (.call .dp_Parse (.cons (.var .ddl) (.cons (.lit (.rdbms .postgres)) .nil)))) }

/-- ddlparse.go:62-64 `ParseMySQL`. -/
def dp_ParseMySQL : Decl :=
  { params := [(.ddl, false)],
    body :=
    (.ret (.call .dp_Parse (.cons (.var .ddl) (.cons (.lit (.rdbms .mysql)) .nil)))) }

/-- ddlparse.go:66-76 `ParseForce`. -/
def dp_ParseForce : Decl :=
  { params := [(.ddl, false)],
    body :=
    (.seq (.define (.var .ls) (.lit (.slice [.rdbms .sqlite, .rdbms .postgres, .rdbms .mysql])))
      (.seq (.define (.var .err) (.lit (.nil)))
        (.seq (.range .rdbms (.var .ls)
            (.block (.seq (.define2 (.var .tables) (.var .err) (.call .dp_Parse (.cons (.var .ddl) (.cons (.var .rdbms) .nil))))
                (.ite (.eq (.var .err) (.lit .nil))
                  (.block (.ret (.tuple (.cons (.var .tables) (.cons (.lit .nil) .nil)))))
                  .skip))))
          (.ret (.tuple (.cons (.lit (.slice [])) (.cons (.var .err) .nil))))))) }

end DDL.Src.Tree
