import Verif.Go.Syntax
/-
Generated by tools/gen_go.py from the sources in /repo. Do not edit.
Syntax trees of internal/validator/validator.go.
-/

set_option maxRecDepth 4000

namespace DDL.Src.Tree

/-- validator.go:26-33 `NewValidator`. -/
def va_NewValidator : Decl :=
  { params := [(.rdbms, false)],
    body :=
    (.seq (.ite (.eq (.var .rdbms) (.lit (.rdbms .postgres)))
        (.block (.ret (.call .pg_NewPostgreSQLValidator .nil)))
        (.block (.ite (.eq (.var .rdbms) (.lit (.rdbms .mysql)))
            (.block (.ret (.call .my_NewMySQLValidator .nil)))
            .skip)))
      (.ret (.call .sq_NewSQLiteValidator .nil))) }

/-- validator.go:44-53 `init`. -/
def va_init : Decl :=
  { params := [(.tokens, false)],
    body :=
    (.seq (.assign (.recv .tokens) (.var .tokens))
      (.seq (.assign (.recv .size) (.lib .len (.cons (.field .tokens) .nil)))
        (.seq (.assign (.recv .i) (.lit (.int 0)))
          (.seq (.assign (.recv .line) (.lit (.int 1)))
            (.seq (.assign (.recv .result) (.lit (.strs [])))
              (.ite (.eq (.call .va_token .nil) (.lit (.str (S "\n"))))
                (.block (.expr (.call .va_next .nil)))
                .skip)))))) }

/-- validator.go:56-61 `token`. -/
def va_token : Decl :=
  { params := [],
    body :=
    (.seq (.ite (.call .va_isOutOfRange .nil)
        (.block (.ret (.lit (.str (S "<EOF>")))))
        .skip)
      (.ret (.index (.field .tokens) (.field .i)))) }

/-- validator.go:64-66 `set`. -/
def va_set : Decl :=
  { params := [(.token, false)],
    body :=
    (.assign (.recv .result) (.lib .append (.cons (.field .result) (.cons (.var .token) .nil)))) }

/-- validator.go:69-71 `isOutOfRange`. -/
def va_isOutOfRange : Decl :=
  { params := [],
    body :=
    (.ret (.gt (.field .i) (.sub (.field .size) (.lit (.int 1))))) }

/-- validator.go:74-91 `next`. -/
def va_next : Decl :=
  { params := [],
    body :=
    (.seq (.ite (.call .va_isOutOfRange .nil)
        (.block (.ret (.lit (.str (S "<EOF>")))))
        .skip)
      (.seq (.define (.var .token) (.call .va_token .nil))
        (.seq (.loop (.lit (.bool true))
            (.block (.seq (.assign (.recv .i) (.add (.field .i) (.lit (.int 1))))
                (.ite (.call .va_isOutOfRange .nil)
                  (.block .brk)
                  (.block (.ite (.eq (.call .va_token .nil) (.lit (.str (S "\n"))))
                      (.block (.seq (.assign (.recv .line) (.add (.field .line) (.lit (.int 1))))
                          .cont))
                      (.block .brk)))))))
          (.ret (.var .token))))) }

/-- validator.go:94-96 `syntaxError`. -/
def va_syntaxError : Decl :=
  { params := [],
    body :=
    (.ret (.call .co_NewValidateError (.cons (.field .line) (.cons (.call .va_token .nil) .nil)))) }

/-- validator.go:99-105 `matchToken`. -/
def va_matchToken : Decl :=
  { params := [(.keywords, false)],
    body :=
    (.ret (.call .co_Contains (.cons (.lib .appendAll (.cons (.call .co_MapSlice (.cons (.var .keywords) (.cons (.lit (.fn .toLower)) .nil))) (.cons (.call .co_MapSlice (.cons (.var .keywords) (.cons (.lit (.fn .toUpper)) .nil))) .nil))) (.cons (.call .va_token .nil) .nil)))) }

/-- validator.go:108-118 `matchTokenNext`. -/
def va_matchTokenNext : Decl :=
  { params := [(.«set», false), (.keywords, false)],
    body :=
    (.seq (.ite (.call .va_matchToken (.cons (.var .keywords) .nil))
        (.block (.seq (.ite (.var .«set»)
              (.block (.expr (.call .va_set (.cons (.call .va_next .nil) .nil))))
              (.block (.expr (.call .va_next .nil))))
            (.ret (.lit (.bool true)))))
        .skip)
      (.ret (.lit (.bool false)))) }

/-- validator.go:121-134 `validateToken`. -/
def va_validateToken : Decl :=
  { params := [(.«set», false), (.keywords, false)],
    body :=
    (.seq (.ite (.call .va_isOutOfRange .nil)
        (.block (.ret (.call .va_syntaxError .nil)))
        .skip)
      (.seq (.ite (.call .va_matchToken (.cons (.var .keywords) .nil))
          (.block (.seq (.ite (.var .«set»)
                (.block (.expr (.call .va_set (.cons (.call .va_next .nil) .nil))))
                (.block (.expr (.call .va_next .nil))))
              (.ret (.lit .nil))))
          .skip)
        (.ret (.call .va_syntaxError .nil)))) }

/-- validator.go:137-148 `validateBrackets`. -/
def va_validateBrackets : Decl :=
  { params := [(.«set», false)],
    body :=
    (.seq (.block (.seq (.define (.var .err) (.call .va_validateToken (.cons (.var .«set») (.cons (.lit (.kws ["("])) .nil))))
          (.ite (.ne (.var .err) (.lit .nil))
            (.block (.ret (.var .err)))
            .skip)))
      (.seq (.block (.seq (.define (.var .err) (.call .va_validateBracketsAux (.cons (.var .«set») .nil)))
            (.ite (.ne (.var .err) (.lit .nil))
              (.block (.ret (.var .err)))
              .skip)))
        (.seq (.block (.seq (.define (.var .err) (.call .va_validateToken (.cons (.var .«set») (.cons (.lit (.kws [")"])) .nil))))
              (.ite (.ne (.var .err) (.lit .nil))
                (.block (.ret (.var .err)))
                .skip)))
          (.ret (.lit .nil))))) }

/-- validator.go:151-167 `validateBracketsAux`. -/
def va_validateBracketsAux : Decl :=
  { params := [(.«set», false)],
    body :=
    (.seq (.ite (.call .va_matchToken (.cons (.lit (.kws [")"])) .nil))
        (.block (.ret (.lit .nil)))
        .skip)
      (.seq (.ite (.call .va_matchToken (.cons (.lit (.kws ["("])) .nil))
          (.block (.seq (.block (.seq (.define (.var .err) (.call .va_validateBrackets (.cons (.var .«set») .nil)))
                  (.ite (.ne (.var .err) (.lit .nil))
                    (.block (.ret (.var .err)))
                    .skip)))
              (.ret (.call .va_validateBracketsAux (.cons (.var .«set») .nil)))))
          .skip)
        (.seq (.ite (.var .«set»)
            (.block (.expr (.call .va_set (.cons (.call .va_next .nil) .nil))))
            (.block (.expr (.call .va_next .nil))))
          (.ret (.call .va_validateBracketsAux (.cons (.var .«set») .nil)))))) }

end DDL.Src.Tree
