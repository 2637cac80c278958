import Verif.Go.Syntax
/-
Generated by tools/gen_go.py from the sources in /repo. Do not edit.
Syntax trees of internal/common/constants.go, internal/common/errors.go, internal/common/utils.go.
-/

set_option maxRecDepth 4000

namespace DDL.Src.Tree

/-- errors.go:13-15 `NewValidateError`. -/
def co_NewValidateError : Decl :=
  { params := [(.line, false), (.near, false)],
    body :=
    (.ret (.lib .mkErr (.cons (.var .line) (.cons (.var .near) .nil)))) }

/-- utils.go:7-15 `Filter`. -/
def co_Filter : Decl :=
  { params := [(.slice, false), (.f, false)],
    body :=
    (.seq (.define (.var .ret) (.lit (.nil)))
      (.seq (.range .s (.var .slice)
          (.block (.ite (.callv .f (.cons (.var .s) .nil))
              (.block (.assign (.var .ret) (.lib .append (.cons (.var .ret) (.cons (.var .s) .nil)))))
              .skip)))
        (.ret (.var .ret)))) }

/-- utils.go:17-23 `MapSlice`. -/
def co_MapSlice : Decl :=
  { params := [(.slice, false), (.f, false)],
    body :=
    (.seq (.define (.var .ret) (.lit (.nil)))
      (.seq (.range .s (.var .slice)
          (.block (.assign (.var .ret) (.lib .append (.cons (.var .ret) (.cons (.callv .f (.cons (.var .s) .nil)) .nil))))))
        (.ret (.var .ret)))) }

/-- utils.go:25-32 `Contains`. -/
def co_Contains : Decl :=
  { params := [(.slice, false), (.key, false)],
    body :=
    (.seq (.range .s (.var .slice)
        (.block (.ite (.eq (.var .s) (.var .key))
            (.block (.ret (.lit (.bool true))))
            .skip)))
      (.ret (.lit (.bool false)))) }

/-- utils.go:34-44 `Remove`. -/
def co_Remove : Decl :=
  { params := [(.slice, false), (.element, false)],
    body :=
    (.seq (.define (.var .ret) (.lit (.nil)))
      (.seq (.range .v (.var .slice)
          (.block (.ite (.ne (.var .v) (.var .element))
              (.block (.assign (.var .ret) (.lib .append (.cons (.var .ret) (.cons (.var .v) .nil)))))
              .skip)))
        (.ret (.var .ret)))) }

/-- utils.go:46-52 `IsPositiveIntegerToken`. -/
def co_IsPositiveIntegerToken : Decl :=
  { params := [(.token, false)],
    body :=
    (.seq (.define2 (.var .n) (.var .err) (.lib .atoi (.cons (.var .token) .nil)))
      (.seq (.ite (.ne (.var .err) (.lit .nil))
          (.block (.ret (.lit (.bool false))))
          .skip)
        (.ret (.gt (.var .n) (.lit (.int 0)))))) }

/-- utils.go:54-57 `IsNumericToken`. -/
def co_IsNumericToken : Decl :=
  { params := [(.token, false)],
    body :=
    (.seq (.define2 .blank (.var .err) (.lib .parseFloat (.cons (.var .token) (.cons (.lit (.int 64)) .nil))))
      (.ret (.eq (.var .err) (.lit .nil)))) }

end DDL.Src.Tree
