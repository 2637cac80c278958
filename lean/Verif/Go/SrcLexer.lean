import Verif.Go.Syntax
/-
Generated by tools/gen_go.py from the sources in /repo. Do not edit.
Syntax trees of internal/lexer/lexer.go.
-/

set_option maxRecDepth 4000

namespace DDL.Src.Tree

/-- lexer.go:57-59 `NewLexer`. -/
def lx_NewLexer : Decl :=
  { params := [(.rdbms, false)],
    body :=
    (.ret (.mk .lexer [(.rdbms, .str []), (.ddlr, .nil), (.size, .int 0), (.i, .int 0), (.line, .int 0), (.result, .nil)] .rdbms (.var .rdbms))) }

/-- lexer.go:62-68 `Lex`. -/
def lx_Lex : Decl :=
  { params := [(.ddl, false)],
    body :=
    (.seq (.expr (.call .lx_init (.cons (.var .ddl) .nil)))
      (.seq (.block (.seq (.define (.var .err) (.call .lx_lex .nil))
            (.ite (.ne (.var .err) (.lit .nil))
              (.block (.ret (.tuple (.cons (.lit (.strs [])) (.cons (.var .err) .nil)))))
              .skip)))
        (.ret (.tuple (.cons (.field .result) (.cons (.lit .nil) .nil)))))) }

/-- lexer.go:71-77 `init`. -/
def lx_init : Decl :=
  { params := [(.ddl, false)],
    body :=
    (.seq (.assign (.recv .ddlr) (.lib .runes (.cons (.var .ddl) .nil)))
      (.seq (.assign (.recv .size) (.lib .len (.cons (.field .ddlr) .nil)))
        (.seq (.assign (.recv .i) (.lit (.int 0)))
          (.seq (.assign (.recv .line) (.lit (.int 1)))
            (.assign (.recv .result) (.lit (.strs []))))))) }

/-- lexer.go:80-87 `next`. -/
def lx_next : Decl :=
  { params := [],
    body :=
    (.seq (.ite (.call .lx_isOutOfRange .nil)
        (.block (.ret (.lit (.str (S "<EOF>")))))
        .skip)
      (.seq (.define (.var .char) (.call .lx_char .nil))
        (.seq (.assign (.recv .i) (.add (.field .i) (.lit (.int 1))))
          (.ret (.var .char))))) }

/-- lexer.go:90-95 `char`. -/
def lx_char : Decl :=
  { params := [],
    body :=
    (.seq (.ite (.call .lx_isOutOfRange .nil)
        (.block (.ret (.lit (.str (S "<EOF>")))))
        .skip)
      (.ret (.lib .string (.cons (.index (.field .ddlr) (.field .i)) .nil)))) }

/-- lexer.go:98-102 `appendToken`. -/
def lx_appendToken : Decl :=
  { params := [(.token, false)],
    body :=
    (.ite (.ne (.var .token) (.lit (.str (S ""))))
      (.block (.assign (.recv .result) (.lib .append (.cons (.field .result) (.cons (.var .token) .nil)))))
      .skip) }

/-- lexer.go:105-107 `isOutOfRange`. -/
def lx_isOutOfRange : Decl :=
  { params := [],
    body :=
    (.ret (.gt (.field .i) (.sub (.field .size) (.lit (.int 1))))) }

/-- lexer.go:110-112 `lexError`. -/
def lx_lexError : Decl :=
  { params := [],
    body :=
    (.ret (.call .co_NewValidateError (.cons (.field .line) (.cons (.lib .string (.cons (.call .lx_char .nil) .nil)) .nil)))) }

/-- lexer.go:115-173 `lex`. -/
def lx_lex : Decl :=
  { params := [],
    body :=
    (.seq (.define (.var .token) (.lit (.str (S ""))))
      (.seq (.loop (.gt (.field .size) (.field .i))
          (.block (.seq (.define (.var .c) (.call .lx_char .nil))
              (.seq (.ite (.eq (.var .c) (.lit (.str (S "-"))))
                  (.block (.block (.seq (.define (.var .err) (.call .lx_lexHyphen (.cons (.addr .token) .nil)))
                        (.ite (.ne (.var .err) (.lit .nil))
                          (.block (.ret (.var .err)))
                          .skip))))
                  (.block (.ite (.eq (.var .c) (.lit (.str (S "/"))))
                      (.block (.block (.seq (.define (.var .err) (.call .lx_lexSlash (.cons (.addr .token) .nil)))
                            (.ite (.ne (.var .err) (.lit .nil))
                              (.block (.ret (.var .err)))
                              .skip))))
                      (.block (.ite (.eq (.var .c) (.lit (.str (S "*"))))
                          (.block (.block (.seq (.define (.var .err) (.call .lx_lexAsterisk (.cons (.addr .token) .nil)))
                                (.ite (.ne (.var .err) (.lit .nil))
                                  (.block (.ret (.var .err)))
                                  .skip))))
                          .skip)))))
                (.seq (.ite (.call .lx_isOutOfRange .nil)
                    (.block .brk)
                    .skip)
                  (.seq (.assign (.var .c) (.call .lx_char .nil))
                    (.ite (.eq (.var .c) (.lit (.str (S "\""))))
                      (.block (.block (.seq (.define (.var .err) (.call .lx_lexDoubleQuote (.cons (.addr .token) .nil)))
                            (.ite (.ne (.var .err) (.lit .nil))
                              (.block (.ret (.var .err)))
                              .skip))))
                      (.block (.ite (.eq (.var .c) (.lit (.str (S "'"))))
                          (.block (.block (.seq (.define (.var .err) (.call .lx_lexSingleQuote (.cons (.addr .token) .nil)))
                                (.ite (.ne (.var .err) (.lit .nil))
                                  (.block (.ret (.var .err)))
                                  .skip))))
                          (.block (.ite (.eq (.var .c) (.lit (.str (S "`"))))
                              (.block (.block (.seq (.define (.var .err) (.call .lx_lexBackQuote (.cons (.addr .token) .nil)))
                                    (.ite (.ne (.var .err) (.lit .nil))
                                      (.block (.ret (.var .err)))
                                      .skip))))
                              (.block (.ite (.eq (.var .c) (.lit (.str (S "#"))))
                                  (.block (.expr (.call .lx_lexSharp (.cons (.addr .token) .nil))))
                                  (.block (.ite (.or (.eq (.var .c) (.lit (.str (S " ")))) (.eq (.var .c) (.lit (.str (S "\t")))))
                                      (.block (.expr (.call .lx_lexSpace (.cons (.addr .token) .nil))))
                                      (.block (.ite (.eq (.var .c) (.lit (.str (S "\n"))))
                                          (.block (.expr (.call .lx_lexEOL (.cons (.addr .token) .nil))))
                                          (.block (.ite (.or (.or (.or (.or (.eq (.var .c) (.lit (.str (S "(")))) (.eq (.var .c) (.lit (.str (S ")"))))) (.eq (.var .c) (.lit (.str (S ","))))) (.eq (.var .c) (.lit (.str (S "."))))) (.eq (.var .c) (.lit (.str (S ";")))))
                                            (.block (.expr (.call .lx_lexSymbol (.cons (.addr .token) .nil))))
                                            (.block (.ite (.eq (.var .c) (.lit (.str (S "　"))))
                                            (.block (.ret (.call .lx_lexError .nil)))
                                            (.block (.seq (.assign (.var .token) (.add (.var .token) (.var .c)))
                                            (.expr (.call .lx_next .nil)))))))))))))))))))))))))
        (.seq (.expr (.call .lx_appendToken (.cons (.var .token) .nil)))
          (.ret (.lit .nil))))) }

/-- lexer.go:176-190 `lexHyphen`. -/
def lx_lexHyphen : Decl :=
  { params := [(.token, true)],
    body :=
    (.seq (.define (.var .c) (.call .lx_char .nil))
      (.seq (.ite (.eq (.var .c) (.lit (.str (S "-"))))
          (.block (.seq (.expr (.call .lx_next .nil))
              (.ite (.eq (.call .lx_char .nil) (.lit (.str (S "-"))))
                (.block (.seq (.expr (.call .lx_appendToken (.cons (.var .token) .nil)))
                    (.seq (.assign (.var .token) (.lit (.str (S ""))))
                      (.expr (.call .lx_skipComment .nil)))))
                (.block (.assign (.var .token) (.add (.var .token) (.var .c)))))))
          .skip)
        (.ret (.lit .nil)))) }

/-- lexer.go:193-208 `lexSlash`. -/
def lx_lexSlash : Decl :=
  { params := [(.token, true)],
    body :=
    (.seq (.define (.var .c) (.call .lx_char .nil))
      (.seq (.ite (.eq (.var .c) (.lit (.str (S "/"))))
          (.block (.seq (.expr (.call .lx_next .nil))
              (.ite (.eq (.call .lx_char .nil) (.lit (.str (S "*"))))
                (.block (.seq (.expr (.call .lx_appendToken (.cons (.var .token) .nil)))
                    (.seq (.assign (.var .token) (.lit (.str (S ""))))
                      (.block (.seq (.define (.var .err) (.call .lx_skipMultiLineComment .nil))
                          (.ite (.ne (.var .err) (.lit .nil))
                            (.block (.ret (.var .err)))
                            .skip))))))
                (.block (.assign (.var .token) (.add (.var .token) (.var .c)))))))
          .skip)
        (.ret (.lit .nil)))) }

/-- lexer.go:211-223 `lexAsterisk`. -/
def lx_lexAsterisk : Decl :=
  { params := [(.token, true)],
    body :=
    (.seq (.define (.var .c) (.call .lx_char .nil))
      (.seq (.ite (.eq (.var .c) (.lit (.str (S "*"))))
          (.block (.seq (.expr (.call .lx_next .nil))
              (.ite (.eq (.call .lx_char .nil) (.lit (.str (S "/"))))
                (.block (.seq (.assign (.recv .i) (.sub (.field .i) (.lit (.int 1))))
                    (.ret (.call .lx_lexError .nil))))
                (.block (.assign (.var .token) (.add (.var .token) (.var .c)))))))
          .skip)
        (.ret (.lit .nil)))) }

/-- lexer.go:226-238 `lexDoubleQuote`. -/
def lx_lexDoubleQuote : Decl :=
  { params := [(.token, true)],
    body :=
    (.seq (.define (.var .c) (.call .lx_char .nil))
      (.seq (.ite (.eq (.var .c) (.lit (.str (S "\""))))
          (.block (.seq (.expr (.call .lx_appendToken (.cons (.var .token) .nil)))
              (.seq (.assign (.var .token) (.lit (.str (S ""))))
                (.seq (.define2 (.var .str) (.var .err) (.call .lx_lexStringDoubleQuote .nil))
                  (.seq (.ite (.ne (.var .err) (.lit .nil))
                      (.block (.ret (.var .err)))
                      .skip)
                    (.expr (.call .lx_appendToken (.cons (.var .str) .nil))))))))
          .skip)
        (.ret (.lit .nil)))) }

/-- lexer.go:241-253 `lexSingleQuote`. -/
def lx_lexSingleQuote : Decl :=
  { params := [(.token, true)],
    body :=
    (.seq (.define (.var .c) (.call .lx_char .nil))
      (.seq (.ite (.eq (.var .c) (.lit (.str (S "'"))))
          (.block (.seq (.expr (.call .lx_appendToken (.cons (.var .token) .nil)))
              (.seq (.assign (.var .token) (.lit (.str (S ""))))
                (.seq (.define2 (.var .str) (.var .err) (.call .lx_lexStringSingleQuote .nil))
                  (.seq (.ite (.ne (.var .err) (.lit .nil))
                      (.block (.ret (.var .err)))
                      .skip)
                    (.expr (.call .lx_appendToken (.cons (.var .str) .nil))))))))
          .skip)
        (.ret (.lit .nil)))) }

/-- lexer.go:256-271 `lexBackQuote`. -/
def lx_lexBackQuote : Decl :=
  { params := [(.token, true)],
    body :=
    (.seq (.ite (.eq (.field .rdbms) (.lit (.rdbms .postgres)))
        (.block (.ret (.call .lx_lexError .nil)))
        .skip)
      (.seq (.define (.var .c) (.call .lx_char .nil))
        (.seq (.ite (.eq (.var .c) (.lit (.str (S "`"))))
            (.block (.seq (.expr (.call .lx_appendToken (.cons (.var .token) .nil)))
                (.seq (.assign (.var .token) (.lit (.str (S ""))))
                  (.seq (.define2 (.var .str) (.var .err) (.call .lx_lexStringBackQuote .nil))
                    (.seq (.ite (.ne (.var .err) (.lit .nil))
                        (.block (.ret (.var .err)))
                        .skip)
                      (.expr (.call .lx_appendToken (.cons (.var .str) .nil))))))))
            .skip)
          (.ret (.lit .nil))))) }

/-- lexer.go:274-287 `lexSharp`. -/
def lx_lexSharp : Decl :=
  { params := [(.token, true)],
    body :=
    (.seq (.define (.var .c) (.call .lx_char .nil))
      (.seq (.ite (.eq (.var .c) (.lit (.str (S "#"))))
          (.block (.ite (.eq (.field .rdbms) (.lit (.rdbms .mysql)))
              (.block (.seq (.expr (.call .lx_appendToken (.cons (.var .token) .nil)))
                  (.seq (.assign (.var .token) (.lit (.str (S ""))))
                    (.expr (.call .lx_skipComment .nil)))))
              (.block (.seq (.assign (.var .token) (.add (.var .token) (.var .c)))
                  (.expr (.call .lx_next .nil))))))
          .skip)
        (.ret (.tuple .nil)))) }

/-- lexer.go:290-300 `lexEOL`. -/
def lx_lexEOL : Decl :=
  { params := [(.token, true)],
    body :=
    (.seq (.define (.var .c) (.call .lx_char .nil))
      (.seq (.ite (.eq (.var .c) (.lit (.str (S "\n"))))
          (.block (.seq (.assign (.recv .line) (.add (.field .line) (.lit (.int 1))))
              (.seq (.expr (.call .lx_appendToken (.cons (.var .token) .nil)))
                (.seq (.expr (.call .lx_appendToken (.cons (.var .c) .nil)))
                  (.assign (.var .token) (.lit (.str (S ""))))))))
          .skip)
        (.seq (.expr (.call .lx_next .nil))
          (.ret (.tuple .nil))))) }

/-- lexer.go:303-311 `lexSpace`. -/
def lx_lexSpace : Decl :=
  { params := [(.token, true)],
    body :=
    (.seq (.define (.var .c) (.call .lx_char .nil))
      (.seq (.ite (.or (.eq (.var .c) (.lit (.str (S " ")))) (.eq (.var .c) (.lit (.str (S "\t")))))
          (.block (.seq (.expr (.call .lx_appendToken (.cons (.var .token) .nil)))
              (.assign (.var .token) (.lit (.str (S ""))))))
          .skip)
        (.seq (.expr (.call .lx_next .nil))
          (.ret (.tuple .nil))))) }

/-- lexer.go:314-323 `lexSymbol`. -/
def lx_lexSymbol : Decl :=
  { params := [(.token, true)],
    body :=
    (.seq (.define (.var .c) (.call .lx_char .nil))
      (.seq (.ite (.or (.or (.or (.or (.eq (.var .c) (.lit (.str (S "(")))) (.eq (.var .c) (.lit (.str (S ")"))))) (.eq (.var .c) (.lit (.str (S ","))))) (.eq (.var .c) (.lit (.str (S "."))))) (.eq (.var .c) (.lit (.str (S ";")))))
          (.block (.seq (.expr (.call .lx_appendToken (.cons (.var .token) .nil)))
              (.seq (.expr (.call .lx_appendToken (.cons (.var .c) .nil)))
                (.assign (.var .token) (.lit (.str (S "")))))))
          .skip)
        (.seq (.expr (.call .lx_next .nil))
          (.ret (.tuple .nil))))) }

/-- lexer.go:326-338 `skipComment`. -/
def lx_skipComment : Decl :=
  { params := [],
    body :=
    (.seq (.expr (.call .lx_next .nil))
      (.seq (.loop (.not (.call .lx_isOutOfRange .nil))
          (.block (.seq (.ite (.eq (.call .lx_char .nil) (.lit (.str (S "\n"))))
                (.block (.seq (.assign (.recv .line) (.add (.field .line) (.lit (.int 1))))
                    (.seq (.expr (.call .lx_appendToken (.cons (.lit (.str (S "\n"))) .nil)))
                      .brk)))
                .skip)
              (.expr (.call .lx_next .nil)))))
        (.seq (.expr (.call .lx_next .nil))
          (.ret (.tuple .nil))))) }

/-- lexer.go:341-364 `skipMultiLineComment`. -/
def lx_skipMultiLineComment : Decl :=
  { params := [],
    body :=
    (.seq (.expr (.call .lx_next .nil))
      (.seq (.define (.var .c) (.lit (.str (S ""))))
        (.seq (.loop (.not (.call .lx_isOutOfRange .nil))
            (.block (.seq (.assign (.var .c) (.call .lx_char .nil))
                (.seq (.ite (.eq (.var .c) (.lit (.str (S "\n"))))
                    (.block (.seq (.assign (.recv .line) (.add (.field .line) (.lit (.int 1))))
                        (.expr (.call .lx_appendToken (.cons (.lit (.str (S "\n"))) .nil)))))
                    (.block (.ite (.eq (.var .c) (.lit (.str (S "*"))))
                        (.block (.seq (.expr (.call .lx_next .nil))
                            (.ite (.eq (.call .lx_char .nil) (.lit (.str (S "/"))))
                              (.block (.seq (.expr (.call .lx_next .nil))
                                  (.ret (.lit .nil))))
                              .skip)))
                        (.block (.ite (.eq (.var .c) (.lit (.str (S "/"))))
                            (.block (.seq (.expr (.call .lx_next .nil))
                                (.ite (.eq (.call .lx_char .nil) (.lit (.str (S "*"))))
                                  (.block (.ret (.call .lx_skipMultiLineComment .nil)))
                                  .skip)))
                            .skip)))))
                  (.expr (.call .lx_next .nil))))))
          (.ret (.call .lx_lexError .nil))))) }

/-- lexer.go:367-397 `lexStringDoubleQuote`. -/
def lx_lexStringDoubleQuote : Decl :=
  { params := [],
    body :=
    (.seq (.expr (.call .lx_next .nil))
      (.seq (.define (.var .str) (.lit (.str (S "\""))))
        (.seq (.define (.var .c) (.lit (.str (S ""))))
          (.seq (.loop (.not (.call .lx_isOutOfRange .nil))
              (.block (.seq (.assign (.var .c) (.call .lx_char .nil))
                  (.seq (.ite (.eq (.var .c) (.lit (.str (S "\n"))))
                      (.block (.seq (.assign (.recv .line) (.add (.field .line) (.lit (.int 1))))
                          (.expr (.call .lx_appendToken (.cons (.lit (.str (S "\n"))) .nil)))))
                      (.block (.ite (.eq (.var .c) (.lit (.str (S "\""))))
                          (.block (.seq (.expr (.call .lx_next .nil))
                              (.ret (.tuple (.cons (.add (.var .str) (.var .c)) (.cons (.lit .nil) .nil))))))
                          (.block (.ite (.eq (.var .c) (.lit (.str (S "'"))))
                              (.block (.seq (.define2 (.var .s) (.var .err) (.call .lx_lexStringSingleQuote .nil))
                                  (.seq (.assign (.var .str) (.add (.var .str) (.var .s)))
                                    (.ite (.ne (.var .err) (.lit .nil))
                                      (.block (.ret (.tuple (.cons (.var .str) (.cons (.var .err) .nil)))))
                                      .skip))))
                              (.block (.ite (.eq (.var .c) (.lit (.str (S "`"))))
                                  (.block (.seq (.define2 (.var .s) (.var .err) (.call .lx_lexStringBackQuote .nil))
                                      (.seq (.assign (.var .str) (.add (.var .str) (.var .s)))
                                        (.ite (.ne (.var .err) (.lit .nil))
                                          (.block (.ret (.tuple (.cons (.var .str) (.cons (.var .err) .nil)))))
                                          .skip))))
                                  (.block (.assign (.var .str) (.add (.var .str) (.var .c)))))))))))
                    (.expr (.call .lx_next .nil))))))
            (.ret (.tuple (.cons (.var .str) (.cons (.call .lx_lexError .nil) .nil)))))))) }

/-- lexer.go:400-430 `lexStringSingleQuote`. -/
def lx_lexStringSingleQuote : Decl :=
  { params := [],
    body :=
    (.seq (.expr (.call .lx_next .nil))
      (.seq (.define (.var .str) (.lit (.str (S "'"))))
        (.seq (.define (.var .c) (.lit (.str (S ""))))
          (.seq (.loop (.not (.call .lx_isOutOfRange .nil))
              (.block (.seq (.assign (.var .c) (.call .lx_char .nil))
                  (.seq (.ite (.eq (.var .c) (.lit (.str (S "\n"))))
                      (.block (.seq (.assign (.recv .line) (.add (.field .line) (.lit (.int 1))))
                          (.expr (.call .lx_appendToken (.cons (.lit (.str (S "\n"))) .nil)))))
                      (.block (.ite (.eq (.var .c) (.lit (.str (S "'"))))
                          (.block (.seq (.expr (.call .lx_next .nil))
                              (.ret (.tuple (.cons (.add (.var .str) (.var .c)) (.cons (.lit .nil) .nil))))))
                          (.block (.ite (.eq (.var .c) (.lit (.str (S "\""))))
                              (.block (.seq (.define2 (.var .s) (.var .err) (.call .lx_lexStringDoubleQuote .nil))
                                  (.seq (.assign (.var .str) (.add (.var .str) (.var .s)))
                                    (.ite (.ne (.var .err) (.lit .nil))
                                      (.block (.ret (.tuple (.cons (.var .str) (.cons (.var .err) .nil)))))
                                      .skip))))
                              (.block (.ite (.eq (.var .c) (.lit (.str (S "`"))))
                                  (.block (.seq (.define2 (.var .s) (.var .err) (.call .lx_lexStringBackQuote .nil))
                                      (.seq (.assign (.var .str) (.add (.var .str) (.var .s)))
                                        (.ite (.ne (.var .err) (.lit .nil))
                                          (.block (.ret (.tuple (.cons (.var .str) (.cons (.var .err) .nil)))))
                                          .skip))))
                                  (.block (.assign (.var .str) (.add (.var .str) (.var .c)))))))))))
                    (.expr (.call .lx_next .nil))))))
            (.ret (.tuple (.cons (.var .str) (.cons (.call .lx_lexError .nil) .nil)))))))) }

/-- lexer.go:433-463 `lexStringBackQuote`. -/
def lx_lexStringBackQuote : Decl :=
  { params := [],
    body :=
    (.seq (.expr (.call .lx_next .nil))
      (.seq (.define (.var .str) (.lit (.str (S "`"))))
        (.seq (.define (.var .c) (.lit (.str (S ""))))
          (.seq (.loop (.not (.call .lx_isOutOfRange .nil))
              (.block (.seq (.assign (.var .c) (.call .lx_char .nil))
                  (.seq (.ite (.eq (.var .c) (.lit (.str (S "\n"))))
                      (.block (.seq (.assign (.recv .line) (.add (.field .line) (.lit (.int 1))))
                          (.expr (.call .lx_appendToken (.cons (.lit (.str (S "\n"))) .nil)))))
                      (.block (.ite (.eq (.var .c) (.lit (.str (S "`"))))
                          (.block (.seq (.expr (.call .lx_next .nil))
                              (.ret (.tuple (.cons (.add (.var .str) (.var .c)) (.cons (.lit .nil) .nil))))))
                          (.block (.ite (.eq (.var .c) (.lit (.str (S "\""))))
                              (.block (.seq (.define2 (.var .s) (.var .err) (.call .lx_lexStringDoubleQuote .nil))
                                  (.seq (.assign (.var .str) (.add (.var .str) (.var .s)))
                                    (.ite (.ne (.var .err) (.lit .nil))
                                      (.block (.ret (.tuple (.cons (.var .str) (.cons (.var .err) .nil)))))
                                      .skip))))
                              (.block (.ite (.eq (.var .c) (.lit (.str (S "'"))))
                                  (.block (.seq (.define2 (.var .s) (.var .err) (.call .lx_lexStringSingleQuote .nil))
                                      (.seq (.assign (.var .str) (.add (.var .str) (.var .s)))
                                        (.ite (.ne (.var .err) (.lit .nil))
                                          (.block (.ret (.tuple (.cons (.var .str) (.cons (.var .err) .nil)))))
                                          .skip))))
                                  (.block (.assign (.var .str) (.add (.var .str) (.var .c)))))))))))
                    (.expr (.call .lx_next .nil))))))
            (.ret (.tuple (.cons (.var .str) (.cons (.call .lx_lexError .nil) .nil)))))))) }

end DDL.Src.Tree
