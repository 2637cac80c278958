import Verif.Model.Basic
import Verif.Go.Names
/-
Syntax trees of the part of Go that the code in /repo is written in. tools/gen_go.py writes the sources as
terms of these types (Go/Src*.lean); Go/Semantics.lean gives them their meaning.
-/

namespace DDL.Src

/-- Library and built-in functions. -/
inductive Lib where
  /-- `strings.ToUpper` -/
  | toUpper
  /-- `strings.ToLower` -/
  | toLower
  /-- `strconv.Atoi` -/
  | atoi
  /-- `strconv.ParseFloat(·, 64)` -/
  | parseFloat
  /-- `regexp.MustCompile` -/
  | compile
  /-- `(*Regexp).MatchString` -/
  | matchString
  /-- `[]rune(·)` -/
  | runes
  /-- `string(·)` -/
  | string
  /-- `len` -/
  | len
  /-- `append(s, x)` -/
  | append
  /-- `append(s, t...)` -/
  | appendAll
  /-- `ValidateError{line, near}` -/
  | mkErr
  deriving DecidableEq, Repr

/-- Go values. -/
inductive Val where
  /-- nil slice, nil error, nil interface -/
  | nil
  | bool (b : Bool)
  | int (i : Int)
  | str (s : Str)
  | rune (c : Char)
  | runes (s : List Char)
  /-- the float64 that `strconv.ParseFloat` makes of this string -/
  | num (t : Str)
  /-- a value of type `common.Rdbms` -/
  | rdbms (d : Rdbms)
  /-- a `ValidateError` -/
  | err (line : Int) (near : Str)
  /-- an error made by the library -/
  | libErr
  /-- a `[]string` that is not nil -/
  | strs (l : List Str)
  /-- a `[]string` written as a literal in the code -/
  | kws (l : List String)
  /-- another slice that is not nil -/
  | slice (l : List Val)
  /-- a struct, or a pointer to a struct that has only one pointer to it -/
  | obj (t : Ty) (fs : List (Fld × Val))
  /-- several results -/
  | tuple (l : List Val)
  /-- a library function used as a value -/
  | fn (f : Lib)
  /-- a compiled regular expression -/
  | regexp (s : Str)

/-- Expressions. `nil` and `cons` make argument lists. -/
inductive Expr where
  | lit (v : Val)
  | var (x : Var)
  /-- field of the receiver -/
  | field (f : Fld)
  /-- field of a struct -/
  | sel (e : Expr) (f : Fld)
  | not (e : Expr)
  | and (a b : Expr)
  | or (a b : Expr)
  | eq (a b : Expr)
  | ne (a b : Expr)
  | add (a b : Expr)
  | sub (a b : Expr)
  | gt (a b : Expr)
  | index (a b : Expr)
  | slice (a lo hi : Expr)
  /-- `T{f: e}`, with the zero values of all fields -/
  | mk (t : Ty) (zero : List (Fld × Val)) (f : Fld) (e : Expr)
  /-- call of a function, or of a method on the receiver of the method the call is in -/
  | call (f : Fn) (args : Expr)
  /-- call of a method on a local variable of interface type -/
  | invoke (x : Var) (m : Mth) (args : Expr)
  /-- call of a local variable of function type -/
  | callv (x : Var) (args : Expr)
  | lib (f : Lib) (args : Expr)
  /-- `&x` as an argument, or a pointer parameter passed on -/
  | addr (x : Var)
  | tuple (args : Expr)
  | nil
  | cons (e es : Expr)

/-- Left-hand sides. -/
inductive Lhs where
  | blank
  | var (x : Var)
  | recv (f : Fld)
  | fld (x : Var) (f : Fld)

/-- Statements. -/
inductive Stmt where
  | skip
  | seq (a b : Stmt)
  /-- a new scope -/
  | block (a : Stmt)
  | expr (e : Expr)
  | define (x : Lhs) (e : Expr)
  | define2 (x y : Lhs) (e : Expr)
  | assign (x : Lhs) (e : Expr)
  | assign2 (x y : Lhs) (e : Expr)
  | ite (c : Expr) (t e : Stmt)
  | loop (c : Expr) (body : Stmt)
  /-- `for _, x := range e` -/
  | range (x : Var) (e : Expr) (body : Stmt)
  | ret (e : Expr)
  | brk
  | cont

/-- A function: its parameters (`true`: a pointer), its body. -/
structure Decl where
  params : List (Var × Bool)
  body : Stmt

end DDL.Src
