import Verif.Spec.Denote
import Verif.Spec.Print
/-
Specification, part 7: the scripts whose tables can be written out again (for C58).

What is left out is what the reported description does not keep: the blanks of an expression, which
quotes a quote stands in, that a default was an expression, the key parts that are not columns.
-/

namespace DDL.Spec
open DDL

/-- A token of a well-formed text: punctuation, a word without a comment mark, or quoted text without
quotes inside. -/
def PlainToken (d : Rdbms) (t : Str) : Prop := ∃ l : Lexeme, l.Ok d ∧ Solid l ∧ l.toks = [t]

/-- No comment mark arises where two tokens meet. -/
def Spaced : List Str → Prop
  | a :: b :: r => (∀ x y, a.getLast? = some x → b.head? = some y → (x, y) ∉ marks) ∧ Spaced (b :: r)
  | _ => True

/-- No quotes in the tokens. -/
def NoQuotes (e : List Str) : Prop := ∀ t ∈ e, ∀ c ∈ t, c ∉ quotes

/-- A key list with a column in it. -/
def HasColumn (ks : List KeyPart) : Prop := ∃ n, KeyPart.col n ∈ ks

/-- Column constraint. -/
def ColCon.Tidy : ColCon → Prop
  | .check e => Spaced e
  | .default (.expr e) => NoQuotes e
  | _ => True

/-- Entry. Key lists without a column exist only in MySQL. -/
def Item.Tidy (d : Rdbms) : Item → Prop
  | .column c => ∀ x ∈ c.cons, x.Tidy
  | .primaryKey _ ks => d = .mysql → HasColumn ks
  | .unique _ ks => d = .mysql → HasColumn ks
  | .check _ e => Spaced e
  | .foreignKey _ _ r => d = .mysql → ∀ cs, r.cols = some cs → HasColumn cs
  | _ => True

/-- The entries that are reported. -/
def Item.Reported : Item → Prop
  | .exclude _ => False
  | .index _ => False
  | .fulltext _ _ => False
  | _ => True

/-- Table: at least one entry is reported. -/
def TableAst.Tidy (d : Rdbms) (t : TableAst) : Prop :=
  (∀ i ∈ t.items, i.Tidy d) ∧ ∃ i ∈ t.items, i.Reported

/-- Script, as tokens and as statements. -/
def Tidy (d : Rdbms) (toks : List Str) (ss : List Stmt) : Prop :=
  (∀ t ∈ toks, PlainToken d t) ∧ ∀ t, Stmt.table t ∈ ss → t.Tidy d

end DDL.Spec
