import Verif.Spec.Ast
/-
Specification for C38: which scripts are still accepted after the syntax check has dropped the
tokens it does not pass on.
-/

namespace DDL.Spec

/-- The constraint appears in the result. -/
def ColCon.reported : ColCon → Bool
  | .null => false
  | .other _ => false
  | _ => true

/-- Without the constraints that are not reported, no `NOT NULL` directly follows `REFERENCES`.
(In SQLite the two may be adjacent only after such a constraint between them is dropped.) -/
def ColAst.Apart (c : ColAst) : Prop :=
  ∀ a r b, c.cons.filter ColCon.reported ≠ a ++ .references r :: .notNull :: b

/-- This holds for all columns of a script. -/
def Apart (ss : List Stmt) : Prop :=
  ∀ t, .table t ∈ ss → ∀ c, .column c ∈ t.items → c.Apart

end DDL.Spec
