import Verif.Spec.Obs
/-
What the dialects read differently although both accept it.
-/

namespace DDL.Spec

/-- The character `#` occurs in no token except quoted ones. -/
def SharpOnlyQuoted (toks : List Str) : Prop :=
  ∀ t ∈ toks, '#' ∈ t → ∃ q x, t = q :: x ∧ (q = '"' ∨ q = '\'' ∨ q = '`')

/-- No column has a CHECK directly followed by NOT NULL. -/
def NoCheckThenNotNull (ss : List Stmt) : Prop :=
  ∀ t, Stmt.table t ∈ ss → ∀ c, Item.column c ∈ t.items → ∀ a x b, c.cons ≠ a ++ .check x :: .notNull :: b

end DDL.Spec
