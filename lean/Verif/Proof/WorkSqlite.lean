import Verif.Proof.WorkSweep
/-
The Sqlite validator does linear work (generated by tools/gen_work.py).
-/

namespace DDL.Sqlite
open DDL V Spec

def validateColumnType_l : LinF fun _ => validateColumnType := by
  constructor; intro n; unfold validateColumnType; lin
macro_rules | `(tactic| lin_lem) => `(tactic| with_reducible exact validateColumnType_l.2 0)

def validateConflictClause_l : LinF fun _ => validateConflictClause := by
  constructor; intro n; unfold validateConflictClause; lin
macro_rules | `(tactic| lin_lem) => `(tactic| with_reducible exact validateConflictClause_l.2 0)

def validateConstraintPrimaryKey_l : LinF fun _ => validateConstraintPrimaryKey := by
  constructor; intro n; unfold validateConstraintPrimaryKey; lin
macro_rules | `(tactic| lin_lem) => `(tactic| with_reducible exact validateConstraintPrimaryKey_l.2 0)

def validateConstraintNotNull_l : LinF fun _ => validateConstraintNotNull := by
  constructor; intro n; unfold validateConstraintNotNull; lin
macro_rules | `(tactic| lin_lem) => `(tactic| with_reducible exact validateConstraintNotNull_l.2 0)

def validateConstraintUnique_l : LinF fun _ => validateConstraintUnique := by
  constructor; intro n; unfold validateConstraintUnique; lin
macro_rules | `(tactic| lin_lem) => `(tactic| with_reducible exact validateConstraintUnique_l.2 0)

def validateConstraintCheck_l : LinF fun n => validateConstraintCheck n := by
  constructor; intro n; unfold validateConstraintCheck; lin
macro_rules | `(tactic| lin_lem) => `(tactic| with_reducible exact validateConstraintCheck_l.2 _)

def validateConstraintDefault_l {isNum : Str → Bool} (hN : NumOK isNum) : LinF fun n => validateConstraintDefault isNum n := by
  have _ := hN
  constructor; intro n; unfold validateConstraintDefault; lin
macro_rules | `(tactic| lin_lem) => `(tactic| with_reducible exact (validateConstraintDefault_l (by assumption)).2 _)

def validateConstraintCollate_l : LinF fun _ => validateConstraintCollate := by
  constructor; intro n; unfold validateConstraintCollate; lin
macro_rules | `(tactic| lin_lem) => `(tactic| with_reducible exact validateConstraintCollate_l.2 0)

def validateConstraintReferencesAux_l : LinF fun n => validateConstraintReferencesAux n := by
  refine ⟨⟨10, 200⟩, fun n => ?_⟩
  induction n with
  | zero => exact .timeout
  | succ n ih => lin_loop validateConstraintReferencesAux
macro_rules | `(tactic| lin_lem) => `(tactic| with_reducible exact validateConstraintReferencesAux_l.2 _)

def validateConstraintReferences_l : LinF fun n => validateConstraintReferences n := by
  constructor; intro n; unfold validateConstraintReferences; lin
macro_rules | `(tactic| lin_lem) => `(tactic| with_reducible exact validateConstraintReferences_l.2 _)

def validateConstraintGenerated_l : LinF fun n => validateConstraintGenerated n := by
  constructor; intro n; unfold validateConstraintGenerated; lin
macro_rules | `(tactic| lin_lem) => `(tactic| with_reducible exact validateConstraintGenerated_l.2 _)

def validateColumnConstraint_l {isNum : Str → Bool} (hN : NumOK isNum) : LinF fun n => validateColumnConstraint isNum n := by
  have _ := hN
  constructor; intro n; unfold validateColumnConstraint; lin
macro_rules | `(tactic| lin_lem) => `(tactic| with_reducible exact (validateColumnConstraint_l (by assumption)).2 _)

theorem columnConstraintsAux_l {isNum : Str → Bool} (hN : NumOK isNum) (n : Nat) (ls : List Str) :
    Lin (columnConstraintsAux columnConstraintKinds toUpper (validateColumnConstraint isNum) n ls) ⟨1, 100⟩ :=
  columnConstraintsAux_lin (validateColumnConstraint_l hN) (by krfl) n ls
macro_rules | `(tactic| lin_lem) => `(tactic| with_reducible exact columnConstraintsAux_l (by assumption) _ _)

def validateColumnConstraints_l {isNum : Str → Bool} (hN : NumOK isNum) : LinF fun n => validateColumnConstraints isNum n := by
  constructor; intro n; unfold validateColumnConstraints; lin
macro_rules | `(tactic| lin_lem) => `(tactic| with_reducible exact (validateColumnConstraints_l (by assumption)).2 _)

def validateTableConstraintPrimaryKey_l : LinF fun n => validateTableConstraintPrimaryKey n := by
  constructor; intro n; unfold validateTableConstraintPrimaryKey; lin
macro_rules | `(tactic| lin_lem) => `(tactic| with_reducible exact validateTableConstraintPrimaryKey_l.2 _)

def validateTableConstraintUnique_l : LinF fun n => validateTableConstraintUnique n := by
  constructor; intro n; unfold validateTableConstraintUnique; lin
macro_rules | `(tactic| lin_lem) => `(tactic| with_reducible exact validateTableConstraintUnique_l.2 _)

def validateTableConstraintForeignKey_l : LinF fun n => validateTableConstraintForeignKey n := by
  constructor; intro n; unfold validateTableConstraintForeignKey; lin
macro_rules | `(tactic| lin_lem) => `(tactic| with_reducible exact validateTableConstraintForeignKey_l.2 _)

def validateTableConstraint_l : LinF fun n => validateTableConstraint n := by
  constructor; intro n; unfold validateTableConstraint; lin
macro_rules | `(tactic| lin_lem) => `(tactic| with_reducible exact validateTableConstraint_l.2 _)

def validateColumnDefinition_l {isNum : Str → Bool} (hN : NumOK isNum) : LinF fun n => validateColumnDefinition isNum n := by
  have _ := hN
  constructor; intro n; unfold validateColumnDefinition; lin
macro_rules | `(tactic| lin_lem) => `(tactic| with_reducible exact (validateColumnDefinition_l (by assumption)).2 _)

def validateColumnDefinitions_l {isNum : Str → Bool} (hN : NumOK isNum) : LinF fun n => validateColumnDefinitions isNum n := by
  refine ⟨⟨0, 200⟩, fun n => ?_⟩
  have _ := hN
  induction n with
  | zero => exact .timeout
  | succ n ih => lin_loop validateColumnDefinitions
macro_rules | `(tactic| lin_lem) => `(tactic| with_reducible exact (validateColumnDefinitions_l (by assumption)).2 _)

def validateTableOptions_l : LinF fun _ => validateTableOptions := by
  constructor; intro n; unfold validateTableOptions; lin
macro_rules | `(tactic| lin_lem) => `(tactic| with_reducible exact validateTableOptions_l.2 0)

def validateTableDefinition_l {isNum : Str → Bool} (hN : NumOK isNum) : LinF fun n => validateTableDefinition isNum n := by
  have _ := hN
  constructor; intro n; unfold validateTableDefinition; lin
macro_rules | `(tactic| lin_lem) => `(tactic| with_reducible exact (validateTableDefinition_l (by assumption)).2 _)

def validateCreateTable_l {isNum : Str → Bool} (hN : NumOK isNum) : LinF fun n => validateCreateTable isNum n := by
  have _ := hN
  constructor; intro n; unfold validateCreateTable; lin
macro_rules | `(tactic| lin_lem) => `(tactic| with_reducible exact (validateCreateTable_l (by assumption)).2 _)

def validateCreateOther_l : LinF fun n => validateCreateOther otherKinds n := by
  constructor; intro n; unfold validateCreateOther; lin
macro_rules | `(tactic| lin_lem) => `(tactic| with_reducible exact validateCreateOther_l.2 _)

def validateDdl_l {isNum : Str → Bool} (hN : NumOK isNum) : LinF fun n => validateDdl isNum n := by
  have _ := hN
  constructor; intro n; unfold validateDdl; lin
macro_rules | `(tactic| lin_lem) => `(tactic| with_reducible exact (validateDdl_l (by assumption)).2 _)

def validate_l {isNum : Str → Bool} (hN : NumOK isNum) : LinF fun n => validate isNum n := by
  refine ⟨⟨10, 250⟩, fun n => ?_⟩
  have _ := hN
  induction n with
  | zero => exact .timeout
  | succ n ih => lin_loop validate
macro_rules | `(tactic| lin_lem) => `(tactic| with_reducible exact (validate_l (by assumption)).2 _)

end DDL.Sqlite
