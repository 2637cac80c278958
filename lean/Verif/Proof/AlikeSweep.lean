import Verif.Proof.Alike
/-
Generated by tools/gen_alike.py: every validator function looks at the tokens only through the
tests of `AlikeV`, so it acts alike on alike tokens.
-/

namespace DDL
open V Spec

namespace V
open DDL V

theorem validateBracketsAux_alike {isNum : Str → Bool} {T : Str → Str → Prop} {d : Rdbms} (hT : AlikeV d isNum T) (set : Bool) (n : Nat) :
    PSim T (validateBracketsAux set n) (validateBracketsAux set n) := by
  induction n with
  | zero => exact .timeout
  | succ n ih => unfold validateBracketsAux; alike_all
macro_rules | `(tactic| alike_lem) => `(tactic| with_reducible apply validateBracketsAux_alike)

theorem validateBrackets_alike {isNum : Str → Bool} {T : Str → Str → Prop} {d : Rdbms} (hT : AlikeV d isNum T) (n : Nat) (set : Bool) :
    PSim T (validateBrackets n set) (validateBrackets n set) := by
  unfold validateBrackets; alike_all
macro_rules | `(tactic| alike_lem) => `(tactic| with_reducible apply validateBrackets_alike)

theorem validateTableName_alike {isNum : Str → Bool} {T : Str → Str → Prop} {d : Rdbms} (hT : AlikeV d isNum T) (set : Bool) :
    PSim T (validateTableName d set) (validateTableName d set) := by
  unfold validateTableName; alike_all
macro_rules | `(tactic| alike_lem) => `(tactic| with_reducible apply validateTableName_alike)

theorem validateCommaSeparatedColumnNames_alike {isNum : Str → Bool} {T : Str → Str → Prop} {d : Rdbms} (hT : AlikeV d isNum T) (set : Bool) (n : Nat) :
    PSim T (validateCommaSeparatedColumnNames d set n) (validateCommaSeparatedColumnNames d set n) := by
  induction n with
  | zero => exact .timeout
  | succ n ih => unfold validateCommaSeparatedColumnNames; alike_all
macro_rules | `(tactic| alike_lem) => `(tactic| with_reducible apply validateCommaSeparatedColumnNames_alike)

theorem validateExpr_alike {isNum : Str → Bool} {T : Str → Str → Prop} {d : Rdbms} (hT : AlikeV d isNum T) (n : Nat) (set : Bool) :
    PSim T (validateExpr n set) (validateExpr n set) := by
  unfold validateExpr; alike_all
macro_rules | `(tactic| alike_lem) => `(tactic| with_reducible apply validateExpr_alike)

theorem validateIfNotExists_alike {isNum : Str → Bool} {T : Str → Str → Prop} {d : Rdbms} (hT : AlikeV d isNum T) :
    PSim T (validateIfNotExists) (validateIfNotExists) := by
  unfold validateIfNotExists; alike_all
macro_rules | `(tactic| alike_lem) => `(tactic| with_reducible apply validateIfNotExists_alike)

theorem validateTypeDigitN_alike {isNum : Str → Bool} {T : Str → Str → Prop} {d : Rdbms} (hT : AlikeV d isNum T) (set : Bool) :
    PSim T (validateTypeDigitN set) (validateTypeDigitN set) := by
  unfold validateTypeDigitN; alike_all
macro_rules | `(tactic| alike_lem) => `(tactic| with_reducible apply validateTypeDigitN_alike)

theorem validateTypeDigitPS_alike {isNum : Str → Bool} {T : Str → Str → Prop} {d : Rdbms} (hT : AlikeV d isNum T) (set : Bool) :
    PSim T (validateTypeDigitPS set) (validateTypeDigitPS set) := by
  unfold validateTypeDigitPS; alike_all
macro_rules | `(tactic| alike_lem) => `(tactic| with_reducible apply validateTypeDigitPS_alike)

theorem validateConstraintReferencesAux_alike {isNum : Str → Bool} {T : Str → Str → Prop} {d : Rdbms} (hT : AlikeV d isNum T) (n : Nat) :
    PSim T (validateConstraintReferencesAux n) (validateConstraintReferencesAux n) := by
  induction n with
  | zero => exact .timeout
  | succ n ih => unfold validateConstraintReferencesAux; alike_all
macro_rules | `(tactic| alike_lem) => `(tactic| with_reducible apply validateConstraintReferencesAux_alike)

end V

namespace Sqlite
open DDL V

theorem validateColumnType_alike {isNum : Str → Bool} {T : Str → Str → Prop} (hT : AlikeV (.sqlite) isNum T) :
    PSim T (validateColumnType) (validateColumnType) := by
  unfold validateColumnType; alike_all
macro_rules | `(tactic| alike_lem) => `(tactic| with_reducible apply validateColumnType_alike)

theorem validateConflictClause_alike {isNum : Str → Bool} {T : Str → Str → Prop} (hT : AlikeV (.sqlite) isNum T) :
    PSim T (validateConflictClause) (validateConflictClause) := by
  unfold validateConflictClause; alike_all
macro_rules | `(tactic| alike_lem) => `(tactic| with_reducible apply validateConflictClause_alike)

theorem validateConstraintPrimaryKey_alike {isNum : Str → Bool} {T : Str → Str → Prop} (hT : AlikeV (.sqlite) isNum T) :
    PSim T (validateConstraintPrimaryKey) (validateConstraintPrimaryKey) := by
  unfold validateConstraintPrimaryKey; alike_all
macro_rules | `(tactic| alike_lem) => `(tactic| with_reducible apply validateConstraintPrimaryKey_alike)

theorem validateConstraintNotNull_alike {isNum : Str → Bool} {T : Str → Str → Prop} (hT : AlikeV (.sqlite) isNum T) :
    PSim T (validateConstraintNotNull) (validateConstraintNotNull) := by
  unfold validateConstraintNotNull; alike_all
macro_rules | `(tactic| alike_lem) => `(tactic| with_reducible apply validateConstraintNotNull_alike)

theorem validateConstraintUnique_alike {isNum : Str → Bool} {T : Str → Str → Prop} (hT : AlikeV (.sqlite) isNum T) :
    PSim T (validateConstraintUnique) (validateConstraintUnique) := by
  unfold validateConstraintUnique; alike_all
macro_rules | `(tactic| alike_lem) => `(tactic| with_reducible apply validateConstraintUnique_alike)

theorem validateConstraintCheck_alike {isNum : Str → Bool} {T : Str → Str → Prop} (hT : AlikeV (.sqlite) isNum T) (n : Nat) :
    PSim T (validateConstraintCheck n) (validateConstraintCheck n) := by
  unfold validateConstraintCheck; alike_all
macro_rules | `(tactic| alike_lem) => `(tactic| with_reducible apply validateConstraintCheck_alike)

theorem validateConstraintDefault_alike {isNum : Str → Bool} {T : Str → Str → Prop} (hT : AlikeV (.sqlite) isNum T) (n : Nat) :
    PSim T (validateConstraintDefault isNum n) (validateConstraintDefault isNum n) := by
  unfold validateConstraintDefault; alike_all
macro_rules | `(tactic| alike_lem) => `(tactic| with_reducible apply validateConstraintDefault_alike)

theorem validateConstraintCollate_alike {isNum : Str → Bool} {T : Str → Str → Prop} (hT : AlikeV (.sqlite) isNum T) :
    PSim T (validateConstraintCollate) (validateConstraintCollate) := by
  unfold validateConstraintCollate; alike_all
macro_rules | `(tactic| alike_lem) => `(tactic| with_reducible apply validateConstraintCollate_alike)

theorem validateConstraintReferencesAux_alike {isNum : Str → Bool} {T : Str → Str → Prop} (hT : AlikeV (.sqlite) isNum T) (n : Nat) :
    PSim T (validateConstraintReferencesAux n) (validateConstraintReferencesAux n) := by
  induction n with
  | zero => exact .timeout
  | succ n ih => unfold validateConstraintReferencesAux; alike_all
macro_rules | `(tactic| alike_lem) => `(tactic| with_reducible apply validateConstraintReferencesAux_alike)

theorem validateConstraintReferences_alike {isNum : Str → Bool} {T : Str → Str → Prop} (hT : AlikeV (.sqlite) isNum T) (n : Nat) :
    PSim T (validateConstraintReferences n) (validateConstraintReferences n) := by
  unfold validateConstraintReferences; alike_all
macro_rules | `(tactic| alike_lem) => `(tactic| with_reducible apply validateConstraintReferences_alike)

theorem validateConstraintGenerated_alike {isNum : Str → Bool} {T : Str → Str → Prop} (hT : AlikeV (.sqlite) isNum T) (n : Nat) :
    PSim T (validateConstraintGenerated n) (validateConstraintGenerated n) := by
  unfold validateConstraintGenerated; alike_all
macro_rules | `(tactic| alike_lem) => `(tactic| with_reducible apply validateConstraintGenerated_alike)

theorem validateColumnConstraint_alike {isNum : Str → Bool} {T : Str → Str → Prop} (hT : AlikeV (.sqlite) isNum T) (n : Nat) :
    PSim T (validateColumnConstraint isNum n) (validateColumnConstraint isNum n) := by
  unfold validateColumnConstraint; alike_all
macro_rules | `(tactic| alike_lem) => `(tactic| with_reducible apply validateColumnConstraint_alike)

theorem validateColumnConstraints_alike {isNum : Str → Bool} {T : Str → Str → Prop} (hT : AlikeV (.sqlite) isNum T) (n : Nat) :
    PSim T (validateColumnConstraints isNum n) (validateColumnConstraints isNum n) := by
  unfold validateColumnConstraints; alike_all
  exact PSim.columnConstraintsAux hT (by decide +kernel) (fun t t' ht h => h)
    (fun n => validateColumnConstraint_alike hT n) n []
macro_rules | `(tactic| alike_lem) => `(tactic| with_reducible apply validateColumnConstraints_alike)

theorem validateTableConstraintPrimaryKey_alike {isNum : Str → Bool} {T : Str → Str → Prop} (hT : AlikeV (.sqlite) isNum T) (n : Nat) :
    PSim T (validateTableConstraintPrimaryKey n) (validateTableConstraintPrimaryKey n) := by
  unfold validateTableConstraintPrimaryKey; alike_all
macro_rules | `(tactic| alike_lem) => `(tactic| with_reducible apply validateTableConstraintPrimaryKey_alike)

theorem validateTableConstraintUnique_alike {isNum : Str → Bool} {T : Str → Str → Prop} (hT : AlikeV (.sqlite) isNum T) (n : Nat) :
    PSim T (validateTableConstraintUnique n) (validateTableConstraintUnique n) := by
  unfold validateTableConstraintUnique; alike_all
macro_rules | `(tactic| alike_lem) => `(tactic| with_reducible apply validateTableConstraintUnique_alike)

theorem validateTableConstraintForeignKey_alike {isNum : Str → Bool} {T : Str → Str → Prop} (hT : AlikeV (.sqlite) isNum T) (n : Nat) :
    PSim T (validateTableConstraintForeignKey n) (validateTableConstraintForeignKey n) := by
  unfold validateTableConstraintForeignKey; alike_all
macro_rules | `(tactic| alike_lem) => `(tactic| with_reducible apply validateTableConstraintForeignKey_alike)

theorem validateTableConstraint_alike {isNum : Str → Bool} {T : Str → Str → Prop} (hT : AlikeV (.sqlite) isNum T) (n : Nat) :
    PSim T (validateTableConstraint n) (validateTableConstraint n) := by
  unfold validateTableConstraint; alike_all
macro_rules | `(tactic| alike_lem) => `(tactic| with_reducible apply validateTableConstraint_alike)

theorem validateColumnDefinition_alike {isNum : Str → Bool} {T : Str → Str → Prop} (hT : AlikeV (.sqlite) isNum T) (n : Nat) :
    PSim T (validateColumnDefinition isNum n) (validateColumnDefinition isNum n) := by
  unfold validateColumnDefinition; alike_all
macro_rules | `(tactic| alike_lem) => `(tactic| with_reducible apply validateColumnDefinition_alike)

theorem validateColumnDefinitions_alike {isNum : Str → Bool} {T : Str → Str → Prop} (hT : AlikeV (.sqlite) isNum T) (n : Nat) :
    PSim T (validateColumnDefinitions isNum n) (validateColumnDefinitions isNum n) := by
  induction n with
  | zero => exact .timeout
  | succ n ih => unfold validateColumnDefinitions; alike_all
macro_rules | `(tactic| alike_lem) => `(tactic| with_reducible apply validateColumnDefinitions_alike)

theorem validateTableOptions_alike {isNum : Str → Bool} {T : Str → Str → Prop} (hT : AlikeV (.sqlite) isNum T) :
    PSim T (validateTableOptions) (validateTableOptions) := by
  unfold validateTableOptions; alike_all
macro_rules | `(tactic| alike_lem) => `(tactic| with_reducible apply validateTableOptions_alike)

theorem validateTableDefinition_alike {isNum : Str → Bool} {T : Str → Str → Prop} (hT : AlikeV (.sqlite) isNum T) (n : Nat) :
    PSim T (validateTableDefinition isNum n) (validateTableDefinition isNum n) := by
  unfold validateTableDefinition; alike_all
macro_rules | `(tactic| alike_lem) => `(tactic| with_reducible apply validateTableDefinition_alike)

theorem validateCreateTable_alike {isNum : Str → Bool} {T : Str → Str → Prop} (hT : AlikeV (.sqlite) isNum T) (n : Nat) :
    PSim T (validateCreateTable isNum n) (validateCreateTable isNum n) := by
  unfold validateCreateTable; alike_all
macro_rules | `(tactic| alike_lem) => `(tactic| with_reducible apply validateCreateTable_alike)

theorem validateDdl_alike {isNum : Str → Bool} {T : Str → Str → Prop} (hT : AlikeV (.sqlite) isNum T) (n : Nat) :
    PSim T (validateDdl isNum n) (validateDdl isNum n) := by
  unfold validateDdl; alike_all
macro_rules | `(tactic| alike_lem) => `(tactic| with_reducible apply validateDdl_alike)

theorem validate_alike {isNum : Str → Bool} {T : Str → Str → Prop} (hT : AlikeV (.sqlite) isNum T) (n : Nat) :
    PSim T (validate isNum n) (validate isNum n) := by
  induction n with
  | zero => exact .timeout
  | succ n ih => unfold validate; alike_all
macro_rules | `(tactic| alike_lem) => `(tactic| with_reducible apply validate_alike)

end Sqlite

namespace Postgres
open DDL V

theorem validateColumnType_alike {isNum : Str → Bool} {T : Str → Str → Prop} (hT : AlikeV (.postgres) isNum T) :
    PSim T (validateColumnType) (validateColumnType) := by
  unfold validateColumnType; alike_all
macro_rules | `(tactic| alike_lem) => `(tactic| with_reducible apply validateColumnType_alike)

theorem validateIndexParameters_alike {isNum : Str → Bool} {T : Str → Str → Prop} (hT : AlikeV (.postgres) isNum T) (n : Nat) :
    PSim T (validateIndexParameters n) (validateIndexParameters n) := by
  unfold validateIndexParameters; alike_all
macro_rules | `(tactic| alike_lem) => `(tactic| with_reducible apply validateIndexParameters_alike)

theorem validateConstraintPrimaryKey_alike {isNum : Str → Bool} {T : Str → Str → Prop} (hT : AlikeV (.postgres) isNum T) (n : Nat) :
    PSim T (validateConstraintPrimaryKey n) (validateConstraintPrimaryKey n) := by
  unfold validateConstraintPrimaryKey; alike_all
macro_rules | `(tactic| alike_lem) => `(tactic| with_reducible apply validateConstraintPrimaryKey_alike)

theorem validateConstraintNotNull_alike {isNum : Str → Bool} {T : Str → Str → Prop} (hT : AlikeV (.postgres) isNum T) :
    PSim T (validateConstraintNotNull) (validateConstraintNotNull) := by
  unfold validateConstraintNotNull; alike_all
macro_rules | `(tactic| alike_lem) => `(tactic| with_reducible apply validateConstraintNotNull_alike)

theorem validateConstraintNull_alike {isNum : Str → Bool} {T : Str → Str → Prop} (hT : AlikeV (.postgres) isNum T) :
    PSim T (validateConstraintNull) (validateConstraintNull) := by
  unfold validateConstraintNull; alike_all
macro_rules | `(tactic| alike_lem) => `(tactic| with_reducible apply validateConstraintNull_alike)

theorem validateConstraintUnique_alike {isNum : Str → Bool} {T : Str → Str → Prop} (hT : AlikeV (.postgres) isNum T) (n : Nat) :
    PSim T (validateConstraintUnique n) (validateConstraintUnique n) := by
  unfold validateConstraintUnique; alike_all
macro_rules | `(tactic| alike_lem) => `(tactic| with_reducible apply validateConstraintUnique_alike)

theorem validateConstraintCheck_alike {isNum : Str → Bool} {T : Str → Str → Prop} (hT : AlikeV (.postgres) isNum T) (n : Nat) :
    PSim T (validateConstraintCheck n) (validateConstraintCheck n) := by
  unfold validateConstraintCheck; alike_all
macro_rules | `(tactic| alike_lem) => `(tactic| with_reducible apply validateConstraintCheck_alike)

theorem validateConstraintDefault_alike {isNum : Str → Bool} {T : Str → Str → Prop} (hT : AlikeV (.postgres) isNum T) (n : Nat) :
    PSim T (validateConstraintDefault isNum n) (validateConstraintDefault isNum n) := by
  unfold validateConstraintDefault; alike_all
macro_rules | `(tactic| alike_lem) => `(tactic| with_reducible apply validateConstraintDefault_alike)

theorem validateConstraintReferences_alike {isNum : Str → Bool} {T : Str → Str → Prop} (hT : AlikeV (.postgres) isNum T) (n : Nat) :
    PSim T (validateConstraintReferences n) (validateConstraintReferences n) := by
  unfold validateConstraintReferences; alike_all
macro_rules | `(tactic| alike_lem) => `(tactic| with_reducible apply validateConstraintReferences_alike)

theorem optBrackets_alike {isNum : Str → Bool} {T : Str → Str → Prop} (hT : AlikeV (.postgres) isNum T) (n : Nat) :
    PSim T (optBrackets n) (optBrackets n) := by
  unfold optBrackets; alike_all
macro_rules | `(tactic| alike_lem) => `(tactic| with_reducible apply optBrackets_alike)

theorem validateConstraintGenerated_alike {isNum : Str → Bool} {T : Str → Str → Prop} (hT : AlikeV (.postgres) isNum T) (n : Nat) :
    PSim T (validateConstraintGenerated n) (validateConstraintGenerated n) := by
  unfold validateConstraintGenerated; alike_all
macro_rules | `(tactic| alike_lem) => `(tactic| with_reducible apply validateConstraintGenerated_alike)

theorem validateColumnConstraint_alike {isNum : Str → Bool} {T : Str → Str → Prop} (hT : AlikeV (.postgres) isNum T) (n : Nat) :
    PSim T (validateColumnConstraint isNum n) (validateColumnConstraint isNum n) := by
  unfold validateColumnConstraint; alike_all
macro_rules | `(tactic| alike_lem) => `(tactic| with_reducible apply validateColumnConstraint_alike)

theorem validateColumnConstraints_alike {isNum : Str → Bool} {T : Str → Str → Prop} (hT : AlikeV (.postgres) isNum T) (n : Nat) :
    PSim T (validateColumnConstraints isNum n) (validateColumnConstraints isNum n) := by
  unfold validateColumnConstraints; alike_all
  exact PSim.columnConstraintsAux hT (by decide +kernel) (fun t t' ht h => by unfold constraintKey; rw [hT.kws (by decide +kernel) ht, h])
    (fun n => validateColumnConstraint_alike hT n) n []
macro_rules | `(tactic| alike_lem) => `(tactic| with_reducible apply validateColumnConstraints_alike)

theorem validateTableConstraintPrimaryKey_alike {isNum : Str → Bool} {T : Str → Str → Prop} (hT : AlikeV (.postgres) isNum T) (n : Nat) :
    PSim T (validateTableConstraintPrimaryKey n) (validateTableConstraintPrimaryKey n) := by
  unfold validateTableConstraintPrimaryKey; alike_all
macro_rules | `(tactic| alike_lem) => `(tactic| with_reducible apply validateTableConstraintPrimaryKey_alike)

theorem validateTableConstraintUnique_alike {isNum : Str → Bool} {T : Str → Str → Prop} (hT : AlikeV (.postgres) isNum T) (n : Nat) :
    PSim T (validateTableConstraintUnique n) (validateTableConstraintUnique n) := by
  unfold validateTableConstraintUnique; alike_all
macro_rules | `(tactic| alike_lem) => `(tactic| with_reducible apply validateTableConstraintUnique_alike)

theorem validateTableConstraintForeignKey_alike {isNum : Str → Bool} {T : Str → Str → Prop} (hT : AlikeV (.postgres) isNum T) (n : Nat) :
    PSim T (validateTableConstraintForeignKey n) (validateTableConstraintForeignKey n) := by
  unfold validateTableConstraintForeignKey; alike_all
macro_rules | `(tactic| alike_lem) => `(tactic| with_reducible apply validateTableConstraintForeignKey_alike)

theorem validateTableConstraintExclude_alike {isNum : Str → Bool} {T : Str → Str → Prop} (hT : AlikeV (.postgres) isNum T) (n : Nat) :
    PSim T (validateTableConstraintExclude n) (validateTableConstraintExclude n) := by
  unfold validateTableConstraintExclude; alike_all
macro_rules | `(tactic| alike_lem) => `(tactic| with_reducible apply validateTableConstraintExclude_alike)

theorem validateTableConstraint_alike {isNum : Str → Bool} {T : Str → Str → Prop} (hT : AlikeV (.postgres) isNum T) (n : Nat) :
    PSim T (validateTableConstraint n) (validateTableConstraint n) := by
  unfold validateTableConstraint; alike_all
macro_rules | `(tactic| alike_lem) => `(tactic| with_reducible apply validateTableConstraint_alike)

theorem validateColumnDefinition_alike {isNum : Str → Bool} {T : Str → Str → Prop} (hT : AlikeV (.postgres) isNum T) (n : Nat) :
    PSim T (validateColumnDefinition isNum n) (validateColumnDefinition isNum n) := by
  unfold validateColumnDefinition; alike_all
macro_rules | `(tactic| alike_lem) => `(tactic| with_reducible apply validateColumnDefinition_alike)

theorem validateColumnDefinitions_alike {isNum : Str → Bool} {T : Str → Str → Prop} (hT : AlikeV (.postgres) isNum T) (n : Nat) :
    PSim T (validateColumnDefinitions isNum n) (validateColumnDefinitions isNum n) := by
  induction n with
  | zero => exact .timeout
  | succ n ih => unfold validateColumnDefinitions; alike_all
macro_rules | `(tactic| alike_lem) => `(tactic| with_reducible apply validateColumnDefinitions_alike)

theorem validateTableOptionWith_alike {isNum : Str → Bool} {T : Str → Str → Prop} (hT : AlikeV (.postgres) isNum T) (n : Nat) :
    PSim T (validateTableOptionWith n) (validateTableOptionWith n) := by
  unfold validateTableOptionWith; alike_all
macro_rules | `(tactic| alike_lem) => `(tactic| with_reducible apply validateTableOptionWith_alike)

theorem validateTableOptionWithout_alike {isNum : Str → Bool} {T : Str → Str → Prop} (hT : AlikeV (.postgres) isNum T) :
    PSim T (validateTableOptionWithout) (validateTableOptionWithout) := by
  unfold validateTableOptionWithout; alike_all
macro_rules | `(tactic| alike_lem) => `(tactic| with_reducible apply validateTableOptionWithout_alike)

theorem validateTableOptionTablespace_alike {isNum : Str → Bool} {T : Str → Str → Prop} (hT : AlikeV (.postgres) isNum T) :
    PSim T (validateTableOptionTablespace) (validateTableOptionTablespace) := by
  unfold validateTableOptionTablespace; alike_all
macro_rules | `(tactic| alike_lem) => `(tactic| with_reducible apply validateTableOptionTablespace_alike)

theorem validateTableOptionInherits_alike {isNum : Str → Bool} {T : Str → Str → Prop} (hT : AlikeV (.postgres) isNum T) (n : Nat) :
    PSim T (validateTableOptionInherits n) (validateTableOptionInherits n) := by
  unfold validateTableOptionInherits; alike_all
macro_rules | `(tactic| alike_lem) => `(tactic| with_reducible apply validateTableOptionInherits_alike)

theorem validateTableOptionPartition_alike {isNum : Str → Bool} {T : Str → Str → Prop} (hT : AlikeV (.postgres) isNum T) (n : Nat) :
    PSim T (validateTableOptionPartition n) (validateTableOptionPartition n) := by
  unfold validateTableOptionPartition; alike_all
macro_rules | `(tactic| alike_lem) => `(tactic| with_reducible apply validateTableOptionPartition_alike)

theorem validateTableOptionUsing_alike {isNum : Str → Bool} {T : Str → Str → Prop} (hT : AlikeV (.postgres) isNum T) :
    PSim T (validateTableOptionUsing) (validateTableOptionUsing) := by
  unfold validateTableOptionUsing; alike_all
macro_rules | `(tactic| alike_lem) => `(tactic| with_reducible apply validateTableOptionUsing_alike)

theorem validateTableOption_alike {isNum : Str → Bool} {T : Str → Str → Prop} (hT : AlikeV (.postgres) isNum T) (n : Nat) :
    PSim T (validateTableOption n) (validateTableOption n) := by
  unfold validateTableOption; alike_all
macro_rules | `(tactic| alike_lem) => `(tactic| with_reducible apply validateTableOption_alike)

theorem validateTableOptions_alike {isNum : Str → Bool} {T : Str → Str → Prop} (hT : AlikeV (.postgres) isNum T) (n : Nat) :
    PSim T (validateTableOptions n) (validateTableOptions n) := by
  induction n with
  | zero => exact .timeout
  | succ n ih => unfold validateTableOptions; alike_all
macro_rules | `(tactic| alike_lem) => `(tactic| with_reducible apply validateTableOptions_alike)

theorem validateTableDefinition_alike {isNum : Str → Bool} {T : Str → Str → Prop} (hT : AlikeV (.postgres) isNum T) (n : Nat) :
    PSim T (validateTableDefinition isNum n) (validateTableDefinition isNum n) := by
  unfold validateTableDefinition; alike_all
macro_rules | `(tactic| alike_lem) => `(tactic| with_reducible apply validateTableDefinition_alike)

theorem validateCreateTable_alike {isNum : Str → Bool} {T : Str → Str → Prop} (hT : AlikeV (.postgres) isNum T) (n : Nat) :
    PSim T (validateCreateTable isNum n) (validateCreateTable isNum n) := by
  unfold validateCreateTable; alike_all
macro_rules | `(tactic| alike_lem) => `(tactic| with_reducible apply validateCreateTable_alike)

theorem validateDdl_alike {isNum : Str → Bool} {T : Str → Str → Prop} (hT : AlikeV (.postgres) isNum T) (n : Nat) :
    PSim T (validateDdl isNum n) (validateDdl isNum n) := by
  unfold validateDdl; alike_all
macro_rules | `(tactic| alike_lem) => `(tactic| with_reducible apply validateDdl_alike)

theorem validate_alike {isNum : Str → Bool} {T : Str → Str → Prop} (hT : AlikeV (.postgres) isNum T) (n : Nat) :
    PSim T (validate isNum n) (validate isNum n) := by
  induction n with
  | zero => exact .timeout
  | succ n ih => unfold validate; alike_all
macro_rules | `(tactic| alike_lem) => `(tactic| with_reducible apply validate_alike)

end Postgres

namespace Mysql
open DDL V

theorem validateIndexKeysAux_alike {isNum : Str → Bool} {T : Str → Str → Prop} (hT : AlikeV (.mysql) isNum T) (set : Bool) (n : Nat) :
    PSim T (validateIndexKeysAux set n) (validateIndexKeysAux set n) := by
  induction n with
  | zero => exact .timeout
  | succ n ih => unfold validateIndexKeysAux; alike_all
macro_rules | `(tactic| alike_lem) => `(tactic| with_reducible apply validateIndexKeysAux_alike)

theorem validateIndexKeys_alike {isNum : Str → Bool} {T : Str → Str → Prop} (hT : AlikeV (.mysql) isNum T) (n : Nat) (set : Bool) :
    PSim T (validateIndexKeys n set) (validateIndexKeys n set) := by
  unfold validateIndexKeys; alike_all
macro_rules | `(tactic| alike_lem) => `(tactic| with_reducible apply validateIndexKeys_alike)

theorem validateColumnType_alike {isNum : Str → Bool} {T : Str → Str → Prop} (hT : AlikeV (.mysql) isNum T) :
    PSim T (validateColumnType) (validateColumnType) := by
  unfold validateColumnType; alike_all
macro_rules | `(tactic| alike_lem) => `(tactic| with_reducible apply validateColumnType_alike)

theorem validateConstraintPrimaryKey_alike {isNum : Str → Bool} {T : Str → Str → Prop} (hT : AlikeV (.mysql) isNum T) :
    PSim T (validateConstraintPrimaryKey) (validateConstraintPrimaryKey) := by
  unfold validateConstraintPrimaryKey; alike_all
macro_rules | `(tactic| alike_lem) => `(tactic| with_reducible apply validateConstraintPrimaryKey_alike)

theorem validateConstraintNotNull_alike {isNum : Str → Bool} {T : Str → Str → Prop} (hT : AlikeV (.mysql) isNum T) :
    PSim T (validateConstraintNotNull) (validateConstraintNotNull) := by
  unfold validateConstraintNotNull; alike_all
macro_rules | `(tactic| alike_lem) => `(tactic| with_reducible apply validateConstraintNotNull_alike)

theorem validateConstraintNull_alike {isNum : Str → Bool} {T : Str → Str → Prop} (hT : AlikeV (.mysql) isNum T) :
    PSim T (validateConstraintNull) (validateConstraintNull) := by
  unfold validateConstraintNull; alike_all
macro_rules | `(tactic| alike_lem) => `(tactic| with_reducible apply validateConstraintNull_alike)

theorem validateConstraintUnique_alike {isNum : Str → Bool} {T : Str → Str → Prop} (hT : AlikeV (.mysql) isNum T) :
    PSim T (validateConstraintUnique) (validateConstraintUnique) := by
  unfold validateConstraintUnique; alike_all
macro_rules | `(tactic| alike_lem) => `(tactic| with_reducible apply validateConstraintUnique_alike)

theorem validateConstraintCheck_alike {isNum : Str → Bool} {T : Str → Str → Prop} (hT : AlikeV (.mysql) isNum T) (n : Nat) :
    PSim T (validateConstraintCheck n) (validateConstraintCheck n) := by
  unfold validateConstraintCheck; alike_all
macro_rules | `(tactic| alike_lem) => `(tactic| with_reducible apply validateConstraintCheck_alike)

theorem validateConstraintDefault_alike {isNum : Str → Bool} {T : Str → Str → Prop} (hT : AlikeV (.mysql) isNum T) (n : Nat) :
    PSim T (validateConstraintDefault isNum n) (validateConstraintDefault isNum n) := by
  unfold validateConstraintDefault; alike_all
macro_rules | `(tactic| alike_lem) => `(tactic| with_reducible apply validateConstraintDefault_alike)

theorem validateConstraintCollate_alike {isNum : Str → Bool} {T : Str → Str → Prop} (hT : AlikeV (.mysql) isNum T) :
    PSim T (validateConstraintCollate) (validateConstraintCollate) := by
  unfold validateConstraintCollate; alike_all
macro_rules | `(tactic| alike_lem) => `(tactic| with_reducible apply validateConstraintCollate_alike)

theorem validateConstraintReferences_alike {isNum : Str → Bool} {T : Str → Str → Prop} (hT : AlikeV (.mysql) isNum T) (n : Nat) :
    PSim T (validateConstraintReferences n) (validateConstraintReferences n) := by
  unfold validateConstraintReferences; alike_all
macro_rules | `(tactic| alike_lem) => `(tactic| with_reducible apply validateConstraintReferences_alike)

theorem validateConstraintGenerated_alike {isNum : Str → Bool} {T : Str → Str → Prop} (hT : AlikeV (.mysql) isNum T) (n : Nat) :
    PSim T (validateConstraintGenerated n) (validateConstraintGenerated n) := by
  unfold validateConstraintGenerated; alike_all
macro_rules | `(tactic| alike_lem) => `(tactic| with_reducible apply validateConstraintGenerated_alike)

theorem validateConstraintComment_alike {isNum : Str → Bool} {T : Str → Str → Prop} (hT : AlikeV (.mysql) isNum T) :
    PSim T (validateConstraintComment) (validateConstraintComment) := by
  unfold validateConstraintComment; alike_all
macro_rules | `(tactic| alike_lem) => `(tactic| with_reducible apply validateConstraintComment_alike)

theorem validateConstraintColumnFormat_alike {isNum : Str → Bool} {T : Str → Str → Prop} (hT : AlikeV (.mysql) isNum T) :
    PSim T (validateConstraintColumnFormat) (validateConstraintColumnFormat) := by
  unfold validateConstraintColumnFormat; alike_all
macro_rules | `(tactic| alike_lem) => `(tactic| with_reducible apply validateConstraintColumnFormat_alike)

theorem validateConstraintEngineAttribute_alike {isNum : Str → Bool} {T : Str → Str → Prop} (hT : AlikeV (.mysql) isNum T) :
    PSim T (validateConstraintEngineAttribute) (validateConstraintEngineAttribute) := by
  unfold validateConstraintEngineAttribute; alike_all
macro_rules | `(tactic| alike_lem) => `(tactic| with_reducible apply validateConstraintEngineAttribute_alike)

theorem validateConstraintStorage_alike {isNum : Str → Bool} {T : Str → Str → Prop} (hT : AlikeV (.mysql) isNum T) :
    PSim T (validateConstraintStorage) (validateConstraintStorage) := by
  unfold validateConstraintStorage; alike_all
macro_rules | `(tactic| alike_lem) => `(tactic| with_reducible apply validateConstraintStorage_alike)

theorem validateConstraintAutoincrement_alike {isNum : Str → Bool} {T : Str → Str → Prop} (hT : AlikeV (.mysql) isNum T) :
    PSim T (validateConstraintAutoincrement) (validateConstraintAutoincrement) := by
  unfold validateConstraintAutoincrement; alike_all
macro_rules | `(tactic| alike_lem) => `(tactic| with_reducible apply validateConstraintAutoincrement_alike)

theorem validateColumnConstraint_alike {isNum : Str → Bool} {T : Str → Str → Prop} (hT : AlikeV (.mysql) isNum T) (n : Nat) :
    PSim T (validateColumnConstraint isNum n) (validateColumnConstraint isNum n) := by
  unfold validateColumnConstraint; alike_all
macro_rules | `(tactic| alike_lem) => `(tactic| with_reducible apply validateColumnConstraint_alike)

theorem validateColumnConstraints_alike {isNum : Str → Bool} {T : Str → Str → Prop} (hT : AlikeV (.mysql) isNum T) (n : Nat) :
    PSim T (validateColumnConstraints isNum n) (validateColumnConstraints isNum n) := by
  unfold validateColumnConstraints; alike_all
  exact PSim.columnConstraintsAux hT (by decide +kernel) (fun t t' ht h => by
    unfold constraintKey
    rw [hT.kws (ks := ["NOT"]) (by decide +kernel) ht, hT.kws (ks := ["PRIMARY", "KEY"]) (by decide +kernel) ht,
      hT.kws (ks := ["GENERATED", "AS"]) (by decide +kernel) ht, h])
    (fun n => validateColumnConstraint_alike hT n) n []
macro_rules | `(tactic| alike_lem) => `(tactic| with_reducible apply validateColumnConstraints_alike)

theorem validateIndexType_alike {isNum : Str → Bool} {T : Str → Str → Prop} (hT : AlikeV (.mysql) isNum T) :
    PSim T (validateIndexType) (validateIndexType) := by
  unfold validateIndexType; alike_all
macro_rules | `(tactic| alike_lem) => `(tactic| with_reducible apply validateIndexType_alike)

theorem validateIndexOption_alike {isNum : Str → Bool} {T : Str → Str → Prop} (hT : AlikeV (.mysql) isNum T) (n : Nat) :
    PSim T (validateIndexOption isNum n) (validateIndexOption isNum n) := by
  induction n with
  | zero => exact .timeout
  | succ n ih => unfold validateIndexOption; alike_all
macro_rules | `(tactic| alike_lem) => `(tactic| with_reducible apply validateIndexOption_alike)

theorem optIndexType_alike {isNum : Str → Bool} {T : Str → Str → Prop} (hT : AlikeV (.mysql) isNum T) :
    PSim T (optIndexType) (optIndexType) := by
  unfold optIndexType; alike_all
macro_rules | `(tactic| alike_lem) => `(tactic| with_reducible apply optIndexType_alike)

theorem validateTableConstraintPrimaryKey_alike {isNum : Str → Bool} {T : Str → Str → Prop} (hT : AlikeV (.mysql) isNum T) (n : Nat) :
    PSim T (validateTableConstraintPrimaryKey isNum n) (validateTableConstraintPrimaryKey isNum n) := by
  unfold validateTableConstraintPrimaryKey; alike_all
macro_rules | `(tactic| alike_lem) => `(tactic| with_reducible apply validateTableConstraintPrimaryKey_alike)

theorem validateTableConstraintUnique_alike {isNum : Str → Bool} {T : Str → Str → Prop} (hT : AlikeV (.mysql) isNum T) (n : Nat) :
    PSim T (validateTableConstraintUnique isNum n) (validateTableConstraintUnique isNum n) := by
  unfold validateTableConstraintUnique; alike_all
macro_rules | `(tactic| alike_lem) => `(tactic| with_reducible apply validateTableConstraintUnique_alike)

theorem validateTableConstraintForeignKey_alike {isNum : Str → Bool} {T : Str → Str → Prop} (hT : AlikeV (.mysql) isNum T) (n : Nat) :
    PSim T (validateTableConstraintForeignKey n) (validateTableConstraintForeignKey n) := by
  unfold validateTableConstraintForeignKey; alike_all
macro_rules | `(tactic| alike_lem) => `(tactic| with_reducible apply validateTableConstraintForeignKey_alike)

theorem validateTableConstraintIndex_alike {isNum : Str → Bool} {T : Str → Str → Prop} (hT : AlikeV (.mysql) isNum T) (n : Nat) :
    PSim T (validateTableConstraintIndex isNum n) (validateTableConstraintIndex isNum n) := by
  unfold validateTableConstraintIndex; alike_all
macro_rules | `(tactic| alike_lem) => `(tactic| with_reducible apply validateTableConstraintIndex_alike)

theorem validateTableConstraintAux_alike {isNum : Str → Bool} {T : Str → Str → Prop} (hT : AlikeV (.mysql) isNum T) (n : Nat) :
    PSim T (validateTableConstraintAux isNum n) (validateTableConstraintAux isNum n) := by
  unfold validateTableConstraintAux; alike_all
macro_rules | `(tactic| alike_lem) => `(tactic| with_reducible apply validateTableConstraintAux_alike)

theorem validateTableConstraint_alike {isNum : Str → Bool} {T : Str → Str → Prop} (hT : AlikeV (.mysql) isNum T) (n : Nat) :
    PSim T (validateTableConstraint isNum n) (validateTableConstraint isNum n) := by
  unfold validateTableConstraint; alike_all
macro_rules | `(tactic| alike_lem) => `(tactic| with_reducible apply validateTableConstraint_alike)

theorem validateColumnDefinition_alike {isNum : Str → Bool} {T : Str → Str → Prop} (hT : AlikeV (.mysql) isNum T) (n : Nat) :
    PSim T (validateColumnDefinition isNum n) (validateColumnDefinition isNum n) := by
  unfold validateColumnDefinition; alike_all
macro_rules | `(tactic| alike_lem) => `(tactic| with_reducible apply validateColumnDefinition_alike)

theorem validateColumnDefinitions_alike {isNum : Str → Bool} {T : Str → Str → Prop} (hT : AlikeV (.mysql) isNum T) (n : Nat) :
    PSim T (validateColumnDefinitions isNum n) (validateColumnDefinitions isNum n) := by
  induction n with
  | zero => exact .timeout
  | succ n ih => unfold validateColumnDefinitions; alike_all
macro_rules | `(tactic| alike_lem) => `(tactic| with_reducible apply validateColumnDefinitions_alike)

theorem validateCommaSeparatedTableNames_alike {isNum : Str → Bool} {T : Str → Str → Prop} (hT : AlikeV (.mysql) isNum T) (set : Bool) (n : Nat) :
    PSim T (validateCommaSeparatedTableNames set n) (validateCommaSeparatedTableNames set n) := by
  induction n with
  | zero => exact .timeout
  | succ n ih => unfold validateCommaSeparatedTableNames; alike_all
macro_rules | `(tactic| alike_lem) => `(tactic| with_reducible apply validateCommaSeparatedTableNames_alike)

theorem validateTableOptionCommonLiteral_alike {isNum : Str → Bool} {T : Str → Str → Prop} (hT : AlikeV (.mysql) isNum T) :
    PSim T (validateTableOptionCommonLiteral isNum) (validateTableOptionCommonLiteral isNum) := by
  unfold validateTableOptionCommonLiteral; alike_all
macro_rules | `(tactic| alike_lem) => `(tactic| with_reducible apply validateTableOptionCommonLiteral_alike)

theorem validateTableOptionCommonString_alike {isNum : Str → Bool} {T : Str → Str → Prop} (hT : AlikeV (.mysql) isNum T) :
    PSim T (validateTableOptionCommonString) (validateTableOptionCommonString) := by
  unfold validateTableOptionCommonString; alike_all
macro_rules | `(tactic| alike_lem) => `(tactic| with_reducible apply validateTableOptionCommonString_alike)

theorem validateTableOptionCommonName_alike {isNum : Str → Bool} {T : Str → Str → Prop} (hT : AlikeV (.mysql) isNum T) :
    PSim T (validateTableOptionCommonName) (validateTableOptionCommonName) := by
  unfold validateTableOptionCommonName; alike_all
macro_rules | `(tactic| alike_lem) => `(tactic| with_reducible apply validateTableOptionCommonName_alike)

theorem validateTableOptionCommon01_alike {isNum : Str → Bool} {T : Str → Str → Prop} (hT : AlikeV (.mysql) isNum T) :
    PSim T (validateTableOptionCommon01) (validateTableOptionCommon01) := by
  unfold validateTableOptionCommon01; alike_all
macro_rules | `(tactic| alike_lem) => `(tactic| with_reducible apply validateTableOptionCommon01_alike)

theorem validateTableOptionCommon01Default_alike {isNum : Str → Bool} {T : Str → Str → Prop} (hT : AlikeV (.mysql) isNum T) :
    PSim T (validateTableOptionCommon01Default) (validateTableOptionCommon01Default) := by
  unfold validateTableOptionCommon01Default; alike_all
macro_rules | `(tactic| alike_lem) => `(tactic| with_reducible apply validateTableOptionCommon01Default_alike)

theorem validateTableOptionDirectory_alike {isNum : Str → Bool} {T : Str → Str → Prop} (hT : AlikeV (.mysql) isNum T) :
    PSim T (validateTableOptionDirectory isNum) (validateTableOptionDirectory isNum) := by
  unfold validateTableOptionDirectory; alike_all
macro_rules | `(tactic| alike_lem) => `(tactic| with_reducible apply validateTableOptionDirectory_alike)

theorem validateTableOptionTablespace_alike {isNum : Str → Bool} {T : Str → Str → Prop} (hT : AlikeV (.mysql) isNum T) :
    PSim T (validateTableOptionTablespace) (validateTableOptionTablespace) := by
  unfold validateTableOptionTablespace; alike_all
macro_rules | `(tactic| alike_lem) => `(tactic| with_reducible apply validateTableOptionTablespace_alike)

theorem validateTableOptionDefault_alike {isNum : Str → Bool} {T : Str → Str → Prop} (hT : AlikeV (.mysql) isNum T) :
    PSim T (validateTableOptionDefault) (validateTableOptionDefault) := by
  unfold validateTableOptionDefault; alike_all
macro_rules | `(tactic| alike_lem) => `(tactic| with_reducible apply validateTableOptionDefault_alike)

theorem validateTableOptionUnion_alike {isNum : Str → Bool} {T : Str → Str → Prop} (hT : AlikeV (.mysql) isNum T) (n : Nat) :
    PSim T (validateTableOptionUnion n) (validateTableOptionUnion n) := by
  unfold validateTableOptionUnion; alike_all
macro_rules | `(tactic| alike_lem) => `(tactic| with_reducible apply validateTableOptionUnion_alike)

theorem validateTableOptionInsertMethod_alike {isNum : Str → Bool} {T : Str → Str → Prop} (hT : AlikeV (.mysql) isNum T) :
    PSim T (validateTableOptionInsertMethod) (validateTableOptionInsertMethod) := by
  unfold validateTableOptionInsertMethod; alike_all
macro_rules | `(tactic| alike_lem) => `(tactic| with_reducible apply validateTableOptionInsertMethod_alike)

theorem validateTableOptionRowFormat_alike {isNum : Str → Bool} {T : Str → Str → Prop} (hT : AlikeV (.mysql) isNum T) :
    PSim T (validateTableOptionRowFormat) (validateTableOptionRowFormat) := by
  unfold validateTableOptionRowFormat; alike_all
macro_rules | `(tactic| alike_lem) => `(tactic| with_reducible apply validateTableOptionRowFormat_alike)

theorem validateTableOption_alike {isNum : Str → Bool} {T : Str → Str → Prop} (hT : AlikeV (.mysql) isNum T) (n : Nat) :
    PSim T (validateTableOption isNum n) (validateTableOption isNum n) := by
  unfold validateTableOption; alike_all
macro_rules | `(tactic| alike_lem) => `(tactic| with_reducible apply validateTableOption_alike)

theorem validateTableOptions_alike {isNum : Str → Bool} {T : Str → Str → Prop} (hT : AlikeV (.mysql) isNum T) (n : Nat) :
    PSim T (validateTableOptions isNum n) (validateTableOptions isNum n) := by
  induction n with
  | zero => exact .timeout
  | succ n ih => unfold validateTableOptions; alike_all
macro_rules | `(tactic| alike_lem) => `(tactic| with_reducible apply validateTableOptions_alike)

theorem validateTableDefinition_alike {isNum : Str → Bool} {T : Str → Str → Prop} (hT : AlikeV (.mysql) isNum T) (n : Nat) :
    PSim T (validateTableDefinition isNum n) (validateTableDefinition isNum n) := by
  unfold validateTableDefinition; alike_all
macro_rules | `(tactic| alike_lem) => `(tactic| with_reducible apply validateTableDefinition_alike)

theorem validateCreateTable_alike {isNum : Str → Bool} {T : Str → Str → Prop} (hT : AlikeV (.mysql) isNum T) (n : Nat) :
    PSim T (validateCreateTable isNum n) (validateCreateTable isNum n) := by
  unfold validateCreateTable; alike_all
macro_rules | `(tactic| alike_lem) => `(tactic| with_reducible apply validateCreateTable_alike)

theorem validateDdl_alike {isNum : Str → Bool} {T : Str → Str → Prop} (hT : AlikeV (.mysql) isNum T) (n : Nat) :
    PSim T (validateDdl isNum n) (validateDdl isNum n) := by
  unfold validateDdl; alike_all
macro_rules | `(tactic| alike_lem) => `(tactic| with_reducible apply validateDdl_alike)

theorem validate_alike {isNum : Str → Bool} {T : Str → Str → Prop} (hT : AlikeV (.mysql) isNum T) (n : Nat) :
    PSim T (validate isNum n) (validate isNum n) := by
  induction n with
  | zero => exact .timeout
  | succ n ih => unfold validate; alike_all
macro_rules | `(tactic| alike_lem) => `(tactic| with_reducible apply validate_alike)

end Mysql

end DDL
