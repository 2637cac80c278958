import Verif.Proof.Generic
import Verif.Model.Parse
/-
More fuel never changes the answer of a validator: every fuelled validator function with fuel
`n` is below (`Prog.Le`) the same function with fuel `n + 1`.
-/

namespace DDL
open V

/-- Extended after each lemma below. -/
syntax "le_lem" : tactic
macro_rules | `(tactic| le_lem) => `(tactic| fail)

macro "le_step" : tactic => `(tactic| first
  | with_reducible exact Prog.Le.refl _
  | assumption
  | le_lem
  | with_reducible apply Prog.Le.ifM
  | with_reducible apply Prog.Le.cond
  | with_reducible refine Prog.Le.bind ?_ (fun _ => ?_)
  | with_reducible refine Prog.Le.token (fun _ => ?_)
  | with_reducible refine Prog.Le.head (fun _ => ?_)
  | with_reducible refine Prog.Le.oob (fun _ => ?_)
  | with_reducible refine Prog.Le.adv _ ?_
  | with_reducible refine Prog.Le.emit _ ?_)

macro "le_all" : tactic => `(tactic| ((try simp only [Prog.bind_eq, Prog.pure_eq]); repeat' le_step))


namespace V

theorem validateBracketsAux_le (set : Bool) (n : Nat) : Prog.Le (validateBracketsAux set n) (validateBracketsAux set (n + 1)) := by
  induction n with
  | zero => exact .timeout _
  | succ n ih => unfold validateBracketsAux; le_all
macro_rules | `(tactic| le_lem) => `(tactic| with_reducible apply validateBracketsAux_le)

theorem validateBrackets_le (n : Nat) (set : Bool) : Prog.Le (validateBrackets n set) (validateBrackets (n + 1) set) := by
  unfold validateBrackets; le_all
macro_rules | `(tactic| le_lem) => `(tactic| with_reducible apply validateBrackets_le)

theorem validateCommaSeparatedColumnNames_le (d : Rdbms) (set : Bool) (n : Nat) : Prog.Le (validateCommaSeparatedColumnNames d set n) (validateCommaSeparatedColumnNames d set (n + 1)) := by
  induction n with
  | zero => exact .timeout _
  | succ n ih => unfold validateCommaSeparatedColumnNames; le_all
macro_rules | `(tactic| le_lem) => `(tactic| with_reducible apply validateCommaSeparatedColumnNames_le)

theorem validateExpr_le (n : Nat) (set : Bool) : Prog.Le (validateExpr n set) (validateExpr (n + 1) set) := by
  unfold validateExpr; le_all
macro_rules | `(tactic| le_lem) => `(tactic| with_reducible apply validateExpr_le)

theorem createOtherLoop_le  (n : Nat) (b : Bool) : Prog.Le (createOtherLoop  n b) (createOtherLoop  (n + 1) b) := by
  induction n generalizing b with
  | zero => exact .timeout _
  | succ n ih => unfold createOtherLoop; le_all; all_goals exact ih _
macro_rules | `(tactic| le_lem) => `(tactic| with_reducible apply createOtherLoop_le)

theorem validateCreateOther_le (kinds : List String) (n : Nat) : Prog.Le (validateCreateOther kinds n) (validateCreateOther kinds (n + 1)) := by
  unfold validateCreateOther; le_all
macro_rules | `(tactic| le_lem) => `(tactic| with_reducible apply validateCreateOther_le)

theorem validateConstraintReferencesAux_le  (n : Nat) : Prog.Le (validateConstraintReferencesAux  n) (validateConstraintReferencesAux  (n + 1)) := by
  induction n with
  | zero => exact .timeout _
  | succ n ih => unfold validateConstraintReferencesAux; le_all
macro_rules | `(tactic| le_lem) => `(tactic| with_reducible apply validateConstraintReferencesAux_le)

theorem columnConstraintsAux_le (isKind : List String) (key : Str → Str) {one : Nat → Prog Unit}
    (h : ∀ n, Prog.Le (one n) (one (n + 1))) (n : Nat) (ls : List Str) :
    Prog.Le (columnConstraintsAux isKind key one n ls) (columnConstraintsAux isKind key one (n + 1) ls) := by
  induction n generalizing ls with
  | zero => exact .timeout _
  | succ n ih => unfold columnConstraintsAux; le_all
                 · exact h _
                 · exact ih _
macro_rules | `(tactic| le_lem) => `(tactic| with_reducible refine columnConstraintsAux_le _ _ (fun _ => ?_) _ _)

end V

namespace Sqlite
open DDL V

theorem validateConstraintCheck_le (n : Nat) : Prog.Le (validateConstraintCheck n) (validateConstraintCheck (n + 1)) := by
  unfold validateConstraintCheck; le_all
macro_rules | `(tactic| le_lem) => `(tactic| with_reducible apply validateConstraintCheck_le)

theorem validateConstraintDefault_le (isNum : Str → Bool) (n : Nat) : Prog.Le (validateConstraintDefault isNum n) (validateConstraintDefault isNum (n + 1)) := by
  unfold validateConstraintDefault; le_all
macro_rules | `(tactic| le_lem) => `(tactic| with_reducible apply validateConstraintDefault_le)

theorem validateConstraintReferencesAux_le  (n : Nat) : Prog.Le (validateConstraintReferencesAux  n) (validateConstraintReferencesAux  (n + 1)) := by
  induction n with
  | zero => exact .timeout _
  | succ n ih => unfold validateConstraintReferencesAux; le_all
macro_rules | `(tactic| le_lem) => `(tactic| with_reducible apply validateConstraintReferencesAux_le)

theorem validateConstraintReferences_le (n : Nat) : Prog.Le (validateConstraintReferences n) (validateConstraintReferences (n + 1)) := by
  unfold validateConstraintReferences; le_all
macro_rules | `(tactic| le_lem) => `(tactic| with_reducible apply validateConstraintReferences_le)

theorem validateConstraintGenerated_le (n : Nat) : Prog.Le (validateConstraintGenerated n) (validateConstraintGenerated (n + 1)) := by
  unfold validateConstraintGenerated; le_all
macro_rules | `(tactic| le_lem) => `(tactic| with_reducible apply validateConstraintGenerated_le)

theorem validateColumnConstraint_le (isNum : Str → Bool) (n : Nat) : Prog.Le (validateColumnConstraint isNum n) (validateColumnConstraint isNum (n + 1)) := by
  unfold validateColumnConstraint; le_all
macro_rules | `(tactic| le_lem) => `(tactic| with_reducible apply validateColumnConstraint_le)

theorem validateColumnConstraints_le (isNum : Str → Bool) (n : Nat) : Prog.Le (validateColumnConstraints isNum n) (validateColumnConstraints isNum (n + 1)) := by
  unfold validateColumnConstraints; le_all
macro_rules | `(tactic| le_lem) => `(tactic| with_reducible apply validateColumnConstraints_le)

theorem validateTableConstraintPrimaryKey_le (n : Nat) : Prog.Le (validateTableConstraintPrimaryKey n) (validateTableConstraintPrimaryKey (n + 1)) := by
  unfold validateTableConstraintPrimaryKey; le_all
macro_rules | `(tactic| le_lem) => `(tactic| with_reducible apply validateTableConstraintPrimaryKey_le)

theorem validateTableConstraintUnique_le (n : Nat) : Prog.Le (validateTableConstraintUnique n) (validateTableConstraintUnique (n + 1)) := by
  unfold validateTableConstraintUnique; le_all
macro_rules | `(tactic| le_lem) => `(tactic| with_reducible apply validateTableConstraintUnique_le)

theorem validateTableConstraintForeignKey_le (n : Nat) : Prog.Le (validateTableConstraintForeignKey n) (validateTableConstraintForeignKey (n + 1)) := by
  unfold validateTableConstraintForeignKey; le_all
macro_rules | `(tactic| le_lem) => `(tactic| with_reducible apply validateTableConstraintForeignKey_le)

theorem validateTableConstraint_le (n : Nat) : Prog.Le (validateTableConstraint n) (validateTableConstraint (n + 1)) := by
  unfold validateTableConstraint; le_all
macro_rules | `(tactic| le_lem) => `(tactic| with_reducible apply validateTableConstraint_le)

theorem validateColumnDefinition_le (isNum : Str → Bool) (n : Nat) : Prog.Le (validateColumnDefinition isNum n) (validateColumnDefinition isNum (n + 1)) := by
  unfold validateColumnDefinition; le_all
macro_rules | `(tactic| le_lem) => `(tactic| with_reducible apply validateColumnDefinition_le)

theorem validateColumnDefinitions_le (isNum : Str → Bool) (n : Nat) : Prog.Le (validateColumnDefinitions isNum n) (validateColumnDefinitions isNum (n + 1)) := by
  induction n with
  | zero => exact .timeout _
  | succ n ih => unfold validateColumnDefinitions; le_all
macro_rules | `(tactic| le_lem) => `(tactic| with_reducible apply validateColumnDefinitions_le)

theorem validateTableDefinition_le (isNum : Str → Bool) (n : Nat) : Prog.Le (validateTableDefinition isNum n) (validateTableDefinition isNum (n + 1)) := by
  unfold validateTableDefinition; le_all
macro_rules | `(tactic| le_lem) => `(tactic| with_reducible apply validateTableDefinition_le)

theorem validateCreateTable_le (isNum : Str → Bool) (n : Nat) : Prog.Le (validateCreateTable isNum n) (validateCreateTable isNum (n + 1)) := by
  unfold validateCreateTable; le_all
macro_rules | `(tactic| le_lem) => `(tactic| with_reducible apply validateCreateTable_le)

theorem validateDdl_le (isNum : Str → Bool) (n : Nat) : Prog.Le (validateDdl isNum n) (validateDdl isNum (n + 1)) := by
  unfold validateDdl; le_all
macro_rules | `(tactic| le_lem) => `(tactic| with_reducible apply validateDdl_le)

theorem validate_le (isNum : Str → Bool) (n : Nat) : Prog.Le (validate isNum n) (validate isNum (n + 1)) := by
  induction n with
  | zero => exact .timeout _
  | succ n ih => unfold validate; le_all
macro_rules | `(tactic| le_lem) => `(tactic| with_reducible apply validate_le)

end Sqlite

namespace Postgres
open DDL V

theorem validateIndexParameters_le (n : Nat) : Prog.Le (validateIndexParameters n) (validateIndexParameters (n + 1)) := by
  unfold validateIndexParameters; le_all
macro_rules | `(tactic| le_lem) => `(tactic| with_reducible apply validateIndexParameters_le)

theorem validateConstraintPrimaryKey_le (n : Nat) : Prog.Le (validateConstraintPrimaryKey n) (validateConstraintPrimaryKey (n + 1)) := by
  unfold validateConstraintPrimaryKey; le_all
macro_rules | `(tactic| le_lem) => `(tactic| with_reducible apply validateConstraintPrimaryKey_le)

theorem validateConstraintUnique_le (n : Nat) : Prog.Le (validateConstraintUnique n) (validateConstraintUnique (n + 1)) := by
  unfold validateConstraintUnique; le_all
macro_rules | `(tactic| le_lem) => `(tactic| with_reducible apply validateConstraintUnique_le)

theorem validateConstraintCheck_le (n : Nat) : Prog.Le (validateConstraintCheck n) (validateConstraintCheck (n + 1)) := by
  unfold validateConstraintCheck; le_all
macro_rules | `(tactic| le_lem) => `(tactic| with_reducible apply validateConstraintCheck_le)

theorem validateConstraintDefault_le (isNum : Str → Bool) (n : Nat) : Prog.Le (validateConstraintDefault isNum n) (validateConstraintDefault isNum (n + 1)) := by
  unfold validateConstraintDefault; le_all
macro_rules | `(tactic| le_lem) => `(tactic| with_reducible apply validateConstraintDefault_le)

theorem validateConstraintReferences_le (n : Nat) : Prog.Le (validateConstraintReferences n) (validateConstraintReferences (n + 1)) := by
  unfold validateConstraintReferences; le_all
macro_rules | `(tactic| le_lem) => `(tactic| with_reducible apply validateConstraintReferences_le)

theorem optBrackets_le (n : Nat) : Prog.Le (optBrackets n) (optBrackets (n + 1)) := by
  unfold optBrackets; le_all
macro_rules | `(tactic| le_lem) => `(tactic| with_reducible apply optBrackets_le)

theorem validateConstraintGenerated_le (n : Nat) : Prog.Le (validateConstraintGenerated n) (validateConstraintGenerated (n + 1)) := by
  unfold validateConstraintGenerated; le_all
macro_rules | `(tactic| le_lem) => `(tactic| with_reducible apply validateConstraintGenerated_le)

theorem validateColumnConstraint_le (isNum : Str → Bool) (n : Nat) : Prog.Le (validateColumnConstraint isNum n) (validateColumnConstraint isNum (n + 1)) := by
  unfold validateColumnConstraint; le_all
macro_rules | `(tactic| le_lem) => `(tactic| with_reducible apply validateColumnConstraint_le)

theorem validateColumnConstraints_le (isNum : Str → Bool) (n : Nat) : Prog.Le (validateColumnConstraints isNum n) (validateColumnConstraints isNum (n + 1)) := by
  unfold validateColumnConstraints; le_all
macro_rules | `(tactic| le_lem) => `(tactic| with_reducible apply validateColumnConstraints_le)

theorem validateTableConstraintPrimaryKey_le (n : Nat) : Prog.Le (validateTableConstraintPrimaryKey n) (validateTableConstraintPrimaryKey (n + 1)) := by
  unfold validateTableConstraintPrimaryKey; le_all
macro_rules | `(tactic| le_lem) => `(tactic| with_reducible apply validateTableConstraintPrimaryKey_le)

theorem validateTableConstraintUnique_le (n : Nat) : Prog.Le (validateTableConstraintUnique n) (validateTableConstraintUnique (n + 1)) := by
  unfold validateTableConstraintUnique; le_all
macro_rules | `(tactic| le_lem) => `(tactic| with_reducible apply validateTableConstraintUnique_le)

theorem validateTableConstraintForeignKey_le (n : Nat) : Prog.Le (validateTableConstraintForeignKey n) (validateTableConstraintForeignKey (n + 1)) := by
  unfold validateTableConstraintForeignKey; le_all
macro_rules | `(tactic| le_lem) => `(tactic| with_reducible apply validateTableConstraintForeignKey_le)

theorem validateTableConstraintExclude_le (n : Nat) : Prog.Le (validateTableConstraintExclude n) (validateTableConstraintExclude (n + 1)) := by
  unfold validateTableConstraintExclude; le_all
macro_rules | `(tactic| le_lem) => `(tactic| with_reducible apply validateTableConstraintExclude_le)

theorem validateTableConstraint_le (n : Nat) : Prog.Le (validateTableConstraint n) (validateTableConstraint (n + 1)) := by
  unfold validateTableConstraint; le_all
macro_rules | `(tactic| le_lem) => `(tactic| with_reducible apply validateTableConstraint_le)

theorem validateColumnDefinition_le (isNum : Str → Bool) (n : Nat) : Prog.Le (validateColumnDefinition isNum n) (validateColumnDefinition isNum (n + 1)) := by
  unfold validateColumnDefinition; le_all
macro_rules | `(tactic| le_lem) => `(tactic| with_reducible apply validateColumnDefinition_le)

theorem validateColumnDefinitions_le (isNum : Str → Bool) (n : Nat) : Prog.Le (validateColumnDefinitions isNum n) (validateColumnDefinitions isNum (n + 1)) := by
  induction n with
  | zero => exact .timeout _
  | succ n ih => unfold validateColumnDefinitions; le_all
macro_rules | `(tactic| le_lem) => `(tactic| with_reducible apply validateColumnDefinitions_le)

theorem validateTableOptionWith_le (n : Nat) : Prog.Le (validateTableOptionWith n) (validateTableOptionWith (n + 1)) := by
  unfold validateTableOptionWith; le_all
macro_rules | `(tactic| le_lem) => `(tactic| with_reducible apply validateTableOptionWith_le)

theorem validateTableOptionInherits_le (n : Nat) : Prog.Le (validateTableOptionInherits n) (validateTableOptionInherits (n + 1)) := by
  unfold validateTableOptionInherits; le_all
macro_rules | `(tactic| le_lem) => `(tactic| with_reducible apply validateTableOptionInherits_le)

theorem validateTableOptionPartition_le (n : Nat) : Prog.Le (validateTableOptionPartition n) (validateTableOptionPartition (n + 1)) := by
  unfold validateTableOptionPartition; le_all
macro_rules | `(tactic| le_lem) => `(tactic| with_reducible apply validateTableOptionPartition_le)

theorem validateTableOption_le (n : Nat) : Prog.Le (validateTableOption n) (validateTableOption (n + 1)) := by
  unfold validateTableOption; le_all
macro_rules | `(tactic| le_lem) => `(tactic| with_reducible apply validateTableOption_le)

theorem validateTableOptions_le  (n : Nat) : Prog.Le (validateTableOptions  n) (validateTableOptions  (n + 1)) := by
  induction n with
  | zero => exact .timeout _
  | succ n ih => unfold validateTableOptions; le_all
macro_rules | `(tactic| le_lem) => `(tactic| with_reducible apply validateTableOptions_le)

theorem validateTableDefinition_le (isNum : Str → Bool) (n : Nat) : Prog.Le (validateTableDefinition isNum n) (validateTableDefinition isNum (n + 1)) := by
  unfold validateTableDefinition; le_all
macro_rules | `(tactic| le_lem) => `(tactic| with_reducible apply validateTableDefinition_le)

theorem validateCreateTable_le (isNum : Str → Bool) (n : Nat) : Prog.Le (validateCreateTable isNum n) (validateCreateTable isNum (n + 1)) := by
  unfold validateCreateTable; le_all
macro_rules | `(tactic| le_lem) => `(tactic| with_reducible apply validateCreateTable_le)

theorem validateDdl_le (isNum : Str → Bool) (n : Nat) : Prog.Le (validateDdl isNum n) (validateDdl isNum (n + 1)) := by
  unfold validateDdl; le_all
macro_rules | `(tactic| le_lem) => `(tactic| with_reducible apply validateDdl_le)

theorem validate_le (isNum : Str → Bool) (n : Nat) : Prog.Le (validate isNum n) (validate isNum (n + 1)) := by
  induction n with
  | zero => exact .timeout _
  | succ n ih => unfold validate; le_all
macro_rules | `(tactic| le_lem) => `(tactic| with_reducible apply validate_le)

end Postgres

namespace Mysql
open DDL V

theorem validateIndexKeysAux_le (set : Bool) (n : Nat) : Prog.Le (validateIndexKeysAux set n) (validateIndexKeysAux set (n + 1)) := by
  induction n with
  | zero => exact .timeout _
  | succ n ih => unfold validateIndexKeysAux; le_all
macro_rules | `(tactic| le_lem) => `(tactic| with_reducible apply validateIndexKeysAux_le)

theorem validateIndexKeys_le (n : Nat) (set : Bool) : Prog.Le (validateIndexKeys n set) (validateIndexKeys (n + 1) set) := by
  unfold validateIndexKeys; le_all
macro_rules | `(tactic| le_lem) => `(tactic| with_reducible apply validateIndexKeys_le)

theorem validateConstraintCheck_le (n : Nat) : Prog.Le (validateConstraintCheck n) (validateConstraintCheck (n + 1)) := by
  unfold validateConstraintCheck; le_all
macro_rules | `(tactic| le_lem) => `(tactic| with_reducible apply validateConstraintCheck_le)

theorem validateConstraintDefault_le (isNum : Str → Bool) (n : Nat) : Prog.Le (validateConstraintDefault isNum n) (validateConstraintDefault isNum (n + 1)) := by
  unfold validateConstraintDefault; le_all
macro_rules | `(tactic| le_lem) => `(tactic| with_reducible apply validateConstraintDefault_le)

theorem validateConstraintReferences_le (n : Nat) : Prog.Le (validateConstraintReferences n) (validateConstraintReferences (n + 1)) := by
  unfold validateConstraintReferences; le_all
macro_rules | `(tactic| le_lem) => `(tactic| with_reducible apply validateConstraintReferences_le)

theorem validateConstraintGenerated_le (n : Nat) : Prog.Le (validateConstraintGenerated n) (validateConstraintGenerated (n + 1)) := by
  unfold validateConstraintGenerated; le_all
macro_rules | `(tactic| le_lem) => `(tactic| with_reducible apply validateConstraintGenerated_le)

theorem validateColumnConstraint_le (isNum : Str → Bool) (n : Nat) : Prog.Le (validateColumnConstraint isNum n) (validateColumnConstraint isNum (n + 1)) := by
  unfold validateColumnConstraint; le_all
macro_rules | `(tactic| le_lem) => `(tactic| with_reducible apply validateColumnConstraint_le)

theorem validateColumnConstraints_le (isNum : Str → Bool) (n : Nat) : Prog.Le (validateColumnConstraints isNum n) (validateColumnConstraints isNum (n + 1)) := by
  unfold validateColumnConstraints; le_all
macro_rules | `(tactic| le_lem) => `(tactic| with_reducible apply validateColumnConstraints_le)

theorem validateIndexOption_le (isNum : Str → Bool) (n : Nat) : Prog.Le (validateIndexOption isNum n) (validateIndexOption isNum (n + 1)) := by
  induction n with
  | zero => exact .timeout _
  | succ n ih => unfold validateIndexOption; le_all
macro_rules | `(tactic| le_lem) => `(tactic| with_reducible apply validateIndexOption_le)

theorem validateTableConstraintPrimaryKey_le (isNum : Str → Bool) (n : Nat) : Prog.Le (validateTableConstraintPrimaryKey isNum n) (validateTableConstraintPrimaryKey isNum (n + 1)) := by
  unfold validateTableConstraintPrimaryKey; le_all
macro_rules | `(tactic| le_lem) => `(tactic| with_reducible apply validateTableConstraintPrimaryKey_le)

theorem validateTableConstraintUnique_le (isNum : Str → Bool) (n : Nat) : Prog.Le (validateTableConstraintUnique isNum n) (validateTableConstraintUnique isNum (n + 1)) := by
  unfold validateTableConstraintUnique; le_all
macro_rules | `(tactic| le_lem) => `(tactic| with_reducible apply validateTableConstraintUnique_le)

theorem validateTableConstraintForeignKey_le (n : Nat) : Prog.Le (validateTableConstraintForeignKey n) (validateTableConstraintForeignKey (n + 1)) := by
  unfold validateTableConstraintForeignKey; le_all
macro_rules | `(tactic| le_lem) => `(tactic| with_reducible apply validateTableConstraintForeignKey_le)

theorem validateTableConstraintIndex_le (isNum : Str → Bool) (n : Nat) : Prog.Le (validateTableConstraintIndex isNum n) (validateTableConstraintIndex isNum (n + 1)) := by
  unfold validateTableConstraintIndex; le_all
macro_rules | `(tactic| le_lem) => `(tactic| with_reducible apply validateTableConstraintIndex_le)

theorem validateTableConstraintAux_le (isNum : Str → Bool) (n : Nat) : Prog.Le (validateTableConstraintAux isNum n) (validateTableConstraintAux isNum (n + 1)) := by
  unfold validateTableConstraintAux; le_all
macro_rules | `(tactic| le_lem) => `(tactic| with_reducible apply validateTableConstraintAux_le)

theorem validateTableConstraint_le (isNum : Str → Bool) (n : Nat) : Prog.Le (validateTableConstraint isNum n) (validateTableConstraint isNum (n + 1)) := by
  unfold validateTableConstraint; le_all
macro_rules | `(tactic| le_lem) => `(tactic| with_reducible apply validateTableConstraint_le)

theorem validateColumnDefinition_le (isNum : Str → Bool) (n : Nat) : Prog.Le (validateColumnDefinition isNum n) (validateColumnDefinition isNum (n + 1)) := by
  unfold validateColumnDefinition; le_all
macro_rules | `(tactic| le_lem) => `(tactic| with_reducible apply validateColumnDefinition_le)

theorem validateColumnDefinitions_le (isNum : Str → Bool) (n : Nat) : Prog.Le (validateColumnDefinitions isNum n) (validateColumnDefinitions isNum (n + 1)) := by
  induction n with
  | zero => exact .timeout _
  | succ n ih => unfold validateColumnDefinitions; le_all
macro_rules | `(tactic| le_lem) => `(tactic| with_reducible apply validateColumnDefinitions_le)

theorem validateCommaSeparatedTableNames_le (set : Bool) (n : Nat) : Prog.Le (validateCommaSeparatedTableNames set n) (validateCommaSeparatedTableNames set (n + 1)) := by
  induction n with
  | zero => exact .timeout _
  | succ n ih => unfold validateCommaSeparatedTableNames; le_all
macro_rules | `(tactic| le_lem) => `(tactic| with_reducible apply validateCommaSeparatedTableNames_le)

theorem validateTableOptionUnion_le (n : Nat) : Prog.Le (validateTableOptionUnion n) (validateTableOptionUnion (n + 1)) := by
  unfold validateTableOptionUnion; le_all
macro_rules | `(tactic| le_lem) => `(tactic| with_reducible apply validateTableOptionUnion_le)

theorem validateTableOption_le (isNum : Str → Bool) (n : Nat) : Prog.Le (validateTableOption isNum n) (validateTableOption isNum (n + 1)) := by
  unfold validateTableOption; le_all
macro_rules | `(tactic| le_lem) => `(tactic| with_reducible apply validateTableOption_le)

theorem validateTableOptions_le (isNum : Str → Bool) (n : Nat) : Prog.Le (validateTableOptions isNum n) (validateTableOptions isNum (n + 1)) := by
  induction n with
  | zero => exact .timeout _
  | succ n ih => unfold validateTableOptions; le_all
macro_rules | `(tactic| le_lem) => `(tactic| with_reducible apply validateTableOptions_le)

theorem validateTableDefinition_le (isNum : Str → Bool) (n : Nat) : Prog.Le (validateTableDefinition isNum n) (validateTableDefinition isNum (n + 1)) := by
  unfold validateTableDefinition; le_all
macro_rules | `(tactic| le_lem) => `(tactic| with_reducible apply validateTableDefinition_le)

theorem validateCreateTable_le (isNum : Str → Bool) (n : Nat) : Prog.Le (validateCreateTable isNum n) (validateCreateTable isNum (n + 1)) := by
  unfold validateCreateTable; le_all
macro_rules | `(tactic| le_lem) => `(tactic| with_reducible apply validateCreateTable_le)

theorem validateDdl_le (isNum : Str → Bool) (n : Nat) : Prog.Le (validateDdl isNum n) (validateDdl isNum (n + 1)) := by
  unfold validateDdl; le_all
macro_rules | `(tactic| le_lem) => `(tactic| with_reducible apply validateDdl_le)

theorem validate_le (isNum : Str → Bool) (n : Nat) : Prog.Le (validate isNum n) (validate isNum (n + 1)) := by
  induction n with
  | zero => exact .timeout _
  | succ n ih => unfold validate; le_all
macro_rules | `(tactic| le_lem) => `(tactic| with_reducible apply validate_le)

end Mysql

end DDL