import Verif.Proof.ViableSweep
/-
The Sqlite validator stops only where the tokens read so far cannot be completed
(generated by tools/gen_viable.py).
-/

namespace DDL.Sqlite
open DDL V Spec Via

def validateColumnType_v : Fam fun _ => validateColumnType := by
  constructor; intro n; unfold validateColumnType; via
macro_rules | `(tactic| via_lem) => `(tactic| with_reducible exact validateColumnType_v.2 _)

def validateConflictClause_v : Fam fun _ => validateConflictClause := by
  constructor; intro n; unfold validateConflictClause; via
macro_rules | `(tactic| via_lem) => `(tactic| with_reducible exact validateConflictClause_v.2 _)

def validateConstraintPrimaryKey_v : Fam fun _ => validateConstraintPrimaryKey := by
  constructor; intro n; unfold validateConstraintPrimaryKey; via
macro_rules | `(tactic| via_lem) => `(tactic| with_reducible exact validateConstraintPrimaryKey_v.2 _)

def validateConstraintNotNull_v : Fam fun _ => validateConstraintNotNull := by
  constructor; intro n; unfold validateConstraintNotNull; via
macro_rules | `(tactic| via_lem) => `(tactic| with_reducible exact validateConstraintNotNull_v.2 _)

def validateConstraintUnique_v : Fam fun _ => validateConstraintUnique := by
  constructor; intro n; unfold validateConstraintUnique; via
macro_rules | `(tactic| via_lem) => `(tactic| with_reducible exact validateConstraintUnique_v.2 _)

def validateConstraintCheck_v : Fam fun n => validateConstraintCheck n := by
  constructor; intro n; unfold validateConstraintCheck; via
macro_rules | `(tactic| via_lem) => `(tactic| with_reducible first
  | exact validateConstraintCheck_v.2 _ | exact Via.unshift (validateConstraintCheck_v.2 _))

def validateConstraintDefault_v {isNum : Str → Bool} (hN : NumOK isNum) : Fam fun n => validateConstraintDefault isNum n := by
  constructor; intro n; unfold validateConstraintDefault; via
macro_rules | `(tactic| via_lem) => `(tactic| with_reducible first
  | exact (validateConstraintDefault_v (by assumption)).2 _ | exact Via.unshift ((validateConstraintDefault_v (by assumption)).2 _))

def validateConstraintCollate_v : Fam fun _ => validateConstraintCollate := by
  constructor; intro n; unfold validateConstraintCollate; via
macro_rules | `(tactic| via_lem) => `(tactic| with_reducible exact validateConstraintCollate_v.2 _)

def validateConstraintReferencesAux_v : Fam fun n => validateConstraintReferencesAux n := by
  refine ⟨loopI false [] [S ")"], fun n => ?_⟩
  induction n with
  | zero => refine nullZero fun z hz => ?_; unfold validateConstraintReferencesAux; null_all
  | succ n ih =>
    refine Via.shift ?_
    unfold validateConstraintReferencesAux
    apply Via.fix
    all_goals via
macro_rules | `(tactic| via_lem) => `(tactic| with_reducible first
  | exact validateConstraintReferencesAux_v.2 _ | exact Via.unshift (validateConstraintReferencesAux_v.2 _))

def validateConstraintReferences_v : Fam fun n => validateConstraintReferences n := by
  constructor; intro n; unfold validateConstraintReferences; via
macro_rules | `(tactic| via_lem) => `(tactic| with_reducible first
  | exact validateConstraintReferences_v.2 _ | exact Via.unshift (validateConstraintReferences_v.2 _))

def validateConstraintGenerated_v : Fam fun n => validateConstraintGenerated n := by
  constructor; intro n; unfold validateConstraintGenerated; via
macro_rules | `(tactic| via_lem) => `(tactic| with_reducible first
  | exact validateConstraintGenerated_v.2 _ | exact Via.unshift (validateConstraintGenerated_v.2 _))

def validateColumnConstraint_v {isNum : Str → Bool} (hN : NumOK isNum) : Fam fun n => validateColumnConstraint isNum n := by
  constructor; intro n; unfold validateColumnConstraint; via
macro_rules | `(tactic| via_lem) => `(tactic| with_reducible first
  | exact (validateColumnConstraint_v (by assumption)).2 _ | exact Via.unshift ((validateColumnConstraint_v (by assumption)).2 _))

theorem columnConstraintsAux_v {isNum : Str → Bool} (hN : NumOK isNum) (n : Nat) :
    Via n (columnConstraintsAux columnConstraintKinds toUpper (validateColumnConstraint isNum) n [])
      (fun n => columnConstraintsAux columnConstraintKinds toUpper (validateColumnConstraint isNum) n [])
      (loopI false [] [S ")"]) :=
  columnConstraintsAux_via (validateColumnConstraint_v hN) (by krfl) n []
macro_rules | `(tactic| via_lem) => `(tactic| with_reducible exact columnConstraintsAux_v (by assumption) _)

def validateColumnConstraints_v {isNum : Str → Bool} (hN : NumOK isNum) : Fam fun n => validateColumnConstraints isNum n := by
  constructor; intro n; unfold validateColumnConstraints; via
macro_rules | `(tactic| via_lem) => `(tactic| with_reducible first
  | exact (validateColumnConstraints_v (by assumption)).2 _ | exact Via.unshift ((validateColumnConstraints_v (by assumption)).2 _))

def validateTableConstraintPrimaryKey_v : Fam fun n => validateTableConstraintPrimaryKey n := by
  constructor; intro n; unfold validateTableConstraintPrimaryKey; via
macro_rules | `(tactic| via_lem) => `(tactic| with_reducible first
  | exact validateTableConstraintPrimaryKey_v.2 _ | exact Via.unshift (validateTableConstraintPrimaryKey_v.2 _))

def validateTableConstraintUnique_v : Fam fun n => validateTableConstraintUnique n := by
  constructor; intro n; unfold validateTableConstraintUnique; via
macro_rules | `(tactic| via_lem) => `(tactic| with_reducible first
  | exact validateTableConstraintUnique_v.2 _ | exact Via.unshift (validateTableConstraintUnique_v.2 _))

def validateTableConstraintForeignKey_v : Fam fun n => validateTableConstraintForeignKey n := by
  constructor; intro n; unfold validateTableConstraintForeignKey; via
macro_rules | `(tactic| via_lem) => `(tactic| with_reducible first
  | exact validateTableConstraintForeignKey_v.2 _ | exact Via.unshift (validateTableConstraintForeignKey_v.2 _))

def validateTableConstraint_v : Fam fun n => validateTableConstraint n := by
  constructor; intro n; unfold validateTableConstraint; via
macro_rules | `(tactic| via_lem) => `(tactic| with_reducible first
  | exact validateTableConstraint_v.2 _ | exact Via.unshift (validateTableConstraint_v.2 _))

def validateColumnDefinition_v {isNum : Str → Bool} (hN : NumOK isNum) : Fam fun n => validateColumnDefinition isNum n := by
  constructor; intro n; unfold validateColumnDefinition; via
macro_rules | `(tactic| via_lem) => `(tactic| with_reducible first
  | exact (validateColumnDefinition_v (by assumption)).2 _ | exact Via.unshift ((validateColumnDefinition_v (by assumption)).2 _))

def validateColumnDefinitions_v {isNum : Str → Bool} (hN : NumOK isNum) : Fam fun n => validateColumnDefinitions isNum n :=
  ⟨_, fun n => commaLoop true rfl (fun _ => rfl) (validateColumnDefinition_v hN)
    [S "PRIMARY", S "KEY", S "(", S "cc", S ")"] (by krfl) (by krfl) n⟩
macro_rules | `(tactic| via_lem) => `(tactic| with_reducible first
  | exact (validateColumnDefinitions_v (by assumption)).2 _ | exact Via.unshift ((validateColumnDefinitions_v (by assumption)).2 _))

def validateTableOptions_v : Fam fun _ => validateTableOptions := by
  refine ⟨loopI false [] [S ";"], fun n => ?_⟩
  unfold validateTableOptions
  refine Via.oobRet (i := loopI false [] [S ";"]) ?_ (by decide)
  apply Via.fix
  all_goals via
macro_rules | `(tactic| via_lem) => `(tactic| with_reducible exact validateTableOptions_v.2 _)

def validateTableDefinition_v {isNum : Str → Bool} (hN : NumOK isNum) : Fam fun n => validateTableDefinition isNum n := by
  constructor; intro n; unfold validateTableDefinition; via
macro_rules | `(tactic| via_lem) => `(tactic| with_reducible first
  | exact (validateTableDefinition_v (by assumption)).2 _ | exact Via.unshift ((validateTableDefinition_v (by assumption)).2 _))

def validateCreateTable_v {isNum : Str → Bool} (hN : NumOK isNum) : Fam fun n => validateCreateTable isNum n := by
  constructor; intro n; unfold validateCreateTable; via
macro_rules | `(tactic| via_lem) => `(tactic| with_reducible first
  | exact (validateCreateTable_v (by assumption)).2 _ | exact Via.unshift ((validateCreateTable_v (by assumption)).2 _))

def validateCreateOther_v : Fam fun n => validateCreateOther otherKinds n := by
  constructor; intro n; unfold validateCreateOther; via
macro_rules | `(tactic| via_lem) => `(tactic| with_reducible first
  | exact validateCreateOther_v.2 _ | exact Via.unshift (validateCreateOther_v.2 _))

def validateDdl_v {isNum : Str → Bool} (hN : NumOK isNum) : Fam fun n => validateDdl isNum n := by
  constructor; intro n; unfold validateDdl; via

/-- What is known about a statement: it reads something, it can be completed, and it stops at its end. -/
theorem ddl_info {isNum : Str → Bool} (hN : NumOK isNum) : ∃ i : Info, i.ne = true ∧ i.d.isSome = true ∧ i.f = (fun _ => true) ∧
    ∀ n, Via n (validateDdl isNum n) (fun n => validateDdl isNum n) i :=
  ⟨(validateDdl_v hN).1, by krfl, by krfl, by krfl, (validateDdl_v hN).2⟩

end DDL.Sqlite
