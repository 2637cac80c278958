import Verif.Proof.ViableSweep
/-
The Postgres validator stops only where the tokens read so far cannot be completed
(generated by tools/gen_viable.py).
-/

namespace DDL.Postgres
open DDL V Spec Via

def validateColumnType_v : Fam fun _ => validateColumnType := by
  constructor; intro n; unfold validateColumnType; via
macro_rules | `(tactic| via_lem) => `(tactic| with_reducible exact validateColumnType_v.2 _)

def validateIndexParameters_v : Fam fun n => validateIndexParameters n := by
  constructor; intro n; unfold validateIndexParameters; via
macro_rules | `(tactic| via_lem) => `(tactic| with_reducible first
  | exact validateIndexParameters_v.2 _ | exact Via.unshift (validateIndexParameters_v.2 _))

def validateConstraintPrimaryKey_v : Fam fun n => validateConstraintPrimaryKey n := by
  constructor; intro n; unfold validateConstraintPrimaryKey; via
macro_rules | `(tactic| via_lem) => `(tactic| with_reducible first
  | exact validateConstraintPrimaryKey_v.2 _ | exact Via.unshift (validateConstraintPrimaryKey_v.2 _))

def validateConstraintNotNull_v : Fam fun _ => validateConstraintNotNull := by
  constructor; intro n; unfold validateConstraintNotNull; via
macro_rules | `(tactic| via_lem) => `(tactic| with_reducible exact validateConstraintNotNull_v.2 _)

def validateConstraintNull_v : Fam fun _ => validateConstraintNull := by
  constructor; intro n; unfold validateConstraintNull; via
macro_rules | `(tactic| via_lem) => `(tactic| with_reducible exact validateConstraintNull_v.2 _)

def validateConstraintUnique_v : Fam fun n => validateConstraintUnique n := by
  constructor; intro n; unfold validateConstraintUnique; via
macro_rules | `(tactic| via_lem) => `(tactic| with_reducible first
  | exact validateConstraintUnique_v.2 _ | exact Via.unshift (validateConstraintUnique_v.2 _))

def validateConstraintCheck_v : Fam fun n => validateConstraintCheck n := by
  constructor; intro n; unfold validateConstraintCheck; via
macro_rules | `(tactic| via_lem) => `(tactic| with_reducible first
  | exact validateConstraintCheck_v.2 _ | exact Via.unshift (validateConstraintCheck_v.2 _))

def validateConstraintDefault_v {isNum : Str → Bool} (hN : NumOK isNum) : Fam fun n => validateConstraintDefault isNum n := by
  constructor; intro n; unfold validateConstraintDefault; via
macro_rules | `(tactic| via_lem) => `(tactic| with_reducible first
  | exact (validateConstraintDefault_v (by assumption)).2 _ | exact Via.unshift ((validateConstraintDefault_v (by assumption)).2 _))

def validateConstraintReferences_v : Fam fun n => validateConstraintReferences n := by
  constructor; intro n; unfold validateConstraintReferences; via
macro_rules | `(tactic| via_lem) => `(tactic| with_reducible first
  | exact validateConstraintReferences_v.2 _ | exact Via.unshift (validateConstraintReferences_v.2 _))

def optBrackets_v : Fam fun n => optBrackets n := by
  constructor; intro n; unfold optBrackets; via
macro_rules | `(tactic| via_lem) => `(tactic| with_reducible first
  | exact optBrackets_v.2 _ | exact Via.unshift (optBrackets_v.2 _))

def validateConstraintGenerated_v : Fam fun n => validateConstraintGenerated n := by
  constructor; intro n; unfold validateConstraintGenerated; via
macro_rules | `(tactic| via_lem) => `(tactic| with_reducible first
  | exact validateConstraintGenerated_v.2 _ | exact Via.unshift (validateConstraintGenerated_v.2 _))

def validateColumnConstraint_v {isNum : Str → Bool} (hN : NumOK isNum) : Fam fun n => validateColumnConstraint isNum n := by
  constructor; intro n; unfold validateColumnConstraint; via
macro_rules | `(tactic| via_lem) => `(tactic| with_reducible first
  | exact (validateColumnConstraint_v (by assumption)).2 _ | exact Via.unshift ((validateColumnConstraint_v (by assumption)).2 _))

theorem columnConstraintsAux_v {isNum : Str → Bool} (hN : NumOK isNum) (n : Nat) :
    Via n (columnConstraintsAux columnConstraintKinds constraintKey (validateColumnConstraint isNum) n [])
      (fun n => columnConstraintsAux columnConstraintKinds constraintKey (validateColumnConstraint isNum) n [])
      (loopI false [] [S ")"]) :=
  columnConstraintsAux_via (validateColumnConstraint_v hN) (by krfl) n []
macro_rules | `(tactic| via_lem) => `(tactic| with_reducible exact columnConstraintsAux_v (by assumption) _)

def validateColumnConstraints_v {isNum : Str → Bool} (hN : NumOK isNum) : Fam fun n => validateColumnConstraints isNum n := by
  constructor; intro n; unfold validateColumnConstraints; via
macro_rules | `(tactic| via_lem) => `(tactic| with_reducible first
  | exact (validateColumnConstraints_v (by assumption)).2 _ | exact Via.unshift ((validateColumnConstraints_v (by assumption)).2 _))

def validateTableConstraintPrimaryKey_v : Fam fun n => validateTableConstraintPrimaryKey n := by
  constructor; intro n; unfold validateTableConstraintPrimaryKey; via
macro_rules | `(tactic| via_lem) => `(tactic| with_reducible first
  | exact validateTableConstraintPrimaryKey_v.2 _ | exact Via.unshift (validateTableConstraintPrimaryKey_v.2 _))

def validateTableConstraintUnique_v : Fam fun n => validateTableConstraintUnique n := by
  constructor; intro n; unfold validateTableConstraintUnique; via
macro_rules | `(tactic| via_lem) => `(tactic| with_reducible first
  | exact validateTableConstraintUnique_v.2 _ | exact Via.unshift (validateTableConstraintUnique_v.2 _))

def validateTableConstraintForeignKey_v : Fam fun n => validateTableConstraintForeignKey n := by
  constructor; intro n; unfold validateTableConstraintForeignKey; via
macro_rules | `(tactic| via_lem) => `(tactic| with_reducible first
  | exact validateTableConstraintForeignKey_v.2 _ | exact Via.unshift (validateTableConstraintForeignKey_v.2 _))

def validateTableConstraintExclude_v : Fam fun n => validateTableConstraintExclude n := by
  constructor; intro n; unfold validateTableConstraintExclude; via
macro_rules | `(tactic| via_lem) => `(tactic| with_reducible first
  | exact validateTableConstraintExclude_v.2 _ | exact Via.unshift (validateTableConstraintExclude_v.2 _))

def validateTableConstraint_v : Fam fun n => validateTableConstraint n := by
  constructor; intro n; unfold validateTableConstraint; via
macro_rules | `(tactic| via_lem) => `(tactic| with_reducible first
  | exact validateTableConstraint_v.2 _ | exact Via.unshift (validateTableConstraint_v.2 _))

def validateColumnDefinition_v {isNum : Str → Bool} (hN : NumOK isNum) : Fam fun n => validateColumnDefinition isNum n := by
  constructor; intro n; unfold validateColumnDefinition; via
macro_rules | `(tactic| via_lem) => `(tactic| with_reducible first
  | exact (validateColumnDefinition_v (by assumption)).2 _ | exact Via.unshift ((validateColumnDefinition_v (by assumption)).2 _))

def validateColumnDefinitions_v {isNum : Str → Bool} (hN : NumOK isNum) : Fam fun n => validateColumnDefinitions isNum n :=
  ⟨_, fun n => commaLoop true rfl (fun _ => rfl) (validateColumnDefinition_v hN)
    [S "PRIMARY", S "KEY", S "(", S "cc", S ")"] (by krfl) (by krfl) n⟩
macro_rules | `(tactic| via_lem) => `(tactic| with_reducible first
  | exact (validateColumnDefinitions_v (by assumption)).2 _ | exact Via.unshift ((validateColumnDefinitions_v (by assumption)).2 _))

def validateTableOptionWith_v : Fam fun n => validateTableOptionWith n := by
  constructor; intro n; unfold validateTableOptionWith; via
macro_rules | `(tactic| via_lem) => `(tactic| with_reducible first
  | exact validateTableOptionWith_v.2 _ | exact Via.unshift (validateTableOptionWith_v.2 _))

def validateTableOptionWithout_v : Fam fun _ => validateTableOptionWithout := by
  constructor; intro n; unfold validateTableOptionWithout; via
macro_rules | `(tactic| via_lem) => `(tactic| with_reducible exact validateTableOptionWithout_v.2 _)

def validateTableOptionTablespace_v : Fam fun _ => validateTableOptionTablespace := by
  constructor; intro n; unfold validateTableOptionTablespace; via
macro_rules | `(tactic| via_lem) => `(tactic| with_reducible exact validateTableOptionTablespace_v.2 _)

def validateTableOptionInherits_v : Fam fun n => validateTableOptionInherits n := by
  constructor; intro n; unfold validateTableOptionInherits; via
macro_rules | `(tactic| via_lem) => `(tactic| with_reducible first
  | exact validateTableOptionInherits_v.2 _ | exact Via.unshift (validateTableOptionInherits_v.2 _))

def validateTableOptionPartition_v : Fam fun n => validateTableOptionPartition n := by
  constructor; intro n; unfold validateTableOptionPartition; via
macro_rules | `(tactic| via_lem) => `(tactic| with_reducible first
  | exact validateTableOptionPartition_v.2 _ | exact Via.unshift (validateTableOptionPartition_v.2 _))

def validateTableOptionUsing_v : Fam fun _ => validateTableOptionUsing := by
  constructor; intro n; unfold validateTableOptionUsing; via
macro_rules | `(tactic| via_lem) => `(tactic| with_reducible exact validateTableOptionUsing_v.2 _)

def validateTableOption_v : Fam fun n => validateTableOption n := by
  constructor; intro n; unfold validateTableOption; via
macro_rules | `(tactic| via_lem) => `(tactic| with_reducible first
  | exact validateTableOption_v.2 _ | exact Via.unshift (validateTableOption_v.2 _))

def validateTableOptions_v : Fam fun n => validateTableOptions n := by
  refine ⟨loopI false [] [S ";"], fun n => ?_⟩
  induction n with
  | zero =>
    refine zero ?_
    rintro d ⟨⟩
    refine ⟨by simp, fun z _ hf => Ev.shift ⟨0, fun n _ => ⟨[], ?_⟩⟩⟩
    have hz := hd_only hf
    cases z with
    | nil => exact absurd hz (by decide)
    | cons t z =>
      show runA (validateTableOptions (n + 1)) (t :: z) = _
      rw [validateTableOptions, runA_oob, if_neg (by simp), runA_if, if_pos (by rw [hz]; decide)]; rfl
  | succ n ih =>
    refine Via.shift ?_
    unfold validateTableOptions
    refine Via.oobRet (i := loopI false [] [S ";"]) ?_ (by decide)
    apply Via.fix
    case h => apply altStop; via
    all_goals krfl
macro_rules | `(tactic| via_lem) => `(tactic| with_reducible first
  | exact validateTableOptions_v.2 _ | exact Via.unshift (validateTableOptions_v.2 _))

def validateTableDefinition_v {isNum : Str → Bool} (hN : NumOK isNum) : Fam fun n => validateTableDefinition isNum n := by
  constructor; intro n; unfold validateTableDefinition; via
macro_rules | `(tactic| via_lem) => `(tactic| with_reducible first
  | exact (validateTableDefinition_v (by assumption)).2 _ | exact Via.unshift ((validateTableDefinition_v (by assumption)).2 _))

def validateCreateTable_v {isNum : Str → Bool} (hN : NumOK isNum) : Fam fun n => validateCreateTable isNum n := by
  constructor; intro n; unfold validateCreateTable; via
macro_rules | `(tactic| via_lem) => `(tactic| with_reducible first
  | exact (validateCreateTable_v (by assumption)).2 _ | exact Via.unshift ((validateCreateTable_v (by assumption)).2 _))

def validateCreateOther_v : Fam fun n => validateCreateOther otherKinds n := by
  constructor; intro n; unfold validateCreateOther; via
macro_rules | `(tactic| via_lem) => `(tactic| with_reducible first
  | exact validateCreateOther_v.2 _ | exact Via.unshift (validateCreateOther_v.2 _))

def validateDdl_v {isNum : Str → Bool} (hN : NumOK isNum) : Fam fun n => validateDdl isNum n := by
  constructor; intro n; unfold validateDdl; via

/-- What is known about a statement: it reads something, it can be completed, and it stops at its end. -/
theorem ddl_info {isNum : Str → Bool} (hN : NumOK isNum) : ∃ i : Info, i.ne = true ∧ i.d.isSome = true ∧ i.f = (fun _ => true) ∧
    ∀ n, Via n (validateDdl isNum n) (fun n => validateDdl isNum n) i :=
  ⟨(validateDdl_v hN).1, by krfl, by krfl, by krfl, (validateDdl_v hN).2⟩

end DDL.Postgres
