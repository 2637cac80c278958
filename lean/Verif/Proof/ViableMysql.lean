import Verif.Proof.ViableSweep
/-
The Mysql validator stops only where the tokens read so far cannot be completed
(generated by tools/gen_viable.py).
-/

namespace DDL.Mysql
open DDL V Spec Via

def validateStringValue_v (set : Bool) : Fam fun _ => validateStringValue set :=
  ⟨_, fun _ => oneOf (t0 := S "''") (set := set) (A := fun t => isStringValue D (t.headD ' ')) (by decide)
    (fun ts hg => by
      unfold validateStringValue
      cases ts with
      | nil => rfl
      | cons t r =>
        cases t with
        | nil => exact absurd rfl (hg [] (by simp)).1
        | cons c t =>
          show runA (cond (isStringValue D c) (next set) syntaxError) ((c :: t) :: r) =
            if isStringValue D c = true then .ok () r (keep set (c :: t)) else .fail ((c :: t) :: r)
          cases isStringValue D c
          · rfl
          · exact runA_next set ((c :: t) :: r)) (by decide +kernel)⟩
macro_rules | `(tactic| via_lem) => `(tactic| with_reducible exact (validateStringValue_v _).2 _)

/-- One key of an index. -/
def indexKey_v (set : Bool) : Fam fun n => (ifM (matchToken ["("]) (validateExpr n false)
    ((validateName D set).bind fun _ => validateTypeDigitN false)).bind fun _ => skipToken false ["ASC", "DESC"] := by
  constructor; intro n; via

def validateIndexKeysAux_v (set : Bool) : Fam fun n => validateIndexKeysAux set n :=
  ⟨_, fun n => commaLoop set rfl (fun n => by
      rw [validateIndexKeysAux, Prog.bind_eq, Prog.bind_assoc]; rfl) (indexKey_v set) [S "(", S ")"]
    (by krfl) (by krfl) n⟩
macro_rules | `(tactic| via_lem) => `(tactic| with_reducible first
  | exact (validateIndexKeysAux_v _).2 _ | exact Via.unshift ((validateIndexKeysAux_v _).2 _))

def validateIndexKeys_v (set : Bool) : Fam fun n => validateIndexKeys n set := by
  constructor; intro n; unfold validateIndexKeys; via
macro_rules | `(tactic| via_lem) => `(tactic| with_reducible first
  | exact (validateIndexKeys_v _).2 _ | exact Via.unshift ((validateIndexKeys_v _).2 _))

def validateColumnType_v : Fam fun _ => validateColumnType := by
  constructor; intro n; unfold validateColumnType; via
macro_rules | `(tactic| via_lem) => `(tactic| with_reducible exact validateColumnType_v.2 _)

def validateConstraintPrimaryKey_v : Fam fun _ => validateConstraintPrimaryKey := by
  have e : ∀ ts, runA validateConstraintPrimaryKey ts = runA (ifM (matchToken ["KEY"])
      ((V.set (S "PRIMARY")).bind fun _ => (V.set (S "KEY")).bind fun _ => validateToken false ["KEY"])
      ((validateToken true ["PRIMARY"]).bind fun _ => validateToken true ["KEY"])) ts := by
    intro ts
    unfold validateConstraintPrimaryKey
    rw [runA_if, runA_if]
    split
    · rename_i h
      cases ts with
      | nil => exact absurd h (by decide)
      | cons t r =>
        rw [show hd (t :: r) = t from rfl] at h
        have hv : runA (validateToken false ["KEY"]) (t :: r) = runA (next false) (t :: r) := by
          rw [runA_validateToken, runA_next]; simp only [if_pos h]; rfl
        show ((runA (next false) (t :: r)).pre [S "KEY"]).pre [S "PRIMARY"] =
          ((runA (validateToken false ["KEY"]) (t :: r)).pre [S "KEY"]).pre [S "PRIMARY"]
        rw [hv]
    · rfl
  constructor
  intro n
  apply Via.congrP
  case e => exact e
  case e' => exact fun n ts => e ts
  all_goals via
macro_rules | `(tactic| via_lem) => `(tactic| with_reducible exact validateConstraintPrimaryKey_v.2 _)

def validateConstraintNotNull_v : Fam fun _ => validateConstraintNotNull := by
  constructor; intro n; unfold validateConstraintNotNull; via
macro_rules | `(tactic| via_lem) => `(tactic| with_reducible exact validateConstraintNotNull_v.2 _)

def validateConstraintNull_v : Fam fun _ => validateConstraintNull := by
  constructor; intro n; unfold validateConstraintNull; via
macro_rules | `(tactic| via_lem) => `(tactic| with_reducible exact validateConstraintNull_v.2 _)

def validateConstraintUnique_v : Fam fun _ => validateConstraintUnique := by
  constructor; intro n; unfold validateConstraintUnique; via
macro_rules | `(tactic| via_lem) => `(tactic| with_reducible exact validateConstraintUnique_v.2 _)

def validateConstraintCheck_v : Fam fun n => validateConstraintCheck n := by
  constructor; intro n; unfold validateConstraintCheck; via
macro_rules | `(tactic| via_lem) => `(tactic| with_reducible first
  | exact validateConstraintCheck_v.2 _ | exact Via.unshift (validateConstraintCheck_v.2 _))

def validateConstraintDefault_v {isNum : Str → Bool} (hN : NumOK isNum) : Fam fun n => validateConstraintDefault isNum n := by
  constructor; intro n; unfold validateConstraintDefault; via
macro_rules | `(tactic| via_lem) => `(tactic| with_reducible first
  | exact (validateConstraintDefault_v (by assumption)).2 _ | exact Via.unshift ((validateConstraintDefault_v (by assumption)).2 _))

def validateConstraintCollate_v : Fam fun _ => validateConstraintCollate := by
  constructor; intro n; unfold validateConstraintCollate; via
macro_rules | `(tactic| via_lem) => `(tactic| with_reducible exact validateConstraintCollate_v.2 _)

def validateConstraintReferences_v : Fam fun n => validateConstraintReferences n := by
  constructor; intro n; unfold validateConstraintReferences; via
macro_rules | `(tactic| via_lem) => `(tactic| with_reducible first
  | exact validateConstraintReferences_v.2 _ | exact Via.unshift (validateConstraintReferences_v.2 _))

def validateConstraintGenerated_v : Fam fun n => validateConstraintGenerated n := by
  constructor; intro n; unfold validateConstraintGenerated; via
macro_rules | `(tactic| via_lem) => `(tactic| with_reducible first
  | exact validateConstraintGenerated_v.2 _ | exact Via.unshift (validateConstraintGenerated_v.2 _))

def validateConstraintComment_v : Fam fun _ => validateConstraintComment := by
  constructor; intro n; unfold validateConstraintComment; via
macro_rules | `(tactic| via_lem) => `(tactic| with_reducible exact validateConstraintComment_v.2 _)

def validateConstraintColumnFormat_v : Fam fun _ => validateConstraintColumnFormat := by
  constructor; intro n; unfold validateConstraintColumnFormat; via
macro_rules | `(tactic| via_lem) => `(tactic| with_reducible exact validateConstraintColumnFormat_v.2 _)

def validateConstraintEngineAttribute_v : Fam fun _ => validateConstraintEngineAttribute := by
  constructor; intro n; unfold validateConstraintEngineAttribute; via
macro_rules | `(tactic| via_lem) => `(tactic| with_reducible exact validateConstraintEngineAttribute_v.2 _)

def validateConstraintStorage_v : Fam fun _ => validateConstraintStorage := by
  constructor; intro n; unfold validateConstraintStorage; via
macro_rules | `(tactic| via_lem) => `(tactic| with_reducible exact validateConstraintStorage_v.2 _)

def validateConstraintAutoincrement_v : Fam fun _ => validateConstraintAutoincrement := by
  constructor; intro n; unfold validateConstraintAutoincrement; via
macro_rules | `(tactic| via_lem) => `(tactic| with_reducible exact validateConstraintAutoincrement_v.2 _)

def validateColumnConstraint_v {isNum : Str → Bool} (hN : NumOK isNum) : Fam fun n => validateColumnConstraint isNum n := by
  constructor; intro n; unfold validateColumnConstraint; via
macro_rules | `(tactic| via_lem) => `(tactic| with_reducible first
  | exact (validateColumnConstraint_v (by assumption)).2 _ | exact Via.unshift ((validateColumnConstraint_v (by assumption)).2 _))

theorem columnConstraintsAux_v {isNum : Str → Bool} (hN : NumOK isNum) (n : Nat) :
    Via n (columnConstraintsAux columnConstraintKinds constraintKey (validateColumnConstraint isNum) n [])
      (fun n => columnConstraintsAux columnConstraintKinds constraintKey (validateColumnConstraint isNum) n [])
      (loopI false [] [S ")"]) :=
  columnConstraintsAux_via (validateColumnConstraint_v hN) (by krfl) n []
macro_rules | `(tactic| via_lem) => `(tactic| with_reducible exact columnConstraintsAux_v (by assumption) _)

def validateColumnConstraints_v {isNum : Str → Bool} (hN : NumOK isNum) : Fam fun n => validateColumnConstraints isNum n := by
  constructor; intro n; unfold validateColumnConstraints
  simp only [Prog.bind_eq, optName]
  apply altNext
  case hp =>
    apply Via.altNe
    case h =>
      exact columnConstraintsAux_eats (validateColumnConstraint_v hN) (by krfl)
        (by decide) n []
    all_goals via
  all_goals via
macro_rules | `(tactic| via_lem) => `(tactic| with_reducible first
  | exact (validateColumnConstraints_v (by assumption)).2 _ | exact Via.unshift ((validateColumnConstraints_v (by assumption)).2 _))

def validateIndexType_v : Fam fun _ => validateIndexType := by
  constructor; intro n; unfold validateIndexType; via
macro_rules | `(tactic| via_lem) => `(tactic| with_reducible exact validateIndexType_v.2 _)

def validateIndexOption_v {isNum : Str → Bool} (hN : NumOK isNum) : Fam fun n => validateIndexOption isNum n := by
  refine ⟨loopI false [] [S ")"], fun n => ?_⟩
  induction n with
  | zero => refine nullZero fun z hz => ?_; unfold validateIndexOption; null_all
  | succ n ih =>
    refine Via.shift ?_
    unfold validateIndexOption
    apply Via.fix
    all_goals via
macro_rules | `(tactic| via_lem) => `(tactic| with_reducible first
  | exact (validateIndexOption_v (by assumption)).2 _ | exact Via.unshift ((validateIndexOption_v (by assumption)).2 _))

def optIndexType_v : Fam fun _ => optIndexType := by
  constructor; intro n; unfold optIndexType; via
macro_rules | `(tactic| via_lem) => `(tactic| with_reducible exact optIndexType_v.2 _)

def validateTableConstraintPrimaryKey_v {isNum : Str → Bool} (hN : NumOK isNum) : Fam fun n => validateTableConstraintPrimaryKey isNum n := by
  constructor; intro n; unfold validateTableConstraintPrimaryKey; via
macro_rules | `(tactic| via_lem) => `(tactic| with_reducible first
  | exact (validateTableConstraintPrimaryKey_v (by assumption)).2 _ | exact Via.unshift ((validateTableConstraintPrimaryKey_v (by assumption)).2 _))

def validateTableConstraintUnique_v {isNum : Str → Bool} (hN : NumOK isNum) : Fam fun n => validateTableConstraintUnique isNum n := by
  constructor; intro n; unfold validateTableConstraintUnique; via
macro_rules | `(tactic| via_lem) => `(tactic| with_reducible first
  | exact (validateTableConstraintUnique_v (by assumption)).2 _ | exact Via.unshift ((validateTableConstraintUnique_v (by assumption)).2 _))

def validateTableConstraintForeignKey_v : Fam fun n => validateTableConstraintForeignKey n := by
  constructor; intro n; unfold validateTableConstraintForeignKey; via
macro_rules | `(tactic| via_lem) => `(tactic| with_reducible first
  | exact validateTableConstraintForeignKey_v.2 _ | exact Via.unshift (validateTableConstraintForeignKey_v.2 _))

def validateTableConstraintIndex_v {isNum : Str → Bool} (hN : NumOK isNum) : Fam fun n => validateTableConstraintIndex isNum n := by
  constructor; intro n; unfold validateTableConstraintIndex; via
macro_rules | `(tactic| via_lem) => `(tactic| with_reducible first
  | exact (validateTableConstraintIndex_v (by assumption)).2 _ | exact Via.unshift ((validateTableConstraintIndex_v (by assumption)).2 _))

def validateTableConstraintAux_v {isNum : Str → Bool} (hN : NumOK isNum) : Fam fun n => validateTableConstraintAux isNum n := by
  constructor; intro n; unfold validateTableConstraintAux; via
macro_rules | `(tactic| via_lem) => `(tactic| with_reducible first
  | exact (validateTableConstraintAux_v (by assumption)).2 _ | exact Via.unshift ((validateTableConstraintAux_v (by assumption)).2 _))

def validateTableConstraint_v {isNum : Str → Bool} (hN : NumOK isNum) : Fam fun n => validateTableConstraint isNum n := by
  constructor; intro n; unfold validateTableConstraint
  simp only [Prog.bind_eq, optName]
  via
macro_rules | `(tactic| via_lem) => `(tactic| with_reducible first
  | exact (validateTableConstraint_v (by assumption)).2 _ | exact Via.unshift ((validateTableConstraint_v (by assumption)).2 _))

def validateColumnDefinition_v {isNum : Str → Bool} (hN : NumOK isNum) : Fam fun n => validateColumnDefinition isNum n := by
  constructor; intro n; unfold validateColumnDefinition; via
macro_rules | `(tactic| via_lem) => `(tactic| with_reducible first
  | exact (validateColumnDefinition_v (by assumption)).2 _ | exact Via.unshift ((validateColumnDefinition_v (by assumption)).2 _))

def validateColumnDefinitions_v {isNum : Str → Bool} (hN : NumOK isNum) : Fam fun n => validateColumnDefinitions isNum n :=
  ⟨_, fun n => commaLoop true rfl (fun _ => rfl) (validateColumnDefinition_v hN)
    [S "CONSTRAINT", S "PRIMARY", S "KEY", S "(", S "(", S ")", S ")"] (by krfl) (by krfl) n⟩
macro_rules | `(tactic| via_lem) => `(tactic| with_reducible first
  | exact (validateColumnDefinitions_v (by assumption)).2 _ | exact Via.unshift ((validateColumnDefinitions_v (by assumption)).2 _))

def validateCommaSeparatedTableNames_v (set : Bool) : Fam fun n => validateCommaSeparatedTableNames set n :=
  ⟨_, fun n => commaLoop set rfl (fun _ => rfl) (validateTableName_v D set) [S "cc"] (by krfl) (by krfl) n⟩
macro_rules | `(tactic| via_lem) => `(tactic| with_reducible first
  | exact (validateCommaSeparatedTableNames_v _).2 _ | exact Via.unshift ((validateCommaSeparatedTableNames_v _).2 _))

def validateTableOptionCommonName_v : Fam fun _ => validateTableOptionCommonName := by
  constructor; intro n; unfold validateTableOptionCommonName; via
macro_rules | `(tactic| via_lem) => `(tactic| with_reducible exact validateTableOptionCommonName_v.2 _)

def validateTableOptionDirectory_v {isNum : Str → Bool} (hN : NumOK isNum) : Fam fun _ => validateTableOptionDirectory isNum := by
  constructor; intro n; unfold validateTableOptionDirectory; via
macro_rules | `(tactic| via_lem) => `(tactic| with_reducible exact (validateTableOptionDirectory_v (by assumption)).2 _)

def validateTableOptionTablespace_v : Fam fun _ => validateTableOptionTablespace := by
  constructor; intro n; unfold validateTableOptionTablespace; via
macro_rules | `(tactic| via_lem) => `(tactic| with_reducible exact validateTableOptionTablespace_v.2 _)

def validateTableOptionDefault_v : Fam fun _ => validateTableOptionDefault := by
  constructor; intro n; unfold validateTableOptionDefault; via
macro_rules | `(tactic| via_lem) => `(tactic| with_reducible exact validateTableOptionDefault_v.2 _)

def validateTableOptionUnion_v : Fam fun n => validateTableOptionUnion n := by
  constructor; intro n; unfold validateTableOptionUnion; via
macro_rules | `(tactic| via_lem) => `(tactic| with_reducible first
  | exact validateTableOptionUnion_v.2 _ | exact Via.unshift (validateTableOptionUnion_v.2 _))

def validateTableOptionInsertMethod_v : Fam fun _ => validateTableOptionInsertMethod := by
  constructor; intro n; unfold validateTableOptionInsertMethod; via
macro_rules | `(tactic| via_lem) => `(tactic| with_reducible exact validateTableOptionInsertMethod_v.2 _)

def validateTableOptionRowFormat_v : Fam fun _ => validateTableOptionRowFormat := by
  constructor; intro n; unfold validateTableOptionRowFormat; via
macro_rules | `(tactic| via_lem) => `(tactic| with_reducible exact validateTableOptionRowFormat_v.2 _)

def validateTableOption_v {isNum : Str → Bool} (hN : NumOK isNum) : Fam fun n => validateTableOption isNum n := by
  constructor; intro n
  unfold validateTableOption validateTableOptionCommonLiteral validateTableOptionCommonString validateTableOptionCommon01
    validateTableOptionCommon01Default
  via
macro_rules | `(tactic| via_lem) => `(tactic| with_reducible first
  | exact (validateTableOption_v (by assumption)).2 _ | exact Via.unshift ((validateTableOption_v (by assumption)).2 _))

def validateTableOptions_v {isNum : Str → Bool} (hN : NumOK isNum) : Fam fun n => validateTableOptions isNum n := by
  refine ⟨loopI false [] [S ";"], fun n => ?_⟩
  induction n with
  | zero =>
    refine zero ?_
    rintro d ⟨⟩
    refine ⟨by simp, fun z _ hf => Ev.shift ⟨0, fun n _ => ⟨[], ?_⟩⟩⟩
    have hz := hd_only hf
    cases z with
    | nil => exact absurd hz (by decide)
    | cons t z =>
      show runA (validateTableOptions isNum (n + 1)) (t :: z) = _
      rw [validateTableOptions, runA_oob, if_neg (by simp), runA_if, if_pos (by rw [hz]; decide)]; rfl
  | succ n ih =>
    refine Via.shift ?_
    unfold validateTableOptions
    refine Via.oobRet (i := loopI false [] [S ";"]) ?_ (by decide)
    apply Via.fix
    case h => apply altStop; via
    all_goals krfl
macro_rules | `(tactic| via_lem) => `(tactic| with_reducible first
  | exact (validateTableOptions_v (by assumption)).2 _ | exact Via.unshift ((validateTableOptions_v (by assumption)).2 _))

def validateTableDefinition_v {isNum : Str → Bool} (hN : NumOK isNum) : Fam fun n => validateTableDefinition isNum n := by
  constructor; intro n; unfold validateTableDefinition; via
macro_rules | `(tactic| via_lem) => `(tactic| with_reducible first
  | exact (validateTableDefinition_v (by assumption)).2 _ | exact Via.unshift ((validateTableDefinition_v (by assumption)).2 _))

def validateCreateTable_v {isNum : Str → Bool} (hN : NumOK isNum) : Fam fun n => validateCreateTable isNum n := by
  constructor; intro n; unfold validateCreateTable; via
macro_rules | `(tactic| via_lem) => `(tactic| with_reducible first
  | exact (validateCreateTable_v (by assumption)).2 _ | exact Via.unshift ((validateCreateTable_v (by assumption)).2 _))

def validateCreateOther_v : Fam fun n => validateCreateOther otherKinds n := by
  constructor; intro n; unfold validateCreateOther; via
macro_rules | `(tactic| via_lem) => `(tactic| with_reducible first
  | exact validateCreateOther_v.2 _ | exact Via.unshift (validateCreateOther_v.2 _))

def validateDdl_v {isNum : Str → Bool} (hN : NumOK isNum) : Fam fun n => validateDdl isNum n := by
  constructor; intro n; unfold validateDdl; via

/-- What is known about a statement: it reads something, it can be completed, and it stops at its end. -/
theorem ddl_info {isNum : Str → Bool} (hN : NumOK isNum) : ∃ i : Info, i.ne = true ∧ i.d.isSome = true ∧ i.f = (fun _ => true) ∧
    ∀ n, Via n (validateDdl isNum n) (fun n => validateDdl isNum n) i :=
  ⟨(validateDdl_v hN).1, by krfl, by krfl, by krfl, (validateDdl_v hN).2⟩

end DDL.Mysql
