import Verif.Proof.WorkSweep
/-
The Mysql validator does linear work (generated by tools/gen_work.py).
-/

namespace DDL.Mysql
open DDL V Spec

def validateStringValue_l (set : Bool) : LinF fun _ => validateStringValue set := by
  refine ⟨.name, fun _ => Lin.one (A := fun t => isStringValue D (t.headD ' ')) (set := set) (fun ts => ?_) (fun ts hg => ?_)⟩
  · have : workA (validateStringValue set) ts ≤ 6 := by
      unfold validateStringValue
      simp only [workA]
      cases ts.headD EOF with
      | nil => simp
      | cons c r => exact Nat.succ_le_succ (Lin.ite_work (by simp [next, workA]) (by simp [syntaxError, workA]))
    show (workA (validateStringValue set) ts : Int) ≤ 6
    omega
  · unfold validateStringValue
    cases ts with
    | nil => rfl
    | cons t r =>
      cases t with
      | nil => exact absurd rfl (hg [] (by simp)).1
      | cons c t =>
        show runA (cond (isStringValue D c) (next set) syntaxError) ((c :: t) :: r) =
          if isStringValue D c = true then .ok () r (keep set (c :: t)) else .fail ((c :: t) :: r)
        cases isStringValue D c
        · rfl
        · exact runA_next set ((c :: t) :: r)
macro_rules | `(tactic| lin_lem) => `(tactic| with_reducible exact (validateStringValue_l _).2 0)

def validateIndexKeysAux_l (set : Bool) : LinF fun n => validateIndexKeysAux set n := by
  refine ⟨⟨0, 200⟩, fun n => ?_⟩
  induction n with
  | zero => exact .timeout
  | succ n ih => lin_loop validateIndexKeysAux
macro_rules | `(tactic| lin_lem) => `(tactic| with_reducible exact (validateIndexKeysAux_l _).2 _)

def validateIndexKeys_l (set : Bool) : LinF fun n => validateIndexKeys n set := by
  constructor; intro n; unfold validateIndexKeys; lin
macro_rules | `(tactic| lin_lem) => `(tactic| with_reducible exact (validateIndexKeys_l _).2 _)

def validateColumnType_l : LinF fun _ => validateColumnType := by
  constructor; intro n; unfold validateColumnType; lin
macro_rules | `(tactic| lin_lem) => `(tactic| with_reducible exact validateColumnType_l.2 0)

def validateConstraintPrimaryKey_l : LinF fun _ => validateConstraintPrimaryKey := by
  refine ⟨⟨10 - RATE, 10⟩, fun _ => ?_⟩
  have hq : Lin ((validateToken true ["PRIMARY"]).bind fun _ => validateToken true ["KEY"]) ⟨9 - RATE, 9⟩ := by
    apply Lin.weaken
    case h => lin
    krfl
  intro ts hg
  have e1 : workA validateConstraintPrimaryKey ts = (if isKw ["KEY"] (hd ts) = true then 4
      else workA ((validateToken true ["PRIMARY"]).bind fun _ => validateToken true ["KEY"]) ts) + 1 := by
    show workA (cond (isKw ["KEY"] (hd ts)) _ _) ts + 1 = _
    cases isKw ["KEY"] (hd ts) <;> rfl
  rw [e1]
  unfold validateConstraintPrimaryKey
  rw [runA_if]
  split
  · rename_i h
    cases ts with
    | nil => exact absurd h (by decide)
    | cons t ts =>
      refine ⟨fun a r o e => ?_, fun r e => (by cases e)⟩
      cases e
      simp only [List.tail_cons, List.length_cons, RATE]
      omega
  · refine ⟨fun a r o e => ?_, fun r e => ?_⟩
    · have := (hq ts hg).1 _ _ _ e; simp only [RATE] at this ⊢; omega
    · have := (hq ts hg).2 _ e; simp only [RATE] at this ⊢; omega
macro_rules | `(tactic| lin_lem) => `(tactic| with_reducible exact validateConstraintPrimaryKey_l.2 0)

def validateConstraintNotNull_l : LinF fun _ => validateConstraintNotNull := by
  constructor; intro n; unfold validateConstraintNotNull; lin
macro_rules | `(tactic| lin_lem) => `(tactic| with_reducible exact validateConstraintNotNull_l.2 0)

def validateConstraintNull_l : LinF fun _ => validateConstraintNull := by
  constructor; intro n; unfold validateConstraintNull; lin
macro_rules | `(tactic| lin_lem) => `(tactic| with_reducible exact validateConstraintNull_l.2 0)

def validateConstraintUnique_l : LinF fun _ => validateConstraintUnique := by
  constructor; intro n; unfold validateConstraintUnique; lin
macro_rules | `(tactic| lin_lem) => `(tactic| with_reducible exact validateConstraintUnique_l.2 0)

def validateConstraintCheck_l : LinF fun n => validateConstraintCheck n := by
  constructor; intro n; unfold validateConstraintCheck; lin
macro_rules | `(tactic| lin_lem) => `(tactic| with_reducible exact validateConstraintCheck_l.2 _)

def validateConstraintDefault_l {isNum : Str → Bool} (hN : NumOK isNum) : LinF fun n => validateConstraintDefault isNum n := by
  have _ := hN
  constructor; intro n; unfold validateConstraintDefault; lin
macro_rules | `(tactic| lin_lem) => `(tactic| with_reducible exact (validateConstraintDefault_l (by assumption)).2 _)

def validateConstraintCollate_l : LinF fun _ => validateConstraintCollate := by
  constructor; intro n; unfold validateConstraintCollate; lin
macro_rules | `(tactic| lin_lem) => `(tactic| with_reducible exact validateConstraintCollate_l.2 0)

def validateConstraintReferences_l : LinF fun n => validateConstraintReferences n := by
  constructor; intro n; unfold validateConstraintReferences; lin
macro_rules | `(tactic| lin_lem) => `(tactic| with_reducible exact validateConstraintReferences_l.2 _)

def validateConstraintGenerated_l : LinF fun n => validateConstraintGenerated n := by
  constructor; intro n; unfold validateConstraintGenerated; lin
macro_rules | `(tactic| lin_lem) => `(tactic| with_reducible exact validateConstraintGenerated_l.2 _)

def validateConstraintComment_l : LinF fun _ => validateConstraintComment := by
  constructor; intro n; unfold validateConstraintComment; lin
macro_rules | `(tactic| lin_lem) => `(tactic| with_reducible exact validateConstraintComment_l.2 0)

def validateConstraintColumnFormat_l : LinF fun _ => validateConstraintColumnFormat := by
  constructor; intro n; unfold validateConstraintColumnFormat; lin
macro_rules | `(tactic| lin_lem) => `(tactic| with_reducible exact validateConstraintColumnFormat_l.2 0)

def validateConstraintEngineAttribute_l : LinF fun _ => validateConstraintEngineAttribute := by
  constructor; intro n; unfold validateConstraintEngineAttribute; lin
macro_rules | `(tactic| lin_lem) => `(tactic| with_reducible exact validateConstraintEngineAttribute_l.2 0)

def validateConstraintStorage_l : LinF fun _ => validateConstraintStorage := by
  constructor; intro n; unfold validateConstraintStorage; lin
macro_rules | `(tactic| lin_lem) => `(tactic| with_reducible exact validateConstraintStorage_l.2 0)

def validateConstraintAutoincrement_l : LinF fun _ => validateConstraintAutoincrement := by
  constructor; intro n; unfold validateConstraintAutoincrement; lin
macro_rules | `(tactic| lin_lem) => `(tactic| with_reducible exact validateConstraintAutoincrement_l.2 0)

def validateColumnConstraint_l {isNum : Str → Bool} (hN : NumOK isNum) : LinF fun n => validateColumnConstraint isNum n := by
  have _ := hN
  constructor; intro n; unfold validateColumnConstraint; lin
macro_rules | `(tactic| lin_lem) => `(tactic| with_reducible exact (validateColumnConstraint_l (by assumption)).2 _)

theorem columnConstraintsAux_l {isNum : Str → Bool} (hN : NumOK isNum) (n : Nat) (ls : List Str) :
    Lin (columnConstraintsAux columnConstraintKinds constraintKey (validateColumnConstraint isNum) n ls) ⟨1, 100⟩ :=
  columnConstraintsAux_lin (validateColumnConstraint_l hN) (by krfl) n ls
macro_rules | `(tactic| lin_lem) => `(tactic| with_reducible exact columnConstraintsAux_l (by assumption) _ _)

def validateColumnConstraints_l {isNum : Str → Bool} (hN : NumOK isNum) : LinF fun n => validateColumnConstraints isNum n := by
  constructor; intro n; unfold validateColumnConstraints; lin
macro_rules | `(tactic| lin_lem) => `(tactic| with_reducible exact (validateColumnConstraints_l (by assumption)).2 _)

def validateIndexType_l : LinF fun _ => validateIndexType := by
  constructor; intro n; unfold validateIndexType; lin
macro_rules | `(tactic| lin_lem) => `(tactic| with_reducible exact validateIndexType_l.2 0)

def validateIndexOption_l {isNum : Str → Bool} (hN : NumOK isNum) : LinF fun n => validateIndexOption isNum n := by
  refine ⟨⟨10, 200⟩, fun n => ?_⟩
  have _ := hN
  induction n with
  | zero => exact .timeout
  | succ n ih => lin_loop validateIndexOption
macro_rules | `(tactic| lin_lem) => `(tactic| with_reducible exact (validateIndexOption_l (by assumption)).2 _)

def optIndexType_l : LinF fun _ => optIndexType := by
  constructor; intro n; unfold optIndexType; lin
macro_rules | `(tactic| lin_lem) => `(tactic| with_reducible exact optIndexType_l.2 0)

def validateTableConstraintPrimaryKey_l {isNum : Str → Bool} (hN : NumOK isNum) : LinF fun n => validateTableConstraintPrimaryKey isNum n := by
  have _ := hN
  constructor; intro n; unfold validateTableConstraintPrimaryKey; lin
macro_rules | `(tactic| lin_lem) => `(tactic| with_reducible exact (validateTableConstraintPrimaryKey_l (by assumption)).2 _)

def validateTableConstraintUnique_l {isNum : Str → Bool} (hN : NumOK isNum) : LinF fun n => validateTableConstraintUnique isNum n := by
  have _ := hN
  constructor; intro n; unfold validateTableConstraintUnique; lin
macro_rules | `(tactic| lin_lem) => `(tactic| with_reducible exact (validateTableConstraintUnique_l (by assumption)).2 _)

def validateTableConstraintForeignKey_l : LinF fun n => validateTableConstraintForeignKey n := by
  constructor; intro n; unfold validateTableConstraintForeignKey; lin
macro_rules | `(tactic| lin_lem) => `(tactic| with_reducible exact validateTableConstraintForeignKey_l.2 _)

def validateTableConstraintIndex_l {isNum : Str → Bool} (hN : NumOK isNum) : LinF fun n => validateTableConstraintIndex isNum n := by
  have _ := hN
  constructor; intro n; unfold validateTableConstraintIndex; lin
macro_rules | `(tactic| lin_lem) => `(tactic| with_reducible exact (validateTableConstraintIndex_l (by assumption)).2 _)

def validateTableConstraintAux_l {isNum : Str → Bool} (hN : NumOK isNum) : LinF fun n => validateTableConstraintAux isNum n := by
  have _ := hN
  constructor; intro n; unfold validateTableConstraintAux; lin
macro_rules | `(tactic| lin_lem) => `(tactic| with_reducible exact (validateTableConstraintAux_l (by assumption)).2 _)

def validateTableConstraint_l {isNum : Str → Bool} (hN : NumOK isNum) : LinF fun n => validateTableConstraint isNum n := by
  have _ := hN
  constructor; intro n; unfold validateTableConstraint; lin
macro_rules | `(tactic| lin_lem) => `(tactic| with_reducible exact (validateTableConstraint_l (by assumption)).2 _)

def validateColumnDefinition_l {isNum : Str → Bool} (hN : NumOK isNum) : LinF fun n => validateColumnDefinition isNum n := by
  have _ := hN
  constructor; intro n; unfold validateColumnDefinition; lin
macro_rules | `(tactic| lin_lem) => `(tactic| with_reducible exact (validateColumnDefinition_l (by assumption)).2 _)

def validateColumnDefinitions_l {isNum : Str → Bool} (hN : NumOK isNum) : LinF fun n => validateColumnDefinitions isNum n := by
  refine ⟨⟨0, 200⟩, fun n => ?_⟩
  have _ := hN
  induction n with
  | zero => exact .timeout
  | succ n ih => lin_loop validateColumnDefinitions
macro_rules | `(tactic| lin_lem) => `(tactic| with_reducible exact (validateColumnDefinitions_l (by assumption)).2 _)

def validateCommaSeparatedTableNames_l (set : Bool) : LinF fun n => validateCommaSeparatedTableNames set n := by
  refine ⟨⟨0, 200⟩, fun n => ?_⟩
  induction n with
  | zero => exact .timeout
  | succ n ih => lin_loop validateCommaSeparatedTableNames
macro_rules | `(tactic| lin_lem) => `(tactic| with_reducible exact (validateCommaSeparatedTableNames_l _).2 _)

def validateTableOptionCommonLiteral_l {isNum : Str → Bool} (hN : NumOK isNum) : LinF fun _ => validateTableOptionCommonLiteral isNum := by
  have _ := hN
  constructor; intro n; unfold validateTableOptionCommonLiteral; lin
macro_rules | `(tactic| lin_lem) => `(tactic| with_reducible exact (validateTableOptionCommonLiteral_l (by assumption)).2 0)

def validateTableOptionCommonString_l : LinF fun _ => validateTableOptionCommonString := by
  constructor; intro n; unfold validateTableOptionCommonString; lin
macro_rules | `(tactic| lin_lem) => `(tactic| with_reducible exact validateTableOptionCommonString_l.2 0)

def validateTableOptionCommonName_l : LinF fun _ => validateTableOptionCommonName := by
  constructor; intro n; unfold validateTableOptionCommonName; lin
macro_rules | `(tactic| lin_lem) => `(tactic| with_reducible exact validateTableOptionCommonName_l.2 0)

def validateTableOptionCommon01_l : LinF fun _ => validateTableOptionCommon01 := by
  constructor; intro n; unfold validateTableOptionCommon01; lin
macro_rules | `(tactic| lin_lem) => `(tactic| with_reducible exact validateTableOptionCommon01_l.2 0)

def validateTableOptionCommon01Default_l : LinF fun _ => validateTableOptionCommon01Default := by
  constructor; intro n; unfold validateTableOptionCommon01Default; lin
macro_rules | `(tactic| lin_lem) => `(tactic| with_reducible exact validateTableOptionCommon01Default_l.2 0)

def validateTableOptionDirectory_l {isNum : Str → Bool} (hN : NumOK isNum) : LinF fun _ => validateTableOptionDirectory isNum := by
  have _ := hN
  constructor; intro n; unfold validateTableOptionDirectory; lin
macro_rules | `(tactic| lin_lem) => `(tactic| with_reducible exact (validateTableOptionDirectory_l (by assumption)).2 0)

def validateTableOptionTablespace_l : LinF fun _ => validateTableOptionTablespace := by
  constructor; intro n; unfold validateTableOptionTablespace; lin
macro_rules | `(tactic| lin_lem) => `(tactic| with_reducible exact validateTableOptionTablespace_l.2 0)

def validateTableOptionDefault_l : LinF fun _ => validateTableOptionDefault := by
  constructor; intro n; unfold validateTableOptionDefault; lin
macro_rules | `(tactic| lin_lem) => `(tactic| with_reducible exact validateTableOptionDefault_l.2 0)

def validateTableOptionUnion_l : LinF fun n => validateTableOptionUnion n := by
  constructor; intro n; unfold validateTableOptionUnion; lin
macro_rules | `(tactic| lin_lem) => `(tactic| with_reducible exact validateTableOptionUnion_l.2 _)

def validateTableOptionInsertMethod_l : LinF fun _ => validateTableOptionInsertMethod := by
  constructor; intro n; unfold validateTableOptionInsertMethod; lin
macro_rules | `(tactic| lin_lem) => `(tactic| with_reducible exact validateTableOptionInsertMethod_l.2 0)

def validateTableOptionRowFormat_l : LinF fun _ => validateTableOptionRowFormat := by
  constructor; intro n; unfold validateTableOptionRowFormat; lin
macro_rules | `(tactic| lin_lem) => `(tactic| with_reducible exact validateTableOptionRowFormat_l.2 0)

def validateTableOption_l {isNum : Str → Bool} (hN : NumOK isNum) : LinF fun n => validateTableOption isNum n := by
  have _ := hN
  constructor; intro n; unfold validateTableOption; lin
macro_rules | `(tactic| lin_lem) => `(tactic| with_reducible exact (validateTableOption_l (by assumption)).2 _)

def validateTableOptions_l {isNum : Str → Bool} (hN : NumOK isNum) : LinF fun n => validateTableOptions isNum n := by
  refine ⟨⟨10, 200⟩, fun n => ?_⟩
  have _ := hN
  induction n with
  | zero => exact .timeout
  | succ n ih => lin_loop validateTableOptions
macro_rules | `(tactic| lin_lem) => `(tactic| with_reducible exact (validateTableOptions_l (by assumption)).2 _)

def validateTableDefinition_l {isNum : Str → Bool} (hN : NumOK isNum) : LinF fun n => validateTableDefinition isNum n := by
  have _ := hN
  constructor; intro n; unfold validateTableDefinition; lin
macro_rules | `(tactic| lin_lem) => `(tactic| with_reducible exact (validateTableDefinition_l (by assumption)).2 _)

def validateCreateTable_l {isNum : Str → Bool} (hN : NumOK isNum) : LinF fun n => validateCreateTable isNum n := by
  have _ := hN
  constructor; intro n; unfold validateCreateTable; lin
macro_rules | `(tactic| lin_lem) => `(tactic| with_reducible exact (validateCreateTable_l (by assumption)).2 _)

def validateCreateOther_l : LinF fun n => validateCreateOther otherKinds n := by
  constructor; intro n; unfold validateCreateOther; lin
macro_rules | `(tactic| lin_lem) => `(tactic| with_reducible exact validateCreateOther_l.2 _)

def validateDdl_l {isNum : Str → Bool} (hN : NumOK isNum) : LinF fun n => validateDdl isNum n := by
  have _ := hN
  constructor; intro n; unfold validateDdl; lin
macro_rules | `(tactic| lin_lem) => `(tactic| with_reducible exact (validateDdl_l (by assumption)).2 _)

def validate_l {isNum : Str → Bool} (hN : NumOK isNum) : LinF fun n => validate isNum n := by
  refine ⟨⟨10, 250⟩, fun n => ?_⟩
  have _ := hN
  induction n with
  | zero => exact .timeout
  | succ n ih => lin_loop validate
macro_rules | `(tactic| lin_lem) => `(tactic| with_reducible exact (validate_l (by assumption)).2 _)

end DDL.Mysql
