import Verif.Proof.Generic
import Verif.Model.Parse
/-
Where kept tokens come from: the validators keep tokens of the input, and insert only the
constants of `Inserted`.
-/

set_option synthInstance.maxSize 2000
set_option synthInstance.maxHeartbeats 200000

namespace DDL
open V

/-- The words the validators insert (validator_sqlite.go:127, validator_postgresql.go:130,
validator_mysql.go:241, 508-509). -/
def Inserted (t : Str) : Prop := t = S "CREATE" ∨ t = S "PRIMARY" ∨ t = S "KEY"

/-- Every token the program inserts is one of `Inserted`. -/
class Ins (p : Prog α) : Prop where
  out : p.EmitsOnly Inserted

theorem Ins.bind' {p : Prog α} {f : α → Prog β} (h : p.EmitsOnly Inserted)
    (hf : ∀ a, Ins (f a)) : (p.bind f).EmitsOnly Inserted := by
  induction p with
  | ret a => exact (hf a).out
  | token k ih => exact fun t => ih t (h t)
  | oob k ih => exact fun t => ih t (h t)
  | head k ih => exact fun t => ih t (h t)
  | adv b k ih => exact ih h
  | emit t k ih => exact ⟨h.1, ih h.2⟩
  | fail => trivial
  | timeout => trivial

instance Ins.bind {p : Prog α} {f : α → Prog β} [h : Ins p] [hf : ∀ a, Ins (f a)] :
    Ins (p.bind f) := ⟨Ins.bind' h.out hf⟩

instance Ins.bind_eq {p : Prog α} {f : α → Prog β} [Ins p] [∀ a, Ins (f a)] :
    Ins (p >>= f) := Ins.bind

instance Ins.cond {b : Bool} {p q : Prog α} [h : Ins p] [h' : Ins q] : Ins (cond b p q) := by
  cases b <;> assumption

instance Ins.ifM {c : Prog Bool} {p q : Prog α} [Ins c] [Ins p] [Ins q] :
    Ins (V.ifM c p q) := Ins.bind (hf := fun _ => Ins.cond)

instance Ins.ret (a : α) : Ins (.ret a) := ⟨trivial⟩
instance Ins.fail : Ins (.fail : Prog α) := ⟨trivial⟩
instance Ins.timeout : Ins (.timeout : Prog α) := ⟨trivial⟩
instance Ins.token {k : Str → Prog α} [h : ∀ t, Ins (k t)] : Ins (.token k) := ⟨fun t => (h t).out⟩
instance Ins.oob {k : Bool → Prog α} [h : ∀ t, Ins (k t)] : Ins (.oob k) := ⟨fun t => (h t).out⟩
instance Ins.head {k : Char → Prog α} [h : ∀ t, Ins (k t)] : Ins (.head k) := ⟨fun t => (h t).out⟩
instance Ins.adv {b : Bool} {k : Prog α} [h : Ins k] : Ins (.adv b k) := ⟨h.out⟩


namespace V

instance token_ins  : Ins token := by
  unfold token; infer_instance

instance isOutOfRange_ins  : Ins isOutOfRange := by
  unfold isOutOfRange; infer_instance

instance head_ins  : Ins head := by
  unfold head; infer_instance

instance next_ins (set : Bool) : Ins (next set) := by
  unfold next; infer_instance

instance set_create : Ins (V.set (S "CREATE")) := ⟨.inl rfl, trivial⟩
instance set_primary : Ins (V.set (S "PRIMARY")) := ⟨.inr (.inl rfl), trivial⟩
instance set_key : Ins (V.set (S "KEY")) := ⟨.inr (.inr rfl), trivial⟩

instance syntaxError_ins  : Ins (syntaxError : Prog α) := by
  unfold syntaxError; infer_instance

instance matchToken_ins (keywords : List String) : Ins (matchToken keywords) := by
  unfold matchToken; infer_instance

instance matchTokenNext_ins (set : Bool) (keywords : List String) : Ins (matchTokenNext set keywords) := by
  unfold matchTokenNext; infer_instance

instance skipToken_ins (set : Bool) (keywords : List String) : Ins (skipToken set keywords) := by
  unfold skipToken; infer_instance

instance validateToken_ins (set : Bool) (keywords : List String) : Ins (validateToken set keywords) := by
  unfold validateToken; infer_instance

instance validateBracketsAux_ins (set : Bool) (n : Nat) : Ins (validateBracketsAux set n) := by
  induction n with
  | zero => exact Ins.timeout
  | succ n ih => unfold validateBracketsAux; infer_instance

instance validateBrackets_ins (n : Nat) (set : Bool) : Ins (validateBrackets n set) := by
  unfold validateBrackets; infer_instance

instance isValidName_ins (d : Rdbms) : Ins (isValidName d) := by
  unfold isValidName; infer_instance

instance validateName_ins (d : Rdbms) (set : Bool) : Ins (validateName d set) := by
  unfold validateName; infer_instance

instance validateTableName_ins (d : Rdbms) (set : Bool) : Ins (validateTableName d set) := by
  unfold validateTableName; infer_instance

instance validateCommaSeparatedColumnNames_ins (d : Rdbms) (set : Bool) (n : Nat) : Ins (validateCommaSeparatedColumnNames d set n) := by
  induction n with
  | zero => exact Ins.timeout
  | succ n ih => unfold validateCommaSeparatedColumnNames; infer_instance

instance validateExpr_ins (n : Nat) (set : Bool) : Ins (validateExpr n set) := by
  unfold validateExpr; infer_instance

instance validateIfNotExists_ins  : Ins validateIfNotExists := by
  unfold validateIfNotExists; infer_instance

instance createOtherLoop_ins  (n : Nat) (b : Bool) : Ins (createOtherLoop  n b) := by
  induction n generalizing b with
  | zero => exact Ins.timeout
  | succ n ih => unfold createOtherLoop; infer_instance

instance validateCreateOther_ins (kinds : List String) (n : Nat) : Ins (validateCreateOther kinds n) := by
  unfold validateCreateOther; infer_instance

instance validateLiteralValue_ins (isNum : Str → Bool) (d : Rdbms) (set : Bool) : Ins (validateLiteralValue isNum d set) := by
  unfold validateLiteralValue; infer_instance

instance validatePositiveInteger_ins (set : Bool) : Ins (validatePositiveInteger set) := by
  unfold validatePositiveInteger; infer_instance

instance validateTypeDigitN_ins (set : Bool) : Ins (validateTypeDigitN set) := by
  unfold validateTypeDigitN; infer_instance

instance validateTypeDigitPS_ins (set : Bool) : Ins (validateTypeDigitPS set) := by
  unfold validateTypeDigitPS; infer_instance

instance validateConstraintReferencesAux_ins  (n : Nat) : Ins (validateConstraintReferencesAux  n) := by
  induction n with
  | zero => exact Ins.timeout
  | succ n ih => unfold validateConstraintReferencesAux; infer_instance

instance columnConstraintsAux_ins (isKind : List String) (key : Str → Str) {one : Nat → Prog Unit}
    [∀ n, Ins (one n)] (n : Nat) (ls : List Str) :
    Ins (columnConstraintsAux isKind key one n ls) := by
  induction n generalizing ls with
  | zero => exact Ins.timeout
  | succ n ih => unfold columnConstraintsAux; infer_instance

end V

namespace Sqlite
open DDL V

instance validateColumnType_ins  : Ins validateColumnType := by
  unfold validateColumnType; infer_instance

instance validateConflictClause_ins  : Ins validateConflictClause := by
  unfold validateConflictClause; infer_instance

instance validateConstraintPrimaryKey_ins  : Ins validateConstraintPrimaryKey := by
  unfold validateConstraintPrimaryKey; infer_instance

instance validateConstraintNotNull_ins  : Ins validateConstraintNotNull := by
  unfold validateConstraintNotNull; infer_instance

instance validateConstraintUnique_ins  : Ins validateConstraintUnique := by
  unfold validateConstraintUnique; infer_instance

instance validateConstraintCheck_ins (n : Nat) : Ins (validateConstraintCheck n) := by
  unfold validateConstraintCheck; infer_instance

instance validateConstraintDefault_ins (isNum : Str → Bool) (n : Nat) : Ins (validateConstraintDefault isNum n) := by
  unfold validateConstraintDefault; infer_instance

instance validateConstraintCollate_ins  : Ins validateConstraintCollate := by
  unfold validateConstraintCollate; infer_instance

instance validateConstraintReferencesAux_ins  (n : Nat) : Ins (validateConstraintReferencesAux  n) := by
  induction n with
  | zero => exact Ins.timeout
  | succ n ih => unfold validateConstraintReferencesAux; infer_instance

instance validateConstraintReferences_ins (n : Nat) : Ins (validateConstraintReferences n) := by
  unfold validateConstraintReferences; infer_instance

instance validateConstraintGenerated_ins (n : Nat) : Ins (validateConstraintGenerated n) := by
  unfold validateConstraintGenerated; infer_instance

instance validateColumnConstraint_ins (isNum : Str → Bool) (n : Nat) : Ins (validateColumnConstraint isNum n) := by
  unfold validateColumnConstraint; infer_instance

instance validateColumnConstraints_ins (isNum : Str → Bool) (n : Nat) : Ins (validateColumnConstraints isNum n) := by
  unfold validateColumnConstraints; infer_instance

instance validateTableConstraintPrimaryKey_ins (n : Nat) : Ins (validateTableConstraintPrimaryKey n) := by
  unfold validateTableConstraintPrimaryKey; infer_instance

instance validateTableConstraintUnique_ins (n : Nat) : Ins (validateTableConstraintUnique n) := by
  unfold validateTableConstraintUnique; infer_instance

instance validateTableConstraintForeignKey_ins (n : Nat) : Ins (validateTableConstraintForeignKey n) := by
  unfold validateTableConstraintForeignKey; infer_instance

instance validateTableConstraint_ins (n : Nat) : Ins (validateTableConstraint n) := by
  unfold validateTableConstraint; infer_instance

instance validateColumnDefinition_ins (isNum : Str → Bool) (n : Nat) : Ins (validateColumnDefinition isNum n) := by
  unfold validateColumnDefinition; infer_instance

instance validateColumnDefinitions_ins (isNum : Str → Bool) (n : Nat) : Ins (validateColumnDefinitions isNum n) := by
  induction n with
  | zero => exact Ins.timeout
  | succ n ih => unfold validateColumnDefinitions; infer_instance

instance validateTableOptions_ins  : Ins validateTableOptions := by
  unfold validateTableOptions; infer_instance

instance validateTableDefinition_ins (isNum : Str → Bool) (n : Nat) : Ins (validateTableDefinition isNum n) := by
  unfold validateTableDefinition; infer_instance

instance validateCreateTable_ins (isNum : Str → Bool) (n : Nat) : Ins (validateCreateTable isNum n) := by
  unfold validateCreateTable; infer_instance

instance validateDdl_ins (isNum : Str → Bool) (n : Nat) : Ins (validateDdl isNum n) := by
  unfold validateDdl; infer_instance

instance validate_ins (isNum : Str → Bool) (n : Nat) : Ins (validate isNum n) := by
  induction n with
  | zero => exact Ins.timeout
  | succ n ih => unfold validate; infer_instance

end Sqlite

namespace Postgres
open DDL V

instance validateColumnType_ins  : Ins validateColumnType := by
  unfold validateColumnType; infer_instance

instance validateIndexParameters_ins (n : Nat) : Ins (validateIndexParameters n) := by
  unfold validateIndexParameters; infer_instance

instance validateConstraintPrimaryKey_ins (n : Nat) : Ins (validateConstraintPrimaryKey n) := by
  unfold validateConstraintPrimaryKey; infer_instance

instance validateConstraintNotNull_ins  : Ins validateConstraintNotNull := by
  unfold validateConstraintNotNull; infer_instance

instance validateConstraintNull_ins  : Ins validateConstraintNull := by
  unfold validateConstraintNull; infer_instance

instance validateConstraintUnique_ins (n : Nat) : Ins (validateConstraintUnique n) := by
  unfold validateConstraintUnique; infer_instance

instance validateConstraintCheck_ins (n : Nat) : Ins (validateConstraintCheck n) := by
  unfold validateConstraintCheck; infer_instance

instance validateConstraintDefault_ins (isNum : Str → Bool) (n : Nat) : Ins (validateConstraintDefault isNum n) := by
  unfold validateConstraintDefault; infer_instance

instance validateConstraintReferences_ins (n : Nat) : Ins (validateConstraintReferences n) := by
  unfold validateConstraintReferences; infer_instance

instance optBrackets_ins (n : Nat) : Ins (optBrackets n) := by
  unfold optBrackets; infer_instance

instance validateConstraintGenerated_ins (n : Nat) : Ins (validateConstraintGenerated n) := by
  unfold validateConstraintGenerated; infer_instance

instance validateColumnConstraint_ins (isNum : Str → Bool) (n : Nat) : Ins (validateColumnConstraint isNum n) := by
  unfold validateColumnConstraint; infer_instance

instance validateColumnConstraints_ins (isNum : Str → Bool) (n : Nat) : Ins (validateColumnConstraints isNum n) := by
  unfold validateColumnConstraints; infer_instance

instance validateTableConstraintPrimaryKey_ins (n : Nat) : Ins (validateTableConstraintPrimaryKey n) := by
  unfold validateTableConstraintPrimaryKey; infer_instance

instance validateTableConstraintUnique_ins (n : Nat) : Ins (validateTableConstraintUnique n) := by
  unfold validateTableConstraintUnique; infer_instance

instance validateTableConstraintForeignKey_ins (n : Nat) : Ins (validateTableConstraintForeignKey n) := by
  unfold validateTableConstraintForeignKey; infer_instance

instance validateTableConstraintExclude_ins (n : Nat) : Ins (validateTableConstraintExclude n) := by
  unfold validateTableConstraintExclude; infer_instance

instance validateTableConstraint_ins (n : Nat) : Ins (validateTableConstraint n) := by
  unfold validateTableConstraint; infer_instance

instance validateColumnDefinition_ins (isNum : Str → Bool) (n : Nat) : Ins (validateColumnDefinition isNum n) := by
  unfold validateColumnDefinition; infer_instance

instance validateColumnDefinitions_ins (isNum : Str → Bool) (n : Nat) : Ins (validateColumnDefinitions isNum n) := by
  induction n with
  | zero => exact Ins.timeout
  | succ n ih => unfold validateColumnDefinitions; infer_instance

instance validateTableOptionWith_ins (n : Nat) : Ins (validateTableOptionWith n) := by
  unfold validateTableOptionWith; infer_instance

instance validateTableOptionWithout_ins  : Ins validateTableOptionWithout := by
  unfold validateTableOptionWithout; infer_instance

instance validateTableOptionTablespace_ins  : Ins validateTableOptionTablespace := by
  unfold validateTableOptionTablespace; infer_instance

instance validateTableOptionInherits_ins (n : Nat) : Ins (validateTableOptionInherits n) := by
  unfold validateTableOptionInherits; infer_instance

instance validateTableOptionPartition_ins (n : Nat) : Ins (validateTableOptionPartition n) := by
  unfold validateTableOptionPartition; infer_instance

instance validateTableOptionUsing_ins  : Ins validateTableOptionUsing := by
  unfold validateTableOptionUsing; infer_instance

instance validateTableOption_ins (n : Nat) : Ins (validateTableOption n) := by
  unfold validateTableOption; infer_instance

instance validateTableOptions_ins  (n : Nat) : Ins (validateTableOptions  n) := by
  induction n with
  | zero => exact Ins.timeout
  | succ n ih => unfold validateTableOptions; infer_instance

instance validateTableDefinition_ins (isNum : Str → Bool) (n : Nat) : Ins (validateTableDefinition isNum n) := by
  unfold validateTableDefinition; infer_instance

instance validateCreateTable_ins (isNum : Str → Bool) (n : Nat) : Ins (validateCreateTable isNum n) := by
  unfold validateCreateTable; infer_instance

instance validateDdl_ins (isNum : Str → Bool) (n : Nat) : Ins (validateDdl isNum n) := by
  unfold validateDdl; infer_instance

instance validate_ins (isNum : Str → Bool) (n : Nat) : Ins (validate isNum n) := by
  induction n with
  | zero => exact Ins.timeout
  | succ n ih => unfold validate; infer_instance

end Postgres

namespace Mysql
open DDL V

instance validateStringValue_ins (set : Bool) : Ins (validateStringValue set) := by
  unfold validateStringValue; infer_instance

instance validateIndexKeysAux_ins (set : Bool) (n : Nat) : Ins (validateIndexKeysAux set n) := by
  induction n with
  | zero => exact Ins.timeout
  | succ n ih => unfold validateIndexKeysAux; infer_instance

instance validateIndexKeys_ins (n : Nat) (set : Bool) : Ins (validateIndexKeys n set) := by
  unfold validateIndexKeys; infer_instance

instance validateColumnType_ins  : Ins validateColumnType := by
  unfold validateColumnType; infer_instance

instance validateConstraintPrimaryKey_ins  : Ins validateConstraintPrimaryKey := by
  unfold validateConstraintPrimaryKey; infer_instance

instance validateConstraintNotNull_ins  : Ins validateConstraintNotNull := by
  unfold validateConstraintNotNull; infer_instance

instance validateConstraintNull_ins  : Ins validateConstraintNull := by
  unfold validateConstraintNull; infer_instance

instance validateConstraintUnique_ins  : Ins validateConstraintUnique := by
  unfold validateConstraintUnique; infer_instance

instance validateConstraintCheck_ins (n : Nat) : Ins (validateConstraintCheck n) := by
  unfold validateConstraintCheck; infer_instance

instance validateConstraintDefault_ins (isNum : Str → Bool) (n : Nat) : Ins (validateConstraintDefault isNum n) := by
  unfold validateConstraintDefault; infer_instance

instance validateConstraintCollate_ins  : Ins validateConstraintCollate := by
  unfold validateConstraintCollate; infer_instance

instance validateConstraintReferences_ins (n : Nat) : Ins (validateConstraintReferences n) := by
  unfold validateConstraintReferences; infer_instance

instance validateConstraintGenerated_ins (n : Nat) : Ins (validateConstraintGenerated n) := by
  unfold validateConstraintGenerated; infer_instance

instance validateConstraintComment_ins  : Ins validateConstraintComment := by
  unfold validateConstraintComment; infer_instance

instance validateConstraintColumnFormat_ins  : Ins validateConstraintColumnFormat := by
  unfold validateConstraintColumnFormat; infer_instance

instance validateConstraintEngineAttribute_ins  : Ins validateConstraintEngineAttribute := by
  unfold validateConstraintEngineAttribute; infer_instance

instance validateConstraintStorage_ins  : Ins validateConstraintStorage := by
  unfold validateConstraintStorage; infer_instance

instance validateConstraintAutoincrement_ins  : Ins validateConstraintAutoincrement := by
  unfold validateConstraintAutoincrement; infer_instance

instance validateColumnConstraint_ins (isNum : Str → Bool) (n : Nat) : Ins (validateColumnConstraint isNum n) := by
  unfold validateColumnConstraint; infer_instance

instance validateColumnConstraints_ins (isNum : Str → Bool) (n : Nat) : Ins (validateColumnConstraints isNum n) := by
  unfold validateColumnConstraints; infer_instance

instance validateIndexType_ins  : Ins validateIndexType := by
  unfold validateIndexType; infer_instance

instance validateIndexOption_ins (isNum : Str → Bool) (n : Nat) : Ins (validateIndexOption isNum n) := by
  induction n with
  | zero => exact Ins.timeout
  | succ n ih => unfold validateIndexOption; infer_instance

instance optIndexType_ins  : Ins optIndexType := by
  unfold optIndexType; infer_instance

instance validateTableConstraintPrimaryKey_ins (isNum : Str → Bool) (n : Nat) : Ins (validateTableConstraintPrimaryKey isNum n) := by
  unfold validateTableConstraintPrimaryKey; infer_instance

instance validateTableConstraintUnique_ins (isNum : Str → Bool) (n : Nat) : Ins (validateTableConstraintUnique isNum n) := by
  unfold validateTableConstraintUnique; infer_instance

instance validateTableConstraintForeignKey_ins (n : Nat) : Ins (validateTableConstraintForeignKey n) := by
  unfold validateTableConstraintForeignKey; infer_instance

instance validateTableConstraintIndex_ins (isNum : Str → Bool) (n : Nat) : Ins (validateTableConstraintIndex isNum n) := by
  unfold validateTableConstraintIndex; infer_instance

instance validateTableConstraintAux_ins (isNum : Str → Bool) (n : Nat) : Ins (validateTableConstraintAux isNum n) := by
  unfold validateTableConstraintAux; infer_instance

instance validateTableConstraint_ins (isNum : Str → Bool) (n : Nat) : Ins (validateTableConstraint isNum n) := by
  unfold validateTableConstraint; infer_instance

instance validateColumnDefinition_ins (isNum : Str → Bool) (n : Nat) : Ins (validateColumnDefinition isNum n) := by
  unfold validateColumnDefinition; infer_instance

instance validateColumnDefinitions_ins (isNum : Str → Bool) (n : Nat) : Ins (validateColumnDefinitions isNum n) := by
  induction n with
  | zero => exact Ins.timeout
  | succ n ih => unfold validateColumnDefinitions; infer_instance

instance validateCommaSeparatedTableNames_ins (set : Bool) (n : Nat) : Ins (validateCommaSeparatedTableNames set n) := by
  induction n with
  | zero => exact Ins.timeout
  | succ n ih => unfold validateCommaSeparatedTableNames; infer_instance

instance validateTableOptionCommonLiteral_ins (isNum : Str → Bool) : Ins (validateTableOptionCommonLiteral isNum) := by
  unfold validateTableOptionCommonLiteral; infer_instance

instance validateTableOptionCommonString_ins  : Ins validateTableOptionCommonString := by
  unfold validateTableOptionCommonString; infer_instance

instance validateTableOptionCommonName_ins  : Ins validateTableOptionCommonName := by
  unfold validateTableOptionCommonName; infer_instance

instance validateTableOptionCommon01_ins  : Ins validateTableOptionCommon01 := by
  unfold validateTableOptionCommon01; infer_instance

instance validateTableOptionCommon01Default_ins  : Ins validateTableOptionCommon01Default := by
  unfold validateTableOptionCommon01Default; infer_instance

instance validateTableOptionDirectory_ins (isNum : Str → Bool) : Ins (validateTableOptionDirectory isNum) := by
  unfold validateTableOptionDirectory; infer_instance

instance validateTableOptionTablespace_ins  : Ins validateTableOptionTablespace := by
  unfold validateTableOptionTablespace; infer_instance

instance validateTableOptionDefault_ins  : Ins validateTableOptionDefault := by
  unfold validateTableOptionDefault; infer_instance

instance validateTableOptionUnion_ins (n : Nat) : Ins (validateTableOptionUnion n) := by
  unfold validateTableOptionUnion; infer_instance

instance validateTableOptionInsertMethod_ins  : Ins validateTableOptionInsertMethod := by
  unfold validateTableOptionInsertMethod; infer_instance

instance validateTableOptionRowFormat_ins  : Ins validateTableOptionRowFormat := by
  unfold validateTableOptionRowFormat; infer_instance

instance validateTableOption_ins (isNum : Str → Bool) (n : Nat) : Ins (validateTableOption isNum n) := by
  unfold validateTableOption; infer_instance

instance validateTableOptions_ins (isNum : Str → Bool) (n : Nat) : Ins (validateTableOptions isNum n) := by
  induction n with
  | zero => exact Ins.timeout
  | succ n ih => unfold validateTableOptions; infer_instance

instance validateTableDefinition_ins (isNum : Str → Bool) (n : Nat) : Ins (validateTableDefinition isNum n) := by
  unfold validateTableDefinition; infer_instance

instance validateCreateTable_ins (isNum : Str → Bool) (n : Nat) : Ins (validateCreateTable isNum n) := by
  unfold validateCreateTable; infer_instance

instance validateDdl_ins (isNum : Str → Bool) (n : Nat) : Ins (validateDdl isNum n) := by
  unfold validateDdl; infer_instance

instance validate_ins (isNum : Str → Bool) (n : Nat) : Ins (validate isNum n) := by
  induction n with
  | zero => exact Ins.timeout
  | succ n ih => unfold validate; infer_instance

end Mysql

end DDL