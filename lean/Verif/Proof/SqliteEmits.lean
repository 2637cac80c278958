import Verif.Proof.Generic
import Verif.Model.Parse
/-
The SQLite validator inserts no token but `CREATE`.
-/

set_option synthInstance.maxSize 2000
set_option synthInstance.maxHeartbeats 200000

namespace DDL
open V

/-- The only token the program inserts is `CREATE`. -/
class InsC (p : Prog α) : Prop where
  out : p.EmitsOnly (· = S "CREATE")

theorem InsC.bind' {p : Prog α} {f : α → Prog β} (h : p.EmitsOnly (· = S "CREATE"))
    (hf : ∀ a, InsC (f a)) : (p.bind f).EmitsOnly (· = S "CREATE") := by
  induction p with
  | ret a => exact (hf a).out
  | token k ih => exact fun t => ih t (h t)
  | oob k ih => exact fun t => ih t (h t)
  | head k ih => exact fun t => ih t (h t)
  | adv b k ih => exact ih h
  | emit t k ih => exact ⟨h.1, ih h.2⟩
  | fail => trivial
  | timeout => trivial

instance InsC.bind {p : Prog α} {f : α → Prog β} [h : InsC p] [hf : ∀ a, InsC (f a)] :
    InsC (p.bind f) := ⟨InsC.bind' h.out hf⟩

instance InsC.bind_eq {p : Prog α} {f : α → Prog β} [InsC p] [∀ a, InsC (f a)] :
    InsC (p >>= f) := InsC.bind

instance InsC.cond {b : Bool} {p q : Prog α} [h : InsC p] [h' : InsC q] : InsC (cond b p q) := by
  cases b <;> assumption

instance InsC.ifM {c : Prog Bool} {p q : Prog α} [InsC c] [InsC p] [InsC q] :
    InsC (V.ifM c p q) := InsC.bind (hf := fun _ => InsC.cond)

instance InsC.ret (a : α) : InsC (.ret a) := ⟨trivial⟩
instance InsC.fail : InsC (.fail : Prog α) := ⟨trivial⟩
instance InsC.timeout : InsC (.timeout : Prog α) := ⟨trivial⟩
instance InsC.token {k : Str → Prog α} [h : ∀ t, InsC (k t)] : InsC (.token k) := ⟨fun t => (h t).out⟩
instance InsC.oob {k : Bool → Prog α} [h : ∀ t, InsC (k t)] : InsC (.oob k) := ⟨fun t => (h t).out⟩
instance InsC.head {k : Char → Prog α} [h : ∀ t, InsC (k t)] : InsC (.head k) := ⟨fun t => (h t).out⟩
instance InsC.adv {b : Bool} {k : Prog α} [h : InsC k] : InsC (.adv b k) := ⟨h.out⟩


namespace V

instance token_insC  : InsC token := by
  unfold token; infer_instance

instance isOutOfRange_insC  : InsC isOutOfRange := by
  unfold isOutOfRange; infer_instance

instance head_insC  : InsC head := by
  unfold head; infer_instance

instance next_insC (set : Bool) : InsC (next set) := by
  unfold next; infer_instance

instance set_createC : InsC (V.set (S "CREATE")) := ⟨rfl, trivial⟩

instance syntaxError_insC  : InsC (syntaxError : Prog α) := by
  unfold syntaxError; infer_instance

instance matchToken_insC (keywords : List String) : InsC (matchToken keywords) := by
  unfold matchToken; infer_instance

instance matchTokenNext_insC (set : Bool) (keywords : List String) : InsC (matchTokenNext set keywords) := by
  unfold matchTokenNext; infer_instance

instance skipToken_insC (set : Bool) (keywords : List String) : InsC (skipToken set keywords) := by
  unfold skipToken; infer_instance

instance validateToken_insC (set : Bool) (keywords : List String) : InsC (validateToken set keywords) := by
  unfold validateToken; infer_instance

instance validateBracketsAux_insC (set : Bool) (n : Nat) : InsC (validateBracketsAux set n) := by
  induction n with
  | zero => exact InsC.timeout
  | succ n ih => unfold validateBracketsAux; infer_instance

instance validateBrackets_insC (n : Nat) (set : Bool) : InsC (validateBrackets n set) := by
  unfold validateBrackets; infer_instance

instance isValidName_insC (d : Rdbms) : InsC (isValidName d) := by
  unfold isValidName; infer_instance

instance validateName_insC (d : Rdbms) (set : Bool) : InsC (validateName d set) := by
  unfold validateName; infer_instance

instance validateTableName_insC (d : Rdbms) (set : Bool) : InsC (validateTableName d set) := by
  unfold validateTableName; infer_instance

instance validateCommaSeparatedColumnNames_insC (d : Rdbms) (set : Bool) (n : Nat) : InsC (validateCommaSeparatedColumnNames d set n) := by
  induction n with
  | zero => exact InsC.timeout
  | succ n ih => unfold validateCommaSeparatedColumnNames; infer_instance

instance validateExpr_insC (n : Nat) (set : Bool) : InsC (validateExpr n set) := by
  unfold validateExpr; infer_instance

instance validateIfNotExists_insC  : InsC validateIfNotExists := by
  unfold validateIfNotExists; infer_instance

instance createOtherLoop_insC  (n : Nat) (b : Bool) : InsC (createOtherLoop  n b) := by
  induction n generalizing b with
  | zero => exact InsC.timeout
  | succ n ih => unfold createOtherLoop; infer_instance

instance validateCreateOther_insC (kinds : List String) (n : Nat) : InsC (validateCreateOther kinds n) := by
  unfold validateCreateOther; infer_instance

instance validateLiteralValue_insC (isNum : Str → Bool) (d : Rdbms) (set : Bool) : InsC (validateLiteralValue isNum d set) := by
  unfold validateLiteralValue; infer_instance

instance validatePositiveInteger_insC (set : Bool) : InsC (validatePositiveInteger set) := by
  unfold validatePositiveInteger; infer_instance

instance validateTypeDigitN_insC (set : Bool) : InsC (validateTypeDigitN set) := by
  unfold validateTypeDigitN; infer_instance

instance validateTypeDigitPS_insC (set : Bool) : InsC (validateTypeDigitPS set) := by
  unfold validateTypeDigitPS; infer_instance

instance validateConstraintReferencesAux_insC  (n : Nat) : InsC (validateConstraintReferencesAux  n) := by
  induction n with
  | zero => exact InsC.timeout
  | succ n ih => unfold validateConstraintReferencesAux; infer_instance

instance columnConstraintsAux_insC (isKind : List String) (key : Str → Str) {one : Nat → Prog Unit}
    [∀ n, InsC (one n)] (n : Nat) (ls : List Str) :
    InsC (columnConstraintsAux isKind key one n ls) := by
  induction n generalizing ls with
  | zero => exact InsC.timeout
  | succ n ih => unfold columnConstraintsAux; infer_instance

end V

namespace Sqlite
open DDL V

instance validateColumnType_insC  : InsC validateColumnType := by
  unfold validateColumnType; infer_instance

instance validateConflictClause_insC  : InsC validateConflictClause := by
  unfold validateConflictClause; infer_instance

instance validateConstraintPrimaryKey_insC  : InsC validateConstraintPrimaryKey := by
  unfold validateConstraintPrimaryKey; infer_instance

instance validateConstraintNotNull_insC  : InsC validateConstraintNotNull := by
  unfold validateConstraintNotNull; infer_instance

instance validateConstraintUnique_insC  : InsC validateConstraintUnique := by
  unfold validateConstraintUnique; infer_instance

instance validateConstraintCheck_insC (n : Nat) : InsC (validateConstraintCheck n) := by
  unfold validateConstraintCheck; infer_instance

instance validateConstraintDefault_insC (isNum : Str → Bool) (n : Nat) : InsC (validateConstraintDefault isNum n) := by
  unfold validateConstraintDefault; infer_instance

instance validateConstraintCollate_insC  : InsC validateConstraintCollate := by
  unfold validateConstraintCollate; infer_instance

instance validateConstraintReferencesAux_insC  (n : Nat) : InsC (validateConstraintReferencesAux  n) := by
  induction n with
  | zero => exact InsC.timeout
  | succ n ih => unfold validateConstraintReferencesAux; infer_instance

instance validateConstraintReferences_insC (n : Nat) : InsC (validateConstraintReferences n) := by
  unfold validateConstraintReferences; infer_instance

instance validateConstraintGenerated_insC (n : Nat) : InsC (validateConstraintGenerated n) := by
  unfold validateConstraintGenerated; infer_instance

instance validateColumnConstraint_insC (isNum : Str → Bool) (n : Nat) : InsC (validateColumnConstraint isNum n) := by
  unfold validateColumnConstraint; infer_instance

instance validateColumnConstraints_insC (isNum : Str → Bool) (n : Nat) : InsC (validateColumnConstraints isNum n) := by
  unfold validateColumnConstraints; infer_instance

instance validateTableConstraintPrimaryKey_insC (n : Nat) : InsC (validateTableConstraintPrimaryKey n) := by
  unfold validateTableConstraintPrimaryKey; infer_instance

instance validateTableConstraintUnique_insC (n : Nat) : InsC (validateTableConstraintUnique n) := by
  unfold validateTableConstraintUnique; infer_instance

instance validateTableConstraintForeignKey_insC (n : Nat) : InsC (validateTableConstraintForeignKey n) := by
  unfold validateTableConstraintForeignKey; infer_instance

instance validateTableConstraint_insC (n : Nat) : InsC (validateTableConstraint n) := by
  unfold validateTableConstraint; infer_instance

instance validateColumnDefinition_insC (isNum : Str → Bool) (n : Nat) : InsC (validateColumnDefinition isNum n) := by
  unfold validateColumnDefinition; infer_instance

instance validateColumnDefinitions_insC (isNum : Str → Bool) (n : Nat) : InsC (validateColumnDefinitions isNum n) := by
  induction n with
  | zero => exact InsC.timeout
  | succ n ih => unfold validateColumnDefinitions; infer_instance

instance validateTableOptions_insC  : InsC validateTableOptions := by
  unfold validateTableOptions; infer_instance

instance validateTableDefinition_insC (isNum : Str → Bool) (n : Nat) : InsC (validateTableDefinition isNum n) := by
  unfold validateTableDefinition; infer_instance

instance validateCreateTable_insC (isNum : Str → Bool) (n : Nat) : InsC (validateCreateTable isNum n) := by
  unfold validateCreateTable; infer_instance

instance validateDdl_insC (isNum : Str → Bool) (n : Nat) : InsC (validateDdl isNum n) := by
  unfold validateDdl; infer_instance

instance validate_insC (isNum : Str → Bool) (n : Nat) : InsC (validate isNum n) := by
  induction n with
  | zero => exact InsC.timeout
  | succ n ih => unfold validate; infer_instance

end Sqlite

end DDL
