import Verif.Proof.Concat
import Verif.Proof.GrammarFacts
/-
Expressions that are never closed: the validators do not come back.

A validator that has used up its input keeps seeing the token `<EOF>`. If it reports an error at
the end of the input, then it also does not accept the input followed by certain real tokens
(`Prog.Pick` makes this precise). In the middle of an expression any tokens may follow, so there is
no error at the end of the input either.
-/

namespace DDL
open V Spec

/-- Not an accepting run. -/
def NotOk (x : ResA α) : Prop := ∀ a r o, x ≠ .ok a r o

theorem NotOk.pre {o : List Str} {x : ResA α} (h : NotOk x) : NotOk (x.pre o) := by
  intro a r o' e
  cases x with
  | ok a' r' o'' => exact h _ _ _ rfl
  | _ => cases e

theorem NotOk.of_pre {o : List Str} {x : ResA α} (h : NotOk (x.pre o)) : NotOk x := by
  rintro a r o' rfl
  exact h _ _ _ rfl

theorem NotOk.andThen {x : ResA α} (h : NotOk x) (f : α → List Str → ResA β) :
    NotOk (x.andThen f) := by
  intro a r o e
  cases x with
  | ok a' r' o' => exact h _ _ _ rfl
  | _ => cases e

theorem NotOk.fail (r : List Str) : NotOk (.fail r : ResA α) := fun _ _ _ h => by cases h
theorem NotOk.timeout : NotOk (.timeout : ResA α) := fun _ _ _ h => by cases h

/-- A token, not a parenthesis. -/
def PlainTok (t : Str) : Prop := t ≠ ['('] ∧ t ≠ [')'] ∧ Good t

/-- Where the program tests for the end of the input, it does not accept `<EOF>` and some more
tokens in place of the end. -/
def Prog.Pick : Prog α → Prop
  | .ret _ => True
  | .token k => ∀ t, (k t).Pick
  | .oob k => (∀ b, (k b).Pick) ∧
      ∃ x : List Str, x.length ≤ 3 ∧ (∀ t ∈ x, PlainTok t) ∧
        ∀ c, NotOk (runA (k false) (EOF :: x ++ c))
  | .head k => ∀ c, (k c).Pick
  | .adv _ k => k.Pick
  | .emit _ k => k.Pick
  | .fail => True
  | .timeout => True

namespace Prog.Pick

theorem bind {p : Prog α} {f : α → Prog β} (h : p.Pick) (hf : ∀ a, (f a).Pick) :
    (p.bind f).Pick := by
  induction p with
  | ret a => exact hf a
  | token k ih => exact fun t => ih t (h t)
  | oob k ih =>
    obtain ⟨h1, x, h2, h3, h4⟩ := h
    exact ⟨fun b => ih b (h1 b), x, h2, h3, fun c => by rw [runA_bind]; exact (h4 c).andThen _⟩
  | head k ih => exact fun t => ih t (h t)
  | adv b k ih => exact ih h
  | emit t k ih => exact ih h
  | fail => trivial
  | timeout => trivial

theorem cond {b : Bool} {p q : Prog α} (h : p.Pick) (h' : q.Pick) : (cond b p q).Pick := by
  cases b <;> assumption

theorem ifM {c : Prog Bool} {p q : Prog α} (hc : c.Pick) (h : p.Pick) (h' : q.Pick) :
    (V.ifM c p q).Pick := bind hc fun _ => cond h h'

/-- A test for the end whose other branch does not accept `<EOF>`. -/
theorem oobM {p q : Prog α} (h : p.Pick) (h' : q.Pick)
    (he : ∀ c, NotOk (runA q (EOF :: c))) : (V.ifM isOutOfRange p q).Pick :=
  ⟨fun b => cond (b := b) h h', [], by simp, by simp, fun c => he _⟩

theorem tokenM {k : Str → Prog α} (h : ∀ t, (k t).Pick) : (Prog.token k).Pick := h
theorem headM {k : Char → Prog α} (h : ∀ t, (k t).Pick) : (Prog.head k).Pick := h
theorem advM {b : Bool} {k : Prog α} (h : k.Pick) : (Prog.adv b k).Pick := h
theorem emitM {t : Str} {k : Prog α} (h : k.Pick) : (Prog.emit t k).Pick := h
theorem retM (a : α) : (Prog.ret a).Pick := trivial
theorem failM : (Prog.fail : Prog α).Pick := trivial

end Prog.Pick

/-- Extended after each lemma below. -/
syntax "pick_lem" : tactic
macro_rules | `(tactic| pick_lem) => `(tactic| fail)

macro "pick_step" : tactic => `(tactic| first
  | with_reducible exact Prog.Pick.retM _
  | with_reducible exact Prog.Pick.failM
  | assumption
  | with_reducible apply Prog.Pick.ifM
  | with_reducible apply Prog.Pick.cond
  | with_reducible refine Prog.Pick.bind ?_ (fun _ => ?_)
  | with_reducible refine Prog.Pick.tokenM (fun _ => ?_)
  | with_reducible refine Prog.Pick.headM (fun _ => ?_)
  | with_reducible refine Prog.Pick.advM ?_
  | with_reducible refine Prog.Pick.emitM ?_
  | pick_lem)

macro "pick_all" : tactic => `(tactic| ((try simp only [Prog.bind_eq, Prog.pure_eq]); repeat' pick_step))

theorem ifM_bindP (c : Prog Bool) (p q : Prog α) (f : α → Prog β) :
    (V.ifM c p q).bind f = V.ifM c (p.bind f) (q.bind f) := by
  unfold V.ifM
  rw [Prog.bind_assoc]
  congr 1
  funext b
  cases b <;> rfl

theorem runA_ifM_kw (ks : List String) (p q : Prog α) (t : Str) (r : List Str) :
    runA (V.ifM (matchToken ks) p q) (t :: r) = runA (cond (isKw ks t) p q) (t :: r) := rfl

theorem runA_ifM_kw_false {ks : List String} {t : Str} (h : isKw ks t = false) (p q : Prog α)
    (r : List Str) : runA (V.ifM (matchToken ks) p q) (t :: r) = runA q (t :: r) := by
  rw [runA_ifM_kw, h]; rfl

namespace V

theorem validateToken_pick {set : Bool} {ks : List String} (h : isKw ks EOF = false) :
    Prog.Pick (validateToken set ks) := by
  refine Prog.Pick.oobM trivial ?_ ?_
  · exact fun t => Prog.Pick.cond (b := isKw ks t) (p := next set) (q := syntaxError) trivial trivial
  · intro c; rw [runA_ifM_kw_false h]; exact .fail _
macro_rules | `(tactic| pick_lem) => `(tactic| exact validateToken_pick (by decide))

theorem set_pick (t : Str) : Prog.Pick (V.set t) := trivial
macro_rules | `(tactic| pick_lem) => `(tactic| with_reducible apply set_pick)

theorem createOtherLoop_eof (n : Nat) (b : Bool) (c : List Str) :
    runA (createOtherLoop n b) (EOF :: S "END" :: S ";" :: EOF :: c) = .timeout ∨
    runA (createOtherLoop n b) (EOF :: S "END" :: S ";" :: EOF :: c) = .ok () (EOF :: c) [] := by
  match n with
  | 0 => exact .inl rfl
  | 1 => cases b <;> exact .inl rfl
  | 2 => cases b <;> exact .inl rfl
  | n + 3 => cases b <;> exact .inr rfl

theorem createOtherLoop_pick {f : Prog Unit} (hf : f.Pick) (he : ∀ c, NotOk (runA f (EOF :: c)))
    (n : Nat) (b : Bool) : ((createOtherLoop n b).bind fun _ => f).Pick := by
  induction n generalizing b with
  | zero => trivial
  | succ n ih =>
    refine ⟨fun o => ?_, [S "END", S ";", EOF], by simp, ?_, fun c => ?_⟩
    · cases o
      · intro t
        show Prog.Pick ((Prog.bind (cond (b || isKw ["BEGIN"] t) _ _)) _)
        cases b || isKw ["BEGIN"] t
        · show Prog.Pick ((V.ifM (matchToken [";"]) (validateToken false [";"])
            ((next false).bind fun _ => createOtherLoop n false)).bind fun _ => f)
          rw [ifM_bindP]
          refine .ifM (fun _ => trivial) (.bind (validateToken_pick (by decide)) fun _ => hf) ?_
          exact ih false
        · intro t
          exact ih _
      · trivial
    · intro t ht
      simp only [List.mem_cons, List.not_mem_nil, or_false] at ht
      rcases ht with rfl | rfl | rfl <;>
      exact ⟨by decide, by decide, by decide, by rintro c r h hc; cases h; revert hc; decide⟩
    · have h := createOtherLoop_eof (n + 1) b c
      have e : ∀ r, runA ((createOtherLoop (n + 1) b).bind fun _ => f) (EOF :: r) =
        (runA (createOtherLoop (n + 1) b) (EOF :: r)).andThen fun _ r => runA f r := fun r =>
          runA_bind _ _ _
      show NotOk (runA ((createOtherLoop (n + 1) b).bind fun _ => f)
        (EOF :: S "END" :: S ";" :: EOF :: c))
      rw [e]
      rcases h with h | h <;> rw [h]
      · exact .timeout
      · exact (he c).pre

theorem columnConstraintsAux_pick (isKind : List String) (key : Str → Str) {one : Nat → Prog Unit}
    (h : ∀ n, (one n).Pick) (n : Nat) (ls : List Str) :
    (columnConstraintsAux isKind key one n ls).Pick := by
  induction n generalizing ls with
  | zero => trivial
  | succ n ih => 
    unfold columnConstraintsAux
    exact .ifM (fun _ => trivial) (fun t => .cond trivial (.bind (h _) fun _ => ih _)) trivial
macro_rules | `(tactic| pick_lem) => `(tactic| with_reducible apply columnConstraintsAux_pick)
end V

namespace V

theorem token_pick  : Prog.Pick (token) := by
  unfold token; pick_all
macro_rules | `(tactic| pick_lem) => `(tactic| with_reducible apply token_pick)


theorem head_pick  : Prog.Pick (head) := by
  unfold head; pick_all
macro_rules | `(tactic| pick_lem) => `(tactic| with_reducible apply head_pick)

theorem next_pick (set : Bool) : Prog.Pick ((next set)) := by
  unfold next; pick_all
macro_rules | `(tactic| pick_lem) => `(tactic| with_reducible apply next_pick)

theorem syntaxError_pick  : Prog.Pick ((syntaxError : Prog α)) := by
  unfold syntaxError; pick_all
macro_rules | `(tactic| pick_lem) => `(tactic| with_reducible apply syntaxError_pick)

theorem matchToken_pick (keywords : List String) : Prog.Pick ((matchToken keywords)) := by
  unfold matchToken; pick_all
macro_rules | `(tactic| pick_lem) => `(tactic| with_reducible apply matchToken_pick)

theorem matchTokenNext_pick (set : Bool) (keywords : List String) : Prog.Pick ((matchTokenNext set keywords)) := by
  unfold matchTokenNext; pick_all
macro_rules | `(tactic| pick_lem) => `(tactic| with_reducible apply matchTokenNext_pick)

theorem skipToken_pick (set : Bool) (keywords : List String) : Prog.Pick ((skipToken set keywords)) := by
  unfold skipToken; pick_all
macro_rules | `(tactic| pick_lem) => `(tactic| with_reducible apply skipToken_pick)

theorem validateBracketsAux_pick (set : Bool) (n : Nat) : Prog.Pick ((validateBracketsAux set n)) := by
  induction n with
  | zero => exact trivial
  | succ n ih => unfold validateBracketsAux; pick_all
macro_rules | `(tactic| pick_lem) => `(tactic| with_reducible apply validateBracketsAux_pick)

theorem validateBrackets_pick (n : Nat) (set : Bool) : Prog.Pick ((validateBrackets n set)) := by
  unfold validateBrackets; pick_all
macro_rules | `(tactic| pick_lem) => `(tactic| with_reducible apply validateBrackets_pick)

theorem isValidName_pick (d : Rdbms) : Prog.Pick ((isValidName d)) := by
  unfold isValidName; pick_all
macro_rules | `(tactic| pick_lem) => `(tactic| with_reducible apply isValidName_pick)

theorem validateName_pick (d : Rdbms) (set : Bool) : Prog.Pick ((validateName d set)) := by
  unfold validateName; pick_all
macro_rules | `(tactic| pick_lem) => `(tactic| with_reducible apply validateName_pick)

theorem validateTableName_pick (d : Rdbms) (set : Bool) : Prog.Pick ((validateTableName d set)) := by
  unfold validateTableName; pick_all
macro_rules | `(tactic| pick_lem) => `(tactic| with_reducible apply validateTableName_pick)

theorem validateCommaSeparatedColumnNames_pick (d : Rdbms) (set : Bool) (n : Nat) : Prog.Pick ((validateCommaSeparatedColumnNames d set n)) := by
  induction n with
  | zero => exact trivial
  | succ n ih => unfold validateCommaSeparatedColumnNames; pick_all
macro_rules | `(tactic| pick_lem) => `(tactic| with_reducible apply validateCommaSeparatedColumnNames_pick)

theorem validateExpr_pick (n : Nat) (set : Bool) : Prog.Pick ((validateExpr n set)) := by
  unfold validateExpr; pick_all
macro_rules | `(tactic| pick_lem) => `(tactic| with_reducible apply validateExpr_pick)

theorem validateIfNotExists_pick  : Prog.Pick (validateIfNotExists) := by
  unfold validateIfNotExists; pick_all
macro_rules | `(tactic| pick_lem) => `(tactic| with_reducible apply validateIfNotExists_pick)

theorem validateLiteralValue_pick (isNum : Str → Bool) (d : Rdbms) (set : Bool) : Prog.Pick ((validateLiteralValue isNum d set)) := by
  unfold validateLiteralValue; pick_all
macro_rules | `(tactic| pick_lem) => `(tactic| with_reducible apply validateLiteralValue_pick)

theorem validatePositiveInteger_pick (set : Bool) : Prog.Pick ((validatePositiveInteger set)) := by
  unfold validatePositiveInteger; pick_all
macro_rules | `(tactic| pick_lem) => `(tactic| with_reducible apply validatePositiveInteger_pick)

theorem validateTypeDigitN_pick (set : Bool) : Prog.Pick ((validateTypeDigitN set)) := by
  unfold validateTypeDigitN; pick_all
macro_rules | `(tactic| pick_lem) => `(tactic| with_reducible apply validateTypeDigitN_pick)

theorem validateTypeDigitPS_pick (set : Bool) : Prog.Pick ((validateTypeDigitPS set)) := by
  unfold validateTypeDigitPS; pick_all
macro_rules | `(tactic| pick_lem) => `(tactic| with_reducible apply validateTypeDigitPS_pick)

theorem validateConstraintReferencesAux_pick  (n : Nat) : Prog.Pick ((validateConstraintReferencesAux  n)) := by
  induction n with
  | zero => exact trivial
  | succ n ih => unfold validateConstraintReferencesAux; pick_all
macro_rules | `(tactic| pick_lem) => `(tactic| with_reducible apply validateConstraintReferencesAux_pick)

end V

namespace Sqlite

open DDL V

theorem validateColumnType_pick  : Prog.Pick (validateColumnType) := by
  unfold validateColumnType; pick_all
macro_rules | `(tactic| pick_lem) => `(tactic| with_reducible apply validateColumnType_pick)

theorem validateConflictClause_pick  : Prog.Pick (validateConflictClause) := by
  unfold validateConflictClause; pick_all
macro_rules | `(tactic| pick_lem) => `(tactic| with_reducible apply validateConflictClause_pick)

theorem validateConstraintPrimaryKey_pick  : Prog.Pick (validateConstraintPrimaryKey) := by
  unfold validateConstraintPrimaryKey; pick_all
macro_rules | `(tactic| pick_lem) => `(tactic| with_reducible apply validateConstraintPrimaryKey_pick)

theorem validateConstraintNotNull_pick  : Prog.Pick (validateConstraintNotNull) := by
  unfold validateConstraintNotNull; pick_all
macro_rules | `(tactic| pick_lem) => `(tactic| with_reducible apply validateConstraintNotNull_pick)

theorem validateConstraintUnique_pick  : Prog.Pick (validateConstraintUnique) := by
  unfold validateConstraintUnique; pick_all
macro_rules | `(tactic| pick_lem) => `(tactic| with_reducible apply validateConstraintUnique_pick)

theorem validateConstraintCheck_pick (n : Nat) : Prog.Pick ((validateConstraintCheck n)) := by
  unfold validateConstraintCheck; pick_all
macro_rules | `(tactic| pick_lem) => `(tactic| with_reducible apply validateConstraintCheck_pick)

theorem validateConstraintDefault_pick (isNum : Str → Bool) (n : Nat) : Prog.Pick ((validateConstraintDefault isNum n)) := by
  unfold validateConstraintDefault; pick_all
macro_rules | `(tactic| pick_lem) => `(tactic| with_reducible apply validateConstraintDefault_pick)

theorem validateConstraintCollate_pick  : Prog.Pick (validateConstraintCollate) := by
  unfold validateConstraintCollate; pick_all
macro_rules | `(tactic| pick_lem) => `(tactic| with_reducible apply validateConstraintCollate_pick)

theorem validateConstraintReferencesAux_pick  (n : Nat) : Prog.Pick ((validateConstraintReferencesAux  n)) := by
  induction n with
  | zero => exact trivial
  | succ n ih => unfold validateConstraintReferencesAux; pick_all
macro_rules | `(tactic| pick_lem) => `(tactic| with_reducible apply validateConstraintReferencesAux_pick)

theorem validateConstraintReferences_pick (n : Nat) : Prog.Pick ((validateConstraintReferences n)) := by
  unfold validateConstraintReferences; pick_all
macro_rules | `(tactic| pick_lem) => `(tactic| with_reducible apply validateConstraintReferences_pick)

theorem validateConstraintGenerated_pick (n : Nat) : Prog.Pick ((validateConstraintGenerated n)) := by
  unfold validateConstraintGenerated; pick_all
macro_rules | `(tactic| pick_lem) => `(tactic| with_reducible apply validateConstraintGenerated_pick)

theorem validateColumnConstraint_pick (isNum : Str → Bool) (n : Nat) : Prog.Pick ((validateColumnConstraint isNum n)) := by
  unfold validateColumnConstraint; pick_all
macro_rules | `(tactic| pick_lem) => `(tactic| with_reducible apply validateColumnConstraint_pick)

theorem validateColumnConstraints_pick (isNum : Str → Bool) (n : Nat) : Prog.Pick ((validateColumnConstraints isNum n)) := by
  unfold validateColumnConstraints; pick_all
macro_rules | `(tactic| pick_lem) => `(tactic| with_reducible apply validateColumnConstraints_pick)

theorem validateTableConstraintPrimaryKey_pick (n : Nat) : Prog.Pick ((validateTableConstraintPrimaryKey n)) := by
  unfold validateTableConstraintPrimaryKey; pick_all
macro_rules | `(tactic| pick_lem) => `(tactic| with_reducible apply validateTableConstraintPrimaryKey_pick)

theorem validateTableConstraintUnique_pick (n : Nat) : Prog.Pick ((validateTableConstraintUnique n)) := by
  unfold validateTableConstraintUnique; pick_all
macro_rules | `(tactic| pick_lem) => `(tactic| with_reducible apply validateTableConstraintUnique_pick)

theorem validateTableConstraintForeignKey_pick (n : Nat) : Prog.Pick ((validateTableConstraintForeignKey n)) := by
  unfold validateTableConstraintForeignKey; pick_all
macro_rules | `(tactic| pick_lem) => `(tactic| with_reducible apply validateTableConstraintForeignKey_pick)

theorem validateTableConstraint_pick (n : Nat) : Prog.Pick ((validateTableConstraint n)) := by
  unfold validateTableConstraint; pick_all
macro_rules | `(tactic| pick_lem) => `(tactic| with_reducible apply validateTableConstraint_pick)

theorem validateColumnDefinition_pick (isNum : Str → Bool) (n : Nat) : Prog.Pick ((validateColumnDefinition isNum n)) := by
  unfold validateColumnDefinition; pick_all
macro_rules | `(tactic| pick_lem) => `(tactic| with_reducible apply validateColumnDefinition_pick)

theorem validateColumnDefinitions_pick (isNum : Str → Bool) (n : Nat) : Prog.Pick ((validateColumnDefinitions isNum n)) := by
  induction n with
  | zero => exact trivial
  | succ n ih => unfold validateColumnDefinitions; pick_all
macro_rules | `(tactic| pick_lem) => `(tactic| with_reducible apply validateColumnDefinitions_pick)

theorem validateTableOptions_pick :
    Prog.Pick (validateTableOptions.bind fun _ => validateToken true [";"]) := by
  unfold validateTableOptions
  rw [ifM_bindP]
  refine Prog.Pick.oobM (by pick_all) (by pick_all) fun c => ?_
  exact .fail _


theorem validateCreateTable_pick (isNum : Str → Bool) (n : Nat) : Prog.Pick ((validateCreateTable isNum n)) := by
  unfold validateCreateTable validateTableDefinition
  simp only [Prog.bind_eq, Prog.bind_assoc]
  repeat' first | exact validateTableOptions_pick | pick_step
macro_rules | `(tactic| pick_lem) => `(tactic| with_reducible apply validateCreateTable_pick)


theorem validate_pick (isNum : Str → Bool) (n : Nat) : Prog.Pick (validate isNum n) := by
  induction n with
  | zero => trivial
  | succ n ih =>
    have he : ∀ n c, NotOk (runA (validate isNum n) (EOF :: c)) := by
      intro n c
      cases n with
      | zero => exact .timeout
      | succ n => exact .fail _
    unfold validate
    refine Prog.Pick.oobM trivial ?_ fun c => NotOk.fail _
    unfold validateDdl validateCreateOther
    simp only [Prog.bind_eq, Prog.bind_assoc, ifM_bindP]
    repeat' first | exact createOtherLoop_pick ih (he n) _ _ | pick_step

end Sqlite

namespace Postgres

open DDL V

theorem validateColumnType_pick  : Prog.Pick (validateColumnType) := by
  unfold validateColumnType; pick_all
macro_rules | `(tactic| pick_lem) => `(tactic| with_reducible apply validateColumnType_pick)

theorem validateIndexParameters_pick (n : Nat) : Prog.Pick ((validateIndexParameters n)) := by
  unfold validateIndexParameters; pick_all
macro_rules | `(tactic| pick_lem) => `(tactic| with_reducible apply validateIndexParameters_pick)

theorem validateConstraintPrimaryKey_pick (n : Nat) : Prog.Pick ((validateConstraintPrimaryKey n)) := by
  unfold validateConstraintPrimaryKey; pick_all
macro_rules | `(tactic| pick_lem) => `(tactic| with_reducible apply validateConstraintPrimaryKey_pick)

theorem validateConstraintNotNull_pick  : Prog.Pick (validateConstraintNotNull) := by
  unfold validateConstraintNotNull; pick_all
macro_rules | `(tactic| pick_lem) => `(tactic| with_reducible apply validateConstraintNotNull_pick)

theorem validateConstraintNull_pick  : Prog.Pick (validateConstraintNull) := by
  unfold validateConstraintNull; pick_all
macro_rules | `(tactic| pick_lem) => `(tactic| with_reducible apply validateConstraintNull_pick)

theorem validateConstraintUnique_pick (n : Nat) : Prog.Pick ((validateConstraintUnique n)) := by
  unfold validateConstraintUnique; pick_all
macro_rules | `(tactic| pick_lem) => `(tactic| with_reducible apply validateConstraintUnique_pick)

theorem validateConstraintCheck_pick (n : Nat) : Prog.Pick ((validateConstraintCheck n)) := by
  unfold validateConstraintCheck; pick_all
macro_rules | `(tactic| pick_lem) => `(tactic| with_reducible apply validateConstraintCheck_pick)

theorem validateConstraintDefault_pick (isNum : Str → Bool) (n : Nat) : Prog.Pick ((validateConstraintDefault isNum n)) := by
  unfold validateConstraintDefault; pick_all
macro_rules | `(tactic| pick_lem) => `(tactic| with_reducible apply validateConstraintDefault_pick)

theorem validateConstraintReferences_pick (n : Nat) : Prog.Pick ((validateConstraintReferences n)) := by
  unfold validateConstraintReferences; pick_all
macro_rules | `(tactic| pick_lem) => `(tactic| with_reducible apply validateConstraintReferences_pick)

theorem optBrackets_pick (n : Nat) : Prog.Pick ((optBrackets n)) := by
  unfold optBrackets; pick_all
macro_rules | `(tactic| pick_lem) => `(tactic| with_reducible apply optBrackets_pick)

theorem validateConstraintGenerated_pick (n : Nat) : Prog.Pick ((validateConstraintGenerated n)) := by
  unfold validateConstraintGenerated; pick_all
macro_rules | `(tactic| pick_lem) => `(tactic| with_reducible apply validateConstraintGenerated_pick)

theorem validateColumnConstraint_pick (isNum : Str → Bool) (n : Nat) : Prog.Pick ((validateColumnConstraint isNum n)) := by
  unfold validateColumnConstraint; pick_all
macro_rules | `(tactic| pick_lem) => `(tactic| with_reducible apply validateColumnConstraint_pick)

theorem validateColumnConstraints_pick (isNum : Str → Bool) (n : Nat) : Prog.Pick ((validateColumnConstraints isNum n)) := by
  unfold validateColumnConstraints; pick_all
macro_rules | `(tactic| pick_lem) => `(tactic| with_reducible apply validateColumnConstraints_pick)

theorem validateTableConstraintPrimaryKey_pick (n : Nat) : Prog.Pick ((validateTableConstraintPrimaryKey n)) := by
  unfold validateTableConstraintPrimaryKey; pick_all
macro_rules | `(tactic| pick_lem) => `(tactic| with_reducible apply validateTableConstraintPrimaryKey_pick)

theorem validateTableConstraintUnique_pick (n : Nat) : Prog.Pick ((validateTableConstraintUnique n)) := by
  unfold validateTableConstraintUnique; pick_all
macro_rules | `(tactic| pick_lem) => `(tactic| with_reducible apply validateTableConstraintUnique_pick)

theorem validateTableConstraintForeignKey_pick (n : Nat) : Prog.Pick ((validateTableConstraintForeignKey n)) := by
  unfold validateTableConstraintForeignKey; pick_all
macro_rules | `(tactic| pick_lem) => `(tactic| with_reducible apply validateTableConstraintForeignKey_pick)

theorem validateTableConstraintExclude_pick (n : Nat) : Prog.Pick ((validateTableConstraintExclude n)) := by
  unfold validateTableConstraintExclude; pick_all
macro_rules | `(tactic| pick_lem) => `(tactic| with_reducible apply validateTableConstraintExclude_pick)

theorem validateTableConstraint_pick (n : Nat) : Prog.Pick ((validateTableConstraint n)) := by
  unfold validateTableConstraint; pick_all
macro_rules | `(tactic| pick_lem) => `(tactic| with_reducible apply validateTableConstraint_pick)

theorem validateColumnDefinition_pick (isNum : Str → Bool) (n : Nat) : Prog.Pick ((validateColumnDefinition isNum n)) := by
  unfold validateColumnDefinition; pick_all
macro_rules | `(tactic| pick_lem) => `(tactic| with_reducible apply validateColumnDefinition_pick)

theorem validateColumnDefinitions_pick (isNum : Str → Bool) (n : Nat) : Prog.Pick ((validateColumnDefinitions isNum n)) := by
  induction n with
  | zero => exact trivial
  | succ n ih => unfold validateColumnDefinitions; pick_all
macro_rules | `(tactic| pick_lem) => `(tactic| with_reducible apply validateColumnDefinitions_pick)

theorem validateTableOptionWith_pick (n : Nat) : Prog.Pick ((validateTableOptionWith n)) := by
  unfold validateTableOptionWith; pick_all
macro_rules | `(tactic| pick_lem) => `(tactic| with_reducible apply validateTableOptionWith_pick)

theorem validateTableOptionWithout_pick  : Prog.Pick (validateTableOptionWithout) := by
  unfold validateTableOptionWithout; pick_all
macro_rules | `(tactic| pick_lem) => `(tactic| with_reducible apply validateTableOptionWithout_pick)

theorem validateTableOptionTablespace_pick  : Prog.Pick (validateTableOptionTablespace) := by
  unfold validateTableOptionTablespace; pick_all
macro_rules | `(tactic| pick_lem) => `(tactic| with_reducible apply validateTableOptionTablespace_pick)

theorem validateTableOptionInherits_pick (n : Nat) : Prog.Pick ((validateTableOptionInherits n)) := by
  unfold validateTableOptionInherits; pick_all
macro_rules | `(tactic| pick_lem) => `(tactic| with_reducible apply validateTableOptionInherits_pick)

theorem validateTableOptionPartition_pick (n : Nat) : Prog.Pick ((validateTableOptionPartition n)) := by
  unfold validateTableOptionPartition; pick_all
macro_rules | `(tactic| pick_lem) => `(tactic| with_reducible apply validateTableOptionPartition_pick)

theorem validateTableOptionUsing_pick  : Prog.Pick (validateTableOptionUsing) := by
  unfold validateTableOptionUsing; pick_all
macro_rules | `(tactic| pick_lem) => `(tactic| with_reducible apply validateTableOptionUsing_pick)

theorem validateTableOption_pick (n : Nat) : Prog.Pick ((validateTableOption n)) := by
  unfold validateTableOption; pick_all
macro_rules | `(tactic| pick_lem) => `(tactic| with_reducible apply validateTableOption_pick)

theorem validateTableOptions_pick  (n : Nat) : Prog.Pick ((validateTableOptions  n)) := by
  induction n with
  | zero => exact trivial
  | succ n ih =>
    unfold validateTableOptions
    refine Prog.Pick.oobM trivial (by pick_all) fun c => ?_
    exact .fail _
macro_rules | `(tactic| pick_lem) => `(tactic| with_reducible apply validateTableOptions_pick)

theorem validateTableDefinition_pick (isNum : Str → Bool) (n : Nat) : Prog.Pick ((validateTableDefinition isNum n)) := by
  unfold validateTableDefinition; pick_all
macro_rules | `(tactic| pick_lem) => `(tactic| with_reducible apply validateTableDefinition_pick)

theorem validateCreateTable_pick (isNum : Str → Bool) (n : Nat) : Prog.Pick ((validateCreateTable isNum n)) := by
  unfold validateCreateTable; pick_all
macro_rules | `(tactic| pick_lem) => `(tactic| with_reducible apply validateCreateTable_pick)


theorem validate_pick (isNum : Str → Bool) (n : Nat) : Prog.Pick (validate isNum n) := by
  induction n with
  | zero => trivial
  | succ n ih =>
    have he : ∀ n c, NotOk (runA (validate isNum n) (EOF :: c)) := by
      intro n c
      cases n with
      | zero => exact .timeout
      | succ n => exact .fail _
    unfold validate
    refine Prog.Pick.oobM trivial ?_ fun c => NotOk.fail _
    unfold validateDdl validateCreateOther
    simp only [Prog.bind_eq, Prog.bind_assoc, ifM_bindP]
    repeat' first | exact createOtherLoop_pick ih (he n) _ _ | pick_step

end Postgres

namespace Mysql

open DDL V

theorem validateStringValue_pick (set : Bool) : Prog.Pick ((validateStringValue set)) := by
  unfold validateStringValue; pick_all
macro_rules | `(tactic| pick_lem) => `(tactic| with_reducible apply validateStringValue_pick)

theorem validateIndexKeysAux_pick (set : Bool) (n : Nat) : Prog.Pick ((validateIndexKeysAux set n)) := by
  induction n with
  | zero => exact trivial
  | succ n ih => unfold validateIndexKeysAux; pick_all
macro_rules | `(tactic| pick_lem) => `(tactic| with_reducible apply validateIndexKeysAux_pick)

theorem validateIndexKeys_pick (n : Nat) (set : Bool) : Prog.Pick ((validateIndexKeys n set)) := by
  unfold validateIndexKeys; pick_all
macro_rules | `(tactic| pick_lem) => `(tactic| with_reducible apply validateIndexKeys_pick)

theorem validateColumnType_pick  : Prog.Pick (validateColumnType) := by
  unfold validateColumnType; pick_all
macro_rules | `(tactic| pick_lem) => `(tactic| with_reducible apply validateColumnType_pick)

theorem validateConstraintPrimaryKey_pick  : Prog.Pick (validateConstraintPrimaryKey) := by
  unfold validateConstraintPrimaryKey; pick_all
macro_rules | `(tactic| pick_lem) => `(tactic| with_reducible apply validateConstraintPrimaryKey_pick)

theorem validateConstraintNotNull_pick  : Prog.Pick (validateConstraintNotNull) := by
  unfold validateConstraintNotNull; pick_all
macro_rules | `(tactic| pick_lem) => `(tactic| with_reducible apply validateConstraintNotNull_pick)

theorem validateConstraintNull_pick  : Prog.Pick (validateConstraintNull) := by
  unfold validateConstraintNull; pick_all
macro_rules | `(tactic| pick_lem) => `(tactic| with_reducible apply validateConstraintNull_pick)

theorem validateConstraintUnique_pick  : Prog.Pick (validateConstraintUnique) := by
  unfold validateConstraintUnique; pick_all
macro_rules | `(tactic| pick_lem) => `(tactic| with_reducible apply validateConstraintUnique_pick)

theorem validateConstraintCheck_pick (n : Nat) : Prog.Pick ((validateConstraintCheck n)) := by
  unfold validateConstraintCheck; pick_all
macro_rules | `(tactic| pick_lem) => `(tactic| with_reducible apply validateConstraintCheck_pick)

theorem validateConstraintDefault_pick (isNum : Str → Bool) (n : Nat) : Prog.Pick ((validateConstraintDefault isNum n)) := by
  unfold validateConstraintDefault; pick_all
macro_rules | `(tactic| pick_lem) => `(tactic| with_reducible apply validateConstraintDefault_pick)

theorem validateConstraintCollate_pick  : Prog.Pick (validateConstraintCollate) := by
  unfold validateConstraintCollate; pick_all
macro_rules | `(tactic| pick_lem) => `(tactic| with_reducible apply validateConstraintCollate_pick)

theorem validateConstraintReferences_pick (n : Nat) : Prog.Pick ((validateConstraintReferences n)) := by
  unfold validateConstraintReferences; pick_all
macro_rules | `(tactic| pick_lem) => `(tactic| with_reducible apply validateConstraintReferences_pick)

theorem validateConstraintGenerated_pick (n : Nat) : Prog.Pick ((validateConstraintGenerated n)) := by
  unfold validateConstraintGenerated; pick_all
macro_rules | `(tactic| pick_lem) => `(tactic| with_reducible apply validateConstraintGenerated_pick)

theorem validateConstraintComment_pick  : Prog.Pick (validateConstraintComment) := by
  unfold validateConstraintComment; pick_all
macro_rules | `(tactic| pick_lem) => `(tactic| with_reducible apply validateConstraintComment_pick)

theorem validateConstraintColumnFormat_pick  : Prog.Pick (validateConstraintColumnFormat) := by
  unfold validateConstraintColumnFormat; pick_all
macro_rules | `(tactic| pick_lem) => `(tactic| with_reducible apply validateConstraintColumnFormat_pick)

theorem validateConstraintEngineAttribute_pick  : Prog.Pick (validateConstraintEngineAttribute) := by
  unfold validateConstraintEngineAttribute; pick_all
macro_rules | `(tactic| pick_lem) => `(tactic| with_reducible apply validateConstraintEngineAttribute_pick)

theorem validateConstraintStorage_pick  : Prog.Pick (validateConstraintStorage) := by
  unfold validateConstraintStorage; pick_all
macro_rules | `(tactic| pick_lem) => `(tactic| with_reducible apply validateConstraintStorage_pick)

theorem validateConstraintAutoincrement_pick  : Prog.Pick (validateConstraintAutoincrement) := by
  unfold validateConstraintAutoincrement; pick_all
macro_rules | `(tactic| pick_lem) => `(tactic| with_reducible apply validateConstraintAutoincrement_pick)

theorem validateColumnConstraint_pick (isNum : Str → Bool) (n : Nat) : Prog.Pick ((validateColumnConstraint isNum n)) := by
  unfold validateColumnConstraint; pick_all
macro_rules | `(tactic| pick_lem) => `(tactic| with_reducible apply validateColumnConstraint_pick)

theorem validateColumnConstraints_pick (isNum : Str → Bool) (n : Nat) : Prog.Pick ((validateColumnConstraints isNum n)) := by
  unfold validateColumnConstraints; pick_all
macro_rules | `(tactic| pick_lem) => `(tactic| with_reducible apply validateColumnConstraints_pick)

theorem validateIndexType_pick  : Prog.Pick (validateIndexType) := by
  unfold validateIndexType; pick_all
macro_rules | `(tactic| pick_lem) => `(tactic| with_reducible apply validateIndexType_pick)

theorem validateIndexOption_pick (isNum : Str → Bool) (n : Nat) : Prog.Pick ((validateIndexOption isNum n)) := by
  induction n with
  | zero => exact trivial
  | succ n ih => unfold validateIndexOption; pick_all
macro_rules | `(tactic| pick_lem) => `(tactic| with_reducible apply validateIndexOption_pick)

theorem optIndexType_pick  : Prog.Pick (optIndexType) := by
  unfold optIndexType; pick_all
macro_rules | `(tactic| pick_lem) => `(tactic| with_reducible apply optIndexType_pick)

theorem validateTableConstraintPrimaryKey_pick (isNum : Str → Bool) (n : Nat) : Prog.Pick ((validateTableConstraintPrimaryKey isNum n)) := by
  unfold validateTableConstraintPrimaryKey; pick_all
macro_rules | `(tactic| pick_lem) => `(tactic| with_reducible apply validateTableConstraintPrimaryKey_pick)

theorem validateTableConstraintUnique_pick (isNum : Str → Bool) (n : Nat) : Prog.Pick ((validateTableConstraintUnique isNum n)) := by
  unfold validateTableConstraintUnique; pick_all
macro_rules | `(tactic| pick_lem) => `(tactic| with_reducible apply validateTableConstraintUnique_pick)

theorem validateTableConstraintForeignKey_pick (n : Nat) : Prog.Pick ((validateTableConstraintForeignKey n)) := by
  unfold validateTableConstraintForeignKey; pick_all
macro_rules | `(tactic| pick_lem) => `(tactic| with_reducible apply validateTableConstraintForeignKey_pick)

theorem validateTableConstraintIndex_pick (isNum : Str → Bool) (n : Nat) : Prog.Pick ((validateTableConstraintIndex isNum n)) := by
  unfold validateTableConstraintIndex; pick_all
macro_rules | `(tactic| pick_lem) => `(tactic| with_reducible apply validateTableConstraintIndex_pick)

theorem validateTableConstraintAux_pick (isNum : Str → Bool) (n : Nat) : Prog.Pick ((validateTableConstraintAux isNum n)) := by
  unfold validateTableConstraintAux; pick_all
macro_rules | `(tactic| pick_lem) => `(tactic| with_reducible apply validateTableConstraintAux_pick)

theorem validateTableConstraint_pick (isNum : Str → Bool) (n : Nat) : Prog.Pick ((validateTableConstraint isNum n)) := by
  unfold validateTableConstraint; pick_all
macro_rules | `(tactic| pick_lem) => `(tactic| with_reducible apply validateTableConstraint_pick)

theorem validateColumnDefinition_pick (isNum : Str → Bool) (n : Nat) : Prog.Pick ((validateColumnDefinition isNum n)) := by
  unfold validateColumnDefinition; pick_all
macro_rules | `(tactic| pick_lem) => `(tactic| with_reducible apply validateColumnDefinition_pick)

theorem validateColumnDefinitions_pick (isNum : Str → Bool) (n : Nat) : Prog.Pick ((validateColumnDefinitions isNum n)) := by
  induction n with
  | zero => exact trivial
  | succ n ih => unfold validateColumnDefinitions; pick_all
macro_rules | `(tactic| pick_lem) => `(tactic| with_reducible apply validateColumnDefinitions_pick)

theorem validateCommaSeparatedTableNames_pick (set : Bool) (n : Nat) : Prog.Pick ((validateCommaSeparatedTableNames set n)) := by
  induction n with
  | zero => exact trivial
  | succ n ih => unfold validateCommaSeparatedTableNames; pick_all
macro_rules | `(tactic| pick_lem) => `(tactic| with_reducible apply validateCommaSeparatedTableNames_pick)

theorem validateTableOptionCommonLiteral_pick (isNum : Str → Bool) : Prog.Pick ((validateTableOptionCommonLiteral isNum)) := by
  unfold validateTableOptionCommonLiteral; pick_all
macro_rules | `(tactic| pick_lem) => `(tactic| with_reducible apply validateTableOptionCommonLiteral_pick)

theorem validateTableOptionCommonString_pick  : Prog.Pick (validateTableOptionCommonString) := by
  unfold validateTableOptionCommonString; pick_all
macro_rules | `(tactic| pick_lem) => `(tactic| with_reducible apply validateTableOptionCommonString_pick)

theorem validateTableOptionCommonName_pick  : Prog.Pick (validateTableOptionCommonName) := by
  unfold validateTableOptionCommonName; pick_all
macro_rules | `(tactic| pick_lem) => `(tactic| with_reducible apply validateTableOptionCommonName_pick)

theorem validateTableOptionCommon01_pick  : Prog.Pick (validateTableOptionCommon01) := by
  unfold validateTableOptionCommon01; pick_all
macro_rules | `(tactic| pick_lem) => `(tactic| with_reducible apply validateTableOptionCommon01_pick)

theorem validateTableOptionCommon01Default_pick  : Prog.Pick (validateTableOptionCommon01Default) := by
  unfold validateTableOptionCommon01Default; pick_all
macro_rules | `(tactic| pick_lem) => `(tactic| with_reducible apply validateTableOptionCommon01Default_pick)

theorem validateTableOptionDirectory_pick (isNum : Str → Bool) : Prog.Pick ((validateTableOptionDirectory isNum)) := by
  unfold validateTableOptionDirectory; pick_all
macro_rules | `(tactic| pick_lem) => `(tactic| with_reducible apply validateTableOptionDirectory_pick)

theorem validateTableOptionTablespace_pick  : Prog.Pick (validateTableOptionTablespace) := by
  unfold validateTableOptionTablespace; pick_all
macro_rules | `(tactic| pick_lem) => `(tactic| with_reducible apply validateTableOptionTablespace_pick)

theorem validateTableOptionDefault_pick  : Prog.Pick (validateTableOptionDefault) := by
  unfold validateTableOptionDefault; pick_all
macro_rules | `(tactic| pick_lem) => `(tactic| with_reducible apply validateTableOptionDefault_pick)

theorem validateTableOptionUnion_pick (n : Nat) : Prog.Pick ((validateTableOptionUnion n)) := by
  unfold validateTableOptionUnion; pick_all
macro_rules | `(tactic| pick_lem) => `(tactic| with_reducible apply validateTableOptionUnion_pick)

theorem validateTableOptionInsertMethod_pick  : Prog.Pick (validateTableOptionInsertMethod) := by
  unfold validateTableOptionInsertMethod; pick_all
macro_rules | `(tactic| pick_lem) => `(tactic| with_reducible apply validateTableOptionInsertMethod_pick)

theorem validateTableOptionRowFormat_pick  : Prog.Pick (validateTableOptionRowFormat) := by
  unfold validateTableOptionRowFormat; pick_all
macro_rules | `(tactic| pick_lem) => `(tactic| with_reducible apply validateTableOptionRowFormat_pick)

theorem validateTableOption_pick (isNum : Str → Bool) (n : Nat) : Prog.Pick ((validateTableOption isNum n)) := by
  unfold validateTableOption; pick_all
macro_rules | `(tactic| pick_lem) => `(tactic| with_reducible apply validateTableOption_pick)

theorem validateTableOptions_pick (isNum : Str → Bool) (n : Nat) : Prog.Pick ((validateTableOptions isNum n)) := by
  induction n with
  | zero => exact trivial
  | succ n ih =>
    unfold validateTableOptions
    refine Prog.Pick.oobM trivial (by pick_all) fun c => ?_
    exact .fail _
macro_rules | `(tactic| pick_lem) => `(tactic| with_reducible apply validateTableOptions_pick)

theorem validateTableDefinition_pick (isNum : Str → Bool) (n : Nat) : Prog.Pick ((validateTableDefinition isNum n)) := by
  unfold validateTableDefinition; pick_all
macro_rules | `(tactic| pick_lem) => `(tactic| with_reducible apply validateTableDefinition_pick)

theorem validateCreateTable_pick (isNum : Str → Bool) (n : Nat) : Prog.Pick ((validateCreateTable isNum n)) := by
  unfold validateCreateTable; pick_all
macro_rules | `(tactic| pick_lem) => `(tactic| with_reducible apply validateCreateTable_pick)


theorem validate_pick (isNum : Str → Bool) (n : Nat) : Prog.Pick (validate isNum n) := by
  induction n with
  | zero => trivial
  | succ n ih =>
    have he : ∀ n c, NotOk (runA (validate isNum n) (EOF :: c)) := by
      intro n c
      cases n with
      | zero => exact .timeout
      | succ n => exact .fail _
    unfold validate
    refine Prog.Pick.oobM trivial ?_ fun c => NotOk.fail _
    unfold validateDdl validateCreateOther
    simp only [Prog.bind_eq, Prog.bind_assoc, ifM_bindP]
    repeat' first | exact createOtherLoop_pick ih (he n) _ _ | pick_step

end Mysql

theorem validateProg_pick (isNum : Str → Bool) (d : Rdbms) (n : Nat) :
    (validateProg isNum d n).Pick := by
  cases d
  · exact Sqlite.validate_pick isNum n
  · exact Postgres.validate_pick isNum n
  · exact Mysql.validate_pick isNum n
  · exact Sqlite.validate_pick isNum n

theorem plainTok_eof : PlainTok EOF := ⟨by decide, by decide, EOF_good⟩

/-- A program that fails (at the end of the input or before) does not accept the input followed by
some tokens which are not parentheses and of which the first is `<EOF>`; how many depends only on
this run. -/
theorem fail_extend (p : Prog α) (ts r : List Str) (h : runA p ts = .fail r) :
    ∃ N, ∀ q, Prog.Le p q → q.Pick → ∃ x : List Str, x.length ≤ N ∧ (∀ t ∈ x, PlainTok t) ∧
      ∀ c, NotOk (runA q (ts ++ EOF :: x ++ c)) := by
  have hd : ∀ {ts x c : List Str}, (ts ++ EOF :: x ++ c).headD EOF = ts.headD EOF := by
    intro ts x c; cases ts <;> rfl
  induction p generalizing ts r with
  | ret a => simp [runA] at h
  | token k ih =>
    obtain ⟨N, hN⟩ := ih _ _ _ h
    refine ⟨N, fun q hle hq => ?_⟩
    cases hle with
    | token hk =>
      obtain ⟨x, h1, h2, h3⟩ := hN _ (hk _) (hq _)
      refine ⟨x, h1, h2, fun c => ?_⟩
      have := h3 c
      simp only [runA, hd]
      exact this
  | oob k ih =>
    cases ts with
    | nil =>
      refine ⟨3, fun q hle hq => ?_⟩
      cases hle with
      | oob hk =>
        obtain ⟨_, x, h1, h2, h3⟩ := hq
        exact ⟨x, h1, h2, fun c => h3 c⟩
    | cons t ts =>
      obtain ⟨N, hN⟩ := ih _ _ _ h
      refine ⟨N, fun q hle hq => ?_⟩
      cases hle with
      | oob hk =>
        obtain ⟨x, h1, h2, h3⟩ := hN _ (hk _) (hq.1 _)
        exact ⟨x, h1, h2, fun c => h3 c⟩
  | head k ih =>
    simp only [runA] at h
    cases hh : ts.headD EOF with
    | nil => rw [hh] at h; cases h
    | cons ch y =>
      rw [hh] at h
      obtain ⟨N, hN⟩ := ih _ _ _ h
      refine ⟨N, fun q hle hq => ?_⟩
      cases hle with
      | head hk =>
        obtain ⟨x, h1, h2, h3⟩ := hN _ (hk _) (hq _)
        refine ⟨x, h1, h2, fun c => ?_⟩
        have := h3 c
        simp only [runA, hd, hh]
        exact this
  | adv b k ih =>
    simp only [runA] at h
    cases hk : runA k ts.tail with
    | fail r' =>
      obtain ⟨N, hN⟩ := ih _ _ hk
      cases ts with
      | nil =>
        refine ⟨N + 1, fun q hle hq => ?_⟩
        cases hle with
        | adv _ hk =>
          obtain ⟨x, h1, h2, h3⟩ := hN _ hk hq
          refine ⟨EOF :: x, by simpa using h1, ?_, fun c => ?_⟩
          · intro t ht
            rcases List.mem_cons.1 ht with rfl | ht
            · exact plainTok_eof
            · exact h2 t ht
          · exact (h3 c).pre
      | cons t ts =>
        refine ⟨N, fun q hle hq => ?_⟩
        cases hle with
        | adv _ hk =>
          obtain ⟨x, h1, h2, h3⟩ := hN _ hk hq
          exact ⟨x, h1, h2, fun c => (h3 c).pre⟩
    | _ => rw [hk] at h; cases h
  | emit t k ih =>
    simp only [runA] at h
    cases hk : runA k ts with
    | fail r' =>
      obtain ⟨N, hN⟩ := ih _ _ hk
      refine ⟨N, fun q hle hq => ?_⟩
      cases hle with
      | emit _ hk =>
        obtain ⟨x, h1, h2, h3⟩ := hN _ hk hq
        exact ⟨x, h1, h2, fun c => (h3 c).pre⟩
    | _ => rw [hk] at h; cases h
  | fail =>
    refine ⟨0, fun q hle hq => ?_⟩
    cases hle
    exact ⟨[], by simp, by simp, fun c => .fail _⟩
  | timeout => simp [runA] at h

end DDL
