import Verif.Model.Converter
import Verif.Proof.Impl
/-
General facts about the converter: more fuel never changes the answer; on tokens from the lexer
it never panics.
-/

set_option synthInstance.maxSize 2000
set_option synthInstance.maxHeartbeats 200000

namespace DDL
open C

/-- `g` answers at least where `f` does, with the same answer. -/
class CLe (f g : CM α) : Prop where
  out : ∀ s, f s = .timeout ∨ f s = g s

instance (priority := low) CLe.refl (f : CM α) : CLe f f := ⟨fun _ => .inr rfl⟩

theorem CLe.trans {f g h : CM α} (a : CLe f g) (b : CLe g h) : CLe f h :=
  ⟨fun s => by
    rcases a.out s with e | e
    · exact .inl e
    · rw [e]; exact b.out s⟩

instance CLe.bind {p q : CM α} {f g : α → CM β} [h : CLe p q] [hf : ∀ a, CLe (f a) (g a)] :
    CLe (p.bind f) (q.bind g) := ⟨fun s => by
  unfold CM.bind
  rcases h.out s with e | e
  · rw [e]; exact .inl rfl
  · rw [e]
    cases q s with
    | ok a s' => exact (hf a).out s'
    | panic => exact .inr rfl
    | timeout => exact .inl rfl⟩

instance CLe.cond {b : Bool} {p q p' q' : CM α} [h : CLe p p'] [h' : CLe q q'] :
    CLe (cond b p q) (cond b p' q') := by cases b <;> assumption

instance CLe.ifM {c : CM Bool} {p q p' q' : CM α} [CLe p p'] [CLe q q'] :
    CLe (C.ifM c p q) (C.ifM c p' q') := CLe.bind (hf := fun _ => CLe.cond)

theorem CLe.zero {g : CM α} : CLe C.timeout g := ⟨fun _ => .inl rfl⟩

/-- No panic on tokens from the lexer; only reads tokens. -/
class CSafe (f : CM α) : Prop where
  out : ∀ s, (∀ t ∈ s, Good t) →
    f s ≠ .panic ∧ ∀ a s', f s = .ok a s' → ∀ t ∈ s', Good t

instance CSafe.bind {p : CM α} {f : α → CM β} [h : CSafe p] [hf : ∀ a, CSafe (f a)] :
    CSafe (p.bind f) := ⟨fun s hs => by
  unfold CM.bind
  have := h.out s hs
  cases hp : p s with
  | ok a s' => exact (hf a).out s' (this.2 a s' hp)
  | panic => exact absurd hp this.1
  | timeout => exact ⟨by simp, by simp⟩⟩

instance CSafe.cond {b : Bool} {p q : CM α} [h : CSafe p] [h' : CSafe q] :
    CSafe (cond b p q) := by cases b <;> assumption

instance CSafe.ifM {c : CM Bool} {p q : CM α} [CSafe c] [CSafe p] [CSafe q] :
    CSafe (C.ifM c p q) := CSafe.bind (hf := fun _ => CSafe.cond)

instance CSafe.pure (a : α) : CSafe (CM.pure a) :=
  ⟨fun s hs => ⟨by simp [CM.pure], by rintro _ _ ⟨⟩; exact hs⟩⟩

instance CSafe.zero : CSafe (C.timeout : CM α) :=
  ⟨fun s hs => ⟨by simp [C.timeout], by simp [C.timeout]⟩⟩

theorem nextRest_mem (s : List Str) : ∀ t ∈ nextRest s, t ∈ s := by
  induction s with
  | nil => simp [nextRest]
  | cons a r ih =>
    unfold nextRest
    split
    · intro t ht; exact List.mem_cons_of_mem _ (ih t ht)
    · intro t ht; exact List.mem_cons_of_mem _ ht

instance : CSafe C.skip :=
  ⟨fun s hs => ⟨by simp [C.skip], by rintro _ _ ⟨⟩; exact fun t ht => hs t (nextRest_mem s t ht)⟩⟩
instance : CSafe C.next :=
  ⟨fun s hs => ⟨by simp [C.next], by rintro _ _ ⟨⟩; exact fun t ht => hs t (nextRest_mem s t ht)⟩⟩
instance : CSafe C.token := ⟨fun s hs => ⟨by simp [C.token], by rintro _ _ ⟨⟩; exact hs⟩⟩
instance : CSafe C.isOutOfRange :=
  ⟨fun s hs => ⟨by simp [C.isOutOfRange], by rintro _ _ ⟨⟩; exact hs⟩⟩
instance (ks : List String) : CSafe (C.matchToken ks) :=
  ⟨fun s hs => ⟨by simp [C.matchToken], by rintro _ _ ⟨⟩; exact hs⟩⟩

theorem EOF_good : Good EOF := by
  refine ⟨by decide, ?_⟩
  rintro c r h _
  decide

theorem tok_good {s : List Str} (hs : ∀ t ∈ s, Good t) : Good (tok s) := by
  cases s with
  | nil => exact EOF_good
  | cons t r => exact hs t (by simp)

/-- After `next`, a continuation that is safe for the token read is safe. -/
theorem CSafe.next_bind {f : Str → CM β} (hf : ∀ t, Good t → CSafe (f t)) : CSafe (C.next.bind f) :=
  ⟨fun s hs => (hf (tok s) (tok_good hs)).out (nextRest s)
    (fun t ht => hs t (nextRest_mem s t ht))⟩

theorem CSafe.head_bind {t : Str} {f : Char → CM β} (ht : t ≠ [])
    (hf : ∀ c r, t = c :: r → CSafe (f c)) : CSafe ((C.headChar t).bind f) := by
  cases t with
  | nil => exact absurd rfl ht
  | cons c r => exact ⟨fun s hs => (hf c r rfl).out s hs⟩

theorem CSafe.inner {t : Str} (h : 2 ≤ t.length) : CSafe (C.inner t) :=
  ⟨fun s hs => by
    have e : C.inner t s = .ok (t.drop 1).dropLast s := if_neg (by omega)
    rw [e]; exact ⟨by simp, by rintro _ _ ⟨⟩; exact hs⟩⟩

theorem isIdentifier_quote {d : Rdbms} {c : Char} (h : C.isIdentifier d c = true) :
    c = '"' ∨ c = '\'' ∨ c = '`' := by
  cases d <;> simp [C.isIdentifier] at h <;> grind

theorem isStringValue_quote {d : Rdbms} {c : Char} (h : C.isStringValue d c = true) :
    c = '"' ∨ c = '\'' ∨ c = '`' := by
  cases d <;> simp [C.isStringValue] at h <;> grind

instance convertName_safe (d : Rdbms) : CSafe (C.convertName d) := by
  unfold C.convertName
  refine CSafe.next_bind fun t ht => CSafe.head_bind ht.1 fun c r hc => ?_
  cases h : C.isIdentifier d c with
  | true => exact CSafe.inner (ht.2 c r hc (isIdentifier_quote h))
  | false => exact CSafe.pure _

instance convertLiteralValue_safe [CaseMap] (isNum : Str → Bool) (d : Rdbms) :
    CSafe (C.convertLiteralValue isNum d) := by
  unfold C.convertLiteralValue
  refine CSafe.next_bind fun t ht => ?_
  cases isNum t with
  | true => exact CSafe.pure _
  | false =>
    refine CSafe.head_bind ht.1 fun c r hc => ?_
    cases h : C.isStringValue d c with
    | true =>
      have := CSafe.inner (ht.2 c r hc (isStringValue_quote h))
      exact CSafe.bind
    | false => exact CSafe.pure _

namespace C

instance convertTableName_safe (d : Rdbms) : CSafe (convertTableName d) := by
  unfold convertTableName; infer_instance

instance convertTypeDigit_safe : CSafe (convertTypeDigit) := by
  unfold convertTypeDigit; infer_instance

instance convertDateType_safe [CaseMap] : CSafe (convertDateType) := by
  unfold convertDateType; infer_instance

instance convertExprAux_safe  (n : Nat)  : CSafe (convertExprAux  n) := by
  induction n with
  | zero => exact CSafe.zero
  | succ n ih => unfold convertExprAux; infer_instance

instance convertExprAux_le  (n : Nat)  : CLe (convertExprAux  n) (convertExprAux  (n + 1)) := by
  induction n with
  | zero => exact CLe.zero
  | succ n ih => unfold convertExprAux; infer_instance

instance convertExpr_safe  (n : Nat)  : CSafe (convertExpr  n) := by
  unfold convertExpr; infer_instance

instance convertExpr_le  (n : Nat)  : CLe (convertExpr  n) (convertExpr  (n + 1)) := by
  unfold convertExpr; infer_instance

instance convertDefaultValue_safe [CaseMap] (isNum : Str → Bool) (d : Rdbms) (n : Nat)  : CSafe (convertDefaultValue isNum d n) := by
  unfold convertDefaultValue; infer_instance

instance convertDefaultValue_le [CaseMap] (isNum : Str → Bool) (d : Rdbms) (n : Nat)  : CLe (convertDefaultValue isNum d n) (convertDefaultValue isNum d (n + 1)) := by
  unfold convertDefaultValue; infer_instance

instance columnNamesLoop_safe  (n : Nat) (ls : List Str) : CSafe (columnNamesLoop  n ls) := by
  induction n generalizing ls with
  | zero => exact CSafe.zero
  | succ n ih => unfold columnNamesLoop; infer_instance

instance columnNamesLoop_le  (n : Nat) (ls : List Str) : CLe (columnNamesLoop  n ls) (columnNamesLoop  (n + 1) ls) := by
  induction n generalizing ls with
  | zero => exact CLe.zero
  | succ n ih => unfold columnNamesLoop; infer_instance

instance convertCommaSeparatedColumnNames_safe  (n : Nat)  : CSafe (convertCommaSeparatedColumnNames  n) := by
  unfold convertCommaSeparatedColumnNames; infer_instance

instance convertCommaSeparatedColumnNames_le  (n : Nat)  : CLe (convertCommaSeparatedColumnNames  n) (convertCommaSeparatedColumnNames  (n + 1)) := by
  unfold convertCommaSeparatedColumnNames; infer_instance

instance convertReference_safe (d : Rdbms) (n : Nat)  : CSafe (convertReference d n) := by
  unfold convertReference; infer_instance

instance convertReference_le (d : Rdbms) (n : Nat)  : CLe (convertReference d n) (convertReference d (n + 1)) := by
  unfold convertReference; infer_instance

instance convertConstraintAux_safe [CaseMap] (isNum : Str → Bool) (d : Rdbms) (n : Nat) (con : Constraint) : CSafe (convertConstraintAux isNum d n con) := by
  induction n generalizing con with
  | zero => exact CSafe.zero
  | succ n ih => unfold convertConstraintAux; infer_instance

instance convertConstraintAux_le [CaseMap] (isNum : Str → Bool) (d : Rdbms) (n : Nat) (con : Constraint) : CLe (convertConstraintAux isNum d n con) (convertConstraintAux isNum d (n + 1) con) := by
  induction n generalizing con with
  | zero => exact CLe.zero
  | succ n ih => unfold convertConstraintAux; infer_instance

instance convertConstraint_safe [CaseMap] (isNum : Str → Bool) (d : Rdbms) (n : Nat)  : CSafe (convertConstraint isNum d n) := by
  unfold convertConstraint; infer_instance

instance convertConstraint_le [CaseMap] (isNum : Str → Bool) (d : Rdbms) (n : Nat)  : CLe (convertConstraint isNum d n) (convertConstraint isNum d (n + 1)) := by
  unfold convertConstraint; infer_instance

instance convertColumnDefinition_safe [CaseMap] (isNum : Str → Bool) (d : Rdbms) (n : Nat)  : CSafe (convertColumnDefinition isNum d n) := by
  unfold convertColumnDefinition; infer_instance

instance convertColumnDefinition_le [CaseMap] (isNum : Str → Bool) (d : Rdbms) (n : Nat)  : CLe (convertColumnDefinition isNum d n) (convertColumnDefinition isNum d (n + 1)) := by
  unfold convertColumnDefinition; infer_instance

instance convertTableConstraint_safe (d : Rdbms) (n : Nat) (tc : TableConstraint) : CSafe (convertTableConstraint d n tc) := by
  unfold convertTableConstraint; infer_instance

instance convertTableConstraint_le (d : Rdbms) (n : Nat) (tc : TableConstraint) : CLe (convertTableConstraint d n tc) (convertTableConstraint d (n + 1) tc) := by
  unfold convertTableConstraint; infer_instance

instance tableDefinitionLoop_safe [CaseMap] (isNum : Str → Bool) (d : Rdbms) (n : Nat) (cols : List Column) (tc : TableConstraint) : CSafe (tableDefinitionLoop isNum d n cols tc) := by
  induction n generalizing cols tc with
  | zero => exact CSafe.zero
  | succ n ih => unfold tableDefinitionLoop; infer_instance

instance tableDefinitionLoop_le [CaseMap] (isNum : Str → Bool) (d : Rdbms) (n : Nat) (cols : List Column) (tc : TableConstraint) : CLe (tableDefinitionLoop isNum d n cols tc) (tableDefinitionLoop isNum d (n + 1) cols tc) := by
  induction n generalizing cols tc with
  | zero => exact CLe.zero
  | succ n ih => unfold tableDefinitionLoop; infer_instance

instance convertTableDefinition_safe [CaseMap] (isNum : Str → Bool) (d : Rdbms) (n : Nat)  : CSafe (convertTableDefinition isNum d n) := by
  unfold convertTableDefinition; infer_instance

instance convertTableDefinition_le [CaseMap] (isNum : Str → Bool) (d : Rdbms) (n : Nat)  : CLe (convertTableDefinition isNum d n) (convertTableDefinition isNum d (n + 1)) := by
  unfold convertTableDefinition; infer_instance

instance convertTable_safe [CaseMap] (isNum : Str → Bool) (d : Rdbms) (n : Nat)  : CSafe (convertTable isNum d n) := by
  unfold convertTable; infer_instance

instance convertTable_le [CaseMap] (isNum : Str → Bool) (d : Rdbms) (n : Nat)  : CLe (convertTable isNum d n) (convertTable isNum d (n + 1)) := by
  unfold convertTable; infer_instance

instance convert_safe [CaseMap] (isNum : Str → Bool) (d : Rdbms) (n : Nat) (acc : List Table) : CSafe (convert isNum d n acc) := by
  induction n generalizing acc with
  | zero => exact CSafe.zero
  | succ n ih => unfold convert; infer_instance

instance convert_le [CaseMap] (isNum : Str → Bool) (d : Rdbms) (n : Nat) (acc : List Table) : CLe (convert isNum d n acc) (convert isNum d (n + 1) acc) := by
  induction n generalizing acc with
  | zero => exact CLe.zero
  | succ n ih => unfold convert; infer_instance

/-- More fuel never changes the answer of `convert`. -/
theorem convert_mono [CaseMap] (isNum : Str → Bool) (d : Rdbms) {n m : Nat} (h : n ≤ m) (acc : List Table)
    (s : List Str) : convert isNum d n acc s = .timeout ∨
      convert isNum d n acc s = convert isNum d m acc s := by
  induction h with
  | refl => exact .inr rfl
  | step _ ih =>
    rcases ih with e | e
    · exact .inl e
    · rw [e]; exact (convert_le isNum d _ acc).out s

end C
end DDL