import Verif.Proof.Stab
import Verif.Proof.Emits
/-
A validator keeps at most two tokens for each token it reads, and keeps only tokens it has read or
inserts.
The sweep over the validator functions is written by tools/gen_cost.py.
-/

namespace DDL
open V Spec

/-- At most two tokens are kept for each token read; they are tokens of the input or inserted ones
(not `<EOF>`). -/
def Cost (p : Prog α) : Prop :=
  ∀ ts, (∀ t ∈ ts, Good t) → ∀ a r o, runA p ts = .ok a r o →
    o.length + 2 * r.length ≤ 2 * ts.length ∧ ∀ t ∈ o, t ∈ ts ∨ Inserted t

theorem Inserted.create : Inserted (S "CREATE") := .inl rfl

theorem keep_mem {set : Bool} {t x : Str} (h : x ∈ keep set t) : x = t := by
  cases set <;> simp [keep] at h; exact h

theorem keep_le (set : Bool) (t : Str) : (keep set t).length ≤ 1 := by cases set <;> simp [keep]

namespace Cost

theorem ret (a : α) : Cost (.ret a) := by intro ts _ b r o h; cases h; simp
theorem fail : Cost (.fail : Prog α) := by intro ts _ b r o h; cases h
theorem timeout : Cost (.timeout : Prog α) := by intro ts _ b r o h; cases h

theorem of_pre {x : ResA α} {o1 : List Str} {a r o} (h : x.pre o1 = .ok a r o) :
    ∃ o2, x = .ok a r o2 ∧ o = o1 ++ o2 := by
  cases x with
  | ok b r' o' => cases h; exact ⟨_, rfl, rfl⟩
  | _ => cases h

theorem of_bind {p : Prog α} {f : α → Prog β} {ts a r o} (h : runA (p.bind f) ts = .ok a r o) :
    ∃ b m o1 o2, runA p ts = .ok b m o1 ∧ runA (f b) m = .ok a r o2 ∧ o = o1 ++ o2 := by
  rw [runA_bind] at h
  cases hr : runA p ts with
  | ok b m o1 =>
    rw [hr] at h
    obtain ⟨o2, h1, rfl⟩ := of_pre (show (runA (f b) m).pre o1 = _ from h)
    exact ⟨b, m, o1, o2, rfl, h1, rfl⟩
  | _ => rw [hr] at h; cases h

theorem good {p : Prog α} {ts a r o} (h : runA p ts = .ok a r o) (hg : ∀ t ∈ ts, Good t) :
    ∀ t ∈ r, Good t := fun t ht => hg t (((runA_suffix p ts).1 _ _ _ h).subset ht)

theorem bind {p : Prog α} {f : α → Prog β} (hp : Cost p) (hf : ∀ a, Cost (f a)) : Cost (p.bind f) := by
  intro ts hg a r o h
  obtain ⟨b, m, o1, o2, h1, h2, rfl⟩ := of_bind h
  have e1 := hp _ hg _ _ _ h1
  have e2 := hf b _ (good h1 hg) _ _ _ h2
  refine ⟨by rw [List.length_append]; omega, fun t ht => ?_⟩
  rcases List.mem_append.1 ht with ht | ht
  · exact e1.2 t ht
  · exact (e2.2 t ht).imp_left fun hm => ((runA_suffix p ts).1 _ _ _ h1).subset hm

theorem cond {b : Bool} {p q : Prog α} (h : Cost p) (h' : Cost q) : Cost (cond b p q) := by
  cases b <;> assumption

theorem ifM {c : Prog Bool} {p q : Prog α} (hc : Cost c) (h : Cost p) (h' : Cost q) :
    Cost (V.ifM c p q) := bind hc fun _ => cond h h'

theorem token {k : Str → Prog α} (h : ∀ t, Cost (k t)) : Cost (.token k) := fun ts => h _ ts

theorem nextF : Cost (next false) := by
  intro ts _ a r o h
  rw [runA_next] at h
  cases h
  have := List.length_tail (l := ts)
  simp only [keep_false, List.length_nil]
  exact ⟨by omega, by simp⟩

theorem matchToken (ks : List String) : Cost (matchToken ks) := token fun _ => ret _
theorem isOutOfRange : Cost isOutOfRange := by intro ts _ a r o h; cases h; simp
theorem syntaxError : Cost (syntaxError : Prog α) := fail

/-- Reading a token that is there. -/
theorem next_cons {set : Bool} {t : Str} {ts : List Str} {a r o}
    (h : runA (next set) (t :: ts) = .ok a r o) : o.length + 2 * r.length + 1 ≤ 2 * (t :: ts).length := by
  rw [runA_next] at h
  cases h
  have := keep_le set (hd (t :: ts))
  simp only [List.tail_cons, List.length_cons]
  omega

theorem matchTokenNext {set : Bool} {ks : List String} (hk : isKw ks EOF = false) :
    Cost (matchTokenNext set ks) := by
  intro ts _ a r o h
  unfold V.matchTokenNext at h
  rw [runA_if] at h
  cases ts with
  | nil =>
    rw [if_neg (by rw [show hd [] = EOF from rfl, hk]; decide)] at h
    cases h
    simp
  | cons t ts =>
    split at h
    · obtain ⟨o2, h1, rfl⟩ := of_pre (show (runA (.ret true) ts).pre (keep set t) = _ from h)
      cases h1
      have := keep_le set t
      refine ⟨by rw [List.length_append, List.length_nil, List.length_cons]; omega, fun x hx => ?_⟩
      rw [List.append_nil] at hx
      exact .inl (by rw [keep_mem hx]; simp)
    · cases h; simp

theorem validateToken (set : Bool) (ks : List String) {ts a r o} (h : runA (validateToken set ks) ts = .ok a r o) :
    o.length + 2 * r.length + 1 ≤ 2 * ts.length ∧ ∀ t ∈ o, t ∈ ts ∨ Inserted t := by
  rw [runA_validateToken] at h
  cases ts with
  | nil => cases h
  | cons t r' =>
    dsimp only at h
    split at h
    · cases h
      have := keep_le set t
      exact ⟨by rw [List.length_cons]; omega, fun x hx => .inl (by rw [keep_mem hx]; simp)⟩
    · cases h

theorem tok (set : Bool) (ks : List String) : Cost (V.validateToken set ks) := by
  intro ts _ a r o h
  have := validateToken set ks h
  exact ⟨by omega, this.2⟩

theorem skipToken {set : Bool} {ks : List String} (hk : isKw ks EOF = false) :
    Cost (skipToken set ks) := by
  unfold V.skipToken
  exact bind (matchTokenNext hk) fun _ => ret _

/-- A token put in front of one that is read. -/
theorem setTok {t : Str} (ht : Inserted t) {set : Bool} {ks : List String} {f : Unit → Prog α}
    (hf : ∀ a, Cost (f a)) :
    Cost ((V.set t).bind fun _ => (V.validateToken set ks).bind f) := by
  intro ts hg a r o h
  obtain ⟨b, m, o1, o2, h1, h2, rfl⟩ := of_bind h
  cases h1
  obtain ⟨b, m, o1, o2, h1, h3, rfl⟩ := of_bind h2
  have e1 := validateToken _ _ h1
  have e2 := hf b _ (good h1 hg) _ _ _ h3
  refine ⟨by simp only [List.length_append, List.length_nil, List.length_cons]; omega, fun x hx => ?_⟩
  simp only [List.append_nil, List.cons_append, List.nil_append, List.mem_cons, List.mem_append] at hx
  rcases hx with rfl | hx | hx
  · exact .inr ht
  · exact e1.2 _ hx
  · exact (e2.2 _ hx).imp_left fun hm => ((runA_suffix _ _).1 _ _ _ h1).subset hm

/-- A check of one token that fails at the end of the input. -/
theorem one {p : Prog α} (h0 : ∀ a r o, runA p [] ≠ .ok a r o)
    (h1 : ∀ t ts, (∀ x ∈ t :: ts, Good x) → ∀ a r o, runA p (t :: ts) = .ok a r o →
      (∃ set, o = keep set t) ∧ r = ts) :
    Cost p := by
  intro ts hg a r o h
  cases ts with
  | nil => exact absurd h (h0 _ _ _)
  | cons t ts =>
    obtain ⟨⟨set, rfl⟩, rfl⟩ := h1 _ _ hg _ _ _ h
    have := keep_le set t
    exact ⟨by rw [List.length_cons]; omega, fun x hx => .inl (by rw [keep_mem hx]; simp)⟩

theorem one_next {set : Bool} {t : Str} {ts a r o} (h : runA (next set) (t :: ts) = .ok a r o) :
    (∃ set, o = keep set t) ∧ r = ts := by
  rw [runA_next] at h
  cases h
  exact ⟨⟨set, rfl⟩, rfl⟩

end Cost

/-- Extended after each lemma below. -/
syntax "cost_lem" : tactic
macro_rules | `(tactic| cost_lem) => `(tactic| fail)

macro "cost_step" : tactic => `(tactic| first
  | with_reducible exact Cost.ret _
  | with_reducible exact Cost.fail
  | with_reducible exact Cost.nextF
  | with_reducible exact Cost.syntaxError
  | with_reducible exact Cost.isOutOfRange
  | with_reducible exact Cost.matchToken _
  | with_reducible exact Cost.tok _ _
  | with_reducible exact Cost.matchTokenNext (by decide)
  | with_reducible exact Cost.skipToken (by decide)
  | with_reducible assumption
  | with_reducible refine Cost.setTok Inserted.create (fun _ => ?_)
  | with_reducible apply Cost.ifM
  | with_reducible apply Cost.cond
  | with_reducible refine Cost.bind ?_ (fun _ => ?_)
  | with_reducible refine Cost.token (fun _ => ?_)
  | cost_lem)

macro "cost_all" : tactic => `(tactic| ((try simp only [Prog.bind_eq, Prog.pure_eq]); repeat' cost_step))

namespace V

theorem validateBracketsAux_cost (set : Bool) (n : Nat) : Cost (validateBracketsAux set n) := by
  induction n with
  | zero => exact .timeout
  | succ n ih =>
    intro ts hg a r o h
    cases ts with
    | nil => rw [brackets_nil] at h; cases h
    | cons t ts =>
      unfold validateBracketsAux at h
      rw [runA_if] at h
      split at h
      · cases h; simp
      · rw [runA_if] at h
        split at h
        · exact Cost.bind (.tok _ _) (fun _ => .bind ih fun _ => .bind (.tok _ _) fun _ => ih) _ hg _ _ _ h
        · obtain ⟨b, m, o1, o2, h1, h2, rfl⟩ := Cost.of_bind h
          have e1 := Cost.next_cons h1
          have e2 := ih _ (Cost.good h1 hg) _ _ _ h2
          rw [runA_next] at h1
          cases h1
          refine ⟨by rw [List.length_append]; omega, fun x hx => ?_⟩
          rcases List.mem_append.1 hx with hx | hx
          · exact .inl (by rw [keep_mem hx]; simp [hd])
          · exact (e2.2 _ hx).imp_left fun hm => List.mem_cons_of_mem _ hm
macro_rules | `(tactic| cost_lem) => `(tactic| with_reducible apply validateBracketsAux_cost)

theorem validateName_cost (d : Rdbms) (set : Bool) : Cost (validateName d set) := by
  refine .one (fun a r o h => ?_) (fun t ts hg a r o h => ?_)
  · rw [runA_validateName _ _ _ (by simp)] at h; cases h
  · rw [runA_validateName _ _ _ hg] at h
    dsimp only at h
    split at h
    · cases h; exact ⟨⟨_, rfl⟩, rfl⟩
    · cases h
macro_rules | `(tactic| cost_lem) => `(tactic| with_reducible apply validateName_cost)

theorem validateLiteralValue_cost {isNum : Str → Bool} (hN : NumOK isNum) (d : Rdbms) (set : Bool) :
    Cost (validateLiteralValue isNum d set) := by
  refine .one (fun a r o h => ?_) (fun t ts hg a r o h => ?_)
  · rw [runA_validateLiteralValue hN _ _ _ (by simp)] at h; cases h
  · rw [runA_validateLiteralValue hN _ _ _ hg] at h
    dsimp only at h
    split at h
    · cases h; exact ⟨⟨_, rfl⟩, rfl⟩
    · cases h
macro_rules | `(tactic| cost_lem) => `(tactic| (with_reducible apply validateLiteralValue_cost; assumption))

theorem validatePositiveInteger_cost (set : Bool) : Cost (validatePositiveInteger set) := by
  refine .one (fun a r o h => ?_) (fun t ts hg a r o h => ?_)
  · cases h
  · have e : runA (cond (isPositiveIntegerToken t) (next set) syntaxError) (t :: ts) = .ok a r o := h
    cases hi : isPositiveIntegerToken t <;> rw [hi] at e
    · cases e
    · exact Cost.one_next e
macro_rules | `(tactic| cost_lem) => `(tactic| with_reducible apply validatePositiveInteger_cost)

theorem createOtherLoop_cost (n : Nat) (b : Bool) : Cost (createOtherLoop n b) := by
  induction n generalizing b with
  | zero => exact .timeout
  | succ n ih =>
    unfold createOtherLoop
    refine .ifM .isOutOfRange .fail (.bind (.matchToken _) fun _ => .cond (.bind (.matchToken _) fun _ => ?_) ?_)
    · exact .bind .nextF fun _ => ih _
    · exact .ifM (.matchToken _) (.tok _ _) (.bind .nextF fun _ => ih _)
macro_rules | `(tactic| cost_lem) => `(tactic| with_reducible apply createOtherLoop_cost)

theorem columnConstraintsAux_cost (isKind : List String) (key : Str → Str) {one : Nat → Prog Unit}
    (h : ∀ n, Cost (one n)) (n : Nat) (ls : List Str) :
    Cost (columnConstraintsAux isKind key one n ls) := by
  induction n generalizing ls with
  | zero => exact .timeout
  | succ n ih =>
    unfold columnConstraintsAux
    exact .ifM (.matchToken _) (.token fun t => .cond .fail (.bind (h _) fun _ => ih _)) (.ret _)
macro_rules | `(tactic| cost_lem) => `(tactic| (with_reducible apply columnConstraintsAux_cost; intro _))

end V

namespace Mysql
open DDL V

theorem validateStringValue_cost (set : Bool) : Cost (validateStringValue set) := by
  refine .one (fun a r o h => ?_) (fun t ts hg a r o h => ?_)
  · cases h
  · cases t with
    | nil => cases h
    | cons c cs =>
      have e : runA (cond (isStringValue D c) (next set) syntaxError) ((c :: cs) :: ts) = .ok a r o := h
      cases hi : isStringValue D c <;> rw [hi] at e
      · cases e
      · exact Cost.one_next e
macro_rules | `(tactic| cost_lem) => `(tactic| with_reducible apply validateStringValue_cost)

theorem validateConstraintPrimaryKey_cost : Cost validateConstraintPrimaryKey := by
  intro ts hg a r o h
  unfold validateConstraintPrimaryKey at h
  rw [runA_if] at h
  split at h
  · rename_i hk
    cases ts with
    | nil => exact absurd hk (by decide)
    | cons t ts =>
      obtain ⟨b, m, o1, o2, h1, h2, rfl⟩ := Cost.of_bind h
      cases h1
      obtain ⟨b, m, o1, o2, h1, h3, rfl⟩ := Cost.of_bind h2
      cases h1
      rw [runA_next] at h3
      cases h3
      refine ⟨by simp [keep]; omega, fun x hx => .inr ?_⟩
      simp only [List.append_nil, List.cons_append, List.nil_append, keep_false, List.mem_cons, List.not_mem_nil, or_false] at hx
      rcases hx with rfl | rfl
      · exact .inr (.inl rfl)
      · exact .inr (.inr rfl)
  · exact Cost.bind (.tok _ _) (fun _ => .tok _ _) _ hg _ _ _ h
macro_rules | `(tactic| cost_lem) => `(tactic| with_reducible apply validateConstraintPrimaryKey_cost)

end Mysql

-- generated from here on

namespace V

end V

namespace V

theorem validateBrackets_cost (n : Nat) (set : Bool) : Cost ((validateBrackets n set)) := by
  unfold validateBrackets; cost_all
macro_rules | `(tactic| cost_lem) => `(tactic| with_reducible apply validateBrackets_cost)

theorem validateTableName_cost (d : Rdbms) (set : Bool) : Cost ((validateTableName d set)) := by
  unfold validateTableName; cost_all
macro_rules | `(tactic| cost_lem) => `(tactic| with_reducible apply validateTableName_cost)

theorem validateCommaSeparatedColumnNames_cost (d : Rdbms) (set : Bool) (n : Nat) : Cost ((validateCommaSeparatedColumnNames d set n)) := by
  induction n with
  | zero => exact Cost.timeout
  | succ n ih => unfold validateCommaSeparatedColumnNames; cost_all
macro_rules | `(tactic| cost_lem) => `(tactic| with_reducible apply validateCommaSeparatedColumnNames_cost)

theorem validateExpr_cost (n : Nat) (set : Bool) : Cost ((validateExpr n set)) := by
  unfold validateExpr; cost_all
macro_rules | `(tactic| cost_lem) => `(tactic| with_reducible apply validateExpr_cost)

theorem validateIfNotExists_cost  : Cost (validateIfNotExists) := by
  unfold validateIfNotExists; cost_all
macro_rules | `(tactic| cost_lem) => `(tactic| with_reducible apply validateIfNotExists_cost)

theorem validateTypeDigitN_cost (set : Bool) : Cost ((validateTypeDigitN set)) := by
  unfold validateTypeDigitN; cost_all
macro_rules | `(tactic| cost_lem) => `(tactic| with_reducible apply validateTypeDigitN_cost)

theorem validateTypeDigitPS_cost (set : Bool) : Cost ((validateTypeDigitPS set)) := by
  unfold validateTypeDigitPS; cost_all
macro_rules | `(tactic| cost_lem) => `(tactic| with_reducible apply validateTypeDigitPS_cost)

theorem validateConstraintReferencesAux_cost (n : Nat) : Cost ((validateConstraintReferencesAux  n)) := by
  induction n with
  | zero => exact Cost.timeout
  | succ n ih => unfold validateConstraintReferencesAux; cost_all
macro_rules | `(tactic| cost_lem) => `(tactic| with_reducible apply validateConstraintReferencesAux_cost)

end V

namespace Sqlite
open DDL V

theorem validateColumnType_cost  : Cost (validateColumnType) := by
  unfold validateColumnType; cost_all
macro_rules | `(tactic| cost_lem) => `(tactic| with_reducible apply validateColumnType_cost)

theorem validateConflictClause_cost  : Cost (validateConflictClause) := by
  unfold validateConflictClause; cost_all
macro_rules | `(tactic| cost_lem) => `(tactic| with_reducible apply validateConflictClause_cost)

theorem validateConstraintPrimaryKey_cost  : Cost (validateConstraintPrimaryKey) := by
  unfold validateConstraintPrimaryKey; cost_all
macro_rules | `(tactic| cost_lem) => `(tactic| with_reducible apply validateConstraintPrimaryKey_cost)

theorem validateConstraintNotNull_cost  : Cost (validateConstraintNotNull) := by
  unfold validateConstraintNotNull; cost_all
macro_rules | `(tactic| cost_lem) => `(tactic| with_reducible apply validateConstraintNotNull_cost)

theorem validateConstraintUnique_cost  : Cost (validateConstraintUnique) := by
  unfold validateConstraintUnique; cost_all
macro_rules | `(tactic| cost_lem) => `(tactic| with_reducible apply validateConstraintUnique_cost)

theorem validateConstraintCheck_cost (n : Nat) : Cost ((validateConstraintCheck n)) := by
  unfold validateConstraintCheck; cost_all
macro_rules | `(tactic| cost_lem) => `(tactic| with_reducible apply validateConstraintCheck_cost)

theorem validateConstraintDefault_cost {isNum : Str → Bool} (hN : NumOK isNum) (n : Nat) : Cost ((validateConstraintDefault isNum n)) := by
  have _ := hN
  unfold validateConstraintDefault; cost_all
macro_rules | `(tactic| cost_lem) => `(tactic| (with_reducible apply validateConstraintDefault_cost; assumption))

theorem validateConstraintCollate_cost  : Cost (validateConstraintCollate) := by
  unfold validateConstraintCollate; cost_all
macro_rules | `(tactic| cost_lem) => `(tactic| with_reducible apply validateConstraintCollate_cost)

theorem validateConstraintReferencesAux_cost (n : Nat) : Cost ((validateConstraintReferencesAux  n)) := by
  induction n with
  | zero => exact Cost.timeout
  | succ n ih => unfold validateConstraintReferencesAux; cost_all
macro_rules | `(tactic| cost_lem) => `(tactic| with_reducible apply validateConstraintReferencesAux_cost)

theorem validateConstraintReferences_cost (n : Nat) : Cost ((validateConstraintReferences n)) := by
  unfold validateConstraintReferences; cost_all
macro_rules | `(tactic| cost_lem) => `(tactic| with_reducible apply validateConstraintReferences_cost)

theorem validateConstraintGenerated_cost (n : Nat) : Cost ((validateConstraintGenerated n)) := by
  unfold validateConstraintGenerated; cost_all
macro_rules | `(tactic| cost_lem) => `(tactic| with_reducible apply validateConstraintGenerated_cost)

theorem validateColumnConstraint_cost {isNum : Str → Bool} (hN : NumOK isNum) (n : Nat) : Cost ((validateColumnConstraint isNum n)) := by
  have _ := hN
  unfold validateColumnConstraint; cost_all
macro_rules | `(tactic| cost_lem) => `(tactic| (with_reducible apply validateColumnConstraint_cost; assumption))

theorem validateColumnConstraints_cost {isNum : Str → Bool} (hN : NumOK isNum) (n : Nat) : Cost ((validateColumnConstraints isNum n)) := by
  have _ := hN
  unfold validateColumnConstraints; cost_all
macro_rules | `(tactic| cost_lem) => `(tactic| (with_reducible apply validateColumnConstraints_cost; assumption))

theorem validateTableConstraintPrimaryKey_cost (n : Nat) : Cost ((validateTableConstraintPrimaryKey n)) := by
  unfold validateTableConstraintPrimaryKey; cost_all
macro_rules | `(tactic| cost_lem) => `(tactic| with_reducible apply validateTableConstraintPrimaryKey_cost)

theorem validateTableConstraintUnique_cost (n : Nat) : Cost ((validateTableConstraintUnique n)) := by
  unfold validateTableConstraintUnique; cost_all
macro_rules | `(tactic| cost_lem) => `(tactic| with_reducible apply validateTableConstraintUnique_cost)

theorem validateTableConstraintForeignKey_cost (n : Nat) : Cost ((validateTableConstraintForeignKey n)) := by
  unfold validateTableConstraintForeignKey; cost_all
macro_rules | `(tactic| cost_lem) => `(tactic| with_reducible apply validateTableConstraintForeignKey_cost)

theorem validateTableConstraint_cost (n : Nat) : Cost ((validateTableConstraint n)) := by
  unfold validateTableConstraint; cost_all
macro_rules | `(tactic| cost_lem) => `(tactic| with_reducible apply validateTableConstraint_cost)

theorem validateColumnDefinition_cost {isNum : Str → Bool} (hN : NumOK isNum) (n : Nat) : Cost ((validateColumnDefinition isNum n)) := by
  have _ := hN
  unfold validateColumnDefinition; cost_all
macro_rules | `(tactic| cost_lem) => `(tactic| (with_reducible apply validateColumnDefinition_cost; assumption))

theorem validateColumnDefinitions_cost {isNum : Str → Bool} (hN : NumOK isNum) (n : Nat) : Cost ((validateColumnDefinitions isNum n)) := by
  have _ := hN
  induction n with
  | zero => exact Cost.timeout
  | succ n ih => unfold validateColumnDefinitions; cost_all
macro_rules | `(tactic| cost_lem) => `(tactic| (with_reducible apply validateColumnDefinitions_cost; assumption))

theorem validateTableOptions_cost : Cost validateTableOptions := by
  unfold validateTableOptions; cost_all
macro_rules | `(tactic| cost_lem) => `(tactic| with_reducible apply validateTableOptions_cost)

theorem validateTableDefinition_cost {isNum : Str → Bool} (hN : NumOK isNum) (n : Nat) : Cost (validateTableDefinition isNum n) := by
  have _ := hN
  unfold validateTableDefinition; cost_all
macro_rules | `(tactic| cost_lem) => `(tactic| (with_reducible apply validateTableDefinition_cost; assumption))

theorem validateCreateTable_cost {isNum : Str → Bool} (hN : NumOK isNum) (n : Nat) : Cost ((validateCreateTable isNum n)) := by
  have _ := hN
  unfold validateCreateTable; cost_all
macro_rules | `(tactic| cost_lem) => `(tactic| (with_reducible apply validateCreateTable_cost; assumption))

theorem validateCreateOther_cost (n : Nat) : Cost (validateCreateOther otherKinds n) := by
  unfold validateCreateOther; cost_all
macro_rules | `(tactic| cost_lem) => `(tactic| with_reducible apply validateCreateOther_cost)

theorem validateDdl_cost {isNum : Str → Bool} (hN : NumOK isNum) (n : Nat) : Cost (validateDdl isNum n) := by
  have _ := hN
  unfold validateDdl; cost_all
macro_rules | `(tactic| cost_lem) => `(tactic| (with_reducible apply validateDdl_cost; assumption))

theorem validate_cost {isNum : Str → Bool} (hN : NumOK isNum) (n : Nat) : Cost (validate isNum n) := by
  have _ := hN
  induction n with
  | zero => exact Cost.timeout
  | succ n ih => unfold validate; cost_all
macro_rules | `(tactic| cost_lem) => `(tactic| (with_reducible apply validate_cost; assumption))

end Sqlite

namespace Postgres
open DDL V

theorem validateColumnType_cost  : Cost (validateColumnType) := by
  unfold validateColumnType; cost_all
macro_rules | `(tactic| cost_lem) => `(tactic| with_reducible apply validateColumnType_cost)

theorem validateIndexParameters_cost (n : Nat) : Cost ((validateIndexParameters n)) := by
  unfold validateIndexParameters; cost_all
macro_rules | `(tactic| cost_lem) => `(tactic| with_reducible apply validateIndexParameters_cost)

theorem validateConstraintPrimaryKey_cost (n : Nat) : Cost ((validateConstraintPrimaryKey n)) := by
  unfold validateConstraintPrimaryKey; cost_all
macro_rules | `(tactic| cost_lem) => `(tactic| with_reducible apply validateConstraintPrimaryKey_cost)

theorem validateConstraintNotNull_cost  : Cost (validateConstraintNotNull) := by
  unfold validateConstraintNotNull; cost_all
macro_rules | `(tactic| cost_lem) => `(tactic| with_reducible apply validateConstraintNotNull_cost)

theorem validateConstraintNull_cost  : Cost (validateConstraintNull) := by
  unfold validateConstraintNull; cost_all
macro_rules | `(tactic| cost_lem) => `(tactic| with_reducible apply validateConstraintNull_cost)

theorem validateConstraintUnique_cost (n : Nat) : Cost ((validateConstraintUnique n)) := by
  unfold validateConstraintUnique; cost_all
macro_rules | `(tactic| cost_lem) => `(tactic| with_reducible apply validateConstraintUnique_cost)

theorem validateConstraintCheck_cost (n : Nat) : Cost ((validateConstraintCheck n)) := by
  unfold validateConstraintCheck; cost_all
macro_rules | `(tactic| cost_lem) => `(tactic| with_reducible apply validateConstraintCheck_cost)

theorem validateConstraintDefault_cost {isNum : Str → Bool} (hN : NumOK isNum) (n : Nat) : Cost ((validateConstraintDefault isNum n)) := by
  have _ := hN
  unfold validateConstraintDefault; cost_all
macro_rules | `(tactic| cost_lem) => `(tactic| (with_reducible apply validateConstraintDefault_cost; assumption))

theorem validateConstraintReferences_cost (n : Nat) : Cost ((validateConstraintReferences n)) := by
  unfold validateConstraintReferences; cost_all
macro_rules | `(tactic| cost_lem) => `(tactic| with_reducible apply validateConstraintReferences_cost)

theorem optBrackets_cost (n : Nat) : Cost ((optBrackets n)) := by
  unfold optBrackets; cost_all
macro_rules | `(tactic| cost_lem) => `(tactic| with_reducible apply optBrackets_cost)

theorem validateConstraintGenerated_cost (n : Nat) : Cost ((validateConstraintGenerated n)) := by
  unfold validateConstraintGenerated; cost_all
macro_rules | `(tactic| cost_lem) => `(tactic| with_reducible apply validateConstraintGenerated_cost)

theorem validateColumnConstraint_cost {isNum : Str → Bool} (hN : NumOK isNum) (n : Nat) : Cost ((validateColumnConstraint isNum n)) := by
  have _ := hN
  unfold validateColumnConstraint; cost_all
macro_rules | `(tactic| cost_lem) => `(tactic| (with_reducible apply validateColumnConstraint_cost; assumption))

theorem validateColumnConstraints_cost {isNum : Str → Bool} (hN : NumOK isNum) (n : Nat) : Cost ((validateColumnConstraints isNum n)) := by
  have _ := hN
  unfold validateColumnConstraints; cost_all
macro_rules | `(tactic| cost_lem) => `(tactic| (with_reducible apply validateColumnConstraints_cost; assumption))

theorem validateTableConstraintPrimaryKey_cost (n : Nat) : Cost ((validateTableConstraintPrimaryKey n)) := by
  unfold validateTableConstraintPrimaryKey; cost_all
macro_rules | `(tactic| cost_lem) => `(tactic| with_reducible apply validateTableConstraintPrimaryKey_cost)

theorem validateTableConstraintUnique_cost (n : Nat) : Cost ((validateTableConstraintUnique n)) := by
  unfold validateTableConstraintUnique; cost_all
macro_rules | `(tactic| cost_lem) => `(tactic| with_reducible apply validateTableConstraintUnique_cost)

theorem validateTableConstraintForeignKey_cost (n : Nat) : Cost ((validateTableConstraintForeignKey n)) := by
  unfold validateTableConstraintForeignKey; cost_all
macro_rules | `(tactic| cost_lem) => `(tactic| with_reducible apply validateTableConstraintForeignKey_cost)

theorem validateTableConstraintExclude_cost (n : Nat) : Cost ((validateTableConstraintExclude n)) := by
  unfold validateTableConstraintExclude; cost_all
macro_rules | `(tactic| cost_lem) => `(tactic| with_reducible apply validateTableConstraintExclude_cost)

theorem validateTableConstraint_cost (n : Nat) : Cost ((validateTableConstraint n)) := by
  unfold validateTableConstraint; cost_all
macro_rules | `(tactic| cost_lem) => `(tactic| with_reducible apply validateTableConstraint_cost)

theorem validateColumnDefinition_cost {isNum : Str → Bool} (hN : NumOK isNum) (n : Nat) : Cost ((validateColumnDefinition isNum n)) := by
  have _ := hN
  unfold validateColumnDefinition; cost_all
macro_rules | `(tactic| cost_lem) => `(tactic| (with_reducible apply validateColumnDefinition_cost; assumption))

theorem validateColumnDefinitions_cost {isNum : Str → Bool} (hN : NumOK isNum) (n : Nat) : Cost ((validateColumnDefinitions isNum n)) := by
  have _ := hN
  induction n with
  | zero => exact Cost.timeout
  | succ n ih => unfold validateColumnDefinitions; cost_all
macro_rules | `(tactic| cost_lem) => `(tactic| (with_reducible apply validateColumnDefinitions_cost; assumption))

theorem validateTableOptionWith_cost (n : Nat) : Cost ((validateTableOptionWith n)) := by
  unfold validateTableOptionWith; cost_all
macro_rules | `(tactic| cost_lem) => `(tactic| with_reducible apply validateTableOptionWith_cost)

theorem validateTableOptionWithout_cost  : Cost (validateTableOptionWithout) := by
  unfold validateTableOptionWithout; cost_all
macro_rules | `(tactic| cost_lem) => `(tactic| with_reducible apply validateTableOptionWithout_cost)

theorem validateTableOptionTablespace_cost  : Cost (validateTableOptionTablespace) := by
  unfold validateTableOptionTablespace; cost_all
macro_rules | `(tactic| cost_lem) => `(tactic| with_reducible apply validateTableOptionTablespace_cost)

theorem validateTableOptionInherits_cost (n : Nat) : Cost ((validateTableOptionInherits n)) := by
  unfold validateTableOptionInherits; cost_all
macro_rules | `(tactic| cost_lem) => `(tactic| with_reducible apply validateTableOptionInherits_cost)

theorem validateTableOptionPartition_cost (n : Nat) : Cost ((validateTableOptionPartition n)) := by
  unfold validateTableOptionPartition; cost_all
macro_rules | `(tactic| cost_lem) => `(tactic| with_reducible apply validateTableOptionPartition_cost)

theorem validateTableOptionUsing_cost  : Cost (validateTableOptionUsing) := by
  unfold validateTableOptionUsing; cost_all
macro_rules | `(tactic| cost_lem) => `(tactic| with_reducible apply validateTableOptionUsing_cost)

theorem validateTableOption_cost (n : Nat) : Cost ((validateTableOption n)) := by
  unfold validateTableOption; cost_all
macro_rules | `(tactic| cost_lem) => `(tactic| with_reducible apply validateTableOption_cost)

theorem validateTableOptions_cost (n : Nat) : Cost ((validateTableOptions  n)) := by
  induction n with
  | zero => exact Cost.timeout
  | succ n ih => unfold validateTableOptions; cost_all
macro_rules | `(tactic| cost_lem) => `(tactic| with_reducible apply validateTableOptions_cost)

theorem validateTableDefinition_cost {isNum : Str → Bool} (hN : NumOK isNum) (n : Nat) : Cost ((validateTableDefinition isNum n)) := by
  have _ := hN
  unfold validateTableDefinition; cost_all
macro_rules | `(tactic| cost_lem) => `(tactic| (with_reducible apply validateTableDefinition_cost; assumption))

theorem validateCreateTable_cost {isNum : Str → Bool} (hN : NumOK isNum) (n : Nat) : Cost ((validateCreateTable isNum n)) := by
  have _ := hN
  unfold validateCreateTable; cost_all
macro_rules | `(tactic| cost_lem) => `(tactic| (with_reducible apply validateCreateTable_cost; assumption))

theorem validateCreateOther_cost (n : Nat) : Cost (validateCreateOther otherKinds n) := by
  unfold validateCreateOther; cost_all
macro_rules | `(tactic| cost_lem) => `(tactic| with_reducible apply validateCreateOther_cost)

theorem validateDdl_cost {isNum : Str → Bool} (hN : NumOK isNum) (n : Nat) : Cost (validateDdl isNum n) := by
  have _ := hN
  unfold validateDdl; cost_all
macro_rules | `(tactic| cost_lem) => `(tactic| (with_reducible apply validateDdl_cost; assumption))

theorem validate_cost {isNum : Str → Bool} (hN : NumOK isNum) (n : Nat) : Cost (validate isNum n) := by
  have _ := hN
  induction n with
  | zero => exact Cost.timeout
  | succ n ih => unfold validate; cost_all
macro_rules | `(tactic| cost_lem) => `(tactic| (with_reducible apply validate_cost; assumption))

end Postgres

namespace Mysql
open DDL V

theorem validateIndexKeysAux_cost (set : Bool) (n : Nat) : Cost ((validateIndexKeysAux set n)) := by
  induction n with
  | zero => exact Cost.timeout
  | succ n ih => unfold validateIndexKeysAux; cost_all
macro_rules | `(tactic| cost_lem) => `(tactic| with_reducible apply validateIndexKeysAux_cost)

theorem validateIndexKeys_cost (n : Nat) (set : Bool) : Cost ((validateIndexKeys n set)) := by
  unfold validateIndexKeys; cost_all
macro_rules | `(tactic| cost_lem) => `(tactic| with_reducible apply validateIndexKeys_cost)

theorem validateColumnType_cost  : Cost (validateColumnType) := by
  unfold validateColumnType; cost_all
macro_rules | `(tactic| cost_lem) => `(tactic| with_reducible apply validateColumnType_cost)

theorem validateConstraintNotNull_cost  : Cost (validateConstraintNotNull) := by
  unfold validateConstraintNotNull; cost_all
macro_rules | `(tactic| cost_lem) => `(tactic| with_reducible apply validateConstraintNotNull_cost)

theorem validateConstraintNull_cost  : Cost (validateConstraintNull) := by
  unfold validateConstraintNull; cost_all
macro_rules | `(tactic| cost_lem) => `(tactic| with_reducible apply validateConstraintNull_cost)

theorem validateConstraintUnique_cost  : Cost (validateConstraintUnique) := by
  unfold validateConstraintUnique; cost_all
macro_rules | `(tactic| cost_lem) => `(tactic| with_reducible apply validateConstraintUnique_cost)

theorem validateConstraintCheck_cost (n : Nat) : Cost ((validateConstraintCheck n)) := by
  unfold validateConstraintCheck; cost_all
macro_rules | `(tactic| cost_lem) => `(tactic| with_reducible apply validateConstraintCheck_cost)

theorem validateConstraintDefault_cost {isNum : Str → Bool} (hN : NumOK isNum) (n : Nat) : Cost ((validateConstraintDefault isNum n)) := by
  have _ := hN
  unfold validateConstraintDefault; cost_all
macro_rules | `(tactic| cost_lem) => `(tactic| (with_reducible apply validateConstraintDefault_cost; assumption))

theorem validateConstraintCollate_cost  : Cost (validateConstraintCollate) := by
  unfold validateConstraintCollate; cost_all
macro_rules | `(tactic| cost_lem) => `(tactic| with_reducible apply validateConstraintCollate_cost)

theorem validateConstraintReferences_cost (n : Nat) : Cost ((validateConstraintReferences n)) := by
  unfold validateConstraintReferences; cost_all
macro_rules | `(tactic| cost_lem) => `(tactic| with_reducible apply validateConstraintReferences_cost)

theorem validateConstraintGenerated_cost (n : Nat) : Cost ((validateConstraintGenerated n)) := by
  unfold validateConstraintGenerated; cost_all
macro_rules | `(tactic| cost_lem) => `(tactic| with_reducible apply validateConstraintGenerated_cost)

theorem validateConstraintComment_cost  : Cost (validateConstraintComment) := by
  unfold validateConstraintComment; cost_all
macro_rules | `(tactic| cost_lem) => `(tactic| with_reducible apply validateConstraintComment_cost)

theorem validateConstraintColumnFormat_cost  : Cost (validateConstraintColumnFormat) := by
  unfold validateConstraintColumnFormat; cost_all
macro_rules | `(tactic| cost_lem) => `(tactic| with_reducible apply validateConstraintColumnFormat_cost)

theorem validateConstraintEngineAttribute_cost  : Cost (validateConstraintEngineAttribute) := by
  unfold validateConstraintEngineAttribute; cost_all
macro_rules | `(tactic| cost_lem) => `(tactic| with_reducible apply validateConstraintEngineAttribute_cost)

theorem validateConstraintStorage_cost  : Cost (validateConstraintStorage) := by
  unfold validateConstraintStorage; cost_all
macro_rules | `(tactic| cost_lem) => `(tactic| with_reducible apply validateConstraintStorage_cost)

theorem validateConstraintAutoincrement_cost  : Cost (validateConstraintAutoincrement) := by
  unfold validateConstraintAutoincrement; cost_all
macro_rules | `(tactic| cost_lem) => `(tactic| with_reducible apply validateConstraintAutoincrement_cost)

theorem validateColumnConstraint_cost {isNum : Str → Bool} (hN : NumOK isNum) (n : Nat) : Cost ((validateColumnConstraint isNum n)) := by
  have _ := hN
  unfold validateColumnConstraint; cost_all
macro_rules | `(tactic| cost_lem) => `(tactic| (with_reducible apply validateColumnConstraint_cost; assumption))

theorem validateColumnConstraints_cost {isNum : Str → Bool} (hN : NumOK isNum) (n : Nat) : Cost ((validateColumnConstraints isNum n)) := by
  have _ := hN
  unfold validateColumnConstraints; cost_all
macro_rules | `(tactic| cost_lem) => `(tactic| (with_reducible apply validateColumnConstraints_cost; assumption))

theorem validateIndexType_cost  : Cost (validateIndexType) := by
  unfold validateIndexType; cost_all
macro_rules | `(tactic| cost_lem) => `(tactic| with_reducible apply validateIndexType_cost)

theorem validateIndexOption_cost {isNum : Str → Bool} (hN : NumOK isNum) (n : Nat) : Cost ((validateIndexOption isNum n)) := by
  have _ := hN
  induction n with
  | zero => exact Cost.timeout
  | succ n ih => unfold validateIndexOption; cost_all
macro_rules | `(tactic| cost_lem) => `(tactic| (with_reducible apply validateIndexOption_cost; assumption))

theorem optIndexType_cost  : Cost (optIndexType) := by
  unfold optIndexType; cost_all
macro_rules | `(tactic| cost_lem) => `(tactic| with_reducible apply optIndexType_cost)

theorem validateTableConstraintPrimaryKey_cost {isNum : Str → Bool} (hN : NumOK isNum) (n : Nat) : Cost ((validateTableConstraintPrimaryKey isNum n)) := by
  have _ := hN
  unfold validateTableConstraintPrimaryKey; cost_all
macro_rules | `(tactic| cost_lem) => `(tactic| (with_reducible apply validateTableConstraintPrimaryKey_cost; assumption))

theorem validateTableConstraintUnique_cost {isNum : Str → Bool} (hN : NumOK isNum) (n : Nat) : Cost ((validateTableConstraintUnique isNum n)) := by
  have _ := hN
  unfold validateTableConstraintUnique; cost_all
macro_rules | `(tactic| cost_lem) => `(tactic| (with_reducible apply validateTableConstraintUnique_cost; assumption))

theorem validateTableConstraintForeignKey_cost (n : Nat) : Cost ((validateTableConstraintForeignKey n)) := by
  unfold validateTableConstraintForeignKey; cost_all
macro_rules | `(tactic| cost_lem) => `(tactic| with_reducible apply validateTableConstraintForeignKey_cost)

theorem validateTableConstraintIndex_cost {isNum : Str → Bool} (hN : NumOK isNum) (n : Nat) : Cost ((validateTableConstraintIndex isNum n)) := by
  have _ := hN
  unfold validateTableConstraintIndex; cost_all
macro_rules | `(tactic| cost_lem) => `(tactic| (with_reducible apply validateTableConstraintIndex_cost; assumption))

theorem validateTableConstraintAux_cost {isNum : Str → Bool} (hN : NumOK isNum) (n : Nat) : Cost ((validateTableConstraintAux isNum n)) := by
  have _ := hN
  unfold validateTableConstraintAux; cost_all
macro_rules | `(tactic| cost_lem) => `(tactic| (with_reducible apply validateTableConstraintAux_cost; assumption))

theorem validateTableConstraint_cost {isNum : Str → Bool} (hN : NumOK isNum) (n : Nat) : Cost ((validateTableConstraint isNum n)) := by
  have _ := hN
  unfold validateTableConstraint; cost_all
macro_rules | `(tactic| cost_lem) => `(tactic| (with_reducible apply validateTableConstraint_cost; assumption))

theorem validateColumnDefinition_cost {isNum : Str → Bool} (hN : NumOK isNum) (n : Nat) : Cost ((validateColumnDefinition isNum n)) := by
  have _ := hN
  unfold validateColumnDefinition; cost_all
macro_rules | `(tactic| cost_lem) => `(tactic| (with_reducible apply validateColumnDefinition_cost; assumption))

theorem validateColumnDefinitions_cost {isNum : Str → Bool} (hN : NumOK isNum) (n : Nat) : Cost ((validateColumnDefinitions isNum n)) := by
  have _ := hN
  induction n with
  | zero => exact Cost.timeout
  | succ n ih => unfold validateColumnDefinitions; cost_all
macro_rules | `(tactic| cost_lem) => `(tactic| (with_reducible apply validateColumnDefinitions_cost; assumption))

theorem validateCommaSeparatedTableNames_cost (set : Bool) (n : Nat) : Cost ((validateCommaSeparatedTableNames set n)) := by
  induction n with
  | zero => exact Cost.timeout
  | succ n ih => unfold validateCommaSeparatedTableNames; cost_all
macro_rules | `(tactic| cost_lem) => `(tactic| with_reducible apply validateCommaSeparatedTableNames_cost)

theorem validateTableOptionCommonLiteral_cost {isNum : Str → Bool} (hN : NumOK isNum) : Cost ((validateTableOptionCommonLiteral isNum)) := by
  have _ := hN
  unfold validateTableOptionCommonLiteral; cost_all
macro_rules | `(tactic| cost_lem) => `(tactic| (with_reducible apply validateTableOptionCommonLiteral_cost; assumption))

theorem validateTableOptionCommonString_cost  : Cost (validateTableOptionCommonString) := by
  unfold validateTableOptionCommonString; cost_all
macro_rules | `(tactic| cost_lem) => `(tactic| with_reducible apply validateTableOptionCommonString_cost)

theorem validateTableOptionCommonName_cost  : Cost (validateTableOptionCommonName) := by
  unfold validateTableOptionCommonName; cost_all
macro_rules | `(tactic| cost_lem) => `(tactic| with_reducible apply validateTableOptionCommonName_cost)

theorem validateTableOptionCommon01_cost  : Cost (validateTableOptionCommon01) := by
  unfold validateTableOptionCommon01; cost_all
macro_rules | `(tactic| cost_lem) => `(tactic| with_reducible apply validateTableOptionCommon01_cost)

theorem validateTableOptionCommon01Default_cost  : Cost (validateTableOptionCommon01Default) := by
  unfold validateTableOptionCommon01Default; cost_all
macro_rules | `(tactic| cost_lem) => `(tactic| with_reducible apply validateTableOptionCommon01Default_cost)

theorem validateTableOptionDirectory_cost {isNum : Str → Bool} (hN : NumOK isNum) : Cost ((validateTableOptionDirectory isNum)) := by
  have _ := hN
  unfold validateTableOptionDirectory; cost_all
macro_rules | `(tactic| cost_lem) => `(tactic| (with_reducible apply validateTableOptionDirectory_cost; assumption))

theorem validateTableOptionTablespace_cost  : Cost (validateTableOptionTablespace) := by
  unfold validateTableOptionTablespace; cost_all
macro_rules | `(tactic| cost_lem) => `(tactic| with_reducible apply validateTableOptionTablespace_cost)

theorem validateTableOptionDefault_cost  : Cost (validateTableOptionDefault) := by
  unfold validateTableOptionDefault; cost_all
macro_rules | `(tactic| cost_lem) => `(tactic| with_reducible apply validateTableOptionDefault_cost)

theorem validateTableOptionUnion_cost (n : Nat) : Cost ((validateTableOptionUnion n)) := by
  unfold validateTableOptionUnion; cost_all
macro_rules | `(tactic| cost_lem) => `(tactic| with_reducible apply validateTableOptionUnion_cost)

theorem validateTableOptionInsertMethod_cost  : Cost (validateTableOptionInsertMethod) := by
  unfold validateTableOptionInsertMethod; cost_all
macro_rules | `(tactic| cost_lem) => `(tactic| with_reducible apply validateTableOptionInsertMethod_cost)

theorem validateTableOptionRowFormat_cost  : Cost (validateTableOptionRowFormat) := by
  unfold validateTableOptionRowFormat; cost_all
macro_rules | `(tactic| cost_lem) => `(tactic| with_reducible apply validateTableOptionRowFormat_cost)

theorem validateTableOption_cost {isNum : Str → Bool} (hN : NumOK isNum) (n : Nat) : Cost ((validateTableOption isNum n)) := by
  have _ := hN
  unfold validateTableOption; cost_all
macro_rules | `(tactic| cost_lem) => `(tactic| (with_reducible apply validateTableOption_cost; assumption))

theorem validateTableOptions_cost {isNum : Str → Bool} (hN : NumOK isNum) (n : Nat) : Cost ((validateTableOptions isNum n)) := by
  have _ := hN
  induction n with
  | zero => exact Cost.timeout
  | succ n ih => unfold validateTableOptions; cost_all
macro_rules | `(tactic| cost_lem) => `(tactic| (with_reducible apply validateTableOptions_cost; assumption))

theorem validateTableDefinition_cost {isNum : Str → Bool} (hN : NumOK isNum) (n : Nat) : Cost ((validateTableDefinition isNum n)) := by
  have _ := hN
  unfold validateTableDefinition; cost_all
macro_rules | `(tactic| cost_lem) => `(tactic| (with_reducible apply validateTableDefinition_cost; assumption))

theorem validateCreateTable_cost {isNum : Str → Bool} (hN : NumOK isNum) (n : Nat) : Cost ((validateCreateTable isNum n)) := by
  have _ := hN
  unfold validateCreateTable; cost_all
macro_rules | `(tactic| cost_lem) => `(tactic| (with_reducible apply validateCreateTable_cost; assumption))

theorem validateCreateOther_cost (n : Nat) : Cost (validateCreateOther otherKinds n) := by
  unfold validateCreateOther; cost_all
macro_rules | `(tactic| cost_lem) => `(tactic| with_reducible apply validateCreateOther_cost)

theorem validateDdl_cost {isNum : Str → Bool} (hN : NumOK isNum) (n : Nat) : Cost (validateDdl isNum n) := by
  have _ := hN
  unfold validateDdl; cost_all
macro_rules | `(tactic| cost_lem) => `(tactic| (with_reducible apply validateDdl_cost; assumption))

theorem validate_cost {isNum : Str → Bool} (hN : NumOK isNum) (n : Nat) : Cost (validate isNum n) := by
  have _ := hN
  induction n with
  | zero => exact Cost.timeout
  | succ n ih => unfold validate; cost_all
macro_rules | `(tactic| cost_lem) => `(tactic| (with_reducible apply validate_cost; assumption))

end Mysql

end DDL
