import Verif.Proof.Work
/-
The functions shared by the three validators do linear work.
-/

namespace DDL
open V Spec Lin

/-- Extended after each definition below. -/
syntax "lin_lem" : tactic
macro_rules | `(tactic| lin_lem) => `(tactic| fail)

macro "lin_step" : tactic => `(tactic| first
  | with_reducible exact Lin.ret _
  | with_reducible exact Lin.fail
  | with_reducible exact Lin.set _
  | with_reducible exact Lin.tok _ _
  | with_reducible exact Lin.next _
  | with_reducible exact Lin.skip (by decide)
  | with_reducible assumption
  | lin_lem
  | ((with_reducible apply Lin.altNext); (case hk => decide))
  | with_reducible apply Lin.alt
  | with_reducible apply Lin.ifOob
  | with_reducible apply Lin.seq)

/-- Prove `Lin` for an unfolded program. -/
macro "lin" : tactic => `(tactic| ((try simp only [Prog.bind_eq, Prog.pure_eq]); (try unfold syntaxError); repeat' lin_step))

/-- A family of programs and its bounds. -/
abbrev LinF (P : Nat → Prog Unit) := {i : Bd // ∀ n, Lin (P n) i}

namespace V

theorem validateName_lin (d : Rdbms) (set : Bool) : Lin (validateName d set) .name := by
  refine one (A := fun t => isIdentifier d (t.headD ' ') || plainName d t) (set := set) (fun ts => ?_) (fun ts hg => ?_)
  · have : workA (validateName d set) ts ≤ 6 := by
      unfold validateName ifM isValidName
      simp only [Prog.bind, workA]
      cases ts.headD EOF with
      | nil => simp
      | cons c r =>
        simp only
        cases isIdentifier d c
        · simp only [_root_.cond, Prog.bind, workA]
          exact Nat.succ_le_succ (Nat.succ_le_succ (ite_work (by simp [next, workA]) (by simp [syntaxError, workA])))
        · simp [Prog.bind, next, workA]
    omega
  · rw [runA_validateName d set ts hg]; cases ts <;> rfl
macro_rules | `(tactic| lin_lem) => `(tactic| with_reducible exact validateName_lin _ _)

theorem validateLiteralValue_lin {isNum : Str → Bool} (hN : NumOK isNum) (d : Rdbms) (set : Bool) :
    Lin (validateLiteralValue isNum d set) .name := by
  refine one (A := fun t => isNum t || V.isStringValue d (t.headD ' ') || isKw literalKeywords t) (set := set)
    (fun ts => ?_) (fun ts hg => ?_)
  · have : workA (validateLiteralValue isNum d set) ts ≤ 6 := by
      unfold validateLiteralValue
      simp only [workA]
      refine Nat.succ_le_succ (ite_work (by simp [next, workA]) ?_)
      simp only [workA]
      cases ts.headD EOF with
      | nil => simp
      | cons c r =>
        refine Nat.succ_le_succ (ite_work (by simp [next, workA]) ?_)
        show workA (_root_.cond ts.isEmpty syntaxError (ifM (matchToken literalKeywords) (next set) syntaxError)) ts + 1 ≤ 4
        refine Nat.succ_le_succ (ite_work (by simp [syntaxError, workA]) ?_)
        show workA (_root_.cond _ (V.next set) syntaxError) ts + 1 ≤ 3
        exact Nat.succ_le_succ (ite_work (by simp [V.next, workA]) (by simp [syntaxError, workA]))
    omega
  · rw [runA_validateLiteralValue hN d set ts hg]; cases ts <;> rfl
macro_rules | `(tactic| lin_lem) => `(tactic| with_reducible exact validateLiteralValue_lin (by assumption) _ _)

theorem validatePositiveInteger_lin (set : Bool) : Lin (validatePositiveInteger set) .name := by
  refine one (A := isPositiveIntegerToken) (set := set) (fun ts => ?_) (fun ts hg => ?_)
  · have : workA (validatePositiveInteger set) ts ≤ 6 := by
      unfold validatePositiveInteger
      simp only [workA]
      exact Nat.succ_le_succ (ite_work (by simp [next, workA]) (by simp [syntaxError, workA]))
    omega
  · unfold validatePositiveInteger
    cases ts with
    | nil => rfl
    | cons t r =>
      show runA (_root_.cond (isPositiveIntegerToken t) (next set) syntaxError) (t :: r) =
        if isPositiveIntegerToken t = true then .ok () r (keep set t) else .fail (t :: r)
      cases isPositiveIntegerToken t
      · rfl
      · exact runA_next set (t :: r)
macro_rules | `(tactic| lin_lem) => `(tactic| with_reducible exact validatePositiveInteger_lin _)

/-- `next` where there is a token. -/
theorem next_here {set : Bool} {p : Prog α} {i : Bd} (h : Lin p i) {t : Str} {ts : List Str} (hg : GoodL (t :: ts)) :
    (∀ a r o, runA ((next set).bind fun _ => p) (t :: ts) = .ok a r o →
      (workA ((next set).bind fun _ => p) (t :: ts) : Int) + RATE * r.length ≤ RATE * (t :: ts).length + (i.b + 2 - RATE)) ∧
    (∀ r, runA ((next set).bind fun _ => p) (t :: ts) = .fail r →
      (workA ((next set).bind fun _ => p) (t :: ts) : Int) + RATE * r.length ≤ RATE * (t :: ts).length + (i.f + 2 - RATE)) := by
  have hg' : GoodL ts := fun t ht => hg t (by simp [ht])
  simp only [next, Prog.bind, runA, workA, List.tail_cons, List.length_cons]
  refine ⟨fun a r o e => ?_, fun r e => ?_⟩
  · obtain ⟨o2, h2, _⟩ := Cost.of_pre e
    have := (h ts hg').1 _ _ _ h2
    simp only [RATE] at this ⊢
    omega
  · cases h2 : runA p ts with
    | fail r' =>
      rw [h2] at e; cases e
      have := (h ts hg').2 _ h2
      simp only [RATE] at this ⊢
      omega
    | _ => rw [h2] at e; cases e

theorem validateBracketsAux_lin (set : Bool) (n : Nat) : Lin (validateBracketsAux set n) ⟨1, 6⟩ := by
  induction n with
  | zero => exact .timeout
  | succ n ih =>
    intro ts hg
    cases ts with
    | nil =>
      rw [brackets_nil]
      exact ⟨fun a r o e => (by cases e), fun r e => (by cases e)⟩
    | cons t ts =>
      have hn := next_here (set := set) ih hg
      have hp : Lin ((validateToken set ["("]).bind fun _ => (validateBracketsAux set n).bind fun _ =>
        (validateToken set [")"]).bind fun _ => validateBracketsAux set n) ⟨-1, 4⟩ := by
        apply Lin.weaken
        case h => lin
        krfl
      have e1 : ∀ (ks : List String) (p q : Prog Unit), workA (ifM (matchToken ks) p q) (t :: ts) =
          (if isKw ks t = true then workA p (t :: ts) else workA q (t :: ts)) + 1 := by
        intro ks p q
        show workA (_root_.cond (isKw ks t) p q) (t :: ts) + 1 = _
        cases isKw ks t <;> rfl
      unfold validateBracketsAux
      simp only [Prog.bind_eq]
      rw [runA_if, e1]
      show _ ∧ _
      simp only [show hd (t :: ts) = t from rfl]
      split
      · refine ⟨fun a r o e => ?_, fun r e => (by cases e)⟩
        cases e
        simp only [workA, RATE]; omega
      · rw [runA_if, e1]
        simp only [show hd (t :: ts) = t from rfl]
        split
        · refine ⟨fun a r o e => ?_, fun r e => ?_⟩
          · have := (hp _ hg).1 _ _ _ e; simp only [RATE] at this ⊢; omega
          · have := (hp _ hg).2 _ e; simp only [RATE] at this ⊢; omega
        · refine ⟨fun a r o e => ?_, fun r e => ?_⟩
          · have := hn.1 _ _ _ e; simp only [RATE] at this ⊢; omega
          · have := hn.2 _ e; simp only [RATE] at this ⊢; omega
macro_rules | `(tactic| lin_lem) => `(tactic| with_reducible exact validateBracketsAux_lin _ _)

theorem columnConstraintsAux_lin {isKind : List String} {key : Str → Str} {one : Nat → Prog Unit} (v : LinF one)
    {f : Int} (ok : (decide (v.1.b ≤ -2) && (decide (v.1.f + 3 ≤ f) && decide (3 ≤ f))) = true) (n : Nat) (ls : List Str) :
    Lin (columnConstraintsAux isKind key one n ls) ⟨1, f⟩ := by
  simp only [Bool.and_eq_true, decide_eq_true_eq] at ok
  induction n generalizing ls with
  | zero => exact .timeout
  | succ n ih =>
    unfold columnConstraintsAux
    simp only [Prog.bind_eq]
    refine weaken (alt (Lin.token fun t => Lin.cond fail (bind (v.2 _) fun _ => ih _)) (ret _)) ?_
    simp only [Bd.le, Bd.plus, Bd.or, Bd.seq, Bd.ret, Bd.fail, Bool.and_eq_true]
    constructor <;> (apply decide_eq_true; omega)

theorem createOtherLoop_lin (n : Nat) (b : Bool) : Lin (createOtherLoop n b) ⟨0, 20⟩ := by
  induction n generalizing b with
  | zero => exact .timeout
  | succ n ih =>
    intro ts hg
    cases ts with
    | nil =>
      rw [createOther_nil]
      refine ⟨fun a r o e => (by cases e), fun r e => ?_⟩
      cases e
      unfold createOtherLoop
      simp only [ifM, isOutOfRange, Prog.bind, workA, List.isEmpty_nil, _root_.cond, syntaxError, RATE]
      omega
    | cons t ts =>
      have hn : ∀ b, _ := fun b => next_here (set := false) (ih b) hg
      have e2 : workA (createOtherLoop (n + 1) b) (t :: ts) =
          if (b || isKw ["BEGIN"] t) = true then
            workA ((next false).bind fun _ => createOtherLoop n (!isKw ["END"] t)) (t :: ts) + 3
          else if isKw [";"] t = true then workA (validateToken false [";"]) (t :: ts) + 3
          else workA ((next false).bind fun _ => createOtherLoop n false) (t :: ts) + 3 := by
        rw [createOtherLoop]
        simp only [ifM, isOutOfRange, Prog.bind, workA, List.isEmpty_cons, _root_.cond, matchToken, List.headD_cons]
        cases (b || isKw ["BEGIN"] t)
        · simp only [workA, List.headD_cons, if_false, Bool.false_eq_true]
          cases isKw [";"] t <;> rfl
        · rfl
      rw [e2]
      rw [createOther_cons]
      have e3 : ∀ b, runA ((next false).bind fun _ => createOtherLoop n b) (t :: ts) = runA (createOtherLoop n b) ts := by
        intro b
        simp only [next, Prog.bind, runA, List.tail_cons, Bool.false_eq_true, if_false, ResA.pre_nil]
      split
      · rw [← e3]
        refine ⟨fun a r o e => ?_, fun r e => ?_⟩
        · have := (hn _).1 _ _ _ e; simp only [RATE] at this ⊢; omega
        · have := (hn _).2 _ e; simp only [RATE] at this ⊢; omega
      · split
        · rename_i h
          have e4 : runA (validateToken false [";"]) (t :: ts) = .ok () ts [] := by
            rw [runA_validateToken]; simp only [if_pos h]; rfl
          rw [← e4]
          refine ⟨fun a r o e => ?_, fun r e => ?_⟩
          · have := (tok false [";"] _ hg).1 _ _ _ e; simp only [RATE, Bd.tok] at this ⊢; omega
          · have := (tok false [";"] _ hg).2 _ e; simp only [RATE, Bd.tok] at this ⊢; omega
        · rw [← e3]
          refine ⟨fun a r o e => ?_, fun r e => ?_⟩
          · have := (hn _).1 _ _ _ e; simp only [RATE] at this ⊢; omega
          · have := (hn _).2 _ e; simp only [RATE] at this ⊢; omega
macro_rules | `(tactic| lin_lem) => `(tactic| with_reducible exact createOtherLoop_lin _ _)

def validateBrackets_l (set : Bool) : LinF fun n => validateBrackets n set := by
  constructor; intro n; unfold validateBrackets; lin
macro_rules | `(tactic| lin_lem) => `(tactic| with_reducible exact (validateBrackets_l _).2 _)

def validateExpr_l (set : Bool) : LinF fun n => validateExpr n set := by
  constructor; intro n; unfold validateExpr; lin
macro_rules | `(tactic| lin_lem) => `(tactic| with_reducible exact (validateExpr_l _).2 _)

def validateTableName_l (d : Rdbms) (set : Bool) : LinF fun _ => validateTableName d set := by
  constructor; intro n; unfold validateTableName; lin
macro_rules | `(tactic| lin_lem) => `(tactic| with_reducible exact (validateTableName_l _ _).2 0)

def validateIfNotExists_l : LinF fun _ => validateIfNotExists := by
  constructor; intro n; unfold validateIfNotExists; lin
macro_rules | `(tactic| lin_lem) => `(tactic| with_reducible exact validateIfNotExists_l.2 0)

def validateTypeDigitN_l (set : Bool) : LinF fun _ => validateTypeDigitN set := by
  constructor; intro n; unfold validateTypeDigitN; lin
macro_rules | `(tactic| lin_lem) => `(tactic| with_reducible exact (validateTypeDigitN_l _).2 0)

def validateTypeDigitPS_l (set : Bool) : LinF fun _ => validateTypeDigitPS set := by
  constructor; intro n; unfold validateTypeDigitPS; lin
macro_rules | `(tactic| lin_lem) => `(tactic| with_reducible exact (validateTypeDigitPS_l _).2 0)

/-- A loop: the bounds are kept. -/
macro "lin_loop" f:ident : tactic => `(tactic| (unfold $f:ident; apply Lin.weaken; (case h => lin); krfl))

def validateCommaSeparatedColumnNames_l (d : Rdbms) (set : Bool) :
    LinF fun n => validateCommaSeparatedColumnNames d set n := by
  refine ⟨⟨8 - RATE, 10⟩, fun n => ?_⟩
  induction n with
  | zero => exact .timeout
  | succ n ih => lin_loop validateCommaSeparatedColumnNames
macro_rules | `(tactic| lin_lem) => `(tactic| with_reducible exact (validateCommaSeparatedColumnNames_l _ _).2 _)

def validateConstraintReferencesAux_l : LinF fun n => validateConstraintReferencesAux n := by
  refine ⟨⟨5, 20⟩, fun n => ?_⟩
  induction n with
  | zero => exact .timeout
  | succ n ih => lin_loop validateConstraintReferencesAux
macro_rules | `(tactic| lin_lem) => `(tactic| with_reducible exact validateConstraintReferencesAux_l.2 _)

end V
end DDL
