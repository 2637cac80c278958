import Verif.Model.Counted
import Verif.Proof.ConvStab
import Verif.Proof.ViableSweep
/-
The counting converter computes the same, and its work is linear in the tokens it reads.
-/

namespace DDL
open Conv

/-- Operations per token of the converter. -/
def CRATE : Int := 40

/-- Bounds beyond the rate: where there is a token, and at the end of the tokens (`none`: does not return there). -/
structure CB where
  b : Int
  e : Option Int

/-- `g` computes the same as `f`, with at most `CRATE` operations for each token it reads, and `i` more. -/
structure CLin (f : CM α) (g : CT α) (i : CB) : Prop where
  same : ∀ s, (g s).1 = f s
  le : ∀ s a r, f s = .ok a r → r.length ≤ s.length
  b : ∀ s a r, s ≠ [] → f s = .ok a r → ((g s).2 : Int) + CRATE * r.length ≤ CRATE * s.length + i.b
  e : ∀ a r, f [] = .ok a r → ∃ v, i.e = some v ∧ ((g []).2 : Int) ≤ v

namespace CB
def omax (x : Int) : Option Int → Int
  | none => x
  | some y => max x y
def osum : Option Int → Option Int → Option Int
  | some x, some y => some (x + y)
  | _, _ => none
def ole : Option Int → Option Int → Bool
  | none, _ => true
  | some x, some y => decide (x ≤ y)
  | some _, none => false
def oor : Option Int → Option Int → Option Int
  | some x, some y => some (max x y)
  | none, y => y
  | x, none => x
def seq (x y : CB) : CB := ⟨x.b + omax y.b y.e, osum x.e y.e⟩
def alt (x y : CB) : CB := ⟨1 + max x.b y.b, osum (some 1) y.e⟩
def or (x y : CB) : CB := ⟨max x.b y.b, oor x.e y.e⟩
def le (x y : CB) : Bool := decide (x.b ≤ y.b) && ole x.e y.e
def const (v : Int) : CB := ⟨v, some v⟩
def step : CB := ⟨2 - CRATE, some 1⟩
end CB

namespace CLin

theorem weaken {f : CM α} {g : CT α} {i j : CB} (h : CLin f g i) (hl : i.le j = true) : CLin f g j := by
  simp only [CB.le, Bool.and_eq_true, decide_eq_true_eq] at hl
  refine ⟨h.same, h.le, fun s a r hs e => ?_, fun a r e => ?_⟩
  · have := h.b s a r hs e; omega
  · obtain ⟨v, hv, hw⟩ := h.e a r e
    have := hl.2
    rw [hv] at this
    cases hj : j.e with
    | none => rw [hj] at this; cases this
    | some w =>
      rw [hj] at this
      simp only [CB.ole, decide_eq_true_eq] at this
      exact ⟨w, rfl, by omega⟩

theorem pure (a : α) : CLin (CM.pure a) (CT.pure a) (.const 0) := by
  refine ⟨fun s => rfl, ?_, ?_, ?_⟩
  · rintro s a r ⟨⟩; exact Nat.le_refl _
  · rintro s a r - ⟨⟩; simp [CT.pure, CB.const]
  · rintro a r ⟨⟩; exact ⟨0, rfl, by simp [CT.pure]⟩

theorem timeout {i : CB} : CLin (C.timeout : CM α) CW.timeout i :=
  ⟨fun s => rfl, fun s a r h => (by cases h), fun s a r _ h => (by cases h), fun a r h => (by cases h)⟩

/-- An operation that reads nothing. -/
theorem tick {f : CM α} {g : CT α} (h1 : ∀ s, (g s).1 = f s) (h2 : ∀ s, (g s).2 = 1)
    (h3 : ∀ s a r, f s = .ok a r → r = s) : CLin f g (.const 1) := by
  refine ⟨h1, fun s a r h => ?_, fun s a r _ h => ?_, fun a r h => ⟨1, rfl, ?_⟩⟩
  · rw [h3 _ _ _ h]; exact Nat.le_refl _
  · rw [h3 _ _ _ h, h2]; simp [CB.const]; omega
  · rw [h2]; simp

theorem token : CLin C.token CW.token (.const 1) :=
  tick (fun _ => rfl) (fun _ => rfl) (fun s a r h => by cases h; rfl)

theorem isOutOfRange : CLin C.isOutOfRange CW.isOutOfRange (.const 1) :=
  tick (fun _ => rfl) (fun _ => rfl) (fun s a r h => by cases h; rfl)

theorem headChar (t : Str) : CLin (C.headChar t) (CW.headChar t) (.const 1) :=
  tick (fun _ => by cases t <;> rfl) (fun _ => by cases t <;> rfl) (fun s a r h => by cases t <;> cases h; rfl)

theorem inner (t : Str) : CLin (C.inner t) (CW.inner t) (.const 1) :=
  tick (fun _ => by unfold CW.inner C.inner; split <;> rfl) (fun _ => by unfold CW.inner; split <;> rfl)
    (fun s a r h => by unfold C.inner at h; split at h <;> cases h; rfl)

theorem stepLe (s : List Str) (hs : s ≠ []) :
    (((1 + (s.length - (C.nextRest s).length) : Nat)) : Int) + CRATE * (C.nextRest s).length ≤ CRATE * s.length + CB.step.b := by
  have := nextRest_lt hs
  simp only [CB.step, CRATE]
  omega

theorem next : CLin C.next CW.next .step := by
  refine ⟨fun s => rfl, ?_, ?_, ?_⟩
  · rintro s a r ⟨⟩; exact nextRest_le _
  · rintro s a r hs ⟨⟩; exact stepLe s hs
  · rintro a r ⟨⟩; exact ⟨1, rfl, by simp [CW.next, C.nextRest]⟩

theorem skip : CLin C.skip CW.skip .step := by
  refine ⟨fun s => rfl, ?_, ?_, ?_⟩
  · rintro s a r ⟨⟩; exact nextRest_le _
  · rintro s a r hs ⟨⟩; exact stepLe s hs
  · rintro a r ⟨⟩; exact ⟨1, rfl, by simp [CW.skip, C.nextRest]⟩

theorem bind_same {f : CM α} {g : CT α} {f' : α → CM β} {g' : α → CT β} (h : ∀ s, (g s).1 = f s)
    (h' : ∀ a s, (g' a s).1 = f' a s) (s : List Str) : (g.bind g' s).1 = f.bind f' s := by
  unfold CT.bind CM.bind
  have e := h s
  cases hg : g s with
  | mk x k =>
    rw [hg] at e
    simp only at e
    rw [← e]
    cases x with
    | ok a m => exact h' a m
    | _ => rfl

theorem bind_cost {f : CM α} {g : CT α} {g' : α → CT β} (h : ∀ s, (g s).1 = f s) {s m : List Str} {a : α}
    (hf : f s = .ok a m) : (g.bind g' s).2 = (g s).2 + (g' a m).2 := by
  unfold CT.bind
  have e := h s
  rw [hf] at e
  cases hg : g s with
  | mk x k =>
    rw [hg] at e
    simp only at e
    subst e
    rfl

theorem bind {f : CM α} {g : CT α} {f' : α → CM β} {g' : α → CT β} {x y : CB} (h : CLin f g x)
    (h' : ∀ a, CLin (f' a) (g' a) y) : CLin (f.bind f') (g.bind g') (x.seq y) := by
  refine ⟨bind_same h.same fun a => (h' a).same, fun s a r e => ?_, fun s a r hs e => ?_, fun a r e => ?_⟩
  · obtain ⟨b, m, h1, h2⟩ := cbind_ok e
    exact Nat.le_trans ((h' b).le _ _ _ h2) (h.le _ _ _ h1)
  · obtain ⟨b, m, h1, h2⟩ := cbind_ok e
    rw [bind_cost h.same h1]
    have e1 := h.b _ _ _ hs h1
    simp only [CB.seq]
    by_cases hm : m = []
    · subst hm
      obtain ⟨v, hv, e2⟩ := (h' b).e _ _ h2
      have e3 := (h' b).le _ _ _ h2
      have : r = [] := by simpa using e3
      subst this
      rw [hv]
      simp only [CB.omax]
      simp only [List.length_nil] at e1 ⊢
      omega
    · have e2 := (h' b).b _ _ _ hm h2
      have : y.b ≤ CB.omax y.b y.e := by cases y.e <;> simp only [CB.omax] <;> omega
      omega
  · obtain ⟨b, m, h1, h2⟩ := cbind_ok e
    rw [bind_cost h.same h1]
    obtain ⟨v, hv, e1⟩ := h.e _ _ h1
    have : m = [] := by simpa using h.le _ _ _ h1
    subst this
    obtain ⟨w, hw, e2⟩ := (h' b).e _ _ h2
    refine ⟨v + w, ?_, by omega⟩
    simp only [CB.seq, hv, hw, CB.osum]

theorem cond {c : Bool} {f f' : CM α} {g g' : CT α} {x y : CB} (h : CLin f g x) (h' : CLin f' g' y) :
    CLin (cond c f f') (cond c g g') (x.or y) := by
  cases c
  · refine h'.weaken ?_
    simp only [CB.le, CB.or, Bool.and_eq_true]
    refine ⟨decide_eq_true (by omega), ?_⟩
    cases x.e <;> cases y.e <;> simp only [CB.oor, CB.ole] <;> exact decide_eq_true (by omega)
  · refine h.weaken ?_
    simp only [CB.le, CB.or, Bool.and_eq_true]
    refine ⟨decide_eq_true (by omega), ?_⟩
    cases x.e <;> cases y.e <;> simp only [CB.oor, CB.ole] <;> exact decide_eq_true (by omega)

theorem alt {ks : List String} {f f' : CM α} {g g' : CT α} {x y : CB} (h : CLin f g x) (h' : CLin f' g' y)
    (hk : isKw ks EOF = false) :
    CLin (C.ifM (C.matchToken ks) f f') (CW.ifM (CW.matchToken ks) g g') (x.alt y) := by
  have e1 : ∀ s, C.ifM (C.matchToken ks) f f' s = if isKw ks (C.tok s) = true then f s else f' s := by
    intro s
    show (_root_.cond (isKw ks (C.tok s)) f f') s = _
    cases isKw ks (C.tok s) <;> rfl
  have e2 : ∀ s, CW.ifM (CW.matchToken ks) g g' s =
      if isKw ks (C.tok s) = true then ((g s).1, 1 + (g s).2) else ((g' s).1, 1 + (g' s).2) := by
    intro s
    show ((_root_.cond (isKw ks (C.tok s)) g g' s).1, 1 + (_root_.cond (isKw ks (C.tok s)) g g' s).2) = _
    cases isKw ks (C.tok s) <;> rfl
  refine ⟨fun s => ?_, fun s a r e => ?_, fun s a r hs e => ?_, fun a r e => ?_⟩
  · rw [e1, e2]; split
    · exact h.same s
    · exact h'.same s
  · rw [e1] at e; split at e
    · exact h.le _ _ _ e
    · exact h'.le _ _ _ e
  · rw [e1] at e; rw [e2]
    simp only [CB.alt]
    split at e
    · rename_i hk'; rw [if_pos hk']; have := h.b _ _ _ hs e; simp only; omega
    · rename_i hk'; rw [if_neg hk']; have := h'.b _ _ _ hs e; simp only; omega
  · rw [e1, show C.tok [] = EOF from rfl, hk] at e
    rw [e2, show C.tok [] = EOF from rfl, hk]
    obtain ⟨v, hv, e3⟩ := h'.e _ _ e
    refine ⟨1 + v, ?_, ?_⟩
    · simp only [CB.alt, hv, CB.osum]
    · rw [if_neg (by simp)]; simp only; omega

end CLin

/-- Extended after each definition below. -/
syntax "clin_lem" : tactic
macro_rules | `(tactic| clin_lem) => `(tactic| fail)

macro "clin_step" : tactic => `(tactic| first
  | with_reducible exact CLin.pure _
  | with_reducible exact CLin.token
  | with_reducible exact CLin.isOutOfRange
  | with_reducible exact CLin.headChar _
  | with_reducible exact CLin.inner _
  | with_reducible exact CLin.next
  | with_reducible exact CLin.skip
  | clin_lem
  | ((with_reducible apply CLin.alt); (case hk => decide))
  | with_reducible apply CLin.cond
  | with_reducible apply CLin.bind
  | intro _)

/-- A converter function with its counting version. -/
abbrev CLinF (f : CM α) (g : CT α) := {i : CB // CLin f g i}

namespace CW

def convertName_l (d : Rdbms) : CLinF (C.convertName d) (convertName d) := by
  constructor; unfold C.convertName convertName; repeat' clin_step
macro_rules | `(tactic| clin_lem) => `(tactic| with_reducible exact (CW.convertName_l _).2)

def convertTableName_l (d : Rdbms) : CLinF (C.convertTableName d) (convertTableName d) := by
  constructor; unfold C.convertTableName convertTableName; repeat' clin_step
macro_rules | `(tactic| clin_lem) => `(tactic| with_reducible exact (CW.convertTableName_l _).2)

def convertTypeDigit_l : CLinF C.convertTypeDigit convertTypeDigit := by
  constructor; unfold C.convertTypeDigit convertTypeDigit; repeat' clin_step
macro_rules | `(tactic| clin_lem) => `(tactic| with_reducible exact CW.convertTypeDigit_l.2)

def convertDateType_l [CaseMap] : CLinF C.convertDateType convertDateType := by
  constructor; unfold C.convertDateType convertDateType; repeat' clin_step
macro_rules | `(tactic| clin_lem) => `(tactic| with_reducible exact CW.convertDateType_l.2)

theorem convertExprAux_l (n : Nat) : CLin (C.convertExprAux n) (convertExprAux n) ⟨1, none⟩ := by
  induction n with
  | zero => exact .timeout
  | succ n ih =>
    unfold C.convertExprAux convertExprAux
    apply CLin.weaken
    case h => repeat' (first | exact ih | clin_step)
    krfl
macro_rules | `(tactic| clin_lem) => `(tactic| with_reducible exact CW.convertExprAux_l _)

theorem convertExpr_l (n : Nat) : CLin (C.convertExpr n) (convertExpr n) ⟨2, none⟩ := by
  unfold C.convertExpr convertExpr
  apply CLin.weaken
  case h => repeat' clin_step
  krfl
macro_rules | `(tactic| clin_lem) => `(tactic| with_reducible exact CW.convertExpr_l _)

def convertLiteralValue_l [CaseMap] (isNum : Str → Bool) (d : Rdbms) :
    CLinF (C.convertLiteralValue isNum d) (convertLiteralValue isNum d) := by
  constructor; unfold C.convertLiteralValue convertLiteralValue; repeat' clin_step
macro_rules | `(tactic| clin_lem) => `(tactic| with_reducible exact (CW.convertLiteralValue_l _ _).2)

theorem convertDefaultValue_l [CaseMap] (isNum : Str → Bool) (d : Rdbms) (n : Nat) :
    CLin (C.convertDefaultValue isNum d n) (convertDefaultValue isNum d n) ⟨10, some 10⟩ := by
  unfold C.convertDefaultValue convertDefaultValue
  apply CLin.weaken
  case h => repeat' clin_step
  krfl
macro_rules | `(tactic| clin_lem) => `(tactic| with_reducible exact CW.convertDefaultValue_l _ _ _)

theorem columnNamesLoop_l (n : Nat) (ls : List Str) : CLin (C.columnNamesLoop n ls) (columnNamesLoop n ls) ⟨1, none⟩ := by
  induction n generalizing ls with
  | zero => exact .timeout
  | succ n ih =>
    unfold C.columnNamesLoop columnNamesLoop
    apply CLin.weaken
    case h => repeat' (first | exact ih _ | clin_step)
    krfl
macro_rules | `(tactic| clin_lem) => `(tactic| with_reducible exact CW.columnNamesLoop_l _ _)

theorem convertCommaSeparatedColumnNames_l (n : Nat) :
    CLin (C.convertCommaSeparatedColumnNames n) (convertCommaSeparatedColumnNames n) ⟨2, none⟩ := by
  unfold C.convertCommaSeparatedColumnNames convertCommaSeparatedColumnNames
  apply CLin.weaken
  case h => repeat' clin_step
  krfl
macro_rules | `(tactic| clin_lem) => `(tactic| with_reducible exact CW.convertCommaSeparatedColumnNames_l _)

theorem convertReference_l (d : Rdbms) (n : Nat) : CLin (C.convertReference d n) (convertReference d n) ⟨10 - CRATE, some 10⟩ := by
  unfold C.convertReference convertReference
  apply CLin.weaken
  case h => repeat' clin_step
  krfl
macro_rules | `(tactic| clin_lem) => `(tactic| with_reducible exact CW.convertReference_l _ _)

theorem convertConstraintAux_l [CaseMap] (isNum : Str → Bool) (d : Rdbms) (n : Nat) (con : Constraint) :
    CLin (C.convertConstraintAux isNum d n con) (convertConstraintAux isNum d n con) ⟨10, some 10⟩ := by
  induction n generalizing con with
  | zero => exact .timeout
  | succ n ih =>
    unfold C.convertConstraintAux convertConstraintAux
    apply CLin.weaken
    case h => repeat' (first | exact ih _ | clin_step)
    krfl
macro_rules | `(tactic| clin_lem) => `(tactic| with_reducible exact CW.convertConstraintAux_l _ _ _ _)

theorem convertConstraint_l [CaseMap] (isNum : Str → Bool) (d : Rdbms) (n : Nat) :
    CLin (C.convertConstraint isNum d n) (convertConstraint isNum d n) ⟨11, some 11⟩ := by
  unfold C.convertConstraint convertConstraint
  apply CLin.weaken
  case h => repeat' clin_step
  krfl
macro_rules | `(tactic| clin_lem) => `(tactic| with_reducible exact CW.convertConstraint_l _ _ _)

theorem convertColumnDefinition_l [CaseMap] (isNum : Str → Bool) (d : Rdbms) (n : Nat) :
    CLin (C.convertColumnDefinition isNum d n) (convertColumnDefinition isNum d n) ⟨20, some 20⟩ := by
  unfold C.convertColumnDefinition convertColumnDefinition
  apply CLin.weaken
  case h => repeat' clin_step
  krfl
macro_rules | `(tactic| clin_lem) => `(tactic| with_reducible exact CW.convertColumnDefinition_l _ _ _)

theorem convertTableConstraint_l (d : Rdbms) (n : Nat) (tc : TableConstraint) :
    CLin (C.convertTableConstraint d n tc) (convertTableConstraint d n tc) ⟨10, some 10⟩ := by
  unfold C.convertTableConstraint convertTableConstraint
  apply CLin.weaken
  case h => repeat' clin_step
  krfl
macro_rules | `(tactic| clin_lem) => `(tactic| with_reducible exact CW.convertTableConstraint_l _ _ _)

theorem tableDefinitionLoop_l [CaseMap] (isNum : Str → Bool) (d : Rdbms) (n : Nat) (cols : List Column) (tc : TableConstraint) :
    CLin (C.tableDefinitionLoop isNum d n cols tc) (tableDefinitionLoop isNum d n cols tc) ⟨25, none⟩ := by
  induction n generalizing cols tc with
  | zero => exact .timeout
  | succ n ih =>
    unfold C.tableDefinitionLoop tableDefinitionLoop
    apply CLin.weaken
    case h => repeat' (first | exact ih _ _ | clin_step)
    krfl
macro_rules | `(tactic| clin_lem) => `(tactic| with_reducible exact CW.tableDefinitionLoop_l _ _ _ _ _)

theorem convertTableDefinition_l [CaseMap] (isNum : Str → Bool) (d : Rdbms) (n : Nat) :
    CLin (C.convertTableDefinition isNum d n) (convertTableDefinition isNum d n) ⟨0, none⟩ := by
  unfold C.convertTableDefinition convertTableDefinition
  apply CLin.weaken
  case h => repeat' clin_step
  krfl
macro_rules | `(tactic| clin_lem) => `(tactic| with_reducible exact CW.convertTableDefinition_l _ _ _)

theorem convertTable_l [CaseMap] (isNum : Str → Bool) (d : Rdbms) (n : Nat) :
    CLin (C.convertTable isNum d n) (convertTable isNum d n) ⟨-1, none⟩ := by
  unfold C.convertTable convertTable
  apply CLin.weaken
  case h => repeat' clin_step
  krfl

theorem convert_l [CaseMap] (isNum : Str → Bool) (d : Rdbms) (n : Nat) (acc : List Table) :
    CLin (C.convert isNum d n acc) (convert isNum d n acc) ⟨1, some 1⟩ := by
  induction n generalizing acc with
  | zero => exact .timeout
  | succ n ih =>
    unfold C.convert convert
    have h : CLin ((C.convertTable isNum d (n + 1)).bind fun t => C.convert isNum d n (acc ++ [t]))
        ((convertTable isNum d (n + 1)).bind fun t => convert isNum d n (acc ++ [t])) ⟨0, none⟩ :=
      (CLin.bind (convertTable_l isNum d (n + 1)) fun _ => ih _).weaken (by decide)
    refine ⟨fun s => ?_, fun s a r e => ?_, fun s a r hs e => ?_, fun a r e => ?_⟩
    · cases s with
      | nil => rfl
      | cons t s => exact h.same (t :: s)
    · cases s with
      | nil => cases e; exact Nat.le_refl _
      | cons t s => exact h.le _ _ _ e
    · cases s with
      | nil => exact absurd rfl hs
      | cons t s =>
        have := h.b _ _ _ hs e
        show ((1 + (CT.bind (convertTable isNum d (n + 1)) _ (t :: s)).2 : Nat) : Int) + _ ≤ _
        simp only at this ⊢
        omega
    · exact ⟨1, rfl, Int.le_refl _⟩

end CW
end DDL
