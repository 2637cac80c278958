import Verif.Proof.Mono
import Verif.Proof.SqliteImpl
import Verif.Proof.PostgresImpl
import Verif.Proof.MysqlImpl
/-
Fuel beyond the number of tokens makes no difference to a validator, not even when it times out.
The sweep over the validator functions is written by tools/gen_stab.py.
-/

namespace DDL
open V Spec

/-- `p` and `q` agree on all inputs of fewer than `k` tokens. -/
def Stab (k : Nat) (p q : Prog α) : Prop := ∀ ts, Ok k ts → runA p ts = runA q ts

/-- `p` succeeds only after reading a token. -/
def Eats (p : Prog α) : Prop := ∀ ts a r o, runA p ts = .ok a r o → r.length < ts.length

namespace Stab

theorem zero (p q : Prog α) : Stab 0 p q := fun _ h => absurd h.1 (by omega)

theorem refl (k : Nat) (p : Prog α) : Stab k p p := fun _ _ => rfl

theorem mono {k m : Nat} {p q : Prog α} (h : k ≤ m) (hp : Stab m p q) : Stab k p q :=
  fun ts hts => hp ts (hts.mono h)

theorem bind {k : Nat} {p p' : Prog α} {f f' : α → Prog β} (hp : Stab k p p')
    (hf : ∀ a, Stab k (f a) (f' a)) : Stab k (p.bind f) (p'.bind f') := by
  intro ts hts
  rw [runA_bind, runA_bind, hp ts hts]
  cases hr : runA p' ts with
  | ok a r o =>
    show (runA (f a) r).pre o = (runA (f' a) r).pre o
    rw [hf a r (hts.suffix ((runA_suffix p' ts).1 _ _ _ hr))]
  | _ => rfl

theorem bindEat {k : Nat} {p : Prog α} {f f' : α → Prog β} (he : Eats p)
    (hf : ∀ a, Stab k (f a) (f' a)) : Stab (k + 1) (p.bind f) (p.bind f') := by
  intro ts hts
  rw [runA_bind, runA_bind]
  cases hr : runA p ts with
  | ok a r o =>
    show (runA (f a) r).pre o = (runA (f' a) r).pre o
    rw [hf a r (hts.of_lt ((runA_suffix p ts).1 _ _ _ hr) (he _ _ _ _ hr))]
  | _ => rfl

theorem bindEats {k : Nat} {p p' : Prog α} {f f' : α → Prog β} (hp : Stab (k + 1) p p')
    (he : ∀ ts, Ok (k + 1) ts → ∀ a r o, runA p ts = .ok a r o → r.length < ts.length)
    (hf : ∀ a, Stab k (f a) (f' a)) : Stab (k + 1) (p.bind f) (p'.bind f') := by
  intro ts hts
  rw [runA_bind, runA_bind, ← hp ts hts]
  cases hr : runA p ts with
  | ok a r o =>
    show (runA (f a) r).pre o = (runA (f' a) r).pre o
    rw [hf a r (hts.of_lt ((runA_suffix p ts).1 _ _ _ hr) (he _ hts _ _ _ hr))]
  | _ => rfl

theorem cond {k : Nat} {b : Bool} {p p' q q' : Prog α} (hp : Stab k p p') (hq : Stab k q q') :
    Stab k (cond b p q) (cond b p' q') := by
  cases b <;> assumption

theorem ifM {k : Nat} {c : Prog Bool} {p p' q q' : Prog α} (hp : Stab k p p') (hq : Stab k q q') :
    Stab k (ifM c p q) (V.ifM c p' q') := bind (refl k c) fun _ => cond hp hq

theorem ifEat {k : Nat} {set : Bool} {ks : List String} {p p' q q' : Prog α}
    (hk : isKw ks EOF = false) (hp : Stab k p p') (hq : Stab (k + 1) q q') :
    Stab (k + 1) (V.ifM (matchTokenNext set ks) p q) (V.ifM (matchTokenNext set ks) p' q') := by
  intro ts hts
  rw [ifM_next, ifM_next, runA_if, runA_if]
  cases ts with
  | nil =>
    have : isKw ks (hd []) = false := hk
    rw [this]
    exact hq [] hts
  | cons t r =>
    split
    · rw [runA_adv, runA_adv]
      show (runA p r).pre _ = (runA p' r).pre _
      rw [hp r hts.tail]
    · exact hq _ hts

theorem token {k : Nat} {f f' : Str → Prog α} (h : ∀ t, Stab k (f t) (f' t)) :
    Stab k (.token f) (.token f') := fun ts hts => h _ ts hts

end Stab

theorem Eats.validateToken (set : Bool) (ks : List String) : Eats (validateToken set ks) := by
  intro ts a r o h
  rw [runA_validateToken] at h
  cases ts with
  | nil => cases h
  | cons t r' =>
    dsimp only at h
    split at h
    · cases h; exact Nat.lt_succ_self _
    · cases h

theorem Eats.bind {p : Prog α} (h : Eats p) (f : α → Prog β) : Eats (p.bind f) := by
  intro ts a r o hr
  rw [runA_bind] at hr
  cases hp : runA p ts with
  | ok b m o' =>
    rw [hp] at hr
    have h1 := h _ _ _ _ hp
    cases hq : runA (f b) m with
    | ok c m' o'' =>
      have : ResA.ok c m' (o' ++ o'') = .ok a r o := by
        rw [← hr]; show _ = (runA (f b) m).pre o'; rw [hq]; rfl
      cases this
      exact Nat.lt_of_le_of_lt ((runA_suffix _ _).1 _ _ _ hq).length_le h1
    | _ => rw [show ResA.andThen (.ok b m o') (fun a r => runA (f a) r) = (runA (f b) m).pre o' from rfl, hq] at hr; cases hr
  | _ => rw [hp] at hr; cases hr

/-- Extended after each lemma below. -/
syntax "st_lem" : tactic
macro_rules | `(tactic| st_lem) => `(tactic| fail)

macro "st_step" : tactic => `(tactic| first
  | with_reducible exact Stab.refl _ _
  | with_reducible assumption
  | (st_lem <;> first | assumption | omega | fail)
  | with_reducible refine Stab.ifEat (by decide) ?_ ?_
  | with_reducible refine Stab.bindEat (Eats.validateToken _ _) (fun _ => ?_)
  | with_reducible apply Stab.ifM
  | with_reducible apply Stab.cond
  | with_reducible refine Stab.bind ?_ (fun _ => ?_)
  | with_reducible refine Stab.token (fun _ => ?_))

macro "st_all" : tactic => `(tactic| ((try simp only [Prog.bind_eq, Prog.pure_eq]); repeat' st_step))

theorem brackets_nil (set : Bool) (n : Nat) : runA (validateBracketsAux set n) [] = .timeout := by
  induction n with
  | zero => rfl
  | succ n ih =>
    rw [validateBracketsAux, runA_if, if_neg (by decide), runA_if, if_neg (by decide)]
    show runA ((next set).bind fun _ => validateBracketsAux set n) [] = _
    rw [runA_bind, runA_next]
    show (runA (validateBracketsAux set n) []).pre _ = _
    rw [ih]; rfl

theorem columnConstraintsAux_st {isKind : List String} {key : Str → Str} {one : Nat → Prog Unit}
    (h : ∀ n, Stab n (one n) (one (n + 1)))
    (he : ∀ n ts, Ok n ts → ∀ a r o, runA (one n) ts = .ok a r o → r.length < ts.length) (n : Nat) (ls : List Str) :
    Stab n (columnConstraintsAux isKind key one n ls) (columnConstraintsAux isKind key one (n + 1) ls) := by
  induction n generalizing ls with
  | zero => exact Stab.zero _ _
  | succ n ih =>
    unfold columnConstraintsAux
    refine Stab.ifM ?_ (Stab.refl _ _)
    refine Stab.token fun t => ?_
    refine Stab.cond (Stab.refl _ _) ?_
    intro ts hts
    rw [runA_seq, runA_seq, ← h (n + 1) ts hts]
    cases hr : runA (one (n + 1)) ts with
    | ok a r o =>
      show (runA _ r).pre o = (runA _ r).pre o
      rw [ih _ r (hts.of_lt ((runA_suffix _ ts).1 _ _ _ hr) (he _ _ hts _ _ _ hr))]
    | _ => rfl

theorem eats_of_impls {n : Nat} {p : Prog Unit} {L : Lang β} {E : β → List Str → Prop} (h : Impls n p L E)
    (hL : Cons L) (ts : List Str) (hts : Ok n ts) (a : Unit) (r o : List Str) (hr : runA p ts = .ok a r o) :
    r.length < ts.length := by
  have := h ts hts
  unfold Impl at this
  rw [hr] at this
  obtain ⟨v, h1, _⟩ := this
  exact (hL _ _ _ h1).2

namespace V

theorem validateBracketsAux_st0 (set : Bool) (n : Nat) : Stab n (validateBracketsAux set n) (validateBracketsAux set (n + 1)) := by
  induction n with
  | zero => exact Stab.zero _ _
  | succ n ih =>
    intro ts hts
    cases ts with
    | nil => rw [brackets_nil, brackets_nil]
    | cons t r =>
      unfold validateBracketsAux
      simp only [runA_if]
      split
      · rfl
      · split
        · refine Stab.bindEat (Eats.validateToken _ _) (fun _ => ?_) _ hts
          exact Stab.bind ih fun _ => Stab.bind (Stab.refl _ _) fun _ => ih
        · rw [runA_seq, runA_seq, runA_next]
          show (runA _ r).pre _ = (runA _ r).pre _
          rw [ih r hts.tail]
theorem validateBracketsAux_st (set : Bool) {k n : Nat} (h : k ≤ n) : Stab k (validateBracketsAux set n) (validateBracketsAux set (n + 1)) :=
  Stab.mono h (validateBracketsAux_st0 set n)
macro_rules | `(tactic| st_lem) => `(tactic| with_reducible apply validateBracketsAux_st)

theorem validateBrackets_st0 (set : Bool) (n : Nat) : Stab n (validateBrackets n set) (validateBrackets (n + 1) set) := by
  unfold validateBrackets; st_all
theorem validateBrackets_st (set : Bool) {k n : Nat} (h : k ≤ n) : Stab k (validateBrackets n set) (validateBrackets (n + 1) set) :=
  Stab.mono h (validateBrackets_st0 set n)
macro_rules | `(tactic| st_lem) => `(tactic| with_reducible apply validateBrackets_st)

theorem validateCommaSeparatedColumnNames_st0 (d : Rdbms) (set : Bool) (n : Nat) : Stab n (validateCommaSeparatedColumnNames d set n) (validateCommaSeparatedColumnNames d set (n + 1)) := by
  induction n with
  | zero => exact Stab.zero _ _
  | succ n ih => unfold validateCommaSeparatedColumnNames; st_all
theorem validateCommaSeparatedColumnNames_st (d : Rdbms) (set : Bool) {k n : Nat} (h : k ≤ n) : Stab k (validateCommaSeparatedColumnNames d set n) (validateCommaSeparatedColumnNames d set (n + 1)) :=
  Stab.mono h (validateCommaSeparatedColumnNames_st0 d set n)
macro_rules | `(tactic| st_lem) => `(tactic| with_reducible apply validateCommaSeparatedColumnNames_st)

theorem validateExpr_st0 (set : Bool) (n : Nat) : Stab n (validateExpr n set) (validateExpr (n + 1) set) := by
  unfold validateExpr; st_all
theorem validateExpr_st (set : Bool) {k n : Nat} (h : k ≤ n) : Stab k (validateExpr n set) (validateExpr (n + 1) set) :=
  Stab.mono h (validateExpr_st0 set n)
macro_rules | `(tactic| st_lem) => `(tactic| with_reducible apply validateExpr_st)

theorem createOtherLoop_st0 (b : Bool) (n : Nat) : Stab n (createOtherLoop  n b) (createOtherLoop  (n + 1) b) := by
  induction n generalizing b with
  | zero => exact Stab.zero _ _
  | succ n ih =>
    intro ts hts
    cases ts with
    | nil => rfl
    | cons t r =>
      have key : ∀ c : Bool, runA ((next false).bind fun _ => createOtherLoop n c) (t :: r) =
          runA ((next false).bind fun _ => createOtherLoop (n + 1) c) (t :: r) := by
        intro c
        rw [runA_bind, runA_bind, runA_next]
        show (runA _ r).pre _ = (runA _ r).pre _
        rw [ih c r hts.tail]
      unfold createOtherLoop
      rw [runA_oob, runA_oob]
      show runA _ _ = runA _ _
      simp only [show matchToken ["BEGIN"] = .token fun t => .ret (isKw ["BEGIN"] t) from rfl,
        show matchToken ["END"] = .token fun t => .ret (isKw ["END"] t) from rfl, Prog.bind, runA]
      cases (b || isKw ["BEGIN"] (hd (t :: r)))
      · simp only [cond_false]
        simp only [runA_if]
        split
        · rfl
        · exact key _
      · exact key _
theorem createOtherLoop_st (b : Bool) {k n : Nat} (h : k ≤ n) : Stab k (createOtherLoop  n b) (createOtherLoop  (n + 1) b) :=
  Stab.mono h (createOtherLoop_st0 b n)
macro_rules | `(tactic| st_lem) => `(tactic| with_reducible apply createOtherLoop_st)

theorem validateCreateOther_st0 (kinds : List String) (n : Nat) : Stab n (validateCreateOther kinds n) (validateCreateOther kinds (n + 1)) := by
  unfold validateCreateOther; st_all
theorem validateCreateOther_st (kinds : List String) {k n : Nat} (h : k ≤ n) : Stab k (validateCreateOther kinds n) (validateCreateOther kinds (n + 1)) :=
  Stab.mono h (validateCreateOther_st0 kinds n)
macro_rules | `(tactic| st_lem) => `(tactic| with_reducible apply validateCreateOther_st)

theorem validateConstraintReferencesAux_st0  (n : Nat) : Stab n (validateConstraintReferencesAux  n) (validateConstraintReferencesAux  (n + 1)) := by
  induction n with
  | zero => exact Stab.zero _ _
  | succ n ih => unfold validateConstraintReferencesAux; st_all
theorem validateConstraintReferencesAux_st  {k n : Nat} (h : k ≤ n) : Stab k (validateConstraintReferencesAux  n) (validateConstraintReferencesAux  (n + 1)) :=
  Stab.mono h (validateConstraintReferencesAux_st0  n)
macro_rules | `(tactic| st_lem) => `(tactic| with_reducible apply validateConstraintReferencesAux_st)

end V

namespace Sqlite
open DDL V

theorem validateConstraintCheck_st0  (n : Nat) : Stab n (validateConstraintCheck n) (validateConstraintCheck (n + 1)) := by
  unfold validateConstraintCheck; st_all
theorem validateConstraintCheck_st  {k n : Nat} (h : k ≤ n) : Stab k (validateConstraintCheck n) (validateConstraintCheck (n + 1)) :=
  Stab.mono h (validateConstraintCheck_st0  n)
macro_rules | `(tactic| st_lem) => `(tactic| with_reducible apply validateConstraintCheck_st)

theorem validateConstraintDefault_st0 {isNum : Str → Bool} (hN : NumOK isNum)  (n : Nat) : Stab n (validateConstraintDefault isNum n) (validateConstraintDefault isNum (n + 1)) := by
  have _ := hN
  unfold validateConstraintDefault; st_all
theorem validateConstraintDefault_st {isNum : Str → Bool} (hN : NumOK isNum)  {k n : Nat} (h : k ≤ n) : Stab k (validateConstraintDefault isNum n) (validateConstraintDefault isNum (n + 1)) :=
  Stab.mono h (validateConstraintDefault_st0 hN  n)
macro_rules | `(tactic| st_lem) => `(tactic| with_reducible apply validateConstraintDefault_st)

theorem validateConstraintReferencesAux_st0  (n : Nat) : Stab n (validateConstraintReferencesAux  n) (validateConstraintReferencesAux  (n + 1)) := by
  induction n with
  | zero => exact Stab.zero _ _
  | succ n ih => unfold validateConstraintReferencesAux; st_all
theorem validateConstraintReferencesAux_st  {k n : Nat} (h : k ≤ n) : Stab k (validateConstraintReferencesAux  n) (validateConstraintReferencesAux  (n + 1)) :=
  Stab.mono h (validateConstraintReferencesAux_st0  n)
macro_rules | `(tactic| st_lem) => `(tactic| with_reducible apply validateConstraintReferencesAux_st)

theorem validateConstraintReferences_st0  (n : Nat) : Stab n (validateConstraintReferences n) (validateConstraintReferences (n + 1)) := by
  unfold validateConstraintReferences; st_all
theorem validateConstraintReferences_st  {k n : Nat} (h : k ≤ n) : Stab k (validateConstraintReferences n) (validateConstraintReferences (n + 1)) :=
  Stab.mono h (validateConstraintReferences_st0  n)
macro_rules | `(tactic| st_lem) => `(tactic| with_reducible apply validateConstraintReferences_st)

theorem validateConstraintGenerated_st0  (n : Nat) : Stab n (validateConstraintGenerated n) (validateConstraintGenerated (n + 1)) := by
  unfold validateConstraintGenerated; st_all
theorem validateConstraintGenerated_st  {k n : Nat} (h : k ≤ n) : Stab k (validateConstraintGenerated n) (validateConstraintGenerated (n + 1)) :=
  Stab.mono h (validateConstraintGenerated_st0  n)
macro_rules | `(tactic| st_lem) => `(tactic| with_reducible apply validateConstraintGenerated_st)

theorem validateColumnConstraint_st0 {isNum : Str → Bool} (hN : NumOK isNum)  (n : Nat) : Stab n (validateColumnConstraint isNum n) (validateColumnConstraint isNum (n + 1)) := by
  have _ := hN
  unfold validateColumnConstraint; st_all
theorem validateColumnConstraint_st {isNum : Str → Bool} (hN : NumOK isNum)  {k n : Nat} (h : k ≤ n) : Stab k (validateColumnConstraint isNum n) (validateColumnConstraint isNum (n + 1)) :=
  Stab.mono h (validateColumnConstraint_st0 hN  n)
macro_rules | `(tactic| st_lem) => `(tactic| with_reducible apply validateColumnConstraint_st)

theorem validateColumnConstraints_st0 {isNum : Str → Bool} (hN : NumOK isNum)  (n : Nat) : Stab n (validateColumnConstraints isNum n) (validateColumnConstraints isNum (n + 1)) := by
  have _ := hN
  unfold validateColumnConstraints
  refine Stab.bind (Stab.refl _ _) fun _ => columnConstraintsAux_st (fun n => validateColumnConstraint_st0 hN n) ?_ n _
  exact fun n ts hts => eats_of_impls (SqliteImpl.colCon_impl hN n) (SqliteImpl.cons_colCon isNum) ts hts
theorem validateColumnConstraints_st {isNum : Str → Bool} (hN : NumOK isNum)  {k n : Nat} (h : k ≤ n) : Stab k (validateColumnConstraints isNum n) (validateColumnConstraints isNum (n + 1)) :=
  Stab.mono h (validateColumnConstraints_st0 hN  n)
macro_rules | `(tactic| st_lem) => `(tactic| with_reducible apply validateColumnConstraints_st)

theorem validateTableConstraintPrimaryKey_st0  (n : Nat) : Stab n (validateTableConstraintPrimaryKey n) (validateTableConstraintPrimaryKey (n + 1)) := by
  unfold validateTableConstraintPrimaryKey; st_all
theorem validateTableConstraintPrimaryKey_st  {k n : Nat} (h : k ≤ n) : Stab k (validateTableConstraintPrimaryKey n) (validateTableConstraintPrimaryKey (n + 1)) :=
  Stab.mono h (validateTableConstraintPrimaryKey_st0  n)
macro_rules | `(tactic| st_lem) => `(tactic| with_reducible apply validateTableConstraintPrimaryKey_st)

theorem validateTableConstraintUnique_st0  (n : Nat) : Stab n (validateTableConstraintUnique n) (validateTableConstraintUnique (n + 1)) := by
  unfold validateTableConstraintUnique; st_all
theorem validateTableConstraintUnique_st  {k n : Nat} (h : k ≤ n) : Stab k (validateTableConstraintUnique n) (validateTableConstraintUnique (n + 1)) :=
  Stab.mono h (validateTableConstraintUnique_st0  n)
macro_rules | `(tactic| st_lem) => `(tactic| with_reducible apply validateTableConstraintUnique_st)

theorem validateTableConstraintForeignKey_st0  (n : Nat) : Stab n (validateTableConstraintForeignKey n) (validateTableConstraintForeignKey (n + 1)) := by
  unfold validateTableConstraintForeignKey; st_all
theorem validateTableConstraintForeignKey_st  {k n : Nat} (h : k ≤ n) : Stab k (validateTableConstraintForeignKey n) (validateTableConstraintForeignKey (n + 1)) :=
  Stab.mono h (validateTableConstraintForeignKey_st0  n)
macro_rules | `(tactic| st_lem) => `(tactic| with_reducible apply validateTableConstraintForeignKey_st)

theorem validateTableConstraint_st0  (n : Nat) : Stab n (validateTableConstraint n) (validateTableConstraint (n + 1)) := by
  unfold validateTableConstraint; st_all
theorem validateTableConstraint_st  {k n : Nat} (h : k ≤ n) : Stab k (validateTableConstraint n) (validateTableConstraint (n + 1)) :=
  Stab.mono h (validateTableConstraint_st0  n)
macro_rules | `(tactic| st_lem) => `(tactic| with_reducible apply validateTableConstraint_st)

theorem validateColumnDefinition_st0 {isNum : Str → Bool} (hN : NumOK isNum)  (n : Nat) : Stab n (validateColumnDefinition isNum n) (validateColumnDefinition isNum (n + 1)) := by
  have _ := hN
  unfold validateColumnDefinition; st_all
theorem validateColumnDefinition_st {isNum : Str → Bool} (hN : NumOK isNum)  {k n : Nat} (h : k ≤ n) : Stab k (validateColumnDefinition isNum n) (validateColumnDefinition isNum (n + 1)) :=
  Stab.mono h (validateColumnDefinition_st0 hN  n)
macro_rules | `(tactic| st_lem) => `(tactic| with_reducible apply validateColumnDefinition_st)

theorem validateColumnDefinitions_st0 {isNum : Str → Bool} (hN : NumOK isNum)  (n : Nat) : Stab n (validateColumnDefinitions isNum n) (validateColumnDefinitions isNum (n + 1)) := by
  have _ := hN
  induction n with
  | zero => exact Stab.zero _ _
  | succ n ih => unfold validateColumnDefinitions; st_all
theorem validateColumnDefinitions_st {isNum : Str → Bool} (hN : NumOK isNum)  {k n : Nat} (h : k ≤ n) : Stab k (validateColumnDefinitions isNum n) (validateColumnDefinitions isNum (n + 1)) :=
  Stab.mono h (validateColumnDefinitions_st0 hN  n)
macro_rules | `(tactic| st_lem) => `(tactic| with_reducible apply validateColumnDefinitions_st)

theorem validateTableDefinition_st0 {isNum : Str → Bool} (hN : NumOK isNum)  (n : Nat) : Stab n (validateTableDefinition isNum n) (validateTableDefinition isNum (n + 1)) := by
  have _ := hN
  unfold validateTableDefinition; st_all
theorem validateTableDefinition_st {isNum : Str → Bool} (hN : NumOK isNum)  {k n : Nat} (h : k ≤ n) : Stab k (validateTableDefinition isNum n) (validateTableDefinition isNum (n + 1)) :=
  Stab.mono h (validateTableDefinition_st0 hN  n)
macro_rules | `(tactic| st_lem) => `(tactic| with_reducible apply validateTableDefinition_st)

theorem validateCreateTable_st0 {isNum : Str → Bool} (hN : NumOK isNum)  (n : Nat) : Stab n (validateCreateTable isNum n) (validateCreateTable isNum (n + 1)) := by
  have _ := hN
  unfold validateCreateTable; st_all
theorem validateCreateTable_st {isNum : Str → Bool} (hN : NumOK isNum)  {k n : Nat} (h : k ≤ n) : Stab k (validateCreateTable isNum n) (validateCreateTable isNum (n + 1)) :=
  Stab.mono h (validateCreateTable_st0 hN  n)
macro_rules | `(tactic| st_lem) => `(tactic| with_reducible apply validateCreateTable_st)

theorem validateDdl_st0 {isNum : Str → Bool} (hN : NumOK isNum)  (n : Nat) : Stab n (validateDdl isNum n) (validateDdl isNum (n + 1)) := by
  have _ := hN
  unfold validateDdl; st_all
theorem validateDdl_st {isNum : Str → Bool} (hN : NumOK isNum)  {k n : Nat} (h : k ≤ n) : Stab k (validateDdl isNum n) (validateDdl isNum (n + 1)) :=
  Stab.mono h (validateDdl_st0 hN  n)
macro_rules | `(tactic| st_lem) => `(tactic| with_reducible apply validateDdl_st)

theorem validate_st0 {isNum : Str → Bool} (hN : NumOK isNum)  (n : Nat) : Stab n (validate isNum n) (validate isNum (n + 1)) := by
  have _ := hN
  induction n with
  | zero => exact Stab.zero _ _
  | succ n ih =>
    unfold validate
    refine Stab.ifM (Stab.refl _ _) ?_
    intro ts hts
    rw [runA_seq, runA_seq, ← validateDdl_st0 hN (n + 1) ts hts]
    cases hr : runA (validateDdl isNum (n + 1)) ts with
    | ok a r o =>
      show (runA _ r).pre o = (runA _ r).pre o
      have he : Eats (validateDdl isNum (n + 1)) := Eats.bind (Eats.validateToken _ _) _
      rw [ih r (hts.of_lt ((runA_suffix _ ts).1 _ _ _ hr) (he _ _ _ _ hr))]
    | _ => rfl
theorem validate_st {isNum : Str → Bool} (hN : NumOK isNum)  {k n : Nat} (h : k ≤ n) : Stab k (validate isNum n) (validate isNum (n + 1)) :=
  Stab.mono h (validate_st0 hN  n)
macro_rules | `(tactic| st_lem) => `(tactic| with_reducible apply validate_st)

end Sqlite

namespace Postgres
open DDL V

theorem validateIndexParameters_st0  (n : Nat) : Stab n (validateIndexParameters n) (validateIndexParameters (n + 1)) := by
  unfold validateIndexParameters; st_all
theorem validateIndexParameters_st  {k n : Nat} (h : k ≤ n) : Stab k (validateIndexParameters n) (validateIndexParameters (n + 1)) :=
  Stab.mono h (validateIndexParameters_st0  n)
macro_rules | `(tactic| st_lem) => `(tactic| with_reducible apply validateIndexParameters_st)

theorem validateConstraintPrimaryKey_st0  (n : Nat) : Stab n (validateConstraintPrimaryKey n) (validateConstraintPrimaryKey (n + 1)) := by
  unfold validateConstraintPrimaryKey; st_all
theorem validateConstraintPrimaryKey_st  {k n : Nat} (h : k ≤ n) : Stab k (validateConstraintPrimaryKey n) (validateConstraintPrimaryKey (n + 1)) :=
  Stab.mono h (validateConstraintPrimaryKey_st0  n)
macro_rules | `(tactic| st_lem) => `(tactic| with_reducible apply validateConstraintPrimaryKey_st)

theorem validateConstraintUnique_st0  (n : Nat) : Stab n (validateConstraintUnique n) (validateConstraintUnique (n + 1)) := by
  unfold validateConstraintUnique; st_all
theorem validateConstraintUnique_st  {k n : Nat} (h : k ≤ n) : Stab k (validateConstraintUnique n) (validateConstraintUnique (n + 1)) :=
  Stab.mono h (validateConstraintUnique_st0  n)
macro_rules | `(tactic| st_lem) => `(tactic| with_reducible apply validateConstraintUnique_st)

theorem validateConstraintCheck_st0  (n : Nat) : Stab n (validateConstraintCheck n) (validateConstraintCheck (n + 1)) := by
  unfold validateConstraintCheck; st_all
theorem validateConstraintCheck_st  {k n : Nat} (h : k ≤ n) : Stab k (validateConstraintCheck n) (validateConstraintCheck (n + 1)) :=
  Stab.mono h (validateConstraintCheck_st0  n)
macro_rules | `(tactic| st_lem) => `(tactic| with_reducible apply validateConstraintCheck_st)

theorem validateConstraintDefault_st0 {isNum : Str → Bool} (hN : NumOK isNum)  (n : Nat) : Stab n (validateConstraintDefault isNum n) (validateConstraintDefault isNum (n + 1)) := by
  have _ := hN
  unfold validateConstraintDefault; st_all
theorem validateConstraintDefault_st {isNum : Str → Bool} (hN : NumOK isNum)  {k n : Nat} (h : k ≤ n) : Stab k (validateConstraintDefault isNum n) (validateConstraintDefault isNum (n + 1)) :=
  Stab.mono h (validateConstraintDefault_st0 hN  n)
macro_rules | `(tactic| st_lem) => `(tactic| with_reducible apply validateConstraintDefault_st)

theorem validateConstraintReferences_st0  (n : Nat) : Stab n (validateConstraintReferences n) (validateConstraintReferences (n + 1)) := by
  unfold validateConstraintReferences; st_all
theorem validateConstraintReferences_st  {k n : Nat} (h : k ≤ n) : Stab k (validateConstraintReferences n) (validateConstraintReferences (n + 1)) :=
  Stab.mono h (validateConstraintReferences_st0  n)
macro_rules | `(tactic| st_lem) => `(tactic| with_reducible apply validateConstraintReferences_st)

theorem optBrackets_st0  (n : Nat) : Stab n (optBrackets n) (optBrackets (n + 1)) := by
  unfold optBrackets; st_all
theorem optBrackets_st  {k n : Nat} (h : k ≤ n) : Stab k (optBrackets n) (optBrackets (n + 1)) :=
  Stab.mono h (optBrackets_st0  n)
macro_rules | `(tactic| st_lem) => `(tactic| with_reducible apply optBrackets_st)

theorem validateConstraintGenerated_st0  (n : Nat) : Stab n (validateConstraintGenerated n) (validateConstraintGenerated (n + 1)) := by
  unfold validateConstraintGenerated; st_all
theorem validateConstraintGenerated_st  {k n : Nat} (h : k ≤ n) : Stab k (validateConstraintGenerated n) (validateConstraintGenerated (n + 1)) :=
  Stab.mono h (validateConstraintGenerated_st0  n)
macro_rules | `(tactic| st_lem) => `(tactic| with_reducible apply validateConstraintGenerated_st)

theorem validateColumnConstraint_st0 {isNum : Str → Bool} (hN : NumOK isNum)  (n : Nat) : Stab n (validateColumnConstraint isNum n) (validateColumnConstraint isNum (n + 1)) := by
  have _ := hN
  unfold validateColumnConstraint; st_all
theorem validateColumnConstraint_st {isNum : Str → Bool} (hN : NumOK isNum)  {k n : Nat} (h : k ≤ n) : Stab k (validateColumnConstraint isNum n) (validateColumnConstraint isNum (n + 1)) :=
  Stab.mono h (validateColumnConstraint_st0 hN  n)
macro_rules | `(tactic| st_lem) => `(tactic| with_reducible apply validateColumnConstraint_st)

theorem validateColumnConstraints_st0 {isNum : Str → Bool} (hN : NumOK isNum)  (n : Nat) : Stab n (validateColumnConstraints isNum n) (validateColumnConstraints isNum (n + 1)) := by
  have _ := hN
  unfold validateColumnConstraints
  refine Stab.bind (Stab.refl _ _) fun _ => columnConstraintsAux_st (fun n => validateColumnConstraint_st0 hN n) ?_ n _
  exact fun n ts hts => eats_of_impls (PostgresImpl.colCon_impl hN n) (PostgresImpl.cons_colCon isNum) ts hts
theorem validateColumnConstraints_st {isNum : Str → Bool} (hN : NumOK isNum)  {k n : Nat} (h : k ≤ n) : Stab k (validateColumnConstraints isNum n) (validateColumnConstraints isNum (n + 1)) :=
  Stab.mono h (validateColumnConstraints_st0 hN  n)
macro_rules | `(tactic| st_lem) => `(tactic| with_reducible apply validateColumnConstraints_st)

theorem validateTableConstraintPrimaryKey_st0  (n : Nat) : Stab n (validateTableConstraintPrimaryKey n) (validateTableConstraintPrimaryKey (n + 1)) := by
  unfold validateTableConstraintPrimaryKey; st_all
theorem validateTableConstraintPrimaryKey_st  {k n : Nat} (h : k ≤ n) : Stab k (validateTableConstraintPrimaryKey n) (validateTableConstraintPrimaryKey (n + 1)) :=
  Stab.mono h (validateTableConstraintPrimaryKey_st0  n)
macro_rules | `(tactic| st_lem) => `(tactic| with_reducible apply validateTableConstraintPrimaryKey_st)

theorem validateTableConstraintUnique_st0  (n : Nat) : Stab n (validateTableConstraintUnique n) (validateTableConstraintUnique (n + 1)) := by
  unfold validateTableConstraintUnique; st_all
theorem validateTableConstraintUnique_st  {k n : Nat} (h : k ≤ n) : Stab k (validateTableConstraintUnique n) (validateTableConstraintUnique (n + 1)) :=
  Stab.mono h (validateTableConstraintUnique_st0  n)
macro_rules | `(tactic| st_lem) => `(tactic| with_reducible apply validateTableConstraintUnique_st)

theorem validateTableConstraintForeignKey_st0  (n : Nat) : Stab n (validateTableConstraintForeignKey n) (validateTableConstraintForeignKey (n + 1)) := by
  unfold validateTableConstraintForeignKey; st_all
theorem validateTableConstraintForeignKey_st  {k n : Nat} (h : k ≤ n) : Stab k (validateTableConstraintForeignKey n) (validateTableConstraintForeignKey (n + 1)) :=
  Stab.mono h (validateTableConstraintForeignKey_st0  n)
macro_rules | `(tactic| st_lem) => `(tactic| with_reducible apply validateTableConstraintForeignKey_st)

theorem validateTableConstraintExclude_st0  (n : Nat) : Stab n (validateTableConstraintExclude n) (validateTableConstraintExclude (n + 1)) := by
  unfold validateTableConstraintExclude; st_all
theorem validateTableConstraintExclude_st  {k n : Nat} (h : k ≤ n) : Stab k (validateTableConstraintExclude n) (validateTableConstraintExclude (n + 1)) :=
  Stab.mono h (validateTableConstraintExclude_st0  n)
macro_rules | `(tactic| st_lem) => `(tactic| with_reducible apply validateTableConstraintExclude_st)

theorem validateTableConstraint_st0  (n : Nat) : Stab n (validateTableConstraint n) (validateTableConstraint (n + 1)) := by
  unfold validateTableConstraint; st_all
theorem validateTableConstraint_st  {k n : Nat} (h : k ≤ n) : Stab k (validateTableConstraint n) (validateTableConstraint (n + 1)) :=
  Stab.mono h (validateTableConstraint_st0  n)
macro_rules | `(tactic| st_lem) => `(tactic| with_reducible apply validateTableConstraint_st)

theorem validateColumnDefinition_st0 {isNum : Str → Bool} (hN : NumOK isNum)  (n : Nat) : Stab n (validateColumnDefinition isNum n) (validateColumnDefinition isNum (n + 1)) := by
  have _ := hN
  unfold validateColumnDefinition; st_all
theorem validateColumnDefinition_st {isNum : Str → Bool} (hN : NumOK isNum)  {k n : Nat} (h : k ≤ n) : Stab k (validateColumnDefinition isNum n) (validateColumnDefinition isNum (n + 1)) :=
  Stab.mono h (validateColumnDefinition_st0 hN  n)
macro_rules | `(tactic| st_lem) => `(tactic| with_reducible apply validateColumnDefinition_st)

theorem validateColumnDefinitions_st0 {isNum : Str → Bool} (hN : NumOK isNum)  (n : Nat) : Stab n (validateColumnDefinitions isNum n) (validateColumnDefinitions isNum (n + 1)) := by
  have _ := hN
  induction n with
  | zero => exact Stab.zero _ _
  | succ n ih => unfold validateColumnDefinitions; st_all
theorem validateColumnDefinitions_st {isNum : Str → Bool} (hN : NumOK isNum)  {k n : Nat} (h : k ≤ n) : Stab k (validateColumnDefinitions isNum n) (validateColumnDefinitions isNum (n + 1)) :=
  Stab.mono h (validateColumnDefinitions_st0 hN  n)
macro_rules | `(tactic| st_lem) => `(tactic| with_reducible apply validateColumnDefinitions_st)

theorem validateTableOptionWith_st0  (n : Nat) : Stab n (validateTableOptionWith n) (validateTableOptionWith (n + 1)) := by
  unfold validateTableOptionWith; st_all
theorem validateTableOptionWith_st  {k n : Nat} (h : k ≤ n) : Stab k (validateTableOptionWith n) (validateTableOptionWith (n + 1)) :=
  Stab.mono h (validateTableOptionWith_st0  n)
macro_rules | `(tactic| st_lem) => `(tactic| with_reducible apply validateTableOptionWith_st)

theorem validateTableOptionInherits_st0  (n : Nat) : Stab n (validateTableOptionInherits n) (validateTableOptionInherits (n + 1)) := by
  unfold validateTableOptionInherits; st_all
theorem validateTableOptionInherits_st  {k n : Nat} (h : k ≤ n) : Stab k (validateTableOptionInherits n) (validateTableOptionInherits (n + 1)) :=
  Stab.mono h (validateTableOptionInherits_st0  n)
macro_rules | `(tactic| st_lem) => `(tactic| with_reducible apply validateTableOptionInherits_st)

theorem validateTableOptionPartition_st0  (n : Nat) : Stab n (validateTableOptionPartition n) (validateTableOptionPartition (n + 1)) := by
  unfold validateTableOptionPartition; st_all
theorem validateTableOptionPartition_st  {k n : Nat} (h : k ≤ n) : Stab k (validateTableOptionPartition n) (validateTableOptionPartition (n + 1)) :=
  Stab.mono h (validateTableOptionPartition_st0  n)
macro_rules | `(tactic| st_lem) => `(tactic| with_reducible apply validateTableOptionPartition_st)

theorem validateTableOption_st0  (n : Nat) : Stab n (validateTableOption n) (validateTableOption (n + 1)) := by
  unfold validateTableOption; st_all
theorem validateTableOption_st  {k n : Nat} (h : k ≤ n) : Stab k (validateTableOption n) (validateTableOption (n + 1)) :=
  Stab.mono h (validateTableOption_st0  n)
macro_rules | `(tactic| st_lem) => `(tactic| with_reducible apply validateTableOption_st)

theorem validateTableOptions_st0  (n : Nat) : Stab n (validateTableOptions  n) (validateTableOptions  (n + 1)) := by
  induction n with
  | zero => exact Stab.zero _ _
  | succ n ih =>
    unfold validateTableOptions
    refine Stab.ifM (Stab.refl _ _) (Stab.ifM (Stab.refl _ _) (Stab.bind (Stab.refl _ _) fun _ => ?_))
    exact Stab.bindEats (validateTableOption_st0 (n + 1))
      (eats_of_impls (PostgresImpl.option_impl (n + 1)) PostgresImpl.cons_option) fun _ => ih
theorem validateTableOptions_st  {k n : Nat} (h : k ≤ n) : Stab k (validateTableOptions  n) (validateTableOptions  (n + 1)) :=
  Stab.mono h (validateTableOptions_st0  n)
macro_rules | `(tactic| st_lem) => `(tactic| with_reducible apply validateTableOptions_st)

theorem validateTableDefinition_st0 {isNum : Str → Bool} (hN : NumOK isNum)  (n : Nat) : Stab n (validateTableDefinition isNum n) (validateTableDefinition isNum (n + 1)) := by
  have _ := hN
  unfold validateTableDefinition; st_all
theorem validateTableDefinition_st {isNum : Str → Bool} (hN : NumOK isNum)  {k n : Nat} (h : k ≤ n) : Stab k (validateTableDefinition isNum n) (validateTableDefinition isNum (n + 1)) :=
  Stab.mono h (validateTableDefinition_st0 hN  n)
macro_rules | `(tactic| st_lem) => `(tactic| with_reducible apply validateTableDefinition_st)

theorem validateCreateTable_st0 {isNum : Str → Bool} (hN : NumOK isNum)  (n : Nat) : Stab n (validateCreateTable isNum n) (validateCreateTable isNum (n + 1)) := by
  have _ := hN
  unfold validateCreateTable; st_all
theorem validateCreateTable_st {isNum : Str → Bool} (hN : NumOK isNum)  {k n : Nat} (h : k ≤ n) : Stab k (validateCreateTable isNum n) (validateCreateTable isNum (n + 1)) :=
  Stab.mono h (validateCreateTable_st0 hN  n)
macro_rules | `(tactic| st_lem) => `(tactic| with_reducible apply validateCreateTable_st)

theorem validateDdl_st0 {isNum : Str → Bool} (hN : NumOK isNum)  (n : Nat) : Stab n (validateDdl isNum n) (validateDdl isNum (n + 1)) := by
  have _ := hN
  unfold validateDdl; st_all
theorem validateDdl_st {isNum : Str → Bool} (hN : NumOK isNum)  {k n : Nat} (h : k ≤ n) : Stab k (validateDdl isNum n) (validateDdl isNum (n + 1)) :=
  Stab.mono h (validateDdl_st0 hN  n)
macro_rules | `(tactic| st_lem) => `(tactic| with_reducible apply validateDdl_st)

theorem validate_st0 {isNum : Str → Bool} (hN : NumOK isNum)  (n : Nat) : Stab n (validate isNum n) (validate isNum (n + 1)) := by
  have _ := hN
  induction n with
  | zero => exact Stab.zero _ _
  | succ n ih =>
    unfold validate
    refine Stab.ifM (Stab.refl _ _) ?_
    intro ts hts
    rw [runA_seq, runA_seq, ← validateDdl_st0 hN (n + 1) ts hts]
    cases hr : runA (validateDdl isNum (n + 1)) ts with
    | ok a r o =>
      show (runA _ r).pre o = (runA _ r).pre o
      have he : Eats (validateDdl isNum (n + 1)) := Eats.bind (Eats.validateToken _ _) _
      rw [ih r (hts.of_lt ((runA_suffix _ ts).1 _ _ _ hr) (he _ _ _ _ hr))]
    | _ => rfl
theorem validate_st {isNum : Str → Bool} (hN : NumOK isNum)  {k n : Nat} (h : k ≤ n) : Stab k (validate isNum n) (validate isNum (n + 1)) :=
  Stab.mono h (validate_st0 hN  n)
macro_rules | `(tactic| st_lem) => `(tactic| with_reducible apply validate_st)

end Postgres

namespace Mysql
open DDL V

theorem validateIndexKeysAux_st0 (set : Bool) (n : Nat) : Stab n (validateIndexKeysAux set n) (validateIndexKeysAux set (n + 1)) := by
  induction n with
  | zero => exact Stab.zero _ _
  | succ n ih => unfold validateIndexKeysAux; st_all
theorem validateIndexKeysAux_st (set : Bool) {k n : Nat} (h : k ≤ n) : Stab k (validateIndexKeysAux set n) (validateIndexKeysAux set (n + 1)) :=
  Stab.mono h (validateIndexKeysAux_st0 set n)
macro_rules | `(tactic| st_lem) => `(tactic| with_reducible apply validateIndexKeysAux_st)

theorem validateIndexKeys_st0 (set : Bool) (n : Nat) : Stab n (validateIndexKeys n set) (validateIndexKeys (n + 1) set) := by
  unfold validateIndexKeys; st_all
theorem validateIndexKeys_st (set : Bool) {k n : Nat} (h : k ≤ n) : Stab k (validateIndexKeys n set) (validateIndexKeys (n + 1) set) :=
  Stab.mono h (validateIndexKeys_st0 set n)
macro_rules | `(tactic| st_lem) => `(tactic| with_reducible apply validateIndexKeys_st)

theorem validateConstraintCheck_st0  (n : Nat) : Stab n (validateConstraintCheck n) (validateConstraintCheck (n + 1)) := by
  unfold validateConstraintCheck; st_all
theorem validateConstraintCheck_st  {k n : Nat} (h : k ≤ n) : Stab k (validateConstraintCheck n) (validateConstraintCheck (n + 1)) :=
  Stab.mono h (validateConstraintCheck_st0  n)
macro_rules | `(tactic| st_lem) => `(tactic| with_reducible apply validateConstraintCheck_st)

theorem validateConstraintDefault_st0 {isNum : Str → Bool} (hN : NumOK isNum)  (n : Nat) : Stab n (validateConstraintDefault isNum n) (validateConstraintDefault isNum (n + 1)) := by
  have _ := hN
  unfold validateConstraintDefault; st_all
theorem validateConstraintDefault_st {isNum : Str → Bool} (hN : NumOK isNum)  {k n : Nat} (h : k ≤ n) : Stab k (validateConstraintDefault isNum n) (validateConstraintDefault isNum (n + 1)) :=
  Stab.mono h (validateConstraintDefault_st0 hN  n)
macro_rules | `(tactic| st_lem) => `(tactic| with_reducible apply validateConstraintDefault_st)

theorem validateConstraintReferences_st0  (n : Nat) : Stab n (validateConstraintReferences n) (validateConstraintReferences (n + 1)) := by
  unfold validateConstraintReferences; st_all
theorem validateConstraintReferences_st  {k n : Nat} (h : k ≤ n) : Stab k (validateConstraintReferences n) (validateConstraintReferences (n + 1)) :=
  Stab.mono h (validateConstraintReferences_st0  n)
macro_rules | `(tactic| st_lem) => `(tactic| with_reducible apply validateConstraintReferences_st)

theorem validateConstraintGenerated_st0  (n : Nat) : Stab n (validateConstraintGenerated n) (validateConstraintGenerated (n + 1)) := by
  unfold validateConstraintGenerated; st_all
theorem validateConstraintGenerated_st  {k n : Nat} (h : k ≤ n) : Stab k (validateConstraintGenerated n) (validateConstraintGenerated (n + 1)) :=
  Stab.mono h (validateConstraintGenerated_st0  n)
macro_rules | `(tactic| st_lem) => `(tactic| with_reducible apply validateConstraintGenerated_st)

theorem validateColumnConstraint_st0 {isNum : Str → Bool} (hN : NumOK isNum)  (n : Nat) : Stab n (validateColumnConstraint isNum n) (validateColumnConstraint isNum (n + 1)) := by
  have _ := hN
  unfold validateColumnConstraint; st_all
theorem validateColumnConstraint_st {isNum : Str → Bool} (hN : NumOK isNum)  {k n : Nat} (h : k ≤ n) : Stab k (validateColumnConstraint isNum n) (validateColumnConstraint isNum (n + 1)) :=
  Stab.mono h (validateColumnConstraint_st0 hN  n)
macro_rules | `(tactic| st_lem) => `(tactic| with_reducible apply validateColumnConstraint_st)

theorem validateColumnConstraints_st0 {isNum : Str → Bool} (hN : NumOK isNum)  (n : Nat) : Stab n (validateColumnConstraints isNum n) (validateColumnConstraints isNum (n + 1)) := by
  have _ := hN
  unfold validateColumnConstraints
  refine Stab.bind (Stab.refl _ _) fun _ => columnConstraintsAux_st (fun n => validateColumnConstraint_st0 hN n) ?_ n _
  exact fun n ts hts => eats_of_impls (MysqlImpl.colCon_impl hN n) (MysqlImpl.cons_colCon isNum) ts hts
theorem validateColumnConstraints_st {isNum : Str → Bool} (hN : NumOK isNum)  {k n : Nat} (h : k ≤ n) : Stab k (validateColumnConstraints isNum n) (validateColumnConstraints isNum (n + 1)) :=
  Stab.mono h (validateColumnConstraints_st0 hN  n)
macro_rules | `(tactic| st_lem) => `(tactic| with_reducible apply validateColumnConstraints_st)

theorem validateIndexOption_st0 {isNum : Str → Bool} (hN : NumOK isNum)  (n : Nat) : Stab n (validateIndexOption isNum n) (validateIndexOption isNum (n + 1)) := by
  have _ := hN
  induction n with
  | zero => exact Stab.zero _ _
  | succ n ih =>
    unfold validateIndexOption
    refine Stab.ifEat (by decide) (Stab.bind (Stab.refl _ _) fun _ => Stab.bind (Stab.refl _ _) fun _ => ih) ?_
    refine Stab.ifM (Stab.bindEats (Stab.refl _ _) (fun ts _ a r o hr => ?_) fun _ => ih) ?_
    · exact Eats.bind (Eats.validateToken _ _) _ _ _ _ _ hr
    · st_all
theorem validateIndexOption_st {isNum : Str → Bool} (hN : NumOK isNum)  {k n : Nat} (h : k ≤ n) : Stab k (validateIndexOption isNum n) (validateIndexOption isNum (n + 1)) :=
  Stab.mono h (validateIndexOption_st0 hN  n)
macro_rules | `(tactic| st_lem) => `(tactic| with_reducible apply validateIndexOption_st)

theorem validateTableConstraintPrimaryKey_st0 {isNum : Str → Bool} (hN : NumOK isNum)  (n : Nat) : Stab n (validateTableConstraintPrimaryKey isNum n) (validateTableConstraintPrimaryKey isNum (n + 1)) := by
  have _ := hN
  unfold validateTableConstraintPrimaryKey; st_all
theorem validateTableConstraintPrimaryKey_st {isNum : Str → Bool} (hN : NumOK isNum)  {k n : Nat} (h : k ≤ n) : Stab k (validateTableConstraintPrimaryKey isNum n) (validateTableConstraintPrimaryKey isNum (n + 1)) :=
  Stab.mono h (validateTableConstraintPrimaryKey_st0 hN  n)
macro_rules | `(tactic| st_lem) => `(tactic| with_reducible apply validateTableConstraintPrimaryKey_st)

theorem validateTableConstraintUnique_st0 {isNum : Str → Bool} (hN : NumOK isNum)  (n : Nat) : Stab n (validateTableConstraintUnique isNum n) (validateTableConstraintUnique isNum (n + 1)) := by
  have _ := hN
  unfold validateTableConstraintUnique; st_all
theorem validateTableConstraintUnique_st {isNum : Str → Bool} (hN : NumOK isNum)  {k n : Nat} (h : k ≤ n) : Stab k (validateTableConstraintUnique isNum n) (validateTableConstraintUnique isNum (n + 1)) :=
  Stab.mono h (validateTableConstraintUnique_st0 hN  n)
macro_rules | `(tactic| st_lem) => `(tactic| with_reducible apply validateTableConstraintUnique_st)

theorem validateTableConstraintForeignKey_st0  (n : Nat) : Stab n (validateTableConstraintForeignKey n) (validateTableConstraintForeignKey (n + 1)) := by
  unfold validateTableConstraintForeignKey; st_all
theorem validateTableConstraintForeignKey_st  {k n : Nat} (h : k ≤ n) : Stab k (validateTableConstraintForeignKey n) (validateTableConstraintForeignKey (n + 1)) :=
  Stab.mono h (validateTableConstraintForeignKey_st0  n)
macro_rules | `(tactic| st_lem) => `(tactic| with_reducible apply validateTableConstraintForeignKey_st)

theorem validateTableConstraintIndex_st0 {isNum : Str → Bool} (hN : NumOK isNum)  (n : Nat) : Stab n (validateTableConstraintIndex isNum n) (validateTableConstraintIndex isNum (n + 1)) := by
  have _ := hN
  unfold validateTableConstraintIndex; st_all
theorem validateTableConstraintIndex_st {isNum : Str → Bool} (hN : NumOK isNum)  {k n : Nat} (h : k ≤ n) : Stab k (validateTableConstraintIndex isNum n) (validateTableConstraintIndex isNum (n + 1)) :=
  Stab.mono h (validateTableConstraintIndex_st0 hN  n)
macro_rules | `(tactic| st_lem) => `(tactic| with_reducible apply validateTableConstraintIndex_st)

theorem validateTableConstraintAux_st0 {isNum : Str → Bool} (hN : NumOK isNum)  (n : Nat) : Stab n (validateTableConstraintAux isNum n) (validateTableConstraintAux isNum (n + 1)) := by
  have _ := hN
  unfold validateTableConstraintAux; st_all
theorem validateTableConstraintAux_st {isNum : Str → Bool} (hN : NumOK isNum)  {k n : Nat} (h : k ≤ n) : Stab k (validateTableConstraintAux isNum n) (validateTableConstraintAux isNum (n + 1)) :=
  Stab.mono h (validateTableConstraintAux_st0 hN  n)
macro_rules | `(tactic| st_lem) => `(tactic| with_reducible apply validateTableConstraintAux_st)

theorem validateTableConstraint_st0 {isNum : Str → Bool} (hN : NumOK isNum)  (n : Nat) : Stab n (validateTableConstraint isNum n) (validateTableConstraint isNum (n + 1)) := by
  have _ := hN
  unfold validateTableConstraint; st_all
theorem validateTableConstraint_st {isNum : Str → Bool} (hN : NumOK isNum)  {k n : Nat} (h : k ≤ n) : Stab k (validateTableConstraint isNum n) (validateTableConstraint isNum (n + 1)) :=
  Stab.mono h (validateTableConstraint_st0 hN  n)
macro_rules | `(tactic| st_lem) => `(tactic| with_reducible apply validateTableConstraint_st)

theorem validateColumnDefinition_st0 {isNum : Str → Bool} (hN : NumOK isNum)  (n : Nat) : Stab n (validateColumnDefinition isNum n) (validateColumnDefinition isNum (n + 1)) := by
  have _ := hN
  unfold validateColumnDefinition; st_all
theorem validateColumnDefinition_st {isNum : Str → Bool} (hN : NumOK isNum)  {k n : Nat} (h : k ≤ n) : Stab k (validateColumnDefinition isNum n) (validateColumnDefinition isNum (n + 1)) :=
  Stab.mono h (validateColumnDefinition_st0 hN  n)
macro_rules | `(tactic| st_lem) => `(tactic| with_reducible apply validateColumnDefinition_st)

theorem validateColumnDefinitions_st0 {isNum : Str → Bool} (hN : NumOK isNum)  (n : Nat) : Stab n (validateColumnDefinitions isNum n) (validateColumnDefinitions isNum (n + 1)) := by
  have _ := hN
  induction n with
  | zero => exact Stab.zero _ _
  | succ n ih => unfold validateColumnDefinitions; st_all
theorem validateColumnDefinitions_st {isNum : Str → Bool} (hN : NumOK isNum)  {k n : Nat} (h : k ≤ n) : Stab k (validateColumnDefinitions isNum n) (validateColumnDefinitions isNum (n + 1)) :=
  Stab.mono h (validateColumnDefinitions_st0 hN  n)
macro_rules | `(tactic| st_lem) => `(tactic| with_reducible apply validateColumnDefinitions_st)

theorem validateCommaSeparatedTableNames_st0 (set : Bool) (n : Nat) : Stab n (validateCommaSeparatedTableNames set n) (validateCommaSeparatedTableNames set (n + 1)) := by
  induction n with
  | zero => exact Stab.zero _ _
  | succ n ih => unfold validateCommaSeparatedTableNames; st_all
theorem validateCommaSeparatedTableNames_st (set : Bool) {k n : Nat} (h : k ≤ n) : Stab k (validateCommaSeparatedTableNames set n) (validateCommaSeparatedTableNames set (n + 1)) :=
  Stab.mono h (validateCommaSeparatedTableNames_st0 set n)
macro_rules | `(tactic| st_lem) => `(tactic| with_reducible apply validateCommaSeparatedTableNames_st)

theorem validateTableOptionUnion_st0  (n : Nat) : Stab n (validateTableOptionUnion n) (validateTableOptionUnion (n + 1)) := by
  unfold validateTableOptionUnion; st_all
theorem validateTableOptionUnion_st  {k n : Nat} (h : k ≤ n) : Stab k (validateTableOptionUnion n) (validateTableOptionUnion (n + 1)) :=
  Stab.mono h (validateTableOptionUnion_st0  n)
macro_rules | `(tactic| st_lem) => `(tactic| with_reducible apply validateTableOptionUnion_st)

theorem validateTableOption_st0 {isNum : Str → Bool} (hN : NumOK isNum)  (n : Nat) : Stab n (validateTableOption isNum n) (validateTableOption isNum (n + 1)) := by
  have _ := hN
  unfold validateTableOption; st_all
theorem validateTableOption_st {isNum : Str → Bool} (hN : NumOK isNum)  {k n : Nat} (h : k ≤ n) : Stab k (validateTableOption isNum n) (validateTableOption isNum (n + 1)) :=
  Stab.mono h (validateTableOption_st0 hN  n)
macro_rules | `(tactic| st_lem) => `(tactic| with_reducible apply validateTableOption_st)

theorem validateTableOptions_st0 {isNum : Str → Bool} (hN : NumOK isNum)  (n : Nat) : Stab n (validateTableOptions isNum n) (validateTableOptions isNum (n + 1)) := by
  have _ := hN
  induction n with
  | zero => exact Stab.zero _ _
  | succ n ih =>
    unfold validateTableOptions
    refine Stab.ifM (Stab.refl _ _) (Stab.ifM (Stab.refl _ _) (Stab.bind (Stab.refl _ _) fun _ => ?_))
    exact Stab.bindEats (validateTableOption_st0 hN (n + 1))
      (eats_of_impls (MysqlImpl.option_impl hN (n + 1)) (MysqlImpl.cons_option isNum)) fun _ => ih
theorem validateTableOptions_st {isNum : Str → Bool} (hN : NumOK isNum)  {k n : Nat} (h : k ≤ n) : Stab k (validateTableOptions isNum n) (validateTableOptions isNum (n + 1)) :=
  Stab.mono h (validateTableOptions_st0 hN  n)
macro_rules | `(tactic| st_lem) => `(tactic| with_reducible apply validateTableOptions_st)

theorem validateTableDefinition_st0 {isNum : Str → Bool} (hN : NumOK isNum)  (n : Nat) : Stab n (validateTableDefinition isNum n) (validateTableDefinition isNum (n + 1)) := by
  have _ := hN
  unfold validateTableDefinition; st_all
theorem validateTableDefinition_st {isNum : Str → Bool} (hN : NumOK isNum)  {k n : Nat} (h : k ≤ n) : Stab k (validateTableDefinition isNum n) (validateTableDefinition isNum (n + 1)) :=
  Stab.mono h (validateTableDefinition_st0 hN  n)
macro_rules | `(tactic| st_lem) => `(tactic| with_reducible apply validateTableDefinition_st)

theorem validateCreateTable_st0 {isNum : Str → Bool} (hN : NumOK isNum)  (n : Nat) : Stab n (validateCreateTable isNum n) (validateCreateTable isNum (n + 1)) := by
  have _ := hN
  unfold validateCreateTable; st_all
theorem validateCreateTable_st {isNum : Str → Bool} (hN : NumOK isNum)  {k n : Nat} (h : k ≤ n) : Stab k (validateCreateTable isNum n) (validateCreateTable isNum (n + 1)) :=
  Stab.mono h (validateCreateTable_st0 hN  n)
macro_rules | `(tactic| st_lem) => `(tactic| with_reducible apply validateCreateTable_st)

theorem validateDdl_st0 {isNum : Str → Bool} (hN : NumOK isNum)  (n : Nat) : Stab n (validateDdl isNum n) (validateDdl isNum (n + 1)) := by
  have _ := hN
  unfold validateDdl; st_all
theorem validateDdl_st {isNum : Str → Bool} (hN : NumOK isNum)  {k n : Nat} (h : k ≤ n) : Stab k (validateDdl isNum n) (validateDdl isNum (n + 1)) :=
  Stab.mono h (validateDdl_st0 hN  n)
macro_rules | `(tactic| st_lem) => `(tactic| with_reducible apply validateDdl_st)

theorem validate_st0 {isNum : Str → Bool} (hN : NumOK isNum)  (n : Nat) : Stab n (validate isNum n) (validate isNum (n + 1)) := by
  have _ := hN
  induction n with
  | zero => exact Stab.zero _ _
  | succ n ih =>
    unfold validate
    refine Stab.ifM (Stab.refl _ _) ?_
    intro ts hts
    rw [runA_seq, runA_seq, ← validateDdl_st0 hN (n + 1) ts hts]
    cases hr : runA (validateDdl isNum (n + 1)) ts with
    | ok a r o =>
      show (runA _ r).pre o = (runA _ r).pre o
      have he : Eats (validateDdl isNum (n + 1)) := Eats.bind (Eats.validateToken _ _) _
      rw [ih r (hts.of_lt ((runA_suffix _ ts).1 _ _ _ hr) (he _ _ _ _ hr))]
    | _ => rfl
theorem validate_st {isNum : Str → Bool} (hN : NumOK isNum)  {k n : Nat} (h : k ≤ n) : Stab k (validate isNum n) (validate isNum (n + 1)) :=
  Stab.mono h (validate_st0 hN  n)
macro_rules | `(tactic| st_lem) => `(tactic| with_reducible apply validate_st)

end Mysql

end DDL
