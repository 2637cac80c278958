import Verif.Proof.ErrFacts
import Verif.Proof.ForceFacts
import Verif.Proof.LexMore
/-
Scripts one after the other: the validators and the converter treat the statements of a text
independently of what follows them.
-/

set_option synthInstance.maxSize 4000
set_option synthInstance.maxHeartbeats 400000

namespace DDL
open V Spec

/-! ### Validator -/

/-- An accepting run ends with a token it has read: what comes after does not matter. -/
class RunE (p : Prog α) : Prop where
  out : ∀ ts a r o, runA p ts = .ok a r o →
    ∃ q, q ≠ [] ∧ ts = q ++ r ∧ ∀ r', runA p (q ++ r') = .ok a r' o

instance RunE.bind {p : Prog α} {f : α → Prog β} [h : ∀ a, RunE (f a)] : RunE (p.bind f) :=
  ⟨fun ts b r o hr => by
    rw [runA_bind] at hr
    cases hp : runA p ts with
    | ok a mid o1 =>
      rw [hp] at hr
      simp only [ResA.andThen] at hr
      cases hf : runA (f a) mid with
      | ok b' r' o2 =>
        rw [hf] at hr
        simp only [ResA.pre, ResA.ok.injEq] at hr
        obtain ⟨rfl, rfl, rfl⟩ := hr
        obtain ⟨q, hq, rfl, hall⟩ := (h a).out _ _ _ _ hf
        obtain ⟨pre, rfl⟩ := (runA_suffix p ts).1 _ _ _ hp
        cases q with
        | nil => exact absurd rfl hq
        | cons t q =>
          refine ⟨pre ++ t :: q, by simp, by simp, fun r'' => ?_⟩
          have := (runA_online p pre t (q ++ r') (q ++ r'')).1 a o1 (by simpa using hp)
          rw [runA_bind, List.append_assoc, List.cons_append, this]
          simp only [ResA.andThen]
          rw [← List.cons_append, hall r'']
          rfl
      | _ => rw [hf] at hr; simp [ResA.pre] at hr
    | _ => rw [hp] at hr; simp [ResA.andThen] at hr⟩

instance RunE.bind' {p : Prog α} {f : α → Prog β} [h : ∀ a, RunE (f a)] : RunE (p >>= f) :=
  RunE.bind

instance RunE.cond {b : Bool} {p q : Prog α} [h : RunE p] [h' : RunE q] : RunE (cond b p q) := by
  cases b <;> assumption

instance RunE.ifM {c : Prog Bool} {p q : Prog α} [RunE p] [RunE q] : RunE (V.ifM c p q) :=
  RunE.bind (h := fun _ => RunE.cond)

instance RunE.fail : RunE (Prog.fail : Prog α) := ⟨fun _ _ _ _ h => by simp [runA] at h⟩
instance RunE.syntaxError : RunE (syntaxError : Prog α) := RunE.fail
theorem RunE.timeout : RunE (Prog.timeout : Prog α) := ⟨fun _ _ _ _ h => by simp [runA] at h⟩

instance RunE.validateToken (set : Bool) (ks : List String) : RunE (validateToken set ks) :=
  ⟨fun ts a r o h => by
    cases ts with
    | nil => simp [V.validateToken, V.ifM, isOutOfRange, Prog.bind, runA, V.syntaxError] at h
    | cons t ts =>
      have e : ∀ r, runA (V.validateToken set ks) (t :: r) =
          if isKw ks t then .ok () r (if set then [t] else []) else .fail (t :: r) := by
        intro r
        cases hk : isKw ks t <;> cases set <;>
        simp [V.validateToken, V.ifM, isOutOfRange, matchToken, next, Prog.bind, runA,
          V.syntaxError, ResA.pre, hk]
      rw [e] at h
      by_cases hk : isKw ks t = true
      · rw [if_pos hk] at h
        cases h
        refine ⟨[t], by simp, rfl, fun r' => ?_⟩
        rw [List.singleton_append, e, if_pos hk]
      · rw [if_neg hk] at h; cases h⟩

instance createOtherLoop_e (n : Nat) (b : Bool) : RunE (createOtherLoop n b) := by
  induction n generalizing b with
  | zero => exact RunE.timeout
  | succ n ih => unfold createOtherLoop; infer_instance

instance validateCreateOther_e (ks : List String) (n : Nat) : RunE (validateCreateOther ks n) := by
  unfold validateCreateOther; infer_instance

instance sqlite_ddl_e (isNum : Str → Bool) (n : Nat) : RunE (Sqlite.validateDdl isNum n) := by
  unfold Sqlite.validateDdl Sqlite.validateCreateTable; infer_instance
instance postgres_ddl_e (isNum : Str → Bool) (n : Nat) : RunE (Postgres.validateDdl isNum n) := by
  unfold Postgres.validateDdl Postgres.validateCreateTable; infer_instance
instance mysql_ddl_e (isNum : Str → Bool) (n : Nat) : RunE (Mysql.validateDdl isNum n) := by
  unfold Mysql.validateDdl Mysql.validateCreateTable; infer_instance

/-- The loop over the statements, for a text followed by another. -/
theorem loop_concat {ddl val : Nat → Prog Unit} (h0 : val 0 = .timeout)
    (hval : ∀ n, val (n + 1) = ifM isOutOfRange (.ret ()) ((ddl (n + 1)).bind fun _ => val n))
    (hE : ∀ n, RunE (ddl n)) (hle : ∀ n, Prog.Le (ddl n) (ddl (n + 1))) {n : Nat}
    {A r o : List Str} (h : runA (val n) A = .ok () r o) :
    r = [] ∧ ∀ m B, ∃ j, m ≤ j ∧ runA (val (n + m)) (A ++ B) = (runA (val j) B).pre o := by
  induction n generalizing A r o with
  | zero => rw [h0] at h; simp [runA] at h
  | succ n ih =>
    rw [hval] at h
    cases A with
    | nil =>
      simp [V.ifM, isOutOfRange, Prog.bind, runA] at h
      obtain ⟨rfl, rfl⟩ := h
      exact ⟨rfl, fun m B => ⟨n + 1 + m, by omega, by simp⟩⟩
    | cons t A =>
      have e : ∀ k X, runA (val (k + 1)) (t :: X) = runA ((ddl (k + 1)).bind fun _ => val k) (t :: X) := by
        intro k X
        rw [hval]
        simp [V.ifM, isOutOfRange, Prog.bind, runA]
      rw [← hval, e, runA_bind] at h
      cases hd : runA (ddl (n + 1)) (t :: A) with
      | ok u mid o1 =>
        rw [hd] at h
        simp only [ResA.andThen] at h
        cases hv : runA (val n) mid with
        | ok a' r' o2 =>
          rw [hv] at h
          simp only [ResA.pre, ResA.ok.injEq] at h
          obtain ⟨_, rfl, rfl⟩ := h
          obtain ⟨hr, hall⟩ := ih hv
          refine ⟨hr, fun m B => ?_⟩
          obtain ⟨q, hq, hts, hq'⟩ := (hE (n + 1)).out _ _ _ _ hd
          obtain ⟨j, hj, hj'⟩ := hall m B
          refine ⟨j, hj, ?_⟩
          have h1 : runA (ddl (n + m + 1)) (t :: A ++ B) = .ok u (mid ++ B) o1 := by
            have := hq' (mid ++ B)
            rw [← List.append_assoc, ← hts] at this
            rcases runA_mono (Prog.Le.of_step hle (show n + 1 ≤ n + m + 1 by omega)) (t :: A ++ B) with x | x
            · rw [this] at x; cases x
            · rw [← x]; exact this
          rw [show n + 1 + m = n + m + 1 by omega, List.cons_append, e, runA_bind,
            ← List.cons_append, h1]
          simp only [ResA.andThen]
          rw [hj', ResA.pre_pre]
        | _ => rw [hv] at h; simp [ResA.pre] at h
      | _ => rw [hd] at h; simp [ResA.andThen] at h

theorem validateProg_concat {isNum : Str → Bool} {d : Rdbms} {n : Nat} {A r o : List Str}
    (h : runA (validateProg isNum d n) A = .ok () r o) :
    r = [] ∧ ∀ m B, ∃ j, m ≤ j ∧
      runA (validateProg isNum d (n + m)) (A ++ B) = (runA (validateProg isNum d j) B).pre o := by
  cases d
  · exact loop_concat (ddl := Sqlite.validateDdl isNum) (val := Sqlite.validate isNum) rfl
      (fun _ => rfl) inferInstance (Sqlite.validateDdl_le isNum) h
  · exact loop_concat (ddl := Postgres.validateDdl isNum) (val := Postgres.validate isNum) rfl
      (fun _ => rfl) inferInstance (Postgres.validateDdl_le isNum) h
  · exact loop_concat (ddl := Mysql.validateDdl isNum) (val := Mysql.validate isNum) rfl
      (fun _ => rfl) inferInstance (Mysql.validateDdl_le isNum) h
  · exact loop_concat (ddl := Sqlite.validateDdl isNum) (val := Sqlite.validate isNum) rfl
      (fun _ => rfl) inferInstance (Sqlite.validateDdl_le isNum) h

/-! ### Converter -/

/-- The result depends only on the tokens read and on one more token. -/
class CLoc (f : CM α) : Prop where
  out : ∀ s a r, f s = .ok a r → r <:+ s ∧ (r ≠ [] → ∀ B, f (s ++ B) = .ok a (r ++ B))

theorem suffix_ne {r s : List Str} (h : r <:+ s) (hr : r ≠ []) : s ≠ [] := by
  rintro rfl; exact hr (List.suffix_nil.1 h)

instance CLoc.bind {p : CM α} {f : α → CM β} [h : CLoc p] [hf : ∀ a, CLoc (f a)] :
    CLoc (p.bind f) := ⟨fun s b r hr => by
  unfold CM.bind at hr ⊢
  cases hp : p s with
  | ok a s' =>
    rw [hp] at hr
    obtain ⟨h1, h2⟩ := (hf a).out _ _ _ hr
    obtain ⟨h3, h4⟩ := h.out _ _ _ hp
    refine ⟨h1.trans h3, fun hne B => ?_⟩
    rw [h4 (suffix_ne h1 hne) B]
    exact h2 hne B
  | panic => rw [hp] at hr; cases hr
  | timeout => rw [hp] at hr; cases hr⟩

instance CLoc.cond {b : Bool} {p q : CM α} [h : CLoc p] [h' : CLoc q] :
    CLoc (cond b p q) := by cases b <;> assumption

instance CLoc.ifM {c : CM Bool} {p q : CM α} [CLoc c] [CLoc p] [CLoc q] :
    CLoc (C.ifM c p q) := CLoc.bind (hf := fun _ => CLoc.cond)

instance CLoc.pure (a : α) : CLoc (CM.pure a) :=
  ⟨fun s b r h => by cases h; exact ⟨List.suffix_refl _, fun _ _ => rfl⟩⟩

theorem CLoc.zero : CLoc (C.timeout : CM α) := ⟨fun _ _ _ h => by cases h⟩

theorem tok_append {s B : List Str} (h : s ≠ []) : C.tok (s ++ B) = C.tok s := by
  cases s with
  | nil => exact absurd rfl h
  | cons t r => rfl

theorem nextRest_suffix (s : List Str) : C.nextRest s <:+ s := by
  induction s with
  | nil => exact List.suffix_refl _
  | cons t r ih =>
    unfold C.nextRest
    split
    · exact ih.trans (List.suffix_cons _ _)
    · exact List.suffix_cons _ _

theorem nextRest_append {s B : List Str} (h : C.nextRest s ≠ []) :
    C.nextRest (s ++ B) = C.nextRest s ++ B := by
  induction s with
  | nil => exact absurd rfl h
  | cons t r ih =>
    have hr : r ≠ [] := by
      rintro rfl
      apply h
      unfold C.nextRest
      split <;> rfl
    rw [List.cons_append]
    unfold C.nextRest at h ⊢
    rw [tok_append hr]
    split
    · rename_i hc
      rw [if_pos hc] at h
      exact ih h
    · rfl

instance : CLoc C.skip := ⟨fun s a r h => by
  cases h
  refine ⟨nextRest_suffix s, fun hne B => ?_⟩
  unfold C.skip
  rw [nextRest_append hne]⟩
instance : CLoc C.next := ⟨fun s a r h => by
  cases h
  refine ⟨nextRest_suffix s, fun hne B => ?_⟩
  unfold C.next
  rw [nextRest_append hne, tok_append (suffix_ne (nextRest_suffix s) hne)]⟩
instance : CLoc C.token := ⟨fun s a r h => by
  cases h
  refine ⟨List.suffix_refl _, fun hne B => ?_⟩
  unfold C.token
  rw [tok_append hne]⟩
instance (ks : List String) : CLoc (C.matchToken ks) := ⟨fun s a r h => by
  cases h
  refine ⟨List.suffix_refl _, fun hne B => ?_⟩
  unfold C.matchToken
  rw [tok_append hne]⟩
instance (t : Str) : CLoc (C.headChar t) := ⟨fun s a r h => by
  cases t with
  | nil => cases h
  | cons c t => cases h; exact ⟨List.suffix_refl _, fun _ _ => rfl⟩⟩
instance (t : Str) : CLoc (C.inner t) := ⟨fun s a r h => by
  unfold C.inner at h ⊢
  split at h
  · cases h
  · cases h
    exact ⟨List.suffix_refl _, fun _ _ => by rw [if_neg (by assumption)]⟩⟩

theorem CM.bind_apply (p : CM α) (f : α → CM β) (s : List Str) : p.bind f s = match p s with
    | .ok a s' => f a s'
    | .panic => .panic
    | .timeout => .timeout := rfl

namespace C

theorem ifM_match (ks : List String) (p q : CM α) (s : List Str) :
    ifM (matchToken ks) p q s = cond (isKw ks (tok s)) (p s) (q s) := by
  unfold ifM CM.bind matchToken
  cases isKw ks (tok s) <;> rfl

instance convertName_loc (d : Rdbms) : CLoc (convertName d) := by unfold convertName; infer_instance
instance convertTableName_loc (d : Rdbms) : CLoc (convertTableName d) := by
  unfold convertTableName; infer_instance
instance convertTypeDigit_loc : CLoc convertTypeDigit := by unfold convertTypeDigit; infer_instance
instance convertDateType_loc [CaseMap] : CLoc convertDateType := by unfold convertDateType; infer_instance
instance convertExprAux_loc (n : Nat) : CLoc (convertExprAux n) := by
  induction n with
  | zero => exact CLoc.zero
  | succ n ih => unfold convertExprAux; infer_instance
instance convertExpr_loc (n : Nat) : CLoc (convertExpr n) := by unfold convertExpr; infer_instance
instance convertLiteralValue_loc [CaseMap] (isNum : Str → Bool) (d : Rdbms) :
    CLoc (convertLiteralValue isNum d) := by unfold convertLiteralValue; infer_instance
instance convertDefaultValue_loc [CaseMap] (isNum : Str → Bool) (d : Rdbms) (n : Nat) :
    CLoc (convertDefaultValue isNum d n) := by unfold convertDefaultValue; infer_instance
instance columnNamesLoop_loc (n : Nat) (ls : List Str) : CLoc (columnNamesLoop n ls) := by
  induction n generalizing ls with
  | zero => exact CLoc.zero
  | succ n ih => unfold columnNamesLoop; infer_instance
instance convertCommaSeparatedColumnNames_loc (n : Nat) :
    CLoc (convertCommaSeparatedColumnNames n) := by
  unfold convertCommaSeparatedColumnNames; infer_instance
instance convertReference_loc (d : Rdbms) (n : Nat) : CLoc (convertReference d n) := by
  unfold convertReference; infer_instance
instance convertConstraintAux_loc [CaseMap] (isNum : Str → Bool) (d : Rdbms) (n : Nat) (con : Constraint) :
    CLoc (convertConstraintAux isNum d n con) := by
  induction n generalizing con with
  | zero => exact CLoc.zero
  | succ n ih => unfold convertConstraintAux; infer_instance
instance convertConstraint_loc [CaseMap] (isNum : Str → Bool) (d : Rdbms) (n : Nat) :
    CLoc (convertConstraint isNum d n) := by unfold convertConstraint; infer_instance
instance convertColumnDefinition_loc [CaseMap] (isNum : Str → Bool) (d : Rdbms) (n : Nat) :
    CLoc (convertColumnDefinition isNum d n) := by unfold convertColumnDefinition; infer_instance
instance convertTableConstraint_loc (d : Rdbms) (n : Nat) (tc : TableConstraint) :
    CLoc (convertTableConstraint d n tc) := by unfold convertTableConstraint; infer_instance
instance tableDefinitionLoop_loc [CaseMap] (isNum : Str → Bool) (d : Rdbms) (n : Nat) (cols : List Column)
    (tc : TableConstraint) : CLoc (tableDefinitionLoop isNum d n cols tc) := by
  induction n generalizing cols tc with
  | zero => exact CLoc.zero
  | succ n ih => unfold tableDefinitionLoop; infer_instance

/-- The loop over the definitions stops in front of a closing parenthesis. -/
theorem tableDefinitionLoop_end [CaseMap] {isNum : Str → Bool} {d : Rdbms} {n : Nat} {cols : List Column}
    {tc : TableConstraint} {s : List Str} {a} {r : List Str}
    (h : tableDefinitionLoop isNum d n cols tc s = .ok a r) : ∃ r', r = [')'] :: r' := by
  have key : ∀ s : List Str, isKw [")"] (tok s) = true → ∃ r', s = [')'] :: r' := by
    intro s hs
    cases s with
    | nil => exact absurd hs (by decide)
    | cons t r =>
      have : t = [')'] := by
        have := isKw_kw.1 hs
        obtain ⟨k, hk, e⟩ := this
        rw [List.mem_singleton] at hk; subst hk
        rcases e with rfl | rfl <;> rfl
      exact ⟨r, by rw [this]⟩
  induction n generalizing cols tc s with
  | zero => cases h
  | succ n ih =>
    unfold tableDefinitionLoop at h
    rw [ifM_match] at h
    cases hk : isKw [")"] (tok s) with
    | true => rw [hk] at h; cases h; exact key _ hk
    | false =>
      rw [hk] at h
      simp only [_root_.cond_false] at h
      rw [CM.bind_apply] at h
      split at h
      · rename_i ct s' _
        rw [ifM_match] at h
        cases hk' : isKw [")"] (tok s') with
        | true => rw [hk'] at h; cases h; exact key _ hk'
        | false => rw [hk'] at h; exact ih h
      · cases h
      · cases h

/-- The part of `convertTable` before the closing parenthesis. -/
def tableHead [CaseMap] (isNum : Str → Bool) (d : Rdbms) (n : Nat) :
    CM (Bool × (Str × Str) × (List Column × TableConstraint)) :=
  skip.bind fun _ =>
  skip.bind fun _ =>
  (ifM (matchToken ["IF"])
    (skip.bind fun _ => skip.bind fun _ => skip.bind fun _ => CM.pure true)
    (CM.pure false)).bind fun ine =>
  (convertTableName d).bind fun names =>
  skip.bind fun _ =>
  (tableDefinitionLoop isNum d n [] {}).bind fun r => CM.pure (ine, names, r)

instance tableHead_loc [CaseMap] (isNum : Str → Bool) (d : Rdbms) (n : Nat) : CLoc (tableHead isNum d n) := by
  unfold tableHead; infer_instance

theorem _root_.DDL.CM.bind_assoc (p : CM α) (f : α → CM β) (g : β → CM γ) :
    (p.bind f).bind g = p.bind fun a => (f a).bind g := by
  funext s
  unfold CM.bind
  cases p s <;> rfl

theorem _root_.DDL.CM.pure_bind (a : α) (f : α → CM β) : (CM.pure a).bind f = f a := rfl

theorem convertTable_eq [CaseMap] (isNum : Str → Bool) (d : Rdbms) (n : Nat) :
    convertTable isNum d n = (tableHead isNum d n).bind fun x => skip.bind fun _ =>
      (ifM (matchToken [";"]) skip (CM.pure ())).bind fun _ =>
      CM.pure { schema := x.2.1.1, name := x.2.1.2, ifNotExists := x.1,
                columns := x.2.2.1, constraints := x.2.2.2 } := by
  unfold convertTable convertTableDefinition tableHead
  simp only [CM.bind_assoc, CM.pure_bind]

theorem tableHead_end [CaseMap] {isNum : Str → Bool} {d : Rdbms} {n : Nat} {s : List Str} {a}
    {r : List Str} (h : tableHead isNum d n s = .ok a r) : ∃ r', r = [')'] :: r' := by
  unfold tableHead at h
  unfold CM.bind C.skip at h
  simp only at h
  split at h
  · split at h
    · split at h
      · rename_i hl
        cases h
        exact tableDefinitionLoop_end hl
      · cases h
      · cases h
    · cases h
    · cases h
  · cases h
  · cases h

/-- Ends with a semicolon, or empty. -/
def SemiEnd (s : List Str) : Prop := s = [] ∨ s.getLast? = some [';']

theorem SemiEnd.suffix {r s : List Str} (h : SemiEnd s) (hr : r <:+ s) : SemiEnd r := by
  obtain ⟨p, rfl⟩ := hr
  by_cases e : r = []
  · exact .inl e
  · refine .inr ?_
    rcases h with h | h
    · simp at h; exact absurd h.2 e
    · rw [List.getLast?_append, List.getLast?_eq_some_getLast e] at h
      rw [List.getLast?_eq_some_getLast e]; exact h

theorem nextRest_paren (r : List Str) : nextRest ([')'] :: r) = r := by
  unfold nextRest
  rw [if_neg (by rintro ⟨h, _⟩; revert h; decide)]

theorem convertTable_loc [CaseMap] {isNum : Str → Bool} {d : Rdbms} {n : Nat} {s : List Str} {t : Table}
    {r : List Str} (hs : SemiEnd s) (h : convertTable isNum d n s = .ok t r) :
    r <:+ s ∧ ∀ B, convertTable isNum d n (s ++ B) = .ok t (r ++ B) := by
  rw [convertTable_eq] at h ⊢
  unfold CM.bind at h ⊢
  cases hh : tableHead isNum d n s with
  | ok x mid =>
    rw [hh] at h
    obtain ⟨m, rfl⟩ := tableHead_end hh
    obtain ⟨h1, h2⟩ := (tableHead_loc isNum d n).out _ _ _ hh
    have h2 := h2 (by simp)
    have hne : m ≠ [] := by
      rintro rfl
      rcases hs.suffix h1 with h | h
      · cases h
      · revert h; decide
    have hn : skip ([')'] :: m) = .ok () m := by unfold skip; rw [nextRest_paren]
    have hn' : ∀ B, skip (([')'] :: m) ++ B) = .ok () (m ++ B) := by
      intro B; unfold skip; rw [List.cons_append, nextRest_paren]
    have hm : m <:+ s := (List.suffix_cons _ _).trans h1
    simp only [hn] at h
    simp only [h2, hn']
    cases m with
    | nil => exact absurd rfl hne
    | cons y m =>
      unfold C.ifM CM.bind matchToken at h ⊢
      simp only [List.cons_append, tok, List.headD_cons] at h ⊢
      cases hk : isKw [";"] y with
      | true =>
        have hy : y = [';'] := by
          obtain ⟨k, hk, e⟩ := isKw_kw.1 hk
          rw [List.mem_singleton] at hk; subst hk
          rcases e with rfl | rfl <;> rfl
        have hz : ∀ z, nextRest (y :: z) = z := by
          intro z
          unfold nextRest
          rw [if_neg (by rintro ⟨h, _⟩; rw [hy] at h; revert h; decide)]
        rw [hk] at h
        simp only [_root_.cond_true, skip, hz] at h ⊢
        cases h
        exact ⟨(List.suffix_cons _ _).trans hm, fun B => rfl⟩
      | false =>
        rw [hk] at h
        simp only [_root_.cond_false, CM.pure] at h ⊢
        cases h
        exact ⟨hm, fun B => rfl⟩
  | panic => rw [hh] at h; cases h
  | timeout => rw [hh] at h; cases h

/-- The tables found earlier only come first. -/
theorem convert_acc [CaseMap] (isNum : Str → Bool) (d : Rdbms) (n : Nat) (acc : List Table) (s : List Str) :
    convert isNum d n acc s = match convert isNum d n [] s with
      | .ok ts r => .ok (acc ++ ts) r
      | .panic => .panic
      | .timeout => .timeout := by
  induction n generalizing acc s with
  | zero => rfl
  | succ n ih =>
    cases s with
    | nil => simp [convert, ifM, isOutOfRange, CM.bind, CM.pure]
    | cons x s =>
      have e : ∀ acc, convert isNum d (n + 1) acc (x :: s) =
          ((convertTable isNum d (n + 1)).bind fun t => convert isNum d n (acc ++ [t])) (x :: s) :=
        fun _ => rfl
      rw [e, e, CM.bind_apply, CM.bind_apply]
      cases convertTable isNum d (n + 1) (x :: s) with
      | ok t s' =>
        simp only
        rw [ih (acc ++ [t]), ih ([] ++ [t])]
        cases convert isNum d n [] s' <;> simp
      | panic => rfl
      | timeout => rfl

theorem convert_concat [CaseMap] {isNum : Str → Bool} {d : Rdbms} {n : Nat} {acc ts : List Table}
    {s r : List Str} (hs : SemiEnd s) (h : convert isNum d n acc s = .ok ts r) (m : Nat)
    (B : List Str) :
    ∃ j, m ≤ j ∧ convert isNum d (n + m) acc (s ++ B) = convert isNum d j ts B := by
  induction n generalizing acc s with
  | zero => cases h
  | succ n ih =>
    cases s with
    | nil => cases h; exact ⟨n + 1 + m, by omega, rfl⟩
    | cons x s =>
      have e : ∀ k X, convert isNum d (k + 1) acc (x :: X) =
          ((convertTable isNum d (k + 1)).bind fun t => convert isNum d k (acc ++ [t])) (x :: X) := by
        intro k X; rfl
      rw [e] at h
      rw [show n + 1 + m = n + m + 1 by omega, List.cons_append, e]
      unfold CM.bind at h ⊢
      cases ht : convertTable isNum d (n + 1) (x :: s) with
      | ok t s' =>
        rw [ht] at h
        simp only at h
        obtain ⟨h1, h2⟩ := convertTable_loc hs ht
        obtain ⟨j, hj, hj'⟩ := ih (hs.suffix h1) h
        refine ⟨j, hj, ?_⟩
        have h3 : convertTable isNum d (n + m + 1) (x :: (s ++ B)) = .ok t (s' ++ B) := by
          have : ∀ k, convertTable isNum d (n + 1 + k) (x :: (s ++ B)) = .ok t (s' ++ B) := by
            intro k
            induction k with
            | zero => exact h2 B
            | succ k ih =>
              rcases (convertTable_le isNum d (n + 1 + k)).out (x :: (s ++ B)) with y | y
              · rw [ih] at y; cases y
              · rw [← Nat.add_assoc, ← y]; exact ih
          rw [show n + m + 1 = n + 1 + m by omega]; exact this m
        rw [h3]
        exact hj'
      | panic => rw [ht] at h; cases h
      | timeout => rw [ht] at h; cases h

end C

/-! ### Stages -/

theorem semiEnd_scriptE {isNum : Str → Bool} {d : Rdbms} {ss : List Stmt} {o : List Str}
    (h : scriptE isNum d ss o) : C.SemiEnd o := by
  obtain ⟨os, h, rfl⟩ := h
  induction h with
  | nil => exact .inl rfl
  | @cons s o ss os h1 _ ih =>
    rw [List.flatten_cons]
    have h2 : C.SemiEnd o := by
      cases s with
      | other => exact .inl h1
      | table t =>
        obtain ⟨tb, oi, oits, _, _, _, _, rfl⟩ := h1
        refine .inr ?_
        simp [List.getLast?_cons, List.getLast?_append, S]
    rcases ih with e | e
    · rw [e, List.append_nil]; exact h2
    · exact .inr (by rw [List.getLast?_append, e]; rfl)

/-- A text after an accepted text is validated as if it stood alone. -/
theorem validateN_concat {isNum : Str → Bool} {d : Rdbms} {n : Nat} {A B T oa : List Str}
    (h : validateN isNum d n A = .ok oa) (hT : strip T = strip A ++ strip B) (m : Nat) :
    ∃ j, m ≤ j ∧
      ((∃ ob, validateN isNum d j B = .ok ob ∧ validateN isNum d (n + m) T = .ok (oa ++ ob)) ∨
       (∃ l l' x, validateN isNum d j B = .err ⟨l, x⟩ ∧
          validateN isNum d (n + m) T = .err ⟨l', x⟩) ∨
       (validateN isNum d j B = .panic ∧ validateN isNum d (n + m) T = .panic) ∨
       (validateN isNum d j B = .timeout ∧ validateN isNum d (n + m) T = .timeout)) := by
  obtain ⟨a, r, h⟩ := validateN_ok_iff.1 h
  obtain ⟨_, h⟩ := validateProg_concat h
  obtain ⟨j, hj, h⟩ := h m (strip B)
  refine ⟨j, hj, ?_⟩
  have hb := validateN_cases isNum d j B
  have ht := validateN_cases isNum d (n + m) T
  rw [hT, h] at ht
  cases hr : runA (validateProg isNum d j) (strip B) with
  | ok a r o =>
    rw [hr] at ht hb
    exact .inl ⟨o, hb, ht⟩
  | fail r =>
    rw [hr] at ht hb
    obtain ⟨_, _, _, _, _, hb⟩ := hb
    obtain ⟨_, _, _, _, _, ht⟩ := ht
    exact .inr (.inl ⟨_, _, _, hb, ht⟩)
  | panic => rw [hr] at ht hb; exact .inr (.inr (.inl ⟨hb, ht⟩))
  | timeout => rw [hr] at ht hb; exact .inr (.inr (.inr ⟨hb, ht⟩))

theorem validates_concat {isNum : Str → Bool} {d : Rdbms} {A B T oa : List Str}
    (h : Validates isNum d A oa) (hT : strip T = strip A ++ strip B) :
    (∀ ob, Validates isNum d B ob → Validates isNum d T (oa ++ ob)) ∧
    (∀ l x, Rejects isNum d B ⟨l, x⟩ → ∃ l', Rejects isNum d T ⟨l', x⟩) ∧
    (∀ o, Validates isNum d T o → ∃ ob, o = oa ++ ob ∧ Validates isNum d B ob) ∧
    (∀ l x, Rejects isNum d T ⟨l, x⟩ → ∃ l', Rejects isNum d B ⟨l', x⟩) := by
  obtain ⟨n, h⟩ := h
  refine ⟨?_, ?_, ?_, ?_⟩
  · rintro ob ⟨m, hm⟩
    obtain ⟨j, hj, hc⟩ := validateN_concat h hT m
    rw [Validates.mono hm hj] at hc
    rcases hc with ⟨o, h1, h2⟩ | ⟨l, l', x, h1, h2⟩ | ⟨h1, h2⟩ | ⟨h1, h2⟩ <;> cases h1
    exact ⟨_, h2⟩
  · rintro l x ⟨m, hm⟩
    obtain ⟨j, hj, hc⟩ := validateN_concat h hT m
    rw [Rejects.mono hm hj] at hc
    rcases hc with ⟨o, h1, h2⟩ | ⟨l, l', x, h1, h2⟩ | ⟨h1, h2⟩ | ⟨h1, h2⟩ <;> cases h1
    exact ⟨_, _, h2⟩
  · rintro o ⟨m, hm⟩
    obtain ⟨j, hj, hc⟩ := validateN_concat h hT m
    rw [Validates.mono hm (Nat.le_add_left m n)] at hc
    rcases hc with ⟨o, h1, h2⟩ | ⟨l, l', x, h1, h2⟩ | ⟨h1, h2⟩ | ⟨h1, h2⟩ <;> cases h2
    exact ⟨_, rfl, _, h1⟩
  · rintro l x ⟨m, hm⟩
    obtain ⟨j, hj, hc⟩ := validateN_concat h hT m
    rw [Rejects.mono hm (Nat.le_add_left m n)] at hc
    rcases hc with ⟨o, h1, h2⟩ | ⟨l, l', x, h1, h2⟩ | ⟨h1, h2⟩ | ⟨h1, h2⟩ <;> cases h2
    exact ⟨_, _, h1⟩

theorem convertN_ok_iff [CaseMap] {isNum : Str → Bool} {d : Rdbms} {n : Nat} {o : List Str} {ts : List Table} :
    convertN isNum d n o = .ok ts ↔ ∃ r, C.convert isNum d n [] o = .ok ts r := by
  unfold convertN
  cases C.convert isNum d n [] o <;> simp

theorem converts_concat [CaseMap] {isNum : Str → Bool} {d : Rdbms} {oa ob : List Str} {ta : List Table}
    (hs : C.SemiEnd oa) (h : Converts isNum d oa ta) :
    (∀ tb, Converts isNum d ob tb → Converts isNum d (oa ++ ob) (ta ++ tb)) ∧
    (∀ t, Converts isNum d (oa ++ ob) t → ∃ tb, t = ta ++ tb ∧ Converts isNum d ob tb) := by
  obtain ⟨n, h⟩ := h
  obtain ⟨r, h⟩ := convertN_ok_iff.1 h
  constructor
  · rintro tb ⟨m, hm⟩
    obtain ⟨j, hj, hc⟩ := C.convert_concat hs h m ob
    obtain ⟨r', hb⟩ := convertN_ok_iff.1 (Converts.mono hm hj)
    refine ⟨n + m, convertN_ok_iff.2 ⟨r', ?_⟩⟩
    rw [hc, C.convert_acc, hb]
  · rintro t ⟨m, hm⟩
    obtain ⟨j, hj, hc⟩ := C.convert_concat hs h m ob
    obtain ⟨r', hb⟩ := convertN_ok_iff.1 (Converts.mono hm (Nat.le_add_left m n))
    rw [hc, C.convert_acc] at hb
    cases hr : C.convert isNum d j [] ob with
    | ok tb r'' =>
      rw [hr] at hb
      cases hb
      exact ⟨tb, rfl, j, convertN_ok_iff.2 ⟨_, hr⟩⟩
    | panic => rw [hr] at hb; cases hb
    | timeout => rw [hr] at hb; cases hb

/-! ### Parse -/

/-- A text whose tokens are those of `a` followed by those of `b`, where `a` is parsed. -/
theorem returns_concat [CaseMap] {isNum : Str → Bool} (hN : NumOK isNum) {d : Rdbms} {a b t : List Char}
    {A B T : List Str} {ta : List Table} (ha : Lexes d a A) (hb : Lexes d b B) (ht : Lexes d t T)
    (hT : strip T = strip A ++ strip B) (hr : Returns isNum a d (ta, none)) :
    (∀ tb, Returns isNum b d (tb, none) → Returns isNum t d (ta ++ tb, none)) ∧
    (∀ r l x, Returns isNum b d (r, some ⟨l, x⟩) → ∃ l', Returns isNum t d (r, some ⟨l', x⟩)) ∧
    (Hangs isNum b d → Hangs isNum t d) := by
  obtain ⟨A', oa, ha', hva, hca⟩ := returns_ok_iff.1 hr
  cases Lexes.unique ha ha'
  obtain ⟨ss, hss⟩ := (validates_iff hN (Lexes.good ha)).1 ⟨oa, hva⟩
  have hse := semiEnd_scriptE (validates_scriptE hN (Lexes.good ha) hva hss)
  obtain ⟨v1, v2, v3, v4⟩ := validates_concat hva hT
  have c := fun ob => converts_concat (ob := ob) hse hca
  refine ⟨?_, ?_, ?_⟩
  · intro tb h
    obtain ⟨B', ob, hb', hvb, hcb⟩ := returns_ok_iff.1 h
    cases Lexes.unique hb hb'
    exact returns_ok_iff.2 ⟨T, _, ht, v1 ob hvb, (c ob).1 tb hcb⟩
  · intro r l x h
    obtain ⟨h0, h1 | ⟨B', h1, h2⟩⟩ := returns_err_iff.1 h
    · exact (lex_not_both hb h1).elim
    · cases Lexes.unique hb h1
      obtain ⟨l', h3⟩ := v2 l x h2
      exact ⟨l', returns_err_iff.2 ⟨h0, .inr ⟨T, ht, h3⟩⟩⟩
  · intro h
    rcases returns_or_hangs isNum t d with ⟨⟨r, e⟩, h'⟩ | h'
    · exfalso
      cases e with
      | none =>
        obtain ⟨T', o, ht', hvt, hct⟩ := returns_ok_iff.1 h'
        cases Lexes.unique ht ht'
        obtain ⟨ob, rfl, hvb⟩ := v3 o hvt
        obtain ⟨tb, _, hcb⟩ := (c ob).2 r hct
        exact not_returns_and_hangs (returns_ok_iff.2 ⟨B, ob, hb, hvb, hcb⟩) h
      | some e =>
        obtain ⟨h0, h1 | ⟨T', h1, h2⟩⟩ := returns_err_iff.1 h'
        · exact lex_not_both ht h1
        · cases Lexes.unique ht h1
          obtain ⟨l', h3⟩ := v4 e.line e.near h2
          exact not_returns_and_hangs (r := ([], some ⟨l', e.near⟩))
            (returns_err_iff.2 ⟨rfl, .inr ⟨B, hb, h3⟩⟩) h
    · exact h'

theorem lexes_two_newlines {d : Rdbms} {a b : List Char} {A : List Str} (ha : Lexes d a A) :
    (∀ B, Lexes d b B → Lexes d (a ++ '\n' :: '\n' :: b) (A ++ [nl, nl] ++ B)) ∧
    (∀ e, LexFails d b e →
      LexFails d (a ++ '\n' :: '\n' :: b) ⟨e.line + (nls A + 2), e.near⟩) := by
  have h := Lex.scan_concat (b := b) (lexes_iff.1 ha)
  constructor
  · intro B hB
    rw [lexes_iff] at hB ⊢
    rw [h, hB]
  · intro e he
    rw [lexFails_iff] at he ⊢
    rw [h, he]

theorem strip_two (A B : List Str) : strip (A ++ [nl, nl] ++ B) = strip A ++ strip B := by
  rw [strip_append, strip_append]
  simp [strip]

end DDL
