import Verif.Proof.GoConverter
import Verif.Proof.ConvGen
/-
The methods of the converter, from their syntax trees: where the model never returns, neither does the code.
-/

namespace DDL.Src
open DDL C

/-! ### methods of the model that always return -/

/-- Always returns. -/
class CEnds (f : CM α) : Prop where
  out : ∀ s, f s ≠ .timeout

instance CEnds.bind {p : CM α} {f : α → CM β} [h : CEnds p] [hf : ∀ a, CEnds (f a)] : CEnds (p.bind f) := ⟨fun s => by
  unfold CM.bind
  cases hp : p s with
  | ok a s' => exact (hf a).out s'
  | panic => exact fun h => nomatch h
  | timeout => exact absurd hp (h.out s)⟩
instance CEnds.cond {b : Bool} {p q : CM α} [CEnds p] [CEnds q] : CEnds (cond b p q) := by cases b <;> assumption
instance CEnds.ifM {c : CM Bool} {p q : CM α} [CEnds c] [CEnds p] [CEnds q] : CEnds (C.ifM c p q) :=
  CEnds.bind (hf := fun _ => CEnds.cond)
instance (a : α) : CEnds (CM.pure a) := ⟨fun _ h => nomatch h⟩
instance : CEnds C.skip := ⟨fun _ h => nomatch h⟩
instance : CEnds C.next := ⟨fun _ h => nomatch h⟩
instance : CEnds C.token := ⟨fun _ h => nomatch h⟩
instance (ks : List String) : CEnds (C.matchToken ks) := ⟨fun _ h => nomatch h⟩
instance (t : Str) : CEnds (C.headChar t) := ⟨fun s h => by cases t <;> exact nomatch h⟩
instance (t : Str) : CEnds (C.inner t) := ⟨fun s h => by unfold inner at h; split at h <;> exact nomatch h⟩
instance (d : Rdbms) : CEnds (convertName d) := by unfold convertName; infer_instance
instance (d : Rdbms) : CEnds (convertTableName d) := by unfold convertTableName; infer_instance
instance : CEnds convertTypeDigit := by unfold convertTypeDigit; infer_instance
instance [CaseMap] : CEnds convertDateType := by unfold convertDateType; infer_instance
instance [CaseMap] (isNum : Str → Bool) (d : Rdbms) : CEnds (convertLiteralValue isNum d) := by
  unfold convertLiteralValue; infer_instance

/-! ### methods of the model that do not -/

/-- More fuel, the same answer. -/
def Grows (M : Nat → CM α) : Prop := ∀ n, CLe (M n) (M (n + 1))

theorem Grows.keep {M : Nat → CM α} (hM : Grows M) {s : List Str} {n m : Nat} (h : n ≤ m) (hn : M n s ≠ .timeout) : M m s = M n s := by
  induction h with
  | refl => rfl
  | step _ ih =>
    rcases (hM _).out s with e | e
    · exact absurd (ih.symm.trans e) hn
    · exact e.symm.trans ih

theorem hung_bind {M : Nat → CM α} {K : Nat → α → CM β} {s : List Str} (hM : Grows M) (hK : ∀ a, Grows fun n => K n a)
    (h : ∀ n, (M n).bind (K n) s = .timeout) :
    (∀ n, M n s = .timeout) ∨ ∃ n a s1, M n s = .ok a s1 ∧ ∀ n, K n a s1 = .timeout := by
  by_cases hm : ∀ n, M n s = .timeout
  · exact .inl hm
  right
  obtain ⟨n, hn⟩ := Classical.not_forall.1 hm
  cases hr : M n s with
  | timeout => exact absurd hr hn
  | panic =>
    have := h n
    unfold CM.bind at this
    rw [hr] at this
    exact nomatch this
  | ok a s1 =>
    refine ⟨n, a, s1, hr, fun m => ?_⟩
    have key : ∀ j, n ≤ j → K j a s1 = .timeout := by
      intro j hj
      have h1 := h j
      unfold CM.bind at h1
      rw [hM.keep hj hn, hr] at h1
      exact h1
    by_cases hk : K m a s1 = .timeout
    · exact hk
    · have := (hK a).keep (s := s1) (Nat.le_max_right n m) hk
      exact absurd (this.symm.trans (key _ (Nat.le_max_left n m))) hk

/-- After a method that always returns. -/
theorem hung_after {f : CM α} [hf : CEnds f] {K : Nat → α → CM β} {s : List Str} (hK : ∀ a, Grows fun n => K n a)
    (h : ∀ n, f.bind (K n) s = .timeout) : ∃ a s1, f s = .ok a s1 ∧ ∀ n, K n a s1 = .timeout := by
  rcases hung_bind (M := fun _ => f) (fun n => CLe.refl f) hK h with h | ⟨_, a, s1, h1, h2⟩
  · exact absurd (h 0) (hf.out s)
  · exact ⟨a, s1, h1, h2⟩

/-- Before a method that always returns. -/
theorem hung_before {M : Nat → CM α} {f : α → CM β} [hf : ∀ a, CEnds (f a)] {s : List Str}
    (h : ∀ n, (M n).bind f s = .timeout) : ∀ n, M n s = .timeout := by
  intro n
  have := h n
  unfold CM.bind at this
  cases hr : M n s with
  | timeout => rfl
  | panic => rw [hr] at this; exact nomatch this
  | ok a s1 => rw [hr] at this; exact absurd this ((hf a).out s1)

theorem hung_cond {b : Bool} {p q : Nat → CRes α} (h : ∀ n, cond b (p n) (q n) = .timeout) :
    (b = true ∧ ∀ n, p n = .timeout) ∨ (b = false ∧ ∀ n, q n = .timeout) := by
  cases b
  · exact .inr ⟨rfl, h⟩
  · exact .inl ⟨rfl, h⟩

/-! ### the code -/

section
variable (d : Rdbms) [CaseMap] (isNum : Str → Bool)

omit [CaseMap] in
theorem le_timeout {a b : α} {t : α} (h : Flat t a b) (hb : b = t) : a = t := by
  rcases h with h | h
  · exact h
  · exact h.trans hb

theorem low {f : Fn} {args : List Val} {s : State} {r : Ret} (k : Nat) (h : go isNum f args s = r) :
    env isNum k f args s = .timeout ∨ env isNum k f args s = r := by
  rw [← h]
  exact (env_chain isNum).le_lim k f args s

theorem go_dead {f : Fn} {args : List Val} {s : State} (h : ∀ k, env isNum k f args s = .timeout) : go isNum f args s = .timeout :=
  lim_bot h

theorem dead_loop (L : Stmt) (c : Expr) (b : Stmt) (hL : L = .loop c b) (vs : Locals) (s : State)
    (h : ∀ m, rounds (eval isNum (go isNum) c) (exe isNum b) m vs s = .timeout) : exe isNum L vs s = .timeout := by
  subst hL
  refine lim_bot fun n => le_timeout ?_ (h n)
  exact rounds_le (eval_le isNum ((env_chain isNum).le_lim n) c) (fun vs s => le_lim ((exe_chain isNum b).out vs s) n) (Nat.le_refl n) vs s

omit [CaseMap] in
theorem rounds_succ (c : Act Val) (b : Act Ctl) (m : Nat) (vs : Locals) (s : State) : rounds c b (m + 1) vs s =
    (c vs s).into fun v vs s =>
    branch v (fun vs s => (b vs s).into fun r vs s => r.again (rounds c b m) vs s) (Act.pure .next) vs s := rfl

/-- The recursive methods with fuel `k`, the others without. -/
noncomputable def hyb (k : Nat) : Env := fun f args s =>
  match f with
  | .cv_convertExprAux => env isNum k .cv_convertExprAux args s
  | .cv_convertExpr => env isNum k .cv_convertExpr args s
  | .cv_convertConstraintAux => env isNum k .cv_convertConstraintAux args s
  | .cv_convert => env isNum k .cv_convert args s
  | f => go isNum f args s

theorem env_hyb (k : Nat) : (env isNum k).le (hyb isNum k) := by
  intro f args s
  unfold hyb
  split
  · exact .inr rfl
  · exact .inr rfl
  · exact .inr rfl
  · exact .inr rfl
  · exact (env_chain isNum).le_lim k _ args s

theorem hyb_token (k : Nat) (args : List Val) (s : State) : hyb isNum k .cv_token args s = go isNum .cv_token args s := rfl
theorem hyb_next (k : Nat) (args : List Val) (s : State) : hyb isNum k .cv_next args s = go isNum .cv_next args s := rfl
theorem hyb_oob (k : Nat) (args : List Val) (s : State) : hyb isNum k .cv_isOutOfRange args s = go isNum .cv_isOutOfRange args s := rfl
theorem hyb_match (k : Nat) (args : List Val) (s : State) : hyb isNum k .cv_matchToken args s = go isNum .cv_matchToken args s := rfl
theorem hyb_name (k : Nat) (args : List Val) (s : State) : hyb isNum k .cv_convertName args s = go isNum .cv_convertName args s := rfl
theorem hyb_dflt (k : Nat) (args : List Val) (s : State) : hyb isNum k .cv_convertDefaultValue args s = go isNum .cv_convertDefaultValue args s := rfl
theorem hyb_ref (k : Nat) (args : List Val) (s : State) : hyb isNum k .cv_convertReference args s = go isNum .cv_convertReference args s := rfl
theorem hyb_table (k : Nat) (args : List Val) (s : State) : hyb isNum k .cv_convertTable args s = go isNum .cv_convertTable args s := rfl
theorem hyb_exprAux (k : Nat) (args : List Val) (s : State) : hyb isNum k .cv_convertExprAux args s = env isNum k .cv_convertExprAux args s := rfl
theorem hyb_expr (k : Nat) (args : List Val) (s : State) : hyb isNum k .cv_convertExpr args s = env isNum k .cv_convertExpr args s := rfl
theorem hyb_conAux (k : Nat) (args : List Val) (s : State) : hyb isNum k .cv_convertConstraintAux args s = env isNum k .cv_convertConstraintAux args s := rfl
theorem hyb_conv (k : Nat) (args : List Val) (s : State) : hyb isNum k .cv_convert args s = env isNum k .cv_convert args s := rfl

/-- It is enough that the body never ends, with the other functions taken without fuel. -/
theorem env_dead (k : Nat) (f : Fn) (D : Decl) (hD : decl f = D) (args : List Val) (s : State) (vs : Locals)
    (hvs : bindParams D.params args = some vs)
    (h : finish D.params (exec isNum (hyb isNum k) k D.body vs s) = .timeout) : env isNum (k + 1) f args s = .timeout := by
  subst hD
  refine le_timeout (b := body isNum (hyb isNum k) k f args s) (body_le isNum (env_hyb isNum k) (Nat.le_refl k) f args s) ?_
  unfold body
  rw [hvs]
  exact h

section
variable (E : Env) (k : Nat) (vs : Locals) (s : State)
theorem xe_skip : exec isNum E k .skip vs s = .ok .next vs s := rfl
theorem xe_seq (a b : Stmt) : exec isNum E k (.seq a b) vs s = (exec isNum E k a vs s).into fun r vs s =>
    r.andThen (exec isNum E k b) vs s := rfl
theorem xe_block (a : Stmt) : exec isNum E k (.block a) vs s = (exec isNum E k a vs s).into fun r vs' s =>
    .ok r (vs'.drop (vs'.length - vs.length)) s := rfl
theorem xe_expr (e : Expr) : exec isNum E k (.expr e) vs s = (eval isNum E e vs s).into fun _ vs s => .ok .next vs s := rfl
theorem xe_define (x : Lhs) (e : Expr) : exec isNum E k (.define x e) vs s = (eval isNum E e vs s).into fun v vs s =>
    (declare x v vs s).into fun _ vs s => .ok .next vs s := rfl
theorem xe_assign (x : Lhs) (e : Expr) : exec isNum E k (.assign x e) vs s = (eval isNum E e vs s).into fun v vs s =>
    (store x v vs s).into fun _ vs s => .ok .next vs s := rfl
theorem xe_ite (c : Expr) (t e : Stmt) : exec isNum E k (.ite c t e) vs s = (eval isNum E c vs s).into fun v vs s =>
    branch v (exec isNum E k t) (exec isNum E k e) vs s := rfl
theorem xe_ret (e : Expr) : exec isNum E k (.ret e) vs s = (eval isNum E e vs s).into fun v vs s => .ok (.ret v) vs s := rfl
end

/-- Symbolic execution of a recursive method. -/
macro "hy_simp" "[" ls:Lean.Parser.Tactic.simpLemma,* "]" : tactic => `(tactic| cv_simp [xe_skip, xe_seq, xe_block, xe_expr,
  xe_define, xe_assign, xe_ite, xe_ret, hyb_token, hyb_next, hyb_oob, hyb_match, hyb_name, hyb_dflt, hyb_ref, hyb_table,
  hyb_exprAux, hyb_expr, hyb_conAux, hyb_conv, $ls,*])

/-! ### expressions -/

theorem low_exprAux (k : Nat) : ∀ (p rest : List Str) (res : List Val), (∀ n, convertExprAux n rest = .timeout) →
    env isNum k .cv_convertExprAux [] (encC d p rest res) = .timeout := by
  induction k using Nat.strongRecOn with
  | ind k ih =>
  intro p rest res h
  cases k with
  | zero => rfl
  | succ k =>
    have h := fun n => h (n + 1)
    simp only [convertExprAux] at h
    cv_model at h
    refine env_dead isNum k _ Tree.cv_convertExprAux rfl _ _ _ rfl ?_
    simp only [Tree.cv_convertExprAux]
    rcases hung_cond h with ⟨_, h⟩ | ⟨h1, h⟩
    · exact nomatch h 0
    rcases hung_cond h with ⟨h2, h⟩ | ⟨h2, h⟩
    · rcases hung_bind (fun n => inferInstance) (fun a n => inferInstance) h with h | ⟨n, a, s1, e1, h⟩
      · have g : env isNum k .cv_convertExpr [] (encC d p rest res) = .timeout := by
          cases k with
          | zero => rfl
          | succ k =>
            have g := ih k (by omega) (nextP p rest) _ res h
            refine env_dead isNum k _ Tree.cv_convertExpr rfl _ _ _ rfl ?_
            simp only [Tree.cv_convertExpr]
            hy_simp [g]
        hy_simp [h1, h2, g]
      · obtain ⟨p1, g1⟩ := go_cv_convertExprAux d isNum n (nextP p rest) _ _ res _ e1
        cv_model at h
        have h := hung_before h
        have g := ih k (by omega) (nextP p1 s1) _ res h
        have g3 : go isNum .cv_convertExpr [] (encC d p rest res) =
            .ok (.str ((tok rest ++ a) ++ tok s1)) [] (encC d (nextP p1 s1) (nextRest s1) res) := by
          rw [go_def isNum _ Tree.cv_convertExpr rfl _ _ _ rfl]
          simp only [Tree.cv_convertExpr]
          cv_simp [g1]
        rcases low isNum k g3 with g3 | g3
        · hy_simp [h1, h2, g3]
        · hy_simp [h1, h2, g3, g]
    · have h := hung_before h
      have g := ih k (by omega) (nextP p rest) _ res h
      hy_simp [h1, h2, g]

/-- Where the model never returns, neither does the code. -/
def Dead (f : Fn) (M : Nat → CM α) : Prop := ∀ (p rest : List Str) (res : List Val), (∀ n, M n rest = .timeout) →
  go isNum f [] (encC d p rest res) = .timeout

theorem dead_exprAux : Dead d isNum .cv_convertExprAux convertExprAux := fun p rest res h =>
  go_dead isNum fun k => low_exprAux d isNum k p rest res h

theorem dead_expr : Dead d isNum .cv_convertExpr convertExpr := by
  intro p rest res h
  simp only [convertExpr] at h
  cv_model at h
  have g := dead_exprAux d isNum (nextP p rest) _ res (hung_before h)
  rw [go_def isNum _ Tree.cv_convertExpr rfl _ _ _ rfl]
  simp only [Tree.cv_convertExpr]
  cv_simp [g]

theorem dead_default : Dead d isNum .cv_convertDefaultValue (convertDefaultValue isNum d) := by
  intro p rest res h
  simp only [convertDefaultValue] at h
  cv_model at h
  rw [go_def isNum _ Tree.cv_convertDefaultValue rfl _ _ _ rfl]
  simp only [Tree.cv_convertDefaultValue]
  rcases hung_cond h with ⟨h1, h⟩ | ⟨h1, h⟩
  · have g := dead_expr d isNum p _ res (hung_before h)
    cv_simp [h1, g]
  · exact absurd (h 0) (CEnds.out _)

/-! ### column names -/

theorem rounds_columnNames (c : Expr) (b : Stmt) (hL : cnLoop = .loop c b) (res : List Val) (m : Nat) :
    ∀ (p rest : List Str) (ls : List Str), (∀ n, columnNamesLoop n ls rest = .timeout) →
    rounds (eval isNum (go isNum) c) (exe isNum b) m [(.ls, .strs ls)] (encC d p rest res) = .timeout := by
  induction m with
  | zero => intro p rest ls h; rfl
  | succ m ih =>
    intro p rest ls h
    have h := fun n => h (n + 1)
    simp only [columnNamesLoop] at h
    cv_model at h
    rw [rounds_succ]
    revert ih
    generalize rounds (eval isNum (go isNum) c) (exe isNum b) m = R
    injection (show Stmt.loop _ _ = .loop c b from hL) with hc hb
    subst hc hb
    intro ih
    rcases hung_cond h with ⟨_, h⟩ | ⟨h1, h⟩
    · exact nomatch h 0
    rcases hung_cond h with ⟨h2, h⟩ | ⟨h2, h⟩
    · cv_simp [h1, h2, ih _ _ _ h]
    · cv_simp [h1, h2, ih _ _ _ h]

theorem dead_columnNames : Dead d isNum .cv_convertCommaSeparatedColumnNames convertCommaSeparatedColumnNames := by
  intro p rest res h
  simp only [convertCommaSeparatedColumnNames] at h
  cv_model at h
  have h := hung_before h
  rw [go_def isNum _ Tree.cv_convertCommaSeparatedColumnNames rfl _ _ _ rfl]
  have hb : Tree.cv_convertCommaSeparatedColumnNames.body = .seq _ (.seq _ (.seq cnLoop cnRest)) := rfl
  rw [hb]
  have g := dead_loop isNum cnLoop _ _ rfl _ _ fun m => rounds_columnNames d isNum _ _ rfl res m (nextP p rest) _ _ h
  cv_simp [g]

theorem dead_reference : Dead d isNum .cv_convertReference (convertReference d) := by
  intro p rest res h
  simp only [convertReference] at h
  cv_model at h
  obtain ⟨a, s1, e1, h⟩ := hung_after (fun a n => inferInstance) h
  obtain ⟨p1, g1⟩ := go_cv_convertName d isNum (nextP p rest) _ _ res _ e1
  cv_model at h
  rw [go_def isNum _ Tree.cv_convertReference rfl _ _ _ rfl]
  simp only [Tree.cv_convertReference]
  rcases hung_cond h with ⟨h1, h⟩ | ⟨_, h⟩
  · have g := dead_columnNames d isNum p1 _ res (hung_before h)
    cv_simp [g1, h1, g]
  · exact nomatch h 0

/-! ### constraints -/

theorem low_conAux (k : Nat) : ∀ (p rest : List Str) (res : List Val) (con : Constraint),
    (∀ n, convertConstraintAux isNum d n con rest = .timeout) →
    env isNum k .cv_convertConstraintAux [.obj .Constraint (encConstraintF con)] (encC d p rest res) = .timeout := by
  induction k with
  | zero => intro p rest res con h; rfl
  | succ k ih =>
    intro p rest res con h
    have h := fun n => h (n + 1)
    simp only [convertConstraintAux] at h
    cv_model at h
    refine env_dead isNum k _ Tree.cv_convertConstraintAux rfl _ _ _ rfl ?_
    simp only [Tree.cv_convertConstraintAux]
    rcases hung_cond h with ⟨_, h⟩ | ⟨h0, h⟩
    · exact nomatch h 0
    rcases hung_cond h with ⟨h1, h⟩ | ⟨h1, h⟩
    · hy_simp [h0, h1, encK_pk, ih _ _ _ _ h]
    rcases hung_cond h with ⟨h2, h⟩ | ⟨h2, h⟩
    · hy_simp [h0, h1, h2, encK_ai, ih _ _ _ _ h]
    rcases hung_cond h with ⟨h3, h⟩ | ⟨h3, h⟩
    · hy_simp [h0, h1, h2, h3, encK_nn, ih _ _ _ _ h]
    rcases hung_cond h with ⟨h4, h⟩ | ⟨h4, h⟩
    · hy_simp [h0, h1, h2, h3, h4, encK_un, ih _ _ _ _ h]
    rcases hung_cond h with ⟨h5, h⟩ | ⟨h5, h⟩
    · rcases hung_bind (fun n => inferInstance) (fun a n => inferInstance) h with h | ⟨n, a, s1, e1, h⟩
      · have g := dead_default d isNum (nextP p rest) _ res h
        hy_simp [h0, h1, h2, h3, h4, h5, g]
      · obtain ⟨p1, g1⟩ := go_cv_convertDefaultValue d isNum n (nextP p rest) _ _ res _ e1
        hy_simp [h0, h1, h2, h3, h4, h5, g1, encK_df, ih _ _ _ _ h]
    rcases hung_cond h with ⟨h6, h⟩ | ⟨h6, h⟩
    · rcases hung_bind (fun n => inferInstance) (fun a n => inferInstance) h with h | ⟨n, a, s1, e1, h⟩
      · have g := dead_expr d isNum (nextP p rest) _ res h
        rcases low isNum k g with g | g <;> hy_simp [h0, h1, h2, h3, h4, h5, h6, g]
      · obtain ⟨p1, g1⟩ := go_cv_convertExpr d isNum n (nextP p rest) _ _ res _ e1
        rcases low isNum k g1 with g1 | g1
        · hy_simp [h0, h1, h2, h3, h4, h5, h6, g1]
        · hy_simp [h0, h1, h2, h3, h4, h5, h6, g1, encK_ch, ih _ _ _ _ h]
    rcases hung_cond h with ⟨h7, h⟩ | ⟨h7, h⟩
    · obtain ⟨a, s1, e1, h⟩ := hung_after (fun a n => inferInstance) h
      obtain ⟨p1, g1⟩ := go_cv_convertName d isNum (nextP p rest) _ _ res _ e1
      hy_simp [h0, h1, h2, h3, h4, h5, h6, h7, g1, encK_co, ih _ _ _ _ h]
    rcases hung_cond h with ⟨h8, h⟩ | ⟨h8, h⟩
    · rcases hung_bind (fun n => inferInstance) (fun a n => inferInstance) h with h | ⟨n, a, s1, e1, h⟩
      · have g := dead_reference d isNum p _ res h
        hy_simp [h0, h1, h2, h3, h4, h5, h6, h7, h8, g]
      · obtain ⟨p1, g1⟩ := go_cv_convertReference d isNum n p _ _ res _ e1
        hy_simp [h0, h1, h2, h3, h4, h5, h6, h7, h8, g1, encK_re, ih _ _ _ _ h]
    · exact nomatch h 0

theorem dead_conAux (p rest : List Str) (res : List Val) (con : Constraint)
    (h : ∀ n, convertConstraintAux isNum d n con rest = .timeout) :
    go isNum .cv_convertConstraintAux [.obj .Constraint (encConstraintF con)] (encC d p rest res) = .timeout :=
  go_dead isNum fun k => low_conAux d isNum k p rest res con h

theorem dead_constraint : Dead d isNum .cv_convertConstraint (convertConstraint isNum d) := by
  intro p rest res h
  rw [go_def isNum _ Tree.cv_convertConstraint rfl _ _ _ rfl]
  simp only [Tree.cv_convertConstraint]
  have h0 : ([(.Name, .str []), (.IsPrimaryKey, .bool false), (.IsUnique, .bool false), (.IsNotNull, .bool false), (.IsAutoincrement, .bool false), (.Default, .nil), (.Check, .str []), (.Collate, .str []), (.References, .obj .Reference [(.TableName, .str []), (.ColumnNames, .nil)])] : State) = encConstraintF {} := rfl
  rw [h0]
  simp only [convertConstraint, notConstraintName] at h
  cv_model at h
  rcases hung_cond h with ⟨h1, h⟩ | ⟨h1, h⟩
  · rcases hung_cond h with ⟨h2, h⟩ | ⟨h2, h⟩
    · have g := dead_conAux d isNum (nextP p rest) _ res _ h
      cv_simp [h1, h2, g]
    · obtain ⟨a, s1, e1, h⟩ := hung_after (fun a n => inferInstance) h
      obtain ⟨p1, g1⟩ := go_cv_convertName d isNum (nextP p rest) _ _ res _ e1
      have g := dead_conAux d isNum p1 _ res _ h
      cv_simp [h1, h2, g1, encK_name, g]
  · have g := dead_conAux d isNum p _ res _ h
    cv_simp [h1, g]

theorem dead_column : Dead d isNum .cv_convertColumnDefinition (convertColumnDefinition isNum d) := by
  intro p rest res h
  rw [go_def isNum _ Tree.cv_convertColumnDefinition rfl _ _ _ rfl]
  simp only [Tree.cv_convertColumnDefinition]
  have h0 : ([(.Name, .str []), (.DataType, .obj .DataType [(.Name, .str []), (.DigitN, .int 0), (.DigitM, .int 0)]), (.Constraint, .obj .Constraint [(.Name, .str []), (.IsPrimaryKey, .bool false), (.IsUnique, .bool false), (.IsNotNull, .bool false), (.IsAutoincrement, .bool false), (.Default, .nil), (.Check, .str []), (.Collate, .str []), (.References, .obj .Reference [(.TableName, .str []), (.ColumnNames, .nil)])])] : State) = encColumnF {} := rfl
  rw [h0]
  simp only [convertColumnDefinition] at h
  obtain ⟨a1, s1, e1, h⟩ := hung_after (fun a n => inferInstance) h
  obtain ⟨p1, g1⟩ := go_cv_convertName d isNum p _ _ res _ e1
  obtain ⟨a2, s2, e2, h⟩ := hung_after (fun a n => inferInstance) h
  obtain ⟨p2, g2⟩ := go_cv_convertDateType d isNum p1 _ _ res _ e2
  have g := dead_constraint d isNum p2 _ res (hung_before h)
  cv_simp [g1, encCol_name, g2, encCol_dt, g]

/-! ### table constraints -/

theorem dead_tableConstraint (p rest : List Str) (res : List Val) (tc : TableConstraint)
    (h : ∀ n, convertTableConstraint d n tc rest = .timeout) :
    go isNum .cv_convertTableConstraint [.obj .TableConstraint (encTableConstraintF tc)] (encC d p rest res) = .timeout := by
  rw [go_def isNum _ Tree.cv_convertTableConstraint rfl _ _ _ rfl]
  have hb : Tree.cv_convertTableConstraint.body = .seq _ (.seq tcName tcRest) := rfl
  rw [hb]
  simp only [convertTableConstraint] at h
  obtain ⟨name, s1, e1, h⟩ := hung_after (fun a n => inferInstance) h
  obtain ⟨p1, g1⟩ := go_tcName d isNum (.obj .TableConstraint (encTableConstraintF tc)) p _ _ res _ e1
  cv_simp [g1]
  simp only [tcRest, Tree.cv_convertTableConstraint, Stmt.two]
  cv_model at h
  rcases hung_cond h with ⟨h1, h⟩ | ⟨h1, h⟩
  · have g := dead_columnNames d isNum (nextP (nextP p1 s1) (nextRest s1)) _ res (hung_before h)
    cv_simp [h1, g]
  rcases hung_cond h with ⟨h2, h⟩ | ⟨h2, h⟩
  · have g := dead_columnNames d isNum (nextP p1 s1) _ res (hung_before h)
    cv_simp [h1, h2, g]
  rcases hung_cond h with ⟨h3, h⟩ | ⟨h3, h⟩
  · have g := dead_expr d isNum (nextP p1 s1) _ res (hung_before h)
    cv_simp [h1, h2, h3, g]
  rcases hung_cond h with ⟨h4, h⟩ | ⟨h4, h⟩
  · rcases hung_bind (fun n => inferInstance) (fun a n => inferInstance) h with h | ⟨n, a, s2, e2, h⟩
    · have g := dead_columnNames d isNum (nextP (nextP p1 s1) (nextRest s1)) _ res h
      cv_simp [h1, h2, h3, h4, g]
    · obtain ⟨p2, g2⟩ := go_cv_columnNames d isNum n (nextP (nextP p1 s1) (nextRest s1)) _ _ res _ e2
      have g := dead_reference d isNum p2 _ res (hung_before h)
      cv_simp [h1, h2, h3, h4, g2, g]
  · exact nomatch h 0

/-! ### tables -/

theorem rounds_tableDefinition (c : Expr) (b : Stmt) (hL : tdLoop = .loop c b) (res : List Val) (m : Nat) :
    ∀ (p rest : List Str) (cols : List Column) (tc : TableConstraint),
    (∀ n, tableDefinitionLoop isNum d n cols tc rest = .timeout) →
    rounds (eval isNum (go isNum) c) (exe isNum b) m
      [(.constraints, .obj .TableConstraint (encTableConstraintF tc)), (.columns, encSlice encColumn cols)]
      (encC d p rest res) = .timeout := by
  induction m with
  | zero => intro p rest cols tc h; rfl
  | succ m ih =>
    intro p rest cols tc h
    have h := fun n => h (n + 1)
    simp only [tableDefinitionLoop] at h
    cv_model at h
    rw [rounds_succ]
    revert ih
    generalize rounds (eval isNum (go isNum) c) (exe isNum b) m = R
    injection (show Stmt.loop _ _ = .loop c b from hL) with hc hb
    subst hc hb
    intro ih
    rcases hung_cond h with ⟨_, h⟩ | ⟨h1, h⟩
    · exact nomatch h 0
    rcases hung_cond h with ⟨h2, h⟩ | ⟨h2, h⟩
    · rcases hung_bind (M := fun n => convertTableConstraint d (n + 1) tc) (fun n => inferInstance)
        (fun a n => inferInstance) h with h | ⟨n, a, s1, e1, h⟩
      · have g := dead_tableConstraint d isNum p rest res tc fun n => by
          rcases (inferInstance : CLe (convertTableConstraint d n tc) (convertTableConstraint d (n + 1) tc)).out rest with e | e
          · exact e
          · exact e.trans (h n)
        cv_simp [h1, h2, g]
      · obtain ⟨p1, g1⟩ := go_cv_convertTableConstraint d isNum (n + 1) p _ _ res _ _ e1
        cv_model at h
        rcases hung_cond h with ⟨_, h⟩ | ⟨h3, h⟩
        · exact nomatch h 0
        · cv_simp [h1, h2, g1, h3, ih _ _ _ _ h]
    · rcases hung_bind (M := fun n => convertColumnDefinition isNum d (n + 1)) (fun n => inferInstance)
        (fun a n => inferInstance) h with h | ⟨n, a, s1, e1, h⟩
      · have g := dead_column d isNum p rest res fun n => by
          rcases (inferInstance : CLe (convertColumnDefinition isNum d n) (convertColumnDefinition isNum d (n + 1))).out rest with e | e
          · exact e
          · exact e.trans (h n)
        cv_simp [h1, h2, g]
      · obtain ⟨p1, g1⟩ := go_cv_convertColumnDefinition d isNum (n + 1) p _ _ res _ e1
        cv_model at h
        rcases hung_cond h with ⟨_, h⟩ | ⟨h3, h⟩
        · exact nomatch h 0
        · cv_simp [h1, h2, g1, append_col, h3, ih _ _ _ _ h]

theorem dead_tableDefinition : Dead d isNum .cv_convertTableDefinition (convertTableDefinition isNum d) := by
  intro p rest res h
  rw [go_def isNum _ Tree.cv_convertTableDefinition rfl _ _ _ rfl]
  have hb : Tree.cv_convertTableDefinition.body = .seq _ (.seq _ (.seq _ (.seq tdLoop tdRest))) := rfl
  rw [hb]
  simp only [convertTableDefinition] at h
  cv_model at h
  have h := hung_before h
  have g := dead_loop isNum tdLoop _ _ rfl _ _ fun m => rounds_tableDefinition d isNum _ _ rfl res m (nextP p rest) _ _ _ h
  have h0 : (Val.obj .TableConstraint [(.PrimaryKey, .nil), (.Unique, .nil), (.Check, .nil), (.ForeignKey, .nil)]) =
    .obj .TableConstraint (encTableConstraintF {}) := rfl
  have h0' : Val.nil = encSlice encColumn [] := rfl
  rw [← h0', ← h0] at g
  cv_simp [g]

theorem dead_table : Dead d isNum .cv_convertTable (convertTable isNum d) := by
  intro p rest res h
  rw [go_def isNum _ Tree.cv_convertTable rfl _ _ _ rfl]
  have hb : Tree.cv_convertTable.body = .seq (.define _ (.lit (.obj .Table (encTableF {}))))
    (.seq _ (.seq _ (.seq _ (.seq _ (.seq _ (.seq _ (.seq _ (.seq _ (.seq _ (.seq semiS _)))))))))) := rfl
  rw [hb]
  simp only [convertTable] at h
  cv_model at h
  rcases hung_cond h with ⟨h1, h⟩ | ⟨h1, h⟩
  · obtain ⟨a1, s1, e1, h⟩ := hung_after (fun a n => inferInstance) h
    obtain ⟨p1, g1⟩ := go_cv_convertTableName d isNum (nextP (nextP (nextP (nextP (nextP p rest) (nextRest rest))
      (nextRest (nextRest rest))) (nextRest (nextRest (nextRest rest)))) (nextRest (nextRest (nextRest (nextRest rest))))) _ _ res _ e1
    have g := dead_tableDefinition d isNum p1 _ res (hung_before h)
    cv_simp [h1, encTb_ine, g1, g]
  · obtain ⟨a1, s1, e1, h⟩ := hung_after (fun a n => inferInstance) h
    obtain ⟨p1, g1⟩ := go_cv_convertTableName d isNum (nextP (nextP p rest) (nextRest rest)) _ _ res _ e1
    have g := dead_tableDefinition d isNum p1 _ res (hung_before h)
    cv_simp [h1, g1, g]

theorem low_convert (k : Nat) : ∀ (p rest : List Str) (acc : List Table), (∀ n, convert isNum d n acc rest = .timeout) →
    env isNum k .cv_convert [] (encC d p rest (acc.map encTable)) = .timeout := by
  induction k with
  | zero => intro p rest acc h; rfl
  | succ k ih =>
    intro p rest acc h
    have h := fun n => h (n + 1)
    simp only [convert] at h
    refine env_dead isNum k _ Tree.cv_convert rfl _ _ _ rfl ?_
    simp only [Tree.cv_convert]
    cases rest with
    | nil => exact nomatch h 0
    | cons t r =>
      have h : ∀ n, (convertTable isNum d (n + 1)).bind (fun t => convert isNum d n (acc ++ [t])) (t :: r) = .timeout := h
      rcases hung_bind (M := fun n => convertTable isNum d (n + 1)) (fun n => inferInstance)
        (fun a n => inferInstance) h with h | ⟨n, a, s1, e1, h⟩
      · have g := dead_table d isNum p (t :: r) (acc.map encTable) fun n => by
          rcases (inferInstance : CLe (convertTable isNum d n) (convertTable isNum d (n + 1))).out (t :: r) with e | e
          · exact e
          · exact e.trans (h n)
        hy_simp [List.isEmpty_cons, g]
      · obtain ⟨p1, g1⟩ := go_cv_convertTable d isNum (n + 1) p _ _ (acc.map encTable) _ e1
        have he : acc.map encTable ++ [.obj .Table (encTableF a)] = (acc ++ [a]).map encTable := by
          rw [List.map_append]; rfl
        hy_simp [List.isEmpty_cons, g1, he, ih _ _ _ h]

/-- `Convert` does not return where the model does not. -/
theorem dead_Convert (tokens : List Str) (h : ∀ n, convert isNum d n [] tokens = .timeout) (a b c e : Val) :
    go isNum .cv_Convert [.strs tokens] [(.rdbms, .rdbms d), (.tokens, a), (.size, b), (.i, c), (.result, e)] = .timeout := by
  rw [go_def isNum _ Tree.cv_Convert rfl _ _ _ rfl]
  simp only [Tree.cv_Convert]
  have hi : go isNum .cv_init [.strs tokens] [(.rdbms, .rdbms d), (.tokens, a), (.size, b), (.i, c), (.result, e)] =
      .ok (.tuple []) [] (encC d [] tokens []) := by
    rw [go_def isNum _ Tree.cv_init rfl _ _ _ rfl]
    simp only [Tree.cv_init]
    go_simp
    rfl
  have g := go_dead isNum fun k => low_convert d isNum k [] tokens [] h
  rw [List.map_nil] at g
  cv_simp [hi]
  cv_simp [g]

end
end DDL.Src
