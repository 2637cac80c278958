import Verif.Proof.GoLexer
import Verif.Spec.Source
/-
The methods of the converter, from their syntax trees: what they do is what the model says.
-/

set_option linter.unusedSectionVars false

namespace DDL.Src
open DDL C

/-! ### the converter -/

/-- The fields of a converter that has read the tokens `p` and has `rest` to read. -/
def encC (d : Rdbms) (p rest : List Str) (res : List Val) : State :=
  [(.rdbms, .rdbms d), (.tokens, .strs (p ++ rest)), (.size, .int (p ++ rest).length), (.i, .int p.length),
    (.result, .slice res)]

/-- What has been read after `next`. -/
def nextP (p : List Str) : List Str → List Str
  | [] => p
  | t :: r => if t = S "," ∧ tok r = S "," then nextP (p ++ [t]) r else p ++ [t]

section
variable (d : Rdbms) (p rest : List Str) (res : List Val)

theorem encC_rdbms : look .rdbms (encC d p rest res) = some (.rdbms d) := rfl
theorem encC_tokens : look .tokens (encC d p rest res) = some (.strs (p ++ rest)) := rfl
theorem encC_size : look .size (encC d p rest res) = some (.int (p ++ rest).length) := rfl
theorem encC_i : look .i (encC d p rest res) = some (.int p.length) := rfl
theorem encC_result : look .result (encC d p rest res) = some (.slice res) := rfl
theorem encC_setResult (r : List Val) : upd .result (.slice r) (encC d p rest res) = some (encC d p rest r) := rfl
theorem encC_inc (c : Str) : upd .i (.int (p.length + 1)) (encC d p (c :: rest) res) = some (encC d (p ++ [c]) rest res) := by
  simp [encC, upd]

variable [CaseMap] (isNum : Str → Bool)

theorem go_cv_isOutOfRange : go isNum .cv_isOutOfRange [] (encC d p rest res) = .ok (.bool rest.isEmpty) [] (encC d p rest res) := by
  rw [go_def isNum _ Tree.cv_isOutOfRange rfl _ _ _ rfl]
  simp only [Tree.cv_isOutOfRange]
  go_simp [encC_i, encC_size]
  congr 2
  cases rest with
  | nil => simp; omega
  | cons c r => simp; omega

theorem go_cv_token : go isNum .cv_token [] (encC d p rest res) = .ok (.str (tok rest)) [] (encC d p rest res) := by
  rw [go_def isNum _ Tree.cv_token rfl _ _ _ rfl]
  simp only [Tree.cv_token]
  cases rest with
  | nil =>
    go_simp [go_cv_isOutOfRange, List.isEmpty_nil]
    rfl
  | cons c r =>
    go_simp [go_cv_isOutOfRange, List.isEmpty_cons, encC_tokens, encC_i]
    simp only [Val.index, Val.strings]
    rw [if_neg (by omega)]
    simp only [Int.toNat_natCast, List.getElem?_append_right, Nat.le_refl, Nat.sub_self, List.getElem?_cons_zero]
    go_simp
    rfl

theorem go_cv_next : ∀ (rest p : List Str), go isNum .cv_next [] (encC d p rest res) =
    .ok (.str (tok rest)) [] (encC d (nextP p rest) (nextRest rest) res) := by
  intro rest
  induction rest with
  | nil =>
    intro p
    rw [go_def isNum _ Tree.cv_next rfl _ _ _ rfl]
    simp only [Tree.cv_next]
    go_simp [go_cv_isOutOfRange, List.isEmpty_nil]
    rfl
  | cons t r ih =>
    intro p
    rw [go_def isNum _ Tree.cv_next rfl _ _ _ rfl]
    simp only [Tree.cv_next]
    go_simp [go_cv_isOutOfRange, List.isEmpty_cons, go_cv_token, encC_i, encC_inc]
    have ht : tok (t :: r) = t := rfl
    rw [ht]
    by_cases h1 : t = S ","
    · by_cases h2 : tok r = S ","
      · rw [decide_eq_true h1, decide_eq_true h2]
        go_simp [ih]
        rw [nextP, if_pos ⟨h1, h2⟩, nextRest, if_pos ⟨h1, h2⟩, h2, h1]
      · rw [decide_eq_true h1, decide_eq_false h2]
        go_simp
        rw [nextP, if_neg (fun h => h2 h.2), nextRest, if_neg (fun h => h2 h.2)]
    · rw [decide_eq_false h1]
      go_simp
      rw [nextP, if_neg (fun h => h1 h.1), nextRest, if_neg (fun h => h1 h.1)]

/-- The keywords of the converter are ASCII. -/
class KwsAscii (l : List String) : Prop where
  ok : asciiKws l = true

instance : KwsAscii ["IF"] := ⟨by decide +kernel⟩
instance : KwsAscii [";"] := ⟨by decide +kernel⟩
instance : KwsAscii ["."] := ⟨by decide +kernel⟩
instance : KwsAscii [")"] := ⟨by decide +kernel⟩
instance : KwsAscii ["CONSTRAINT", "PRIMARY", "UNIQUE", "CHECK", "FOREIGN"] := ⟨by decide +kernel⟩
instance : KwsAscii ["VARYING"] := ⟨by decide +kernel⟩
instance : KwsAscii ["("] := ⟨by decide +kernel⟩
instance : KwsAscii [","] := ⟨by decide +kernel⟩
instance : KwsAscii ["CONSTRAINT"] := ⟨by decide +kernel⟩
instance : KwsAscii ["PRIMARY", "UNIQUE", "NOT", "AUTOINCREMENT", "AUTO_INCREMENT", "DEFAULT", "CHECK", "REFERENCES", "COLLATE"] := ⟨by decide +kernel⟩
instance : KwsAscii [",", ")"] := ⟨by decide +kernel⟩
instance : KwsAscii ["PRIMARY"] := ⟨by decide +kernel⟩
instance : KwsAscii ["AUTOINCREMENT", "AUTO_INCREMENT"] := ⟨by decide +kernel⟩
instance : KwsAscii ["NOT"] := ⟨by decide +kernel⟩
instance : KwsAscii ["UNIQUE"] := ⟨by decide +kernel⟩
instance : KwsAscii ["DEFAULT"] := ⟨by decide +kernel⟩
instance : KwsAscii ["CHECK"] := ⟨by decide +kernel⟩
instance : KwsAscii ["COLLATE"] := ⟨by decide +kernel⟩
instance : KwsAscii ["REFERENCES"] := ⟨by decide +kernel⟩
instance : KwsAscii ["PRIMARY", "UNIQUE", "CHECK", "FOREIGN"] := ⟨by decide +kernel⟩
instance : KwsAscii ["FOREIGN"] := ⟨by decide +kernel⟩

theorem go_cv_matchToken (l : List String) [hl : KwsAscii l] : go isNum .cv_matchToken [.kws l] (encC d p rest res) =
    .ok (.bool (isKw l (tok rest))) [] (encC d p rest res) := by
  rw [go_def isNum _ Tree.cv_matchToken rfl _ _ _ rfl]
  simp only [Tree.cv_matchToken]
  obtain ⟨w, w', h1, h2, h3, h4⟩ := go_keywords isNum l hl.ok (encC d p rest res)
  go_simp [h3, h4, go_cv_token]
  rw [run_appendAll isNum w w' _ _ h1 h2]
  go_simp
  rw [go_cv_token]
  go_simp
  rw [go_Contains isNum _ _ rfl]
  go_simp
  rfl

theorem cut_head (c : Char) (t : Str) (vs : Locals) (s : State) : (Val.str (c :: t)).cut (.int 0) (.int 1) vs s = .ok (.str [c]) vs s := by
  simp only [Val.cut]
  rw [if_pos (by simp; omega)]
  simp [Act.pure]

theorem cut_inner (t : Str) (h : ¬ t.length < 2) (vs : Locals) (s : State) :
    (Val.str t).cut (.int 1) (.int (t.length - 1)) vs s = .ok (.str (t.drop 1).dropLast) vs s := by
  simp only [Val.cut]
  rw [if_pos (by omega)]
  have : ((t.length : Int) - 1).toNat = t.length - 1 := by omega
  rw [this]
  simp only [Act.pure, List.dropLast_eq_take, List.length_drop, List.drop_take]
  rfl

theorem go_cv_isIdentifier (c : Char) (t : Str) : go isNum .cv_isIdentifier [.str (c :: t)] (encC d p rest res) =
    .ok (.bool (isIdentifier d c)) [] (encC d p rest res) := by
  rw [go_def isNum _ Tree.cv_isIdentifier rfl _ _ _ rfl]
  simp only [Tree.cv_isIdentifier]
  go_simp [cut_head, encC_rdbms]
  have hq : ∀ q : Char, decide ([c] = [q]) = (c == q) := by intro q; by_cases h : c = q <;> simp [h]
  cases d <;> simp only [reduceCtorEq, decide_true, decide_false] <;> go_simp [S_4, S_6, hq, isIdentifier]
  cases c == '"' <;> rfl

theorem go_cv_isStringValue (c : Char) (t : Str) : go isNum .cv_isStringValue [.str (c :: t)] (encC d p rest res) =
    .ok (.bool (isStringValue d c)) [] (encC d p rest res) := by
  rw [go_def isNum _ Tree.cv_isStringValue rfl _ _ _ rfl]
  simp only [Tree.cv_isStringValue]
  go_simp [cut_head, encC_rdbms]
  have hq : ∀ q : Char, decide ([c] = [q]) = (c == q) := by intro q; by_cases h : c = q <;> simp [h]
  cases d <;> simp only [reduceCtorEq, decide_true, decide_false] <;> go_simp [S_4, S_5, hq, isStringValue]
  cases c == '"' <;> rfl

/-! ### running the model -/

theorem bind_ok {m : CM α} {k : α → CM β} {s s' : List Str} {b : β} (h : m.bind k s = .ok b s') :
    ∃ a s1, m s = .ok a s1 ∧ k a s1 = .ok b s' := by
  unfold CM.bind at h
  cases hm : m s with
  | ok a s1 => rw [hm] at h; exact ⟨a, s1, rfl, h⟩
  | panic => rw [hm] at h; exact nomatch h
  | timeout => rw [hm] at h; exact nomatch h

theorem bind_next (k : Str → CM β) (s : List Str) : next.bind k s = k (tok s) (nextRest s) := rfl
theorem bind_skip (k : Unit → CM β) (s : List Str) : skip.bind k s = k () (nextRest s) := rfl
theorem bind_token (k : Str → CM β) (s : List Str) : token.bind k s = k (tok s) s := rfl
theorem bind_pure (a : α) (k : α → CM β) (s : List Str) : (CM.pure a).bind k s = k a s := rfl
theorem skip_app (s : List Str) : skip s = .ok () (nextRest s) := rfl
theorem purec_app (a : α) (s : List Str) : CM.pure a s = .ok a s := rfl
theorem if_match (l : List String) (t e : CM α) (s : List Str) :
    ifM (matchToken l) t e s = cond (isKw l (tok s)) (t s) (e s) := by
  show cond (isKw l (tok s)) t e s = _
  cases isKw l (tok s) <;> rfl
theorem bind_if_match (l : List String) (t e : CM α) (k : α → CM β) (s : List Str) :
    (ifM (matchToken l) t e).bind k s = cond (isKw l (tok s)) (t.bind k s) (e.bind k s) := by
  unfold CM.bind
  rw [if_match]
  cases isKw l (tok s) <;> rfl
theorem bind_assoc' (m : CM α) (k : α → CM β) (j : β → CM γ) (s : List Str) :
    (m.bind k).bind j s = m.bind (fun a => (k a).bind j) s := by
  unfold CM.bind
  cases m s <;> rfl

/-- Run the model as far as it goes. -/
macro "cv_model" "at" h:ident : tactic => `(tactic| simp only [bind_assoc', bind_next, bind_skip, bind_token, bind_pure,
  bind_if_match, skip_app, purec_app, if_match, cond_true, cond_false] at $h:ident)

/-- Symbolic execution of the converter. -/
macro "cv_simp" "[" ls:Lean.Parser.Tactic.simpLemma,* "]" : tactic => `(tactic| go_simp [encC_rdbms, encC_size, encC_i,
  encC_result, encC_setResult, go_cv_isOutOfRange, go_cv_token, go_cv_next, go_cv_matchToken, $ls,*])

/-- The result of the model is that of the code. -/
def Comes (f : Fn) (enc : α → Val) (m : CM α) : Prop :=
  ∀ (p rest rest' : List Str) (res : List Val) (a : α), m rest = .ok a rest' →
    ∃ p', go isNum f [] (encC d p rest res) = .ok (enc a) [] (encC d p' rest' res)

theorem go_cv_convertName : Comes d isNum .cv_convertName .str (convertName d) := by
  intro p rest rest' res a h
  rw [go_def isNum _ Tree.cv_convertName rfl _ _ _ rfl]
  simp only [Tree.cv_convertName]
  unfold convertName at h
  cv_model at h
  cv_simp []
  cases ht : tok rest with
  | nil => rw [ht] at h; exact nomatch h
  | cons c t =>
    rw [ht] at h
    have h : cond (isIdentifier d c) (inner (c :: t)) (CM.pure (c :: t)) (nextRest rest) = .ok a rest' := h
    cv_simp [go_cv_isIdentifier]
    cases hi : isIdentifier d c
    · rw [hi] at h
      injection h with h1 h2
      subst h1 h2
      cv_simp []
      exact ⟨_, rfl⟩
    · rw [hi] at h
      have h : (if (c :: t).length < 2 then CRes.panic else .ok ((c :: t).drop 1).dropLast (nextRest rest)) = .ok a rest' := h
      by_cases hl : (c :: t).length < 2
      · rw [if_pos hl] at h; exact nomatch h
      · rw [if_neg hl] at h
        injection h with h1 h2
        subst h1 h2
        have := fun vs s => cut_inner (c :: t) hl vs s
        simp only [List.length_cons] at this
        cv_simp [this]
        exact ⟨_, rfl⟩

theorem go_cv_convertTableName : Comes d isNum .cv_convertTableName (fun a => .tuple [.str a.1, .str a.2]) (convertTableName d) := by
  intro p rest rest' res a h
  rw [go_def isNum _ Tree.cv_convertTableName rfl _ _ _ rfl]
  simp only [Tree.cv_convertTableName]
  unfold convertTableName at h
  obtain ⟨a1, s1, h1, h⟩ := bind_ok h
  obtain ⟨p1, g1⟩ := go_cv_convertName d isNum p _ _ res _ h1
  cv_model at h
  cv_simp [g1]
  cases hm : isKw ["."] (tok s1)
  · rw [hm] at h
    injection h with h1 h2
    subst h1 h2
    cv_simp []
    exact ⟨_, rfl⟩
  · rw [hm] at h
    obtain ⟨a2, s2, h2, h⟩ := bind_ok h
    obtain ⟨p2, g2⟩ := go_cv_convertName d isNum (nextP p1 s1) _ _ res _ h2
    injection h with h1 h2
    subst h1 h2
    cv_simp [g2]
    exact ⟨_, rfl⟩

theorem go_cv_convertTypeDigit : Comes d isNum .cv_convertTypeDigit (fun a => .tuple [.int a.1, .int a.2]) convertTypeDigit := by
  intro p rest rest' res a h
  rw [go_def isNum _ Tree.cv_convertTypeDigit rfl _ _ _ rfl]
  simp only [Tree.cv_convertTypeDigit]
  unfold convertTypeDigit at h
  cv_model at h
  cv_simp []
  cases hm : isKw ["("] (tok rest)
  · rw [hm] at h
    injection h with h1 h2
    subst h1 h2
    cv_simp []
    exact ⟨_, rfl⟩
  · rw [hm] at h
    cv_model at h
    cv_simp []
    cases hn : isKw [","] (tok (nextRest (nextRest rest)))
    · rw [hn] at h
      injection h with h1 h2
      subst h1 h2
      cv_simp []
      exact ⟨_, rfl⟩
    · rw [hn] at h
      injection h with h1 h2
      subst h1 h2
      cv_simp []
      exact ⟨_, rfl⟩

theorem go_cv_convertDateType : Comes d isNum .cv_convertDateType encDataType convertDateType := by
  intro p rest rest' res a h
  rw [go_def isNum _ Tree.cv_convertDateType rfl _ _ _ rfl]
  simp only [Tree.cv_convertDateType]
  unfold convertDateType at h
  cv_model at h
  cv_simp []
  cases hm : isKw ["VARYING"] (tok (nextRest rest))
  · rw [hm] at h
    obtain ⟨a1, s1, h1, h⟩ := bind_ok h
    obtain ⟨p1, g1⟩ := go_cv_convertTypeDigit d isNum (nextP p rest) _ _ res _ h1
    injection h with h1 h2
    subst h1 h2
    cv_simp [g1]
    exact ⟨_, rfl⟩
  · rw [hm] at h
    obtain ⟨a1, s1, h1, h⟩ := bind_ok h
    obtain ⟨p1, g1⟩ := go_cv_convertTypeDigit d isNum (nextP (nextP p rest) (nextRest rest)) _ _ res _ h1
    injection h with h1 h2
    subst h1 h2
    cv_simp []
    by_cases hb : upStr (tok rest) = S "BIT"
    · rw [decide_eq_true hb]
      cv_simp [g1]
      refine ⟨p1, ?_⟩
      simp only [encDataType, varyingName, if_pos hb]
    · rw [decide_eq_false hb]
      cv_simp []
      by_cases hc : upStr (tok rest) = S "CHARACTER"
      · rw [decide_eq_true hc]
        cv_simp [g1]
        refine ⟨p1, ?_⟩
        simp only [encDataType, varyingName, if_neg hb, if_pos hc]
      · rw [decide_eq_false hc]
        cv_simp [g1]
        refine ⟨p1, ?_⟩
        simp only [encDataType, varyingName, if_neg hb, if_neg hc, List.append_assoc]

/-! ### expressions and values -/

theorem go_cv_convertExprAux (n : Nat) : Comes d isNum .cv_convertExprAux .str (convertExprAux n) := by
  induction n with
  | zero => intro p rest rest' res a h; exact nomatch h
  | succ n ih =>
    intro p rest rest' res a h
    rw [go_def isNum _ Tree.cv_convertExprAux rfl _ _ _ rfl]
    simp only [Tree.cv_convertExprAux]
    rw [convertExprAux] at h
    cv_model at h
    cv_simp []
    cases hm : isKw [")"] (tok rest)
    · rw [hm] at h
      cv_simp []
      cases hn : isKw ["("] (tok rest)
      · rw [hn] at h
        obtain ⟨a1, s1, h1, h⟩ := bind_ok h
        obtain ⟨p1, g1⟩ := ih (nextP p rest) _ _ res _ h1
        injection h with h1 h2
        subst h1 h2
        cv_simp [g1]
        exact ⟨_, rfl⟩
      · rw [hn] at h
        obtain ⟨a1, s1, h1, h⟩ := bind_ok h
        obtain ⟨p1, g1⟩ := ih (nextP p rest) _ _ res _ h1
        cv_model at h
        obtain ⟨a2, s2, h2, h⟩ := bind_ok h
        obtain ⟨p2, g2⟩ := ih (nextP p1 s1) _ _ res _ h2
        injection h with h1 h2
        subst h1 h2
        have g3 : go isNum .cv_convertExpr [] (encC d p rest res) =
            .ok (.str ((tok rest ++ a1) ++ tok s1)) [] (encC d (nextP p1 s1) (nextRest s1) res) := by
          rw [go_def isNum _ Tree.cv_convertExpr rfl _ _ _ rfl]
          simp only [Tree.cv_convertExpr]
          cv_simp [g1]
        cv_simp [g3, g2]
        exact ⟨_, rfl⟩
    · rw [hm] at h
      injection h with h1 h2
      subst h1 h2
      cv_simp []
      exact ⟨_, rfl⟩

theorem go_cv_convertExpr (n : Nat) : Comes d isNum .cv_convertExpr .str (convertExpr n) := by
  intro p rest rest' res a h
  unfold convertExpr at h
  cv_model at h
  obtain ⟨a1, s1, h1, h⟩ := bind_ok h
  obtain ⟨p1, g1⟩ := go_cv_convertExprAux d isNum n (nextP p rest) _ _ res _ h1
  injection h with h1 h2
  subst h1 h2
  rw [go_def isNum _ Tree.cv_convertExpr rfl _ _ _ rfl]
  simp only [Tree.cv_convertExpr]
  cv_simp [g1]
  exact ⟨_, rfl⟩

theorem go_cv_convertLiteralValue : Comes d isNum .cv_convertLiteralValue encDefault (convertLiteralValue isNum d) := by
  intro p rest rest' res a h
  rw [go_def isNum _ Tree.cv_convertLiteralValue rfl _ _ _ rfl]
  simp only [Tree.cv_convertLiteralValue]
  unfold convertLiteralValue at h
  cv_model at h
  cv_simp [go_IsNumericToken]
  cases hn : isNum (tok rest)
  · rw [hn] at h
    cv_simp []
    cases ht : tok rest with
    | nil => rw [ht] at h; exact nomatch h
    | cons c t =>
      rw [ht] at h
      have h : cond (isStringValue d c) ((inner (c :: t)).bind fun s => CM.pure (.str s)) (CM.pure
          (if upStr (c :: t) = S "NULL" then DefaultVal.nil
          else if upStr (c :: t) = S "TRUE" then .bool true
          else if upStr (c :: t) = S "FALSE" then .bool false
          else .str (c :: t))) (nextRest rest) = .ok a rest' := h
      cv_simp [go_cv_isStringValue]
      cases hi : isStringValue d c
      · rw [hi] at h
        injection h with h1 h2
        subst h1 h2
        cv_simp []
        by_cases k1 : upStr (c :: t) = S "NULL"
        · rw [if_pos k1, decide_eq_true k1]
          cv_simp []
          exact ⟨_, rfl⟩
        rw [if_neg k1, decide_eq_false k1]
        cv_simp []
        by_cases k2 : upStr (c :: t) = S "TRUE"
        · rw [if_pos k2, decide_eq_true k2]
          cv_simp []
          exact ⟨_, rfl⟩
        rw [if_neg k2, decide_eq_false k2]
        cv_simp []
        by_cases k3 : upStr (c :: t) = S "FALSE"
        · rw [if_pos k3, decide_eq_true k3]
          cv_simp []
          exact ⟨_, rfl⟩
        rw [if_neg k3, decide_eq_false k3]
        cv_simp []
        exact ⟨_, rfl⟩
      · rw [hi] at h
        obtain ⟨a1, s1, h1, h⟩ := bind_ok h
        have h1 : (if (c :: t).length < 2 then CRes.panic else .ok ((c :: t).drop 1).dropLast (nextRest rest)) = .ok a1 s1 := h1
        by_cases hl : (c :: t).length < 2
        · rw [if_pos hl] at h1; exact nomatch h1
        · rw [if_neg hl] at h1
          injection h1 with h1 h2
          subst h1 h2
          injection h with h1 h2
          subst h1 h2
          have := fun vs s => cut_inner (c :: t) hl vs s
          simp only [List.length_cons] at this
          cv_simp [this]
          exact ⟨_, rfl⟩
  · rw [hn] at h
    injection h with h1 h2
    subst h1 h2
    cv_simp []
    exact ⟨_, rfl⟩

theorem go_cv_convertDefaultValue (n : Nat) : Comes d isNum .cv_convertDefaultValue encDefault (convertDefaultValue isNum d n) := by
  intro p rest rest' res a h
  rw [go_def isNum _ Tree.cv_convertDefaultValue rfl _ _ _ rfl]
  simp only [Tree.cv_convertDefaultValue]
  unfold convertDefaultValue at h
  cv_model at h
  cv_simp []
  cases hm : isKw ["("] (tok rest)
  · rw [hm] at h
    obtain ⟨p1, g1⟩ := go_cv_convertLiteralValue d isNum p _ _ res _ h
    cv_simp [g1]
    exact ⟨_, rfl⟩
  · rw [hm] at h
    obtain ⟨a1, s1, h1, h⟩ := bind_ok h
    obtain ⟨p1, g1⟩ := go_cv_convertExpr d isNum n p _ _ res _ h1
    injection h with h1 h2
    subst h1 h2
    cv_simp [g1]
    exact ⟨_, rfl⟩

/-! ### column names -/

/-- The loop of `convertCommaSeparatedColumnNames`. -/
def cnLoop : Stmt := Tree.cv_convertCommaSeparatedColumnNames.body.two.two.one
/-- What comes after it. -/
def cnRest : Stmt := Tree.cv_convertCommaSeparatedColumnNames.body.two.two.two

theorem loop_columnNames (n : Nat) : ∀ (p rest rest' : List Str) (ls a : List Str), columnNamesLoop n ls rest = .ok a rest' →
    ∃ p', exe isNum cnLoop [(.ls, .strs ls)] (encC d p rest res) = .ok .next [(.ls, .strs a)] (encC d p' rest' res) := by
  induction n with
  | zero => intro p rest rest' ls a h; exact nomatch h
  | succ n ih =>
    intro p rest rest' ls a h
    rw [ex_loopOf isNum cnLoop _ _ rfl]
    rw [columnNamesLoop] at h
    cv_model at h
    cv_simp []
    cases hm : isKw [")"] (tok rest)
    · rw [hm] at h
      cv_simp []
      cases hn : isKw [","] (tok rest)
      · rw [hn] at h
        obtain ⟨p1, g1⟩ := ih (nextP p rest) _ _ _ _ h
        cv_simp [g1]
        exact ⟨_, rfl⟩
      · rw [hn] at h
        obtain ⟨p1, g1⟩ := ih (nextP p rest) _ _ _ _ h
        cv_simp [g1]
        exact ⟨_, rfl⟩
    · rw [hm] at h
      injection h with h1 h2
      subst h1 h2
      cv_simp []
      exact ⟨_, rfl⟩

theorem go_cv_columnNames (n : Nat) : Comes d isNum .cv_convertCommaSeparatedColumnNames .strs (convertCommaSeparatedColumnNames n) := by
  intro p rest rest' res a h
  rw [go_def isNum _ Tree.cv_convertCommaSeparatedColumnNames rfl _ _ _ rfl]
  have hb : Tree.cv_convertCommaSeparatedColumnNames.body = .seq _ (.seq _ (.seq cnLoop cnRest)) := rfl
  rw [hb]
  unfold convertCommaSeparatedColumnNames at h
  cv_model at h
  obtain ⟨a1, s1, h1, h⟩ := bind_ok h
  obtain ⟨p1, g1⟩ := loop_columnNames d res isNum n (nextP p rest) _ _ _ _ h1
  injection h with h1 h2
  subst h1 h2
  cv_simp [g1]
  simp only [cnRest, Tree.cv_convertCommaSeparatedColumnNames, Stmt.two]
  cv_simp []
  exact ⟨_, rfl⟩

theorem go_cv_convertReference (n : Nat) : Comes d isNum .cv_convertReference encReference (convertReference d n) := by
  intro p rest rest' res a h
  rw [go_def isNum _ Tree.cv_convertReference rfl _ _ _ rfl]
  simp only [Tree.cv_convertReference]
  unfold convertReference at h
  cv_model at h
  obtain ⟨a1, s1, h1, h⟩ := bind_ok h
  obtain ⟨p1, g1⟩ := go_cv_convertName d isNum (nextP p rest) _ _ res _ h1
  cv_model at h
  cv_simp [g1]
  cases hm : isKw ["("] (tok s1)
  · rw [hm] at h
    injection h with h1 h2
    subst h1 h2
    cv_simp []
    exact ⟨_, rfl⟩
  · rw [hm] at h
    obtain ⟨a2, s2, h2, h⟩ := bind_ok h
    obtain ⟨p2, g2⟩ := go_cv_columnNames d isNum n p1 _ _ res _ h2
    injection h with h1 h2
    subst h1 h2
    cv_simp [g2]
    exact ⟨_, rfl⟩

/-! ### constraints -/

section
variable (c : Constraint)
theorem encK_name (x : Str) : upd .Name (.str x) (encConstraintF c) = some (encConstraintF { c with name := x }) := rfl
theorem encK_pk : upd .IsPrimaryKey (.bool true) (encConstraintF c) = some (encConstraintF { c with isPrimaryKey := true }) := rfl
theorem encK_un : upd .IsUnique (.bool true) (encConstraintF c) = some (encConstraintF { c with isUnique := true }) := rfl
theorem encK_nn : upd .IsNotNull (.bool true) (encConstraintF c) = some (encConstraintF { c with isNotNull := true }) := rfl
theorem encK_ai : upd .IsAutoincrement (.bool true) (encConstraintF c) = some (encConstraintF { c with isAutoincrement := true }) := rfl
theorem encK_df (x : DefaultVal) : upd .Default (encDefault x) (encConstraintF c) = some (encConstraintF { c with default := x }) := rfl
theorem encK_ch (x : Str) : upd .Check (.str x) (encConstraintF c) = some (encConstraintF { c with check := x }) := rfl
theorem encK_co (x : Str) : upd .Collate (.str x) (encConstraintF c) = some (encConstraintF { c with collate := x }) := rfl
theorem encK_re (x : Reference) : upd .References (encReference x) (encConstraintF c) = some (encConstraintF { c with references := x }) := rfl
end

theorem go_cv_convertConstraintAux (n : Nat) : ∀ (p rest rest' : List Str) (res : List Val) (con a : Constraint),
    convertConstraintAux isNum d n con rest = .ok a rest' →
    ∃ p', go isNum .cv_convertConstraintAux [.obj .Constraint (encConstraintF con)] (encC d p rest res) =
      .ok (.tuple []) [.obj .Constraint (encConstraintF a)] (encC d p' rest' res) := by
  induction n with
  | zero => intro p rest rest' res con a h; exact nomatch h
  | succ n ih =>
    intro p rest rest' res con a h
    rw [go_def isNum _ Tree.cv_convertConstraintAux rfl _ _ _ rfl]
    simp only [Tree.cv_convertConstraintAux]
    rw [convertConstraintAux] at h
    cv_model at h
    cv_simp []
    cases h0 : isKw [",", ")"] (tok rest)
    rotate_left
    · rw [h0] at h
      injection h with h1 h2
      subst h1 h2
      cv_simp []
      exact ⟨_, rfl⟩
    rw [h0] at h
    cv_simp []
    cases h1 : isKw ["PRIMARY"] (tok rest)
    rotate_left
    · rw [h1] at h
      obtain ⟨p1, g1⟩ := ih (nextP (nextP p rest) (nextRest rest)) _ _ res _ _ h
      cv_simp [encK_pk, g1]
      exact ⟨_, rfl⟩
    rw [h1] at h
    cv_simp []
    cases h2 : isKw ["AUTOINCREMENT", "AUTO_INCREMENT"] (tok rest)
    rotate_left
    · rw [h2] at h
      obtain ⟨p1, g1⟩ := ih (nextP p rest) _ _ res _ _ h
      cv_simp [encK_ai, g1]
      exact ⟨_, rfl⟩
    rw [h2] at h
    cv_simp []
    cases h3 : isKw ["NOT"] (tok rest)
    rotate_left
    · rw [h3] at h
      obtain ⟨p1, g1⟩ := ih (nextP (nextP p rest) (nextRest rest)) _ _ res _ _ h
      cv_simp [encK_nn, g1]
      exact ⟨_, rfl⟩
    rw [h3] at h
    cv_simp []
    cases h4 : isKw ["UNIQUE"] (tok rest)
    rotate_left
    · rw [h4] at h
      obtain ⟨p1, g1⟩ := ih (nextP p rest) _ _ res _ _ h
      cv_simp [encK_un, g1]
      exact ⟨_, rfl⟩
    rw [h4] at h
    cv_simp []
    cases h5 : isKw ["DEFAULT"] (tok rest)
    rotate_left
    · rw [h5] at h
      obtain ⟨a1, s1, e1, h⟩ := bind_ok h
      obtain ⟨p0, g0⟩ := go_cv_convertDefaultValue d isNum n (nextP p rest) _ _ res _ e1
      obtain ⟨p1, g1⟩ := ih p0 _ _ res _ _ h
      cv_simp [g0, encK_df, g1]
      exact ⟨_, rfl⟩
    rw [h5] at h
    cv_simp []
    cases h6 : isKw ["CHECK"] (tok rest)
    rotate_left
    · rw [h6] at h
      obtain ⟨a1, s1, e1, h⟩ := bind_ok h
      obtain ⟨p0, g0⟩ := go_cv_convertExpr d isNum n (nextP p rest) _ _ res _ e1
      obtain ⟨p1, g1⟩ := ih p0 _ _ res _ _ h
      cv_simp [g0, encK_ch, g1]
      exact ⟨_, rfl⟩
    rw [h6] at h
    cv_simp []
    cases h7 : isKw ["COLLATE"] (tok rest)
    rotate_left
    · rw [h7] at h
      obtain ⟨a1, s1, e1, h⟩ := bind_ok h
      obtain ⟨p0, g0⟩ := go_cv_convertName d isNum (nextP p rest) _ _ res _ e1
      obtain ⟨p1, g1⟩ := ih p0 _ _ res _ _ h
      cv_simp [g0, encK_co, g1]
      exact ⟨_, rfl⟩
    rw [h7] at h
    cv_simp []
    cases h8 : isKw ["REFERENCES"] (tok rest)
    rotate_left
    · rw [h8] at h
      obtain ⟨a1, s1, e1, h⟩ := bind_ok h
      obtain ⟨p0, g0⟩ := go_cv_convertReference d isNum n p _ _ res _ e1
      obtain ⟨p1, g1⟩ := ih p0 _ _ res _ _ h
      cv_simp [g0, encK_re, g1]
      exact ⟨_, rfl⟩
    rw [h8] at h
    injection h with h1 h2
    subst h1 h2
    cv_simp []
    exact ⟨_, rfl⟩

theorem go_cv_convertConstraint (n : Nat) : Comes d isNum .cv_convertConstraint encConstraint (convertConstraint isNum d n) := by
  intro p rest rest' res a h
  rw [go_def isNum _ Tree.cv_convertConstraint rfl _ _ _ rfl]
  simp only [Tree.cv_convertConstraint]
  have h0 : ([(.Name, .str []), (.IsPrimaryKey, .bool false), (.IsUnique, .bool false), (.IsNotNull, .bool false), (.IsAutoincrement, .bool false), (.Default, .nil), (.Check, .str []), (.Collate, .str []), (.References, .obj .Reference [(.TableName, .str []), (.ColumnNames, .nil)])] : State) = encConstraintF {} := rfl
  rw [h0]
  unfold convertConstraint at h
  cv_model at h
  cv_simp []
  cases h1 : isKw ["CONSTRAINT"] (tok rest)
  · rw [h1] at h
    obtain ⟨p1, g1⟩ := go_cv_convertConstraintAux d isNum n p _ _ res _ _ h
    cv_simp [g1]
    exact ⟨_, rfl⟩
  · rw [h1] at h
    cv_model at h
    unfold notConstraintName at h
    cv_simp []
    cases h2 : isKw ["PRIMARY", "UNIQUE", "NOT", "AUTOINCREMENT", "AUTO_INCREMENT", "DEFAULT", "CHECK", "REFERENCES", "COLLATE"]
      (tok (nextRest rest))
    · rw [h2] at h
      obtain ⟨a1, s1, e1, h⟩ := bind_ok h
      obtain ⟨p0, g0⟩ := go_cv_convertName d isNum (nextP p rest) _ _ res _ e1
      obtain ⟨p1, g1⟩ := go_cv_convertConstraintAux d isNum n p0 _ _ res _ _ h
      cv_simp [g0, encK_name, g1]
      exact ⟨_, rfl⟩
    · rw [h2] at h
      obtain ⟨p1, g1⟩ := go_cv_convertConstraintAux d isNum n (nextP p rest) _ _ res _ _ h
      cv_simp [g1]
      exact ⟨_, rfl⟩

theorem encCol_name (c : Column) (x : Str) : upd .Name (.str x) (encColumnF c) = some (encColumnF { c with name := x }) := rfl
theorem encCol_dt (c : Column) (x : DataType) : upd .DataType (encDataType x) (encColumnF c) = some (encColumnF { c with dataType := x }) := rfl
theorem encCol_con (c : Column) (x : Constraint) : upd .Constraint (encConstraint x) (encColumnF c) = some (encColumnF { c with constraint := x }) := rfl

theorem go_cv_convertColumnDefinition (n : Nat) :
    Comes d isNum .cv_convertColumnDefinition (fun c => .obj .Column (encColumnF c)) (convertColumnDefinition isNum d n) := by
  intro p rest rest' res a h
  rw [go_def isNum _ Tree.cv_convertColumnDefinition rfl _ _ _ rfl]
  simp only [Tree.cv_convertColumnDefinition]
  have h0 : ([(.Name, .str []), (.DataType, .obj .DataType [(.Name, .str []), (.DigitN, .int 0), (.DigitM, .int 0)]), (.Constraint, .obj .Constraint [(.Name, .str []), (.IsPrimaryKey, .bool false), (.IsUnique, .bool false), (.IsNotNull, .bool false), (.IsAutoincrement, .bool false), (.Default, .nil), (.Check, .str []), (.Collate, .str []), (.References, .obj .Reference [(.TableName, .str []), (.ColumnNames, .nil)])])] : State) = encColumnF {} := rfl
  rw [h0]
  unfold convertColumnDefinition at h
  obtain ⟨a1, s1, e1, h⟩ := bind_ok h
  obtain ⟨p1, g1⟩ := go_cv_convertName d isNum p _ _ res _ e1
  obtain ⟨a2, s2, e2, h⟩ := bind_ok h
  obtain ⟨p2, g2⟩ := go_cv_convertDateType d isNum p1 _ _ res _ e2
  obtain ⟨a3, s3, e3, h⟩ := bind_ok h
  obtain ⟨p3, g3⟩ := go_cv_convertConstraint d isNum n p2 _ _ res _ e3
  injection h with h1 h2
  subst h1 h2
  cv_simp [g1, encCol_name, g2, encCol_dt, g3, encCol_con]
  exact ⟨_, rfl⟩

/-! ### table constraints -/

section
variable (c : TableConstraint)
theorem encT_lpk : look .PrimaryKey (encTableConstraintF c) = some (encSlice encPrimaryKey c.primaryKey) := rfl
theorem encT_lun : look .Unique (encTableConstraintF c) = some (encSlice encUnique c.unique) := rfl
theorem encT_lch : look .Check (encTableConstraintF c) = some (encSlice encCheck c.check) := rfl
theorem encT_lfk : look .ForeignKey (encTableConstraintF c) = some (encSlice encForeignKey c.foreignKey) := rfl
theorem encT_pk (x : List PrimaryKey) : upd .PrimaryKey (encSlice encPrimaryKey x) (encTableConstraintF c) =
  some (encTableConstraintF { c with primaryKey := x }) := rfl
theorem encT_un (x : List Unique) : upd .Unique (encSlice encUnique x) (encTableConstraintF c) =
  some (encTableConstraintF { c with unique := x }) := rfl
theorem encT_ch (x : List Check) : upd .Check (encSlice encCheck x) (encTableConstraintF c) =
  some (encTableConstraintF { c with check := x }) := rfl
theorem encT_fk (x : List ForeignKey) : upd .ForeignKey (encSlice encForeignKey x) (encTableConstraintF c) =
  some (encTableConstraintF { c with foreignKey := x }) := rfl
end

theorem append_enc (enc : α → Val) (ty : Ty) (fs : α → State) (he : ∀ a, enc a = .obj ty (fs a)) (l : List α) (a : α) :
    Lib.append.run isNum [encSlice enc l, .obj ty (fs a)] = some (encSlice enc (l ++ [a])) := by
  cases l with
  | nil => simp only [encSlice, run_append_nil, List.nil_append, List.map_cons, List.map_nil, he]
  | cons b l => simp only [encSlice, run_append_slice, List.cons_append, List.map_cons, List.map_append, List.map_nil, he]

theorem append_pk (l : List PrimaryKey) (x : Str) (cs : List Str) :
    Lib.append.run isNum [encSlice encPrimaryKey l, .obj .PrimaryKey [(.Name, .str x), (.ColumnNames, .strs cs)]] =
    some (encSlice encPrimaryKey (l ++ [⟨x, cs⟩])) :=
  append_enc isNum encPrimaryKey .PrimaryKey (fun k => [(.Name, .str k.name), (.ColumnNames, .strs k.columnNames)]) (fun _ => rfl) l ⟨x, cs⟩
theorem append_un (l : List Unique) (x : Str) (cs : List Str) :
    Lib.append.run isNum [encSlice encUnique l, .obj .Unique [(.Name, .str x), (.ColumnNames, .strs cs)]] =
    some (encSlice encUnique (l ++ [⟨x, cs⟩])) :=
  append_enc isNum encUnique .Unique (fun k => [(.Name, .str k.name), (.ColumnNames, .strs k.columnNames)]) (fun _ => rfl) l ⟨x, cs⟩
theorem append_ch (l : List Check) (x e : Str) :
    Lib.append.run isNum [encSlice encCheck l, .obj .Check [(.Name, .str x), (.Expr, .str e)]] =
    some (encSlice encCheck (l ++ [⟨x, e⟩])) :=
  append_enc isNum encCheck .Check (fun k => [(.Name, .str k.name), (.Expr, .str k.expr)]) (fun _ => rfl) l ⟨x, e⟩
theorem append_fk (l : List ForeignKey) (x : Str) (cs : List Str) (r : Reference) :
    Lib.append.run isNum [encSlice encForeignKey l, .obj .ForeignKey [(.Name, .str x), (.ColumnNames, .strs cs), (.References, encReference r)]] =
    some (encSlice encForeignKey (l ++ [⟨x, cs, r⟩])) :=
  append_enc isNum encForeignKey .ForeignKey (fun k => [(.Name, .str k.name), (.ColumnNames, .strs k.columnNames),
    (.References, encReference k.references)]) (fun _ => rfl) l ⟨x, cs, r⟩
theorem append_col (l : List Column) (c : Column) :
    Lib.append.run isNum [encSlice encColumn l, .obj .Column (encColumnF c)] = some (encSlice encColumn (l ++ [c])) :=
  append_enc isNum encColumn .Column encColumnF (fun _ => rfl) l c

/-- The name of a table constraint: the first part of `convertTableConstraint`. -/
def tcName : Stmt := Tree.cv_convertTableConstraint.body.two.one
/-- The rest. -/
def tcRest : Stmt := Tree.cv_convertTableConstraint.body.two.two

theorem go_tcName (tc : Val) (p rest rest' : List Str) (res : List Val) (name : Str)
    (h : ifM (matchToken ["CONSTRAINT"]) (skip.bind fun _ =>
      ifM (matchToken ["PRIMARY", "UNIQUE", "CHECK", "FOREIGN"]) (CM.pure []) (convertName d)) (CM.pure []) rest = .ok name rest') :
    ∃ p', exe isNum tcName [(.name, .str (S "")), (.tableConstraint, tc)] (encC d p rest res) =
      .ok .next [(.name, .str name), (.tableConstraint, tc)] (encC d p' rest' res) := by
  simp only [tcName, Tree.cv_convertTableConstraint, Stmt.one, Stmt.two]
  cv_model at h
  cv_simp []
  cases h1 : isKw ["CONSTRAINT"] (tok rest)
  · rw [h1] at h
    injection h with h1 h2
    subst h1 h2
    cv_simp []
    exact ⟨_, rfl⟩
  · rw [h1] at h
    cv_model at h
    cv_simp []
    cases h2 : isKw ["PRIMARY", "UNIQUE", "CHECK", "FOREIGN"] (tok (nextRest rest))
    · rw [h2] at h
      obtain ⟨p0, g0⟩ := go_cv_convertName d isNum (nextP p rest) _ _ res _ h
      cv_simp [g0]
      exact ⟨_, rfl⟩
    · rw [h2] at h
      injection h with h1 h2
      subst h1 h2
      cv_simp []
      exact ⟨_, rfl⟩

theorem go_cv_convertTableConstraint (n : Nat) (p rest rest' : List Str) (res : List Val) (tc a : TableConstraint)
    (h : convertTableConstraint d n tc rest = .ok a rest') :
    ∃ p', go isNum .cv_convertTableConstraint [.obj .TableConstraint (encTableConstraintF tc)] (encC d p rest res) =
      .ok (.tuple []) [.obj .TableConstraint (encTableConstraintF a)] (encC d p' rest' res) := by
  rw [go_def isNum _ Tree.cv_convertTableConstraint rfl _ _ _ rfl]
  have hb : Tree.cv_convertTableConstraint.body = .seq _ (.seq tcName tcRest) := rfl
  rw [hb]
  unfold convertTableConstraint at h
  obtain ⟨name, s1, e1, h⟩ := bind_ok h
  obtain ⟨p1, g1⟩ := go_tcName d isNum (.obj .TableConstraint (encTableConstraintF tc)) p _ _ res _ e1
  cv_simp [g1]
  simp only [tcRest, Tree.cv_convertTableConstraint, Stmt.two]
  cv_model at h
  cv_simp []
  cases h1 : isKw ["PRIMARY"] (tok s1)
  rotate_left
  · rw [h1] at h
    obtain ⟨a1, s2, e2, h⟩ := bind_ok h
    obtain ⟨p2, g2⟩ := go_cv_columnNames d isNum n (nextP (nextP p1 s1) (nextRest s1)) _ _ res _ e2
    injection h with h1 h2
    subst h1 h2
    cv_simp [g2, encT_lpk, append_pk, encT_pk]
    exact ⟨_, rfl⟩
  rw [h1] at h
  cv_simp []
  cases h2 : isKw ["UNIQUE"] (tok s1)
  rotate_left
  · rw [h2] at h
    obtain ⟨a1, s2, e2, h⟩ := bind_ok h
    obtain ⟨p2, g2⟩ := go_cv_columnNames d isNum n (nextP p1 s1) _ _ res _ e2
    injection h with h1 h2
    subst h1 h2
    cv_simp [g2, encT_lun, append_un, encT_un]
    exact ⟨_, rfl⟩
  rw [h2] at h
  cv_simp []
  cases h3 : isKw ["CHECK"] (tok s1)
  rotate_left
  · rw [h3] at h
    obtain ⟨a1, s2, e2, h⟩ := bind_ok h
    obtain ⟨p2, g2⟩ := go_cv_convertExpr d isNum n (nextP p1 s1) _ _ res _ e2
    injection h with h1 h2
    subst h1 h2
    cv_simp [g2, encT_lch, append_ch, encT_ch]
    exact ⟨_, rfl⟩
  rw [h3] at h
  cv_simp []
  cases h4 : isKw ["FOREIGN"] (tok s1)
  rotate_left
  · rw [h4] at h
    obtain ⟨a1, s2, e2, h⟩ := bind_ok h
    obtain ⟨p2, g2⟩ := go_cv_columnNames d isNum n (nextP (nextP p1 s1) (nextRest s1)) _ _ res _ e2
    obtain ⟨a3, s3, e3, h⟩ := bind_ok h
    obtain ⟨p3, g3⟩ := go_cv_convertReference d isNum n p2 _ _ res _ e3
    injection h with h1 h2
    subst h1 h2
    cv_simp [g2, g3, encT_lfk, append_fk, encT_fk]
    exact ⟨_, rfl⟩
  rw [h4] at h
  injection h with h1 h2
  subst h1 h2
  cv_simp []
  exact ⟨_, rfl⟩

/-! ### tables -/

/-- The loop of `convertTableDefinition`. -/
def tdLoop : Stmt := Tree.cv_convertTableDefinition.body.two.two.two.one
/-- What comes after it. -/
def tdRest : Stmt := Tree.cv_convertTableDefinition.body.two.two.two.two

theorem loop_tableDefinition (n : Nat) : ∀ (p rest rest' : List Str) (cols : List Column) (tc : TableConstraint)
    (a : List Column × TableConstraint), tableDefinitionLoop isNum d n cols tc rest = .ok a rest' →
    ∃ p', exe isNum tdLoop [(.constraints, .obj .TableConstraint (encTableConstraintF tc)), (.columns, encSlice encColumn cols)]
        (encC d p rest res) =
      .ok .next [(.constraints, .obj .TableConstraint (encTableConstraintF a.2)), (.columns, encSlice encColumn a.1)]
        (encC d p' rest' res) := by
  induction n with
  | zero => intro p rest rest' cols tc a h; exact nomatch h
  | succ n ih =>
    intro p rest rest' cols tc a h
    rw [ex_loopOf isNum tdLoop _ _ rfl]
    rw [tableDefinitionLoop] at h
    cv_model at h
    cv_simp []
    cases hm : isKw [")"] (tok rest)
    rotate_left
    · rw [hm] at h
      injection h with h1 h2
      subst h1 h2
      cv_simp []
      exact ⟨_, rfl⟩
    rw [hm] at h
    cv_simp []
    cases h1 : isKw ["CONSTRAINT", "PRIMARY", "UNIQUE", "CHECK", "FOREIGN"] (tok rest)
    · rw [h1] at h
      obtain ⟨a1, s1, e1, h⟩ := bind_ok h
      obtain ⟨p1, g1⟩ := go_cv_convertColumnDefinition d isNum (n + 1) p _ _ res _ e1
      cv_model at h
      cv_simp [g1, append_col]
      cases h2 : isKw [")"] (tok s1)
      · rw [h2] at h
        obtain ⟨p2, g2⟩ := ih (nextP p1 s1) _ _ _ _ _ h
        cv_simp [g2]
        exact ⟨_, rfl⟩
      · rw [h2] at h
        injection h with h1 h2
        subst h1 h2
        cv_simp []
        exact ⟨_, rfl⟩
    · rw [h1] at h
      obtain ⟨a1, s1, e1, h⟩ := bind_ok h
      obtain ⟨p1, g1⟩ := go_cv_convertTableConstraint d isNum (n + 1) p _ _ res _ _ e1
      cv_model at h
      cv_simp [g1]
      cases h2 : isKw [")"] (tok s1)
      · rw [h2] at h
        obtain ⟨p2, g2⟩ := ih (nextP p1 s1) _ _ _ _ _ h
        cv_simp [g2]
        exact ⟨_, rfl⟩
      · rw [h2] at h
        injection h with h1 h2
        subst h1 h2
        cv_simp []
        exact ⟨_, rfl⟩

theorem go_cv_convertTableDefinition (n : Nat) : Comes d isNum .cv_convertTableDefinition
    (fun a => .tuple [encSlice encColumn a.1, encTableConstraint a.2]) (convertTableDefinition isNum d n) := by
  intro p rest rest' res a h
  rw [go_def isNum _ Tree.cv_convertTableDefinition rfl _ _ _ rfl]
  have hb : Tree.cv_convertTableDefinition.body = .seq _ (.seq _ (.seq _ (.seq tdLoop tdRest))) := rfl
  rw [hb]
  unfold convertTableDefinition at h
  cv_model at h
  obtain ⟨a1, s1, h1, h⟩ := bind_ok h
  obtain ⟨p1, g1⟩ := loop_tableDefinition d res isNum n (nextP p rest) _ _ _ _ _ h1
  have h0 : (Val.obj .TableConstraint [(.PrimaryKey, .nil), (.Unique, .nil), (.Check, .nil), (.ForeignKey, .nil)]) =
    .obj .TableConstraint (encTableConstraintF {}) := rfl
  have h0' : Val.nil = encSlice encColumn [] := rfl
  rw [← h0', ← h0] at g1
  injection h with h1 h2
  subst h1 h2
  cv_simp [g1]
  simp only [tdRest, Tree.cv_convertTableDefinition, Stmt.two]
  cv_simp []
  exact ⟨_, rfl⟩

section
variable (t : Table)
theorem encTb_schema (x : Str) : upd .Schema (.str x) (encTableF t) = some (encTableF { t with schema := x }) := rfl
theorem encTb_name (x : Str) : upd .Name (.str x) (encTableF t) = some (encTableF { t with name := x }) := rfl
theorem encTb_ine : upd .IfNotExists (.bool true) (encTableF t) = some (encTableF { t with ifNotExists := true }) := rfl
theorem encTb_cols (x : List Column) : upd .Columns (encSlice encColumn x) (encTableF t) = some (encTableF { t with columns := x }) := rfl
theorem encTb_con (x : TableConstraint) : upd .Constraints (encTableConstraint x) (encTableF t) =
  some (encTableF { t with constraints := x }) := rfl
end

/-- The end of a statement (converter.go:150-154): the test for more tokens adds nothing. -/
def semiS : Stmt := Tree.cv_convertTable.body.two.two.two.two.two.two.two.two.two.two.one

theorem go_semi (vs : Locals) (p rest rest' : List Str) (res : List Val)
    (h : ifM (matchToken [";"]) skip (CM.pure ()) rest = .ok () rest') :
    ∃ p', exe isNum semiS vs (encC d p rest res) = .ok .next vs (encC d p' rest' res) := by
  simp only [semiS, Tree.cv_convertTable, Stmt.one, Stmt.two]
  cv_model at h
  cases rest with
  | nil =>
    have : isKw [";"] (tok []) = false := by decide
    rw [this] at h
    injection h with h1 h2
    subst h2
    have : decide ((((p ++ ([] : List Str)).length : Nat) : Int) > p.length) = false := by simp
    cv_simp [this]
    exact ⟨_, rfl⟩
  | cons t r =>
    have hm : decide ((((p ++ t :: r).length : Nat) : Int) > p.length) = true := by simp; omega
    cv_simp [hm]
    cases h1 : isKw [";"] (tok (t :: r))
    · rw [h1] at h
      injection h with h1 h2
      subst h2
      cv_simp []
      exact ⟨_, rfl⟩
    · rw [h1] at h
      injection h with h1 h2
      subst h2
      cv_simp []
      exact ⟨_, rfl⟩

theorem go_cv_convertTable (n : Nat) : Comes d isNum .cv_convertTable (fun t => .obj .Table (encTableF t)) (convertTable isNum d n) := by
  intro p rest rest' res a h
  rw [go_def isNum _ Tree.cv_convertTable rfl _ _ _ rfl]
  have hb : Tree.cv_convertTable.body = .seq (.define _ (.lit (.obj .Table (encTableF {}))))
    (.seq _ (.seq _ (.seq _ (.seq _ (.seq _ (.seq _ (.seq _ (.seq _ (.seq _ (.seq semiS _)))))))))) := rfl
  rw [hb]
  unfold convertTable at h
  cv_model at h
  cv_simp []
  cases h1 : isKw ["IF"] (tok (nextRest (nextRest rest)))
  · rw [h1] at h
    obtain ⟨a1, s1, e1, h⟩ := bind_ok h
    obtain ⟨p1, g1⟩ := go_cv_convertTableName d isNum (nextP (nextP p rest) (nextRest rest)) _ _ res _ e1
    obtain ⟨a2, s2, e2, h⟩ := bind_ok h
    obtain ⟨p2, g2⟩ := go_cv_convertTableDefinition d isNum n p1 _ _ res _ e2
    obtain ⟨a3, s3, e3, h⟩ := bind_ok h
    obtain ⟨p3, g3⟩ := go_semi d isNum [(.constraints, encTableConstraint a2.2), (.columns, encSlice encColumn a2.1),
      (.tableName, .str a1.2), (.schemaName, .str a1.1), (.table, .obj .Table (encTableF { schema := a1.1, name := a1.2, columns := a2.1, constraints := a2.2 }))] p2 _ _ res e3
    injection h with h1 h2
    subst h1 h2
    cv_simp [g1, g2, encTb_schema, encTb_name, encTb_cols, encTb_con, g3]
    exact ⟨_, rfl⟩
  · rw [h1] at h
    cv_model at h
    obtain ⟨a1, s1, e1, h⟩ := bind_ok h
    obtain ⟨p1, g1⟩ := go_cv_convertTableName d isNum (nextP (nextP (nextP (nextP (nextP p rest) (nextRest rest))
      (nextRest (nextRest rest))) (nextRest (nextRest (nextRest rest)))) (nextRest (nextRest (nextRest (nextRest rest))))) _ _ res _ e1
    obtain ⟨a2, s2, e2, h⟩ := bind_ok h
    obtain ⟨p2, g2⟩ := go_cv_convertTableDefinition d isNum n p1 _ _ res _ e2
    obtain ⟨a3, s3, e3, h⟩ := bind_ok h
    obtain ⟨p3, g3⟩ := go_semi d isNum [(.constraints, encTableConstraint a2.2), (.columns, encSlice encColumn a2.1),
      (.tableName, .str a1.2), (.schemaName, .str a1.1), (.table, .obj .Table (encTableF { schema := a1.1, name := a1.2, ifNotExists := true, columns := a2.1, constraints := a2.2 }))] p2 _ _ res e3
    injection h with h1 h2
    subst h1 h2
    cv_simp [encTb_ine, g1, g2, encTb_schema, encTb_name, encTb_cols, encTb_con, g3]
    exact ⟨_, rfl⟩

theorem go_cv_convert (n : Nat) : ∀ (p rest rest' : List Str) (acc a : List Table), convert isNum d n acc rest = .ok a rest' →
    ∃ p', go isNum .cv_convert [] (encC d p rest (acc.map encTable)) = .ok (.tuple []) [] (encC d p' rest' (a.map encTable)) := by
  induction n with
  | zero => intro p rest rest' acc a h; exact nomatch h
  | succ n ih =>
    intro p rest rest' acc a h
    rw [go_def isNum _ Tree.cv_convert rfl _ _ _ rfl]
    simp only [Tree.cv_convert]
    rw [convert] at h
    cv_simp []
    cases rest with
    | nil =>
      have h : CRes.ok acc [] = .ok a rest' := h
      injection h with h1 h2
      subst h1 h2
      cv_simp [List.isEmpty_nil]
      exact ⟨_, rfl⟩
    | cons t r =>
      have h : (convertTable isNum d (n + 1)).bind (fun t => convert isNum d n (acc ++ [t])) (t :: r) = .ok a rest' := h
      obtain ⟨a1, s1, e1, h⟩ := bind_ok h
      obtain ⟨p1, g1⟩ := go_cv_convertTable d isNum (n + 1) p _ _ (acc.map encTable) _ e1
      obtain ⟨p2, g2⟩ := ih p1 _ _ _ _ h
      have he : acc.map encTable ++ [.obj .Table (encTableF a1)] = (acc ++ [a1]).map encTable := by
        rw [List.map_append]; rfl
      cv_simp [List.isEmpty_cons, g1, he, g2]
      exact ⟨_, rfl⟩

/-- `Convert`: converter.go:41-45. -/
theorem go_cv_Convert (n : Nat) (tokens rest : List Str) (ts : List Table) (h : convert isNum d n [] tokens = .ok ts rest)
    (a b c e : Val) : ∃ s, go isNum .cv_Convert [.strs tokens] [(.rdbms, .rdbms d), (.tokens, a), (.size, b), (.i, c), (.result, e)] =
      .ok (.slice (ts.map encTable)) [] s := by
  rw [go_def isNum _ Tree.cv_Convert rfl _ _ _ rfl]
  simp only [Tree.cv_Convert]
  have hi : go isNum .cv_init [.strs tokens] [(.rdbms, .rdbms d), (.tokens, a), (.size, b), (.i, c), (.result, e)] =
      .ok (.tuple []) [] (encC d [] tokens []) := by
    rw [go_def isNum _ Tree.cv_init rfl _ _ _ rfl]
    simp only [Tree.cv_init]
    go_simp
    rfl
  obtain ⟨p, g⟩ := go_cv_convert d isNum n [] _ _ _ _ h
  cv_simp [hi]
  rw [List.map_nil] at g
  cv_simp [g]
  exact ⟨_, rfl⟩

end
end DDL.Src
