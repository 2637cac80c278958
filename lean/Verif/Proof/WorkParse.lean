import Verif.Proof.Counted
import Verif.Proof.CountedLex
import Verif.Proof.WorkSqlite
import Verif.Proof.WorkPostgres
import Verif.Proof.WorkMysql
import Verif.Proof.Bound
/-
The work of `Parse`.
-/

namespace DDL
open V Conv

/-- The newlines passed add at most one operation each. -/
theorem work_le (p : Prog α) (s : VS) (hc : Clean s.rest) : work p s ≤ workA p (strip s.rest) + s.rest.length := by
  induction p generalizing s with
  | ret a => exact Nat.zero_le _
  | token k ih =>
    simp only [work, workA]; rw [hc.headD]
    have := ih s.token s hc
    unfold VS.token at this ⊢
    omega
  | oob k ih =>
    simp only [work, workA]; rw [hc.isEmpty]
    have := ih s.rest.isEmpty s hc
    omega
  | head k ih =>
    simp only [work, workA]; rw [hc.headD]
    show (match s.token with | [] => 1 | c :: _ => work (k c) s + 1) ≤
      (match s.token with | [] => 1 | c :: _ => workA (k c) (strip s.rest) + 1) + s.rest.length
    cases s.token with
    | nil => simp only; omega
    | cons c r => have := ih c s hc; simp only; omega
  | adv b k ih =>
    obtain ⟨pre, h1, -, h3, h4, -⟩ := s.next_spec hc
    have hl : s.rest.length = pre.length + s.next.rest.length := by
      conv => lhs; rw [h1]
      exact List.length_append
    cases b with
    | false =>
      simp only [work, workA]
      rw [← h4]
      have := ih s.next h3
      omega
    | true =>
      simp only [work, workA]
      rw [← h4]
      have := ih (s.next.set s.token) h3
      simp only [VS.set] at this ⊢
      omega
  | emit t k ih =>
    simp only [work, workA]
    have := ih (s.set t) hc
    simp only [VS.set] at this ⊢
    omega
  | fail => simp [work, workA]
  | timeout => exact Nat.zero_le _

theorem validateProg_l {isNum : Str → Bool} (hN : NumOK isNum) (d : Rdbms) (n : Nat) :
    Lin (validateProg isNum d n) ⟨10, 250⟩ := by
  cases d
  · exact (Sqlite.validate_l hN).2 n
  · exact (Postgres.validate_l hN).2 n
  · exact (Mysql.validate_l hN).2 n
  · exact (Sqlite.validate_l hN).2 n

/-- The syntax check, including `init`. -/
theorem validate_work {isNum : Str → Bool} (hN : NumOK isNum) (d : Rdbms) (n : Nat) {toks : List Str}
    (ht : ∀ t ∈ toks, Good t) (h : validateN isNum d n toks ≠ .timeout) :
    (toks.length - (VS.init toks).rest.length) + work (validateProg isNum d n) (VS.init toks) ≤
      101 * toks.length + 250 := by
  obtain ⟨pre, h1, -, h3, -, -, h6⟩ := init_spec toks
  have hl : toks.length = pre.length + (VS.init toks).rest.length := by
    conv => lhs; rw [h1]
    exact List.length_append
  have hw := work_le (validateProg isNum d n) _ h3
  rw [h6] at hw
  have hlin := validateProg_l hN d n (strip toks) (strip_good ht)
  have hc := validateN_cases isNum d n toks
  have hs := strip_length_le toks
  cases hr : runA (validateProg isNum d n) (strip toks) with
  | ok a r o =>
    have := hlin.1 _ _ _ hr
    simp only [RATE] at this
    omega
  | fail r =>
    have := hlin.2 _ hr
    simp only [RATE] at this
    omega
  | panic =>
    rw [hr] at hc
    exact absurd hc (validateN_ne_panic ht)
  | timeout => rw [hr] at hc; exact absurd hc h

theorem lex_work (d : Rdbms) (n : Nat) (ddl : List Char) (h : Lex.lexN d n ddl ≠ .timeout)
    (hp : Lex.lexN d n ddl ≠ .panic) :
    (LexW.lexLoop d n [] (Lex.init ddl)).2 ≤ 20 * ddl.length + 30 := by
  have hl := LexW.lexLoop_l d n []
  unfold Lex.lexN at h hp
  cases hr : Lex.lexLoop d n [] (Lex.init ddl) with
  | ok a s =>
    by_cases he : ddl = []
    · have := hl.e _ _ _ he hr
      simp only at this
      omega
    · have := hl.b _ _ _ he hr
      have e : (Lex.init ddl).rest = ddl := rfl
      simp only [LRATE, e] at this
      omega
  | fail x s =>
    by_cases he : ddl = []
    · have := hl.fe _ _ _ he hr
      simp only at this
      omega
    · have := hl.fb _ _ _ he hr
      have e : (Lex.init ddl).rest = ddl := rfl
      simp only [LRATE, e] at this
      omega
  | panic => rw [hr] at hp; exact absurd rfl hp
  | timeout => rw [hr] at h; exact absurd rfl h

theorem convert_work [CaseMap] {isNum : Str → Bool} {d : Rdbms} {n : Nat} {out : List Str} {ts : List Table}
    (h : convertN isNum d n out = .ok ts) : (CW.convert isNum d n [] out).2 ≤ 40 * out.length + 1 := by
  have hl := CW.convert_l isNum d n []
  unfold convertN at h
  cases hr : C.convert isNum d n [] out with
  | ok a s =>
    by_cases he : out = []
    · subst he
      obtain ⟨v, e1, e2⟩ := hl.e _ _ hr
      cases e1
      omega
    · have := hl.b _ _ _ he hr
      simp only [CRATE] at this
      omega
  | panic => rw [hr] at h; cases h
  | timeout => rw [hr] at h; cases h

theorem parse_work [CaseMap] {isNum : Str → Bool} (hN : NumOK isNum) {n : Nat} {ddl : List Char} {d : Rdbms}
    {r : List Table × Option VErr} (h : parseN isNum n ddl d = .ok r) :
    parseWork isNum n ddl d ≤ 202 * ddl.length + 281 := by
  unfold parseN at h
  unfold parseWork
  cases hl : Lex.lexN d n ddl with
  | err e =>
    have := lex_work d n ddl (by rw [hl]; simp) (by rw [hl]; simp)
    simp only
    omega
  | panic => rw [hl] at h; cases h
  | timeout => rw [hl] at h; cases h
  | ok toks =>
    have h1 := lex_work d n ddl (by rw [hl]; simp) (by rw [hl]; simp)
    have hg := lexN_good hl
    have hk : toks.length ≤ ddl.length := by
      rcases Lex.lexN_mono d (Nat.le_add_right n (ddl.length + 1)) ddl with e | e
      · rw [e] at hl; cases hl
      · exact Lex.lexN_le (Nat.lt_of_lt_of_le (Nat.lt_succ_self _) (Nat.le_add_left _ n)) (e ▸ hl)
    rw [hl] at h
    simp only at h ⊢
    cases hv : validateN isNum d n toks with
    | err e =>
      have h2 := validate_work hN d n hg (by rw [hv]; simp)
      simp only
      omega
    | panic => rw [hv] at h; cases h
    | timeout => rw [hv] at h; cases h
    | ok out =>
      have h2 := validate_work hN d n hg (by rw [hv]; simp)
      have h3 := validateN_le hN hg hv
      rw [hv] at h
      simp only at h ⊢
      cases hc : convertN isNum d n out with
      | err e => exact absurd hc (convertN_ne_err e)
      | panic => rw [hc] at h; cases h
      | timeout => rw [hc] at h; cases h
      | ok ts =>
        have h4 := convert_work hc
        omega

end DDL
