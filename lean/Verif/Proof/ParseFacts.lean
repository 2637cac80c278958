import Verif.Spec.Obs
import Verif.Proof.SqliteImpl
import Verif.Proof.PostgresImpl
import Verif.Proof.MysqlImpl
import Verif.Proof.Conv
import Verif.Proof.Facts
import Verif.Proof.LexMono
import Verif.Proof.LexSpec
import Verif.Proof.Mono
import Verif.Proof.Emits
import Verif.Proof.ConvGen
/-
The three stages put together.
-/

namespace DDL
open V Spec Conv

/-! ### Tokens -/

theorem TokenShape.good {d : Rdbms} {t : Str} (h : TokenShape d t) : Good t := by
  rcases h with rfl | ⟨c, hc, rfl⟩ | ⟨q, _, body, _, rfl⟩ | ⟨h1, h2⟩
  · exact ⟨by decide, by rintro c r ⟨⟩ h; revert h; decide⟩
  · refine ⟨by simp, ?_⟩
    rintro c r ⟨⟩ h
    simp [puncts] at hc
    rcases hc with rfl | rfl | rfl | rfl | rfl <;> revert h <;> decide
  · exact ⟨by simp, by intros; simp⟩
  · refine ⟨h1, ?_⟩
    rintro c r rfl h
    exact absurd (h2 c (by simp)) (by
      rcases h with rfl | rfl | rfl <;> simp [nonWord, quotes])

theorem lexN_shape {d : Rdbms} {n : Nat} {ddl : List Char} {toks : List Str}
    (h : Lex.lexN d n ddl = .ok toks) : ∀ t ∈ toks, TokenShape d t := by
  rcases Lex.lexN_scan d n ddl with e | e
  · rw [e] at h; cases h
  · rw [e] at h
    exact Lex.scan_shape (m := .top []) (Lex.word_nil d) (by simp) h

theorem lexN_good {d : Rdbms} {n : Nat} {ddl : List Char} {toks : List Str}
    (h : Lex.lexN d n ddl = .ok toks) : ∀ t ∈ toks, Good t :=
  fun t ht => TokenShape.good (lexN_shape h t ht)

theorem Lexes.good {d ddl toks} (h : Lexes d ddl toks) : ∀ t ∈ toks, Good t := by
  obtain ⟨n, h⟩ := h; exact lexN_good h

theorem noNewlines_eq (ts : List Str) : noNewlines ts = strip ts := rfl

theorem strip_good {ts : List Str} (h : ∀ t ∈ ts, Good t) : ∀ t ∈ strip ts, Good t :=
  fun t ht => h t ((List.mem_filter.1 ht).1)

theorem strip_ok {ts : List Str} (h : ∀ t ∈ ts, Good t) {n : Nat} (hn : ts.length < n) :
    Ok n (strip ts) :=
  ⟨Nat.lt_of_le_of_lt (strip_length_le ts) hn, strip_good h⟩

/-! ### Kept tokens -/

theorem runA_out_mem {P : Str → Prop} {p : Prog α} (hp : p.EmitsOnly P) {ts : List Str} {a r out}
    (h : runA p ts = .ok a r out) : ∀ t ∈ out, t ∈ ts ∨ t = EOF ∨ P t := by
  induction p generalizing ts a r out with
  | ret a => simp only [runA] at h; cases h; simp
  | token k ih => exact ih _ (hp _) h
  | oob k ih => exact ih _ (hp _) h
  | head k ih =>
    simp only [runA] at h
    cases hh : ts.headD EOF with
    | nil => rw [hh] at h; cases h
    | cons c x => rw [hh] at h; exact ih _ (hp _) h
  | adv b k ih =>
    simp only [runA] at h
    cases hr : runA k ts.tail with
    | ok a' r' out' =>
      rw [hr] at h; simp only [ResA.pre] at h; cases h
      intro t ht
      rcases List.mem_append.1 ht with h | h
      · cases b
        · simp at h
        · simp at h
          cases ts with
          | nil => simp at h; exact .inr (.inl h)
          | cons x xs => simp at h; exact .inl (by simp [h])
      · rcases ih hp hr t h with h | h
        · exact .inl (List.mem_of_mem_tail h)
        · exact .inr h
    | fail r => rw [hr] at h; cases h
    | panic => rw [hr] at h; cases h
    | timeout => rw [hr] at h; cases h
  | emit x k ih =>
    simp only [runA] at h
    cases hr : runA k ts with
    | ok a' r' out' =>
      rw [hr] at h; simp only [ResA.pre] at h; cases h
      intro t ht
      rcases List.mem_append.1 ht with h | h
      · simp at h; exact .inr (.inr (h ▸ hp.1))
      · exact ih hp.2 hr t h
    | fail r => rw [hr] at h; cases h
    | panic => rw [hr] at h; cases h
    | timeout => rw [hr] at h; cases h
  | fail => simp only [runA] at h; cases h
  | timeout => simp only [runA] at h; cases h

theorem validateProg_ins (isNum : Str → Bool) (d : Rdbms) (n : Nat) :
    (validateProg isNum d n).EmitsOnly Inserted := by
  cases d
  · exact (Sqlite.validate_ins isNum n).out
  · exact (Postgres.validate_ins isNum n).out
  · exact (Mysql.validate_ins isNum n).out
  · exact (Sqlite.validate_ins isNum n).out

theorem Inserted.good {t : Str} (h : Inserted t) : Good t := by
  rcases h with rfl | rfl | rfl <;>
  exact ⟨by decide, by rintro c r h hc; revert hc; injection h with h1 h2; subst h1; decide⟩

theorem runA_out_good {isNum : Str → Bool} {d : Rdbms} {n : Nat} {ts : List Str} {a r out}
    (hts : ∀ t ∈ ts, Good t) (h : runA (validateProg isNum d n) ts = .ok a r out) :
    ∀ t ∈ out, Good t := by
  intro t ht
  rcases runA_out_mem (validateProg_ins isNum d n) h t ht with h | rfl | h
  · exact hts t h
  · exact EOF_good
  · exact h.good

/-! ### Validate -/

theorem validateProg_le (isNum : Str → Bool) (d : Rdbms) {n m : Nat} (h : n ≤ m) :
    Prog.Le (validateProg isNum d n) (validateProg isNum d m) := by
  cases d
  · exact Prog.Le.of_step (Sqlite.validate_le isNum) h
  · exact Prog.Le.of_step (Postgres.validate_le isNum) h
  · exact Prog.Le.of_step (Mysql.validate_le isNum) h
  · exact Prog.Le.of_step (Sqlite.validate_le isNum) h

/-- `Validate` is `runA` on the tokens without newlines, plus a line number. The line is one more
than the number of newline tokens in front of the error, except that the first is not counted if it
is the first token. -/
theorem validateN_cases (isNum : Str → Bool) (d : Rdbms) (n : Nat) (toks : List Str) :
    match runA (validateProg isNum d n) (strip toks) with
    | .ok _ _ out => validateN isNum d n toks = .ok out
    | .fail r => ∃ pre rest, toks = pre ++ rest ∧ strip rest = r ∧ Clean rest ∧
        validateN isNum d n toks =
          .err ⟨1 + nls pre - (if toks.head? = some nl then 1 else 0), r.headD EOF⟩
    | .panic => validateN isNum d n toks = .panic
    | .timeout => validateN isNum d n toks = .timeout := by
  obtain ⟨pre, h1, h2, h3, h4, h5, h6⟩ := init_spec toks
  have hs := run_sim (validateProg isNum d n) (VS.init toks) h3
  rw [h6] at hs
  unfold validateN
  cases hr : run (validateProg isNum d n) (VS.init toks) with
  | ok a s' =>
    rw [hr] at hs
    cases hq : runA (validateProg isNum d n) (strip toks) with
    | ok b r out =>
      rw [hq] at hs
      obtain ⟨_, _, h, _⟩ := hs
      simp only [h, h5, List.nil_append]
    | _ => rw [hq] at hs; cases hs
  | fail e s' =>
    rw [hr] at hs
    cases hq : runA (validateProg isNum d n) (strip toks) with
    | fail r =>
      rw [hq] at hs
      obtain ⟨h7, h8, h9, pre', h10, h11⟩ := hs
      refine ⟨pre ++ pre', s'.rest, ?_, h7.symm, h9, ?_⟩
      · rw [h1, h10, List.append_assoc]
      · simp only [Outcome.err.injEq]
        rw [h8, h7, Clean.headD h9, h11, h4, nls_append, nls_all_nl h2]
        have : toks.head? = some nl ↔ pre ≠ [] := by
          cases pre with
          | nil =>
            simp only [List.nil_append] at h1
            rw [h1]; simp; exact h3
          | cons a p => rw [h1]; simp [h2 a (by simp)]
        simp only [this]
        cases pre with
        | nil => simp [VS.token]
        | cons a p => simp [VS.token]; omega
    | _ => rw [hq] at hs; cases hs
  | panic =>
    rw [hr] at hs
    cases hq : runA (validateProg isNum d n) (strip toks) with
    | panic => rfl
    | _ => rw [hq] at hs; cases hs
  | timeout =>
    rw [hr] at hs
    cases hq : runA (validateProg isNum d n) (strip toks) with
    | timeout => rfl
    | _ => rw [hq] at hs; cases hs

theorem validateN_mono (isNum : Str → Bool) (d : Rdbms) {n m : Nat} (h : n ≤ m) (toks : List Str) :
    validateN isNum d n toks = .timeout ∨ validateN isNum d n toks = validateN isNum d m toks := by
  unfold validateN
  rcases run_mono (validateProg_le isNum d h) (VS.init toks) with e | e
  · rw [e]; exact .inl rfl
  · rw [e]; exact .inr rfl

theorem validateN_ok_iff {isNum : Str → Bool} {d : Rdbms} {n : Nat} {toks out : List Str} :
    validateN isNum d n toks = .ok out ↔
      ∃ a r, runA (validateProg isNum d n) (strip toks) = .ok a r out := by
  have h := validateN_cases isNum d n toks
  cases hr : runA (validateProg isNum d n) (strip toks) with
  | ok a r o => rw [hr] at h; simp only at h; rw [h]; simp
  | fail r =>
    rw [hr] at h; obtain ⟨pre, rest, _, _, _, e⟩ := h; rw [e]; simp
  | panic => rw [hr] at h; simp only at h; rw [h]; simp
  | timeout => rw [hr] at h; simp only at h; rw [h]; simp

theorem validateN_good {isNum : Str → Bool} {d : Rdbms} {n : Nat} {toks out : List Str}
    (ht : ∀ t ∈ toks, Good t) (h : validateN isNum d n toks = .ok out) : ∀ t ∈ out, Good t := by
  obtain ⟨a, r, h⟩ := validateN_ok_iff.1 h
  exact runA_out_good (strip_good ht) h

theorem validateN_ne_panic {isNum : Str → Bool} {d : Rdbms} {n : Nat} {toks : List Str}
    (ht : ∀ t ∈ toks, Good t) : validateN isNum d n toks ≠ .panic := by
  intro h
  unfold validateN at h
  have : run (validateProg isNum d n) (VS.init toks) ≠ .panic :=
    run_no_panic _ _ (by
      obtain ⟨pre, h1, _⟩ := init_spec toks
      intro t hm
      refine (ht t ?_).1
      rw [h1]; exact List.mem_append_right _ hm)
  cases hr : run (validateProg isNum d n) (VS.init toks) with
  | panic => exact this hr
  | _ => rw [hr] at h; cases h

/-! ### Grammar -/

theorem script_impl_of {isNum : Str → Bool} (hN : NumOK isNum) (d : Rdbms) (n : Nat) :
    Impls n (validateProg isNum d n) (scriptL (stmtOf isNum d)) (scriptE isNum (vd d)) := by
  cases d
  · exact SqliteImpl.script_impl hN n
  · exact PostgresImpl.script_impl hN n
  · exact MysqlImpl.script_impl hN n
  · exact SqliteImpl.script_impl hN n

/-- What `Validate` does on tokens of the lexer, given enough fuel. -/
theorem validateN_spec {isNum : Str → Bool} (hN : NumOK isNum) (d : Rdbms) {n : Nat}
    {toks : List Str} (ht : ∀ t ∈ toks, Good t) (hn : toks.length < n) :
    (∃ ss out, validateN isNum d n toks = .ok out ∧ script isNum d (strip toks) ss ∧
      scriptE isNum (vd d) ss out ∧ ∀ ss', script isNum d (strip toks) ss' → ss' = ss) ∨
    (∃ e, validateN isNum d n toks = .err e ∧ ∀ ss, ¬ script isNum d (strip toks) ss) ∨
    (validateN isNum d n toks = .timeout ∧ (∀ ss, ¬ script isNum d (strip toks) ss) ∧
      Unclosed (strip toks)) := by
  have hI := script_impl_of hN d n (strip toks) (strip_ok ht hn)
  have hc := validateN_cases isNum d n toks
  unfold Impl at hI
  cases hr : runA (validateProg isNum d n) (strip toks) with
  | ok a r out =>
    rw [hr] at hI hc
    obtain ⟨ss, ⟨_, h1⟩, h2, h3⟩ := hI
    exact .inl ⟨ss, out, hc, h1, h2, fun ss' h => (h3 ss' [] ⟨rfl, h⟩).1⟩
  | fail r =>
    rw [hr] at hI hc
    obtain ⟨_, _, _, _, _, e⟩ := hc
    exact .inr (.inl ⟨_, e, fun ss h => hI ss [] ⟨rfl, h⟩⟩)
  | panic => rw [hr] at hI; exact hI.elim
  | timeout =>
    rw [hr] at hI hc
    exact .inr (.inr ⟨hc, fun ss h => hI.1 ss [] ⟨rfl, h⟩, hI.2⟩)

theorem scriptOk_of {isNum : Str → Bool} {d : Rdbms} {ts : List Str} {ss : List Stmt}
    (h : script isNum d ts ss) : ScriptOk ss := by
  cases d
  · exact sqlite_scriptOk h
  · exact postgres_scriptOk h
  · exact mysql_scriptOk h
  · exact sqlite_scriptOk h

theorem known_vd (d : Rdbms) : Known (vd d) := by cases d <;> simp [Known, vd]

/-! ### Parse -/

theorem convertN_mono [CaseMap] (isNum : Str → Bool) (d : Rdbms) {n m : Nat} (h : n ≤ m) (toks : List Str) :
    convertN isNum d n toks = .timeout ∨ convertN isNum d n toks = convertN isNum d m toks := by
  unfold convertN
  rcases C.convert_mono isNum d h [] toks with e | e
  · rw [e]; exact .inl rfl
  · rw [e]; exact .inr rfl

theorem convertN_ne_err [CaseMap] {isNum : Str → Bool} {d : Rdbms} {n : Nat} {toks : List Str} (e : VErr) :
    convertN isNum d n toks ≠ .err e := by
  unfold convertN
  cases C.convert isNum d n [] toks <;> simp

theorem convertN_ne_panic [CaseMap] {isNum : Str → Bool} {d : Rdbms} {n : Nat} {toks : List Str}
    (ht : ∀ t ∈ toks, Good t) : convertN isNum d n toks ≠ .panic := by
  unfold convertN
  have := ((C.convert_safe isNum d n []).out toks ht).1
  cases h : C.convert isNum d n [] toks with
  | panic => exact absurd h this
  | _ => simp

theorem parseN_mono [CaseMap] (isNum : Str → Bool) (d : Rdbms) {n m : Nat} (h : n ≤ m) (ddl : List Char) :
    parseN isNum n ddl d = .timeout ∨ parseN isNum n ddl d = parseN isNum m ddl d := by
  unfold parseN
  rcases Lex.lexN_mono d h ddl with e | e
  · rw [e]; exact .inl rfl
  · rw [← e]
    cases Lex.lexN d n ddl with
    | ok toks =>
      rcases validateN_mono isNum d h toks with e | e
      · simp only [e]; exact .inl trivial
      · simp only [← e]
        cases validateN isNum d n toks with
        | ok out =>
          rcases convertN_mono isNum d h out with e | e
          · simp only [e]; exact .inl trivial
          · simp only [← e]; exact .inr trivial
        | _ => exact .inr rfl
    | _ => exact .inr rfl

theorem parseN_ne_panic [CaseMap] (isNum : Str → Bool) (n : Nat) (ddl : List Char) (d : Rdbms) :
    parseN isNum n ddl d ≠ .panic := by
  unfold parseN
  cases hl : Lex.lexN d n ddl with
  | ok toks =>
    simp only
    cases hv : validateN isNum d n toks with
    | ok out =>
      simp only
      cases hc : convertN isNum d n out with
      | panic => exact absurd hc (convertN_ne_panic (validateN_good (lexN_good hl) hv))
      | _ => simp
    | panic => exact absurd hv (validateN_ne_panic (lexN_good hl))
    | _ => simp
  | panic =>
    rcases Lex.lexN_scan d n ddl with e | e
    · rw [e] at hl; cases hl
    · rw [e] at hl; exact absurd hl (Lex.scan_ne_panic _ _ _ _ _)
  | _ => simp

theorem parseN_ne_err [CaseMap] (isNum : Str → Bool) (n : Nat) (ddl : List Char) (d : Rdbms) (e : VErr) :
    parseN isNum n ddl d ≠ .err e := by
  unfold parseN
  cases hl : Lex.lexN d n ddl with
  | ok toks =>
    simp only
    cases hv : validateN isNum d n toks with
    | ok out =>
      simp only
      cases hc : convertN isNum d n out <;> simp
    | _ => simp
  | _ => simp

/-- A run that finishes has the same outcome with any other number of steps that finishes. -/
theorem Returns.unique [CaseMap] {isNum ddl d r r'} (h : Returns isNum ddl d r) (h' : Returns isNum ddl d r') :
    r = r' := by
  obtain ⟨n, h⟩ := h
  obtain ⟨m, h'⟩ := h'
  rcases Nat.le_total n m with hnm | hnm
  · rcases parseN_mono isNum d hnm ddl with e | e
    · rw [h] at e; cases e
    · rw [h, h'] at e; cases e; rfl
  · rcases parseN_mono isNum d hnm ddl with e | e
    · rw [h'] at e; cases e
    · rw [h, h'] at e; cases e; rfl

theorem returns_or_hangs [CaseMap] (isNum : Str → Bool) (ddl : List Char) (d : Rdbms) :
    (∃ r, Returns isNum ddl d r) ∨ Hangs isNum ddl d := by
  by_cases h : Hangs isNum ddl d
  · exact .inr h
  · obtain ⟨n, hn⟩ := Classical.not_forall.1 h
    cases hp : parseN isNum n ddl d with
    | ok r => exact .inl ⟨r, n, hp⟩
    | err e => exact absurd hp (parseN_ne_err _ _ _ _ _)
    | panic => exact absurd hp (parseN_ne_panic _ _ _ _)
    | timeout => exact absurd hp hn

theorem not_returns_and_hangs [CaseMap] {isNum ddl d r} (h : Returns isNum ddl d r)
    (h' : Hangs isNum ddl d) : False := by
  obtain ⟨n, h⟩ := h
  rw [h' n] at h; cases h

/-! ### Stages -/

theorem Lexes.unique {d ddl t t'} (h : Lexes d ddl t) (h' : Lexes d ddl t') : t = t' := by
  obtain ⟨n, h⟩ := h
  obtain ⟨m, h'⟩ := h'
  rcases Lex.lexN_scan d n ddl with e | e <;> rw [e] at h
  · cases h
  · rcases Lex.lexN_scan d m ddl with e' | e' <;> rw [e'] at h'
    · cases h'
    · rw [h] at h'; cases h'; rfl

theorem lexes_iff {d ddl t} : Lexes d ddl t ↔ Lex.scan d (.top []) ddl 1 [] = .ok t := by
  constructor
  · rintro ⟨n, h⟩
    rcases Lex.lexN_scan d n ddl with e | e <;> rw [e] at h
    · cases h
    · exact h
  · intro h
    exact ⟨ddl.length + 1, by rw [Lex.lexN_eq_scan d _ ddl (by omega)]; exact h⟩

theorem lexFails_iff {d ddl e} : LexFails d ddl e ↔ Lex.scan d (.top []) ddl 1 [] = .err e := by
  constructor
  · rintro ⟨n, h⟩
    rcases Lex.lexN_scan d n ddl with e | e <;> rw [e] at h
    · cases h
    · exact h
  · intro h
    exact ⟨ddl.length + 1, by rw [Lex.lexN_eq_scan d _ ddl (by omega)]; exact h⟩

theorem lexes_or_fails (d : Rdbms) (ddl : List Char) :
    (∃ t, Lexes d ddl t) ∨ ∃ e, LexFails d ddl e := by
  cases h : Lex.scan d (.top []) ddl 1 [] with
  | ok t => exact .inl ⟨t, lexes_iff.2 h⟩
  | err e => exact .inr ⟨e, lexFails_iff.2 h⟩
  | panic => exact absurd h (Lex.scan_ne_panic _ _ _ _ _)
  | timeout => exact absurd h (Lex.scan_ne_timeout _ _ _ _ _)

theorem lex_not_both {d ddl t e} (h : Lexes d ddl t) (h' : LexFails d ddl e) : False := by
  rw [lexes_iff] at h; rw [lexFails_iff, h] at h'; cases h'

theorem LexFails.unique {d ddl e e'} (h : LexFails d ddl e) (h' : LexFails d ddl e') : e = e' := by
  rw [lexFails_iff] at h h'; rw [h] at h'; cases h'; rfl

theorem Lexes.mono {d ddl t n m} (h : Lex.lexN d n ddl = .ok t) (hnm : n ≤ m) :
    Lex.lexN d m ddl = .ok t := by
  rcases Lex.lexN_mono d hnm ddl with e | e
  · rw [e] at h; cases h
  · rw [← e]; exact h

theorem Validates.mono {isNum d t o n m} (h : validateN isNum d n t = .ok o) (hnm : n ≤ m) :
    validateN isNum d m t = .ok o := by
  rcases validateN_mono isNum d hnm t with e | e
  · rw [e] at h; cases h
  · rw [← e]; exact h

theorem Rejects.mono {isNum d t o n m} (h : validateN isNum d n t = .err o) (hnm : n ≤ m) :
    validateN isNum d m t = .err o := by
  rcases validateN_mono isNum d hnm t with e | e
  · rw [e] at h; cases h
  · rw [← e]; exact h

theorem Converts.mono [CaseMap] {isNum d t o n m} (h : convertN isNum d n t = .ok o) (hnm : n ≤ m) :
    convertN isNum d m t = .ok o := by
  rcases convertN_mono isNum d hnm t with e | e
  · rw [e] at h; cases h
  · rw [← e]; exact h

theorem Validates.unique {isNum d t o o'} (h : Validates isNum d t o) (h' : Validates isNum d t o') :
    o = o' := by
  obtain ⟨n, h⟩ := h
  obtain ⟨m, h'⟩ := h'
  have a := Validates.mono h (Nat.le_max_left n m)
  have b := Validates.mono h' (Nat.le_max_right n m)
  rw [a] at b; cases b; rfl

theorem validates_not_rejects {isNum d t o e} (h : Validates isNum d t o)
    (h' : Rejects isNum d t e) : False := by
  obtain ⟨n, h⟩ := h
  obtain ⟨m, h'⟩ := h'
  have a := Validates.mono h (Nat.le_max_left n m)
  have b := Rejects.mono h' (Nat.le_max_right n m)
  rw [a] at b; cases b

theorem Rejects.unique {isNum d t e e'} (h : Rejects isNum d t e)
    (h' : Rejects isNum d t e') : e = e' := by
  obtain ⟨n, h⟩ := h
  obtain ⟨m, h'⟩ := h'
  have a := Rejects.mono h (Nat.le_max_left n m)
  have b := Rejects.mono h' (Nat.le_max_right n m)
  rw [a] at b; cases b; rfl

/-- `Parse` returns tables iff the three stages succeed. -/
theorem returns_ok_iff [CaseMap] {isNum ddl d r} : Returns isNum ddl d (r, none) ↔
    ∃ toks out, Lexes d ddl toks ∧ Validates isNum d toks out ∧ Converts isNum d out r := by
  constructor
  · rintro ⟨n, h⟩
    unfold parseN at h
    cases hl : Lex.lexN d n ddl with
    | ok toks =>
      rw [hl] at h; simp only at h
      cases hv : validateN isNum d n toks with
      | ok out =>
        rw [hv] at h; simp only at h
        cases hc : convertN isNum d n out with
        | ok ts => rw [hc] at h; cases h; exact ⟨toks, out, ⟨n, hl⟩, ⟨n, hv⟩, ⟨n, hc⟩⟩
        | _ => rw [hc] at h; cases h
      | _ => rw [hv] at h; cases h
    | _ => rw [hl] at h; cases h
  · rintro ⟨toks, out, ⟨n1, h1⟩, ⟨n2, h2⟩, ⟨n3, h3⟩⟩
    refine ⟨n1 + n2 + n3, ?_⟩
    unfold parseN
    rw [Lexes.mono h1 (by omega : n1 ≤ n1 + n2 + n3)]
    simp only
    rw [Validates.mono h2 (by omega : n2 ≤ n1 + n2 + n3)]
    simp only
    rw [Converts.mono h3 (by omega : n3 ≤ n1 + n2 + n3)]

/-- `Parse` returns an error iff the lexer or the syntax check does, and then no table. -/
theorem returns_err_iff [CaseMap] {isNum ddl d r e} : Returns isNum ddl d (r, some e) ↔
    r = [] ∧ (LexFails d ddl e ∨ ∃ toks, Lexes d ddl toks ∧ Rejects isNum d toks e) := by
  constructor
  · rintro ⟨n, h⟩
    unfold parseN at h
    cases hl : Lex.lexN d n ddl with
    | ok toks =>
      rw [hl] at h; simp only at h
      cases hv : validateN isNum d n toks with
      | ok out =>
        rw [hv] at h; simp only at h
        cases hc : convertN isNum d n out with
        | err e => exact absurd hc (convertN_ne_err e)
        | _ => rw [hc] at h; cases h
      | err e => rw [hv] at h; cases h; exact ⟨rfl, .inr ⟨toks, ⟨n, hl⟩, ⟨n, hv⟩⟩⟩
      | _ => rw [hv] at h; cases h
    | err e => rw [hl] at h; cases h; exact ⟨rfl, .inl ⟨n, hl⟩⟩
    | _ => rw [hl] at h; cases h
  · rintro ⟨rfl, ⟨n, h⟩ | ⟨toks, ⟨n1, h1⟩, ⟨n2, h2⟩⟩⟩
    · exact ⟨n, by unfold parseN; rw [h]⟩
    · refine ⟨n1 + n2, ?_⟩
      unfold parseN
      rw [Lexes.mono h1 (by omega : n1 ≤ n1 + n2)]
      simp only
      rw [Rejects.mono h2 (by omega : n2 ≤ n1 + n2)]

/-! ### Acceptance and tables -/

theorem validates_iff {isNum : Str → Bool} (hN : NumOK isNum) {d : Rdbms} {toks : List Str}
    (ht : ∀ t ∈ toks, Good t) :
    (∃ out, Validates isNum d toks out) ↔ ∃ ss, script isNum d (strip toks) ss := by
  constructor
  · rintro ⟨out, n, h⟩
    have h := Validates.mono h (Nat.le_max_left n (toks.length + 1))
    rcases validateN_spec hN d ht (Nat.lt_of_lt_of_le (Nat.lt_succ_self _)
      (Nat.le_max_right n (toks.length + 1))) with ⟨ss, _, _, h2, _⟩ | ⟨e, h', _⟩ | ⟨h', _⟩
    · exact ⟨ss, h2⟩
    · rw [h] at h'; cases h'
    · rw [h] at h'; cases h'
  · rintro ⟨ss, h⟩
    rcases validateN_spec hN d ht (Nat.lt_succ_self _) with ⟨ss, out, h1, _⟩ | ⟨e, _, h'⟩ |
      ⟨_, h', _⟩
    · exact ⟨out, _, h1⟩
    · exact absurd h (h' ss)
    · exact absurd h (h' ss)

theorem validates_scriptE {isNum : Str → Bool} (hN : NumOK isNum) {d : Rdbms} {toks out : List Str}
    {ss : List Stmt} (ht : ∀ t ∈ toks, Good t) (h : Validates isNum d toks out)
    (hs : script isNum d (strip toks) ss) : scriptE isNum (vd d) ss out := by
  rcases validateN_spec hN d ht (Nat.lt_succ_self _) with ⟨ss', out', h1, h2, h3, h4⟩ |
    ⟨e, _, h'⟩ | ⟨_, h', _⟩
  · rw [h4 ss hs, Validates.unique h ⟨_, h1⟩]; exact h3
  · exact absurd hs (h' ss)
  · exact absurd hs (h' ss)

theorem script_unique {isNum : Str → Bool} (hN : NumOK isNum) {d : Rdbms} {ts : List Str}
    {ss ss' : List Stmt} (ht : ∀ t ∈ ts, Good t) (h : script isNum d ts ss)
    (h' : script isNum d ts ss') : ss = ss' := by
  have hI := script_impl_of hN d (ts.length + 1) ts ⟨Nat.lt_succ_self _, ht⟩
  unfold Impl at hI
  cases hr : runA (validateProg isNum d (ts.length + 1)) ts with
  | ok a r out =>
    rw [hr] at hI
    obtain ⟨v, _, _, hu⟩ := hI
    rw [(hu ss [] ⟨rfl, h⟩).1, (hu ss' [] ⟨rfl, h'⟩).1]
  | fail r => rw [hr] at hI; exact absurd ⟨rfl, h⟩ (hI ss [])
  | panic => rw [hr] at hI; exact hI.elim
  | timeout => rw [hr] at hI; exact absurd ⟨rfl, h⟩ (hI.1 ss [])

theorem converts_of_script [CaseMap] {isNum : Str → Bool} (hN : NumOK isNum) {d : Rdbms}
    {toks out : List Str} {ss : List Stmt} (ht : ∀ t ∈ toks, Good t)
    (h : Validates isNum d toks out) (hs : script isNum d (strip toks) ss) (hf : Faithful ss) :
    Converts isNum d out (tablesVal isNum d ss) := by
  refine ⟨out.length + 1, ?_⟩
  unfold convertN
  rw [convert_ok hN (known_vd d) (validates_scriptE hN ht h hs) (scriptOk_of hs) hf [] _
    (Nat.lt_succ_self _)]
  rfl

/-- The main theorem on results: a faithful script is parsed to what it denotes. -/
theorem returns_of_script [CaseMap] {isNum : Str → Bool} (hN : NumOK isNum) {d : Rdbms} {ddl : List Char}
    {toks : List Str} {ss : List Stmt} (hl : Lexes d ddl toks)
    (hs : script isNum d (strip toks) ss) (hf : Faithful ss) :
    Returns isNum ddl d (tablesVal isNum d ss, none) := by
  obtain ⟨out, hv⟩ := (validates_iff hN (Lexes.good hl)).2 ⟨ss, hs⟩
  exact returns_ok_iff.2 ⟨toks, out, hl, hv, converts_of_script hN (Lexes.good hl) hv hs hf⟩

theorem passes_iff {isNum : Str → Bool} (hN : NumOK isNum) {d : Rdbms} {ddl : List Char} :
    Passes isNum d ddl ↔ ∃ toks ss, Lexes d ddl toks ∧ script isNum d (strip toks) ss := by
  constructor
  · rintro ⟨toks, out, hl, hv⟩
    obtain ⟨ss, h⟩ := (validates_iff hN (Lexes.good hl)).1 ⟨out, hv⟩
    exact ⟨toks, ss, hl, h⟩
  · rintro ⟨toks, ss, hl, h⟩
    obtain ⟨out, hv⟩ := (validates_iff hN (Lexes.good hl)).2 ⟨ss, h⟩
    exact ⟨toks, out, hl, hv⟩

end DDL
