import Verif.Proof.GrammarFacts
import Verif.Proof.Num
/-
C02, C04, C05, C06, C12, C13: which scripts are accepted.
-/

namespace DDL.Props
open DDL Spec

/-! ### C04, C05, C06 -/

/-- C04: the SQLite scripts that pass the syntax check are exactly those of the grammar. -/
theorem C04_sqlite_accepts {isNum : Str → Bool} (hN : NumOK isNum) {ddl : List Char} :
    Passes isNum .sqlite ddl ↔
      ∃ toks ss, Lexes .sqlite ddl toks ∧ Sqlite.script isNum (noNewlines toks) ss :=
  passes_iff hN

/-- C04, rejection: a text outside the grammar is answered with an error, or (open parenthesis)
not at all. -/
theorem C04_sqlite_rejects [CaseMap] {isNum : Str → Bool} (hN : NumOK isNum) {ddl : List Char}
    {toks : List Str} (hl : Lexes .sqlite ddl toks)
    (h : ∀ ss, ¬ Sqlite.script isNum (noNewlines toks) ss) :
    (∃ e, Returns isNum ddl .sqlite ([], some e)) ∨
    (Hangs isNum ddl .sqlite ∧ Unclosed (noNewlines toks)) :=
  rejected_or_hangs hN hl h

/-- C04: a script can be read in one way only. -/
theorem C04_sqlite_unambiguous {isNum : Str → Bool} (hN : NumOK isNum) {ddl : List Char}
    {toks : List Str} {ss ss' : List Stmt} (hl : Lexes .sqlite ddl toks)
    (h : Sqlite.script isNum (noNewlines toks) ss) (h' : Sqlite.script isNum (noNewlines toks) ss') :
    ss = ss' :=
  script_unique (d := .sqlite) hN (strip_good (Lexes.good hl)) h h'

/-- C05: the PostgreSQL scripts that pass the syntax check are exactly those of the grammar. -/
theorem C05_postgres_accepts {isNum : Str → Bool} (hN : NumOK isNum) {ddl : List Char} :
    Passes isNum .postgres ddl ↔
      ∃ toks ss, Lexes .postgres ddl toks ∧ Postgres.script isNum (noNewlines toks) ss :=
  passes_iff hN

/-- C05, rejection. -/
theorem C05_postgres_rejects [CaseMap] {isNum : Str → Bool} (hN : NumOK isNum) {ddl : List Char}
    {toks : List Str} (hl : Lexes .postgres ddl toks)
    (h : ∀ ss, ¬ Postgres.script isNum (noNewlines toks) ss) :
    (∃ e, Returns isNum ddl .postgres ([], some e)) ∨
    (Hangs isNum ddl .postgres ∧ Unclosed (noNewlines toks)) :=
  rejected_or_hangs hN hl h

/-- C05: a script can be read in one way only. -/
theorem C05_postgres_unambiguous {isNum : Str → Bool} (hN : NumOK isNum) {ddl : List Char}
    {toks : List Str} {ss ss' : List Stmt} (hl : Lexes .postgres ddl toks)
    (h : Postgres.script isNum (noNewlines toks) ss)
    (h' : Postgres.script isNum (noNewlines toks) ss') : ss = ss' :=
  script_unique (d := .postgres) hN (strip_good (Lexes.good hl)) h h'

/-- C06: the MySQL scripts that pass the syntax check are exactly those of the grammar. -/
theorem C06_mysql_accepts {isNum : Str → Bool} (hN : NumOK isNum) {ddl : List Char} :
    Passes isNum .mysql ddl ↔
      ∃ toks ss, Lexes .mysql ddl toks ∧ Mysql.script isNum (noNewlines toks) ss :=
  passes_iff hN

/-- C06, rejection. -/
theorem C06_mysql_rejects [CaseMap] {isNum : Str → Bool} (hN : NumOK isNum) {ddl : List Char}
    {toks : List Str} (hl : Lexes .mysql ddl toks)
    (h : ∀ ss, ¬ Mysql.script isNum (noNewlines toks) ss) :
    (∃ e, Returns isNum ddl .mysql ([], some e)) ∨
    (Hangs isNum ddl .mysql ∧ Unclosed (noNewlines toks)) :=
  rejected_or_hangs hN hl h

/-- C06: a script can be read in one way only. -/
theorem C06_mysql_unambiguous {isNum : Str → Bool} (hN : NumOK isNum) {ddl : List Char}
    {toks : List Str} {ss ss' : List Stmt} (hl : Lexes .mysql ddl toks)
    (h : Mysql.script isNum (noNewlines toks) ss) (h' : Mysql.script isNum (noNewlines toks) ss') :
    ss = ss' :=
  script_unique (d := .mysql) hN (strip_good (Lexes.good hl)) h h'

/-- Example: tokens that the grammar derives, because the text passes. -/
example : ∃ toks ss, Lexes .postgres "create table s1.t (x bit varying(3) null);\n".toList toks ∧
    Postgres.script simpleNum (noNewlines toks) ss :=
  (C05_postgres_accepts simpleNum_ok).1
    ⟨[S "create", S "table", S "s1", S ".", S "t", S "(", S "x", S "bit", S "varying", S "(", S "3",
      S ")", S "null", S ")", S ";", S "\n"], [S "CREATE", S "table", S "s1", S ".", S "t", S "(", S "x", S "bit", S "varying", S "(",
      S "3", S ")", S ")", S ";"], ⟨60, by decide +kernel⟩, ⟨60, by decide +kernel⟩⟩

/-- Example: a text that passes SQLite's check and no other. -/
example : Passes simpleNum .sqlite "CREATE TABLE t (a NONE) STRICT, WITHOUT ROWID;".toList :=
  ⟨[S "CREATE", S "TABLE", S "t", S "(", S "a", S "NONE", S ")", S "STRICT", S ",", S "WITHOUT",
    S "ROWID", S ";"], [S "CREATE", S "TABLE", S "t", S "(", S "a", S "NONE", S ")", S ";"],
    ⟨60, by decide +kernel⟩, ⟨60, by decide +kernel⟩⟩

/-- Example: a text that passes MySQL's check and no other. -/
example : Passes simpleNum .mysql "CREATE TABLE t (a YEAR KEY) ENGINE InnoDB, MAX_ROWS 3;".toList :=
  ⟨[S "CREATE", S "TABLE", S "t", S "(", S "a", S "YEAR", S "KEY", S ")", S "ENGINE", S "InnoDB",
    S ",", S "MAX_ROWS", S "3", S ";"], [S "CREATE", S "TABLE", S "t", S "(", S "a", S "YEAR", S "PRIMARY", S "KEY", S ")", S ";"],
    ⟨60, by decide +kernel⟩, ⟨60, by decide +kernel⟩⟩

/-- Example for the rejections: tokens without a derivation. -/
example : ∀ ss, ¬ Sqlite.script simpleNum [S "CREATE", S "TABLE", S "t", S "(", S ")", S ";"] ss := by
  intro ss h
  have hl : Lexes .sqlite "CREATE TABLE t ();".toList
      [S "CREATE", S "TABLE", S "t", S "(", S ")", S ";"] := ⟨60, by decide +kernel⟩
  have hp : Passes simpleNum .sqlite "CREATE TABLE t ();".toList :=
    (C04_sqlite_accepts simpleNum_ok).2 ⟨_, ss, hl, by
      have e : noNewlines [S "CREATE", S "TABLE", S "t", S "(", S ")", S ";"] =
        [S "CREATE", S "TABLE", S "t", S "(", S ")", S ";"] := by decide +kernel
      rw [e]; exact h⟩
  obtain ⟨toks, out, hl', hv⟩ := hp
  cases Lexes.unique hl hl'
  exact validates_not_rejects hv (e := ⟨1, S ")"⟩) ⟨60, by decide +kernel⟩

/-! ### C02 -/

/-- C02: `Parse` returns, unless an opening parenthesis is never closed, or the script is one of those
that are accepted but not converted faithfully (schema-qualified REFERENCES, MySQL index
definitions, a leading unnamed EXCLUDE, constraints named AUTO_INCREMENT). Missing: for these the
statement is false, see C03, C33 and C34. -/
theorem C02_returns_partial [CaseMap] {isNum : Str → Bool} (hN : NumOK isNum) {d : Rdbms} {ddl : List Char}
    (hu : ∀ toks, Lexes d ddl toks → ¬ Unclosed (noNewlines toks))
    (hf : ∀ toks ss, Lexes d ddl toks → script isNum d (noNewlines toks) ss → Faithful ss) :
    ∃ r, Returns isNum ddl d r := by
  rcases lexes_or_fails d ddl with ⟨toks, hl⟩ | ⟨e, he⟩
  · by_cases h : ∃ ss, script isNum d (strip toks) ss
    · obtain ⟨ss, h⟩ := h
      exact ⟨_, returns_of_script hN hl h (hf toks ss hl h)⟩
    · rcases rejected_or_hangs hN hl (fun ss hs => h ⟨ss, hs⟩) with ⟨e, h⟩ | ⟨_, h⟩
      · exact ⟨_, h⟩
      · exact absurd h (hu toks hl)
  · exact ⟨([], some e), returns_err_iff.2 ⟨rfl, .inl he⟩⟩

/-- C02, errors: whatever is not accepted and has no open parenthesis is answered with an error. -/
theorem C02_rejected_returns [CaseMap] {isNum : Str → Bool} (hN : NumOK isNum) {d : Rdbms} {ddl : List Char}
    (hp : ¬ Passes isNum d ddl) (hu : ∀ toks, Lexes d ddl toks → ¬ Unclosed (noNewlines toks)) :
    ∃ e, Returns isNum ddl d ([], some e) := by
  rcases lexes_or_fails d ddl with ⟨toks, hl⟩ | ⟨e, he⟩
  · rcases rejected_or_hangs hN hl (fun ss hs => hp ((passes_iff hN).2 ⟨toks, ss, hl, hs⟩)) with
      ⟨e, h⟩ | ⟨_, h⟩
    · exact ⟨e, h⟩
    · exact absurd h (hu toks hl)
  · exact ⟨e, returns_err_iff.2 ⟨rfl, .inl he⟩⟩

/-! ### C12 -/

/-- C12: a statement that is not a table can be removed without changing the outcome, whatever comes
after it: the same tables, an error near the same token, or no answer. -/
theorem C12_skipped [CaseMap] {isNum : Str → Bool} (hN : NumOK isNum) {d : Rdbms} {a b : List Char}
    {TA TB before skipped after : List Str} {ss : List Stmt} (ha : Lexes d a TA) (hb : Lexes d b TB)
    (hA : noNewlines TA = before ++ skipped ++ after) (hB : noNewlines TB = before ++ after)
    (hs : script isNum d before ss) (ho : stmtOf isNum d skipped .other []) :
    SameOutcome isNum d a b :=
  sameOutcome_skip hN ha hb hA hB hs ho

/-- C12: `CREATE kind ... BEGIN ... END ...;` is such a statement, whatever is between BEGIN and
END (END excepted), semicolons included. -/
theorem C12_begin_end (isNum : Str → Bool) (d : Rdbms) {c k b e : Str} {pre inner post : List Str}
    (hc : Kw ["CREATE"] c) (hk : Kw (skippedKinds d) k)
    (hpre : ∀ t ∈ pre, ¬ Kw [";"] t ∧ ¬ Kw ["BEGIN"] t) (hb : Kw ["BEGIN"] b)
    (hi : ∀ t ∈ inner, ¬ Kw ["END"] t) (he : Kw ["END"] e)
    (hpost : ∀ t ∈ post, ¬ Kw [";"] t ∧ ¬ Kw ["BEGIN"] t) :
    stmtOf isNum d (c :: k :: (pre ++ b :: inner ++ e :: post ++ [S ";"])) .other [] := by
  have plains : ∀ {xs ts : List Str}, (∀ t ∈ xs, ¬ Kw [";"] t ∧ ¬ Kw ["BEGIN"] t) →
      Body ts () [] → Body (xs ++ ts) () [] := by
    intro xs ts h hb
    induction xs with
    | nil => exact hb
    | cons x xs ih =>
      exact .plain (h x (by simp)).1 (h x (by simp)).2 (ih fun t ht => h t (by simp [ht]))
  refine other_intro hc hk ?_
  simp only [List.append_assoc, List.cons_append]
  refine plains hpre ?_
  refine .block (b := b) (inner := inner) (e := e) hb hi he ?_
  refine plains hpost (.stop (kw_intro ?_))
  exact ⟨";", by simp, .inl rfl⟩

/-- C12: and so is `CREATE kind ...;` without BEGIN. -/
theorem C12_plain (isNum : Str → Bool) (d : Rdbms) {c k : Str} {body : List Str}
    (hc : Kw ["CREATE"] c) (hk : Kw (skippedKinds d) k)
    (hb : ∀ t ∈ body, ¬ Kw [";"] t ∧ ¬ Kw ["BEGIN"] t) :
    stmtOf isNum d (c :: k :: (body ++ [S ";"])) .other [] := by
  refine other_intro hc hk ?_
  induction body with
  | nil => exact .stop (kw_intro ⟨";", by simp, .inl rfl⟩)
  | cons x xs ih =>
    exact .plain (hb x (by simp)).1 (hb x (by simp)).2 (ih fun t ht => hb t (by simp [ht]))

/-- Example: a trigger with a body, between two tables. -/
example : Returns simpleNum ("CREATE TABLE a (x INTEGER); " ++
    "create trigger g after insert on a begin delete from a; end; CREATE TABLE b (y TEXT);").toList
    .sqlite ([{ name := S "a", columns := [{ name := S "x", dataType := ⟨S "INTEGER", 0, 0⟩ }] },
      { name := S "b", columns := [{ name := S "y", dataType := ⟨S "TEXT", 0, 0⟩ }] }], none) :=
  ⟨150, by decide +kernel⟩

/-- A CASE expression inside BEGIN ... END ends the group too early: its END counts. -/
theorem C12_case_negation : Returns simpleNum
    "CREATE TRIGGER g AFTER INSERT ON a BEGIN SELECT CASE 1 WHEN 2 THEN 3 END; SELECT 4; END;".toList
    .sqlite ([], some ⟨1, S "SELECT"⟩) := ⟨150, by decide +kernel⟩

/-! ### C13 -/

/-- C13: a text is only accepted if it has no tokens or its last token is `;`. -/
theorem C13_semicolon {isNum : Str → Bool} (hN : NumOK isNum) {d : Rdbms} {ddl : List Char}
    {toks : List Str} (hl : Lexes d ddl toks) (hne : noNewlines toks ≠ [])
    (hlast : (noNewlines toks).getLast? ≠ some (S ";")) : ¬ Passes isNum d ddl := by
  intro hp
  obtain ⟨t, ss, h1, h2⟩ := (passes_iff hN).1 hp
  cases Lexes.unique hl h1
  rcases script_last h2 with h | h
  · exact hne h
  · exact hlast h

/-- C13: so `Parse` never returns tables for it. -/
theorem C13_no_tables [CaseMap] {isNum : Str → Bool} (hN : NumOK isNum) {d : Rdbms} {ddl : List Char}
    {toks : List Str} {r : List Table} (hl : Lexes d ddl toks) (hne : noNewlines toks ≠ [])
    (hlast : (noNewlines toks).getLast? ≠ some (S ";")) : ¬ Returns isNum ddl d (r, none) := by
  intro h
  obtain ⟨t, o, h1, h2, _⟩ := returns_ok_iff.1 h
  exact C13_semicolon hN hl hne hlast ⟨t, o, h1, h2⟩

/-- Example: the README's optional final `;`. -/
example : Returns simpleNum "CREATE TABLE t (a INTEGER)".toList .sqlite ([], some ⟨1, EOF⟩) :=
  ⟨60, by decide +kernel⟩

/-- C13, the exception: texts without tokens, that is layout and comments only, give no tables. -/
theorem C13_empty [CaseMap] (isNum : Str → Bool) {d : Rdbms} {ddl : List Char} {toks : List Str}
    (hl : Lexes d ddl toks) (he : noNewlines toks = []) : Returns isNum ddl d ([], none) := by
  have hv : Validates isNum d toks [] := by
    refine ⟨1, validateN_ok_iff.2 ⟨(), [], ?_⟩⟩
    rw [show strip toks = [] from he]
    cases d <;> rfl
  exact returns_ok_iff.2 ⟨toks, [], hl, hv, ⟨1, rfl⟩⟩

example : Returns simpleNum " -- nothing\n /* here */\n".toList .mysql ([], none) :=
  ⟨40, by decide +kernel⟩

end DDL.Props
