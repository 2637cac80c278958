import Verif.Props.RoundTrip
/-
C07, C08, C09: the returned tables are what the statements say.
-/

namespace DDL.Props
open DDL Spec

/-- C07: SQLite. `ss` are the statements, `tablesVal` the tables they denote. -/
theorem C07_sqlite_tables [CaseMap] {isNum : Str → Bool} (hN : NumOK isNum) {ddl : List Char}
    {toks : List Str} {ss : List Stmt} (hl : Lexes .sqlite ddl toks)
    (hs : Sqlite.script isNum (noNewlines toks) ss) (hf : Faithful ss) :
    Returns isNum ddl .sqlite (tablesVal isNum .sqlite ss, none) :=
  returns_of_script hN hl hs hf

/-- C08: PostgreSQL. -/
theorem C08_postgres_tables [CaseMap] {isNum : Str → Bool} (hN : NumOK isNum) {ddl : List Char}
    {toks : List Str} {ss : List Stmt} (hl : Lexes .postgres ddl toks)
    (hs : Postgres.script isNum (noNewlines toks) ss) (hf : Faithful ss) :
    Returns isNum ddl .postgres (tablesVal isNum .postgres ss, none) :=
  returns_of_script hN hl hs hf

/-- C09: MySQL. -/
theorem C09_mysql_tables [CaseMap] {isNum : Str → Bool} (hN : NumOK isNum) {ddl : List Char}
    {toks : List Str} {ss : List Stmt} (hl : Lexes .mysql ddl toks)
    (hs : Mysql.script isNum (noNewlines toks) ss) (hf : Faithful ss) :
    Returns isNum ddl .mysql (tablesVal isNum .mysql ss, none) :=
  returns_of_script hN hl hs hf

/-! The hypotheses are met by the printed example table of C10, in each dialect; here the tables
denoted are those of the example. -/

theorem printed_example (d : Rdbms) (hd : d ≠ .other) :
    ∃ toks ss, Lexes d (scriptText d [exampleTable]) toks ∧ script simpleNum d (noNewlines toks) ss ∧
      Faithful ss ∧ tablesVal simpleNum d ss = [exampleTable] := by
  obtain ⟨ts, ss, h1, h2, h3, h4, _⟩ := script_ok simpleNum_ok hd (tabs := [exampleTable])
    (fun t ht => by rw [List.mem_singleton.1 ht]; exact exampleTable_ok d hd)
  refine ⟨ts, ss, h1.lexes, ?_, h4, h3⟩
  have e : noNewlines ts = ts := strip_id h1.no_nl
  rw [e]
  exact h2

example : ∃ toks ss, Lexes .sqlite (scriptText .sqlite [exampleTable]) toks ∧
    Sqlite.script simpleNum (noNewlines toks) ss ∧ Faithful ss ∧
    tablesVal simpleNum .sqlite ss = [exampleTable] := printed_example .sqlite (by decide)

example : ∃ toks ss, Lexes .postgres (scriptText .postgres [exampleTable]) toks ∧
    Postgres.script simpleNum (noNewlines toks) ss ∧ Faithful ss ∧
    tablesVal simpleNum .postgres ss = [exampleTable] := printed_example .postgres (by decide)

example : ∃ toks ss, Lexes .mysql (scriptText .mysql [exampleTable]) toks ∧
    Mysql.script simpleNum (noNewlines toks) ss ∧ Faithful ss ∧
    tablesVal simpleNum .mysql ss = [exampleTable] := printed_example .mysql (by decide)

end DDL.Props
