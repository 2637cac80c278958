import Verif.Proof.BeforeRep
import Verif.Props.Exact
import Verif.Props.Before
/-
C64: what is reported when a column constraint is named AUTOINCREMENT or AUTO_INCREMENT.
-/

namespace DDL.Props
open DDL Spec Conv

/-- C64: of an accepted script without references to tables with a schema, without index definitions, and without an
unnamed EXCLUDE followed by another entry at the start of a definition, the tables are returned as written, but for the columns whose
constraint is named AUTOINCREMENT or AUTO_INCREMENT: these have a constraint without name and count as
AUTOINCREMENT. -/
theorem C64_tables [CaseMap] {isNum : Str → Bool} (hN : NumOK isNum) {d : Rdbms} {ddl : List Char}
    {toks : List Str} {ss : List Stmt} (hl : Lexes d ddl toks) (hs : script isNum d (noNewlines toks) ss)
    (hf : Placed ss) : Returns isNum ddl d (tablesRep isNum d ss, none) :=
  returns_placed hN hl hs hf

theorem columnRep_eq {isNum : Str → Bool} {d : Rdbms} {c : ColAst} (h : ¬ c.conName.Misread) :
    columnRep isNum d c = columnVal isNum d c := if_neg h

/-- C64, what is different: the name of the constraint is gone and the column is AUTOINCREMENT; all the rest is as
written. -/
theorem C64_column {isNum : Str → Bool} {d : Rdbms} (c : ColAst) :
    (columnRep isNum d c).name = (columnVal isNum d c).name ∧
    (columnRep isNum d c).dataType = (columnVal isNum d c).dataType ∧
    (c.conName.Misread → (columnRep isNum d c).constraint =
      { (columnVal isNum d c).constraint with name := [], isAutoincrement := true }) ∧
    (¬ c.conName.Misread → columnRep isNum d c = columnVal isNum d c) := by
  refine ⟨?_, ?_, ?_, columnRep_eq⟩ <;> unfold columnRep <;> split <;> first | rfl | (intro; trivial) | (intro; contradiction)

/-- C64: such scripts are reported as written exactly if no column constraint has such a name. -/
theorem C64_exact [CaseMap] {isNum : Str → Bool} (hN : NumOK isNum) {d : Rdbms} {ddl : List Char}
    {toks : List Str} {ss : List Stmt} (hl : Lexes d ddl toks) (hs : script isNum d (noNewlines toks) ss)
    (hf : Placed ss) :
    Returns isNum ddl d (tablesVal isNum d ss, none) ↔
      ∀ t, Stmt.table t ∈ ss → ∀ c, Item.column c ∈ t.items → ¬ c.conName.Misread := by
  have hi : NoIndex ss := by
    intro t ht i hi h
    have := (hf t ht).1 i hi
    cases i <;> first | exact this | exact h
  rw [C59_exact hN hl hs (.inl hi)]
  constructor
  · intro h t ht c hc ⟨n, e, hk⟩
    exact ((h t ht).1 _ hc).2 n e hk
  · intro h t ht
    refine ⟨fun i hi => ?_, (hf t ht).2⟩
    have hp := (hf t ht).1 i hi
    cases i with
    | column c => exact ⟨hp, fun n e hk => h t ht c hi ⟨n, e, hk⟩⟩
    | foreignKey n cs r => exact hp
    | index n => exact hp.elim
    | fulltext n i => exact hp.elim
    | _ => trivial

/-- C64, for any accepted script: whatever is returned begins with the tables, reported in this way, of the statements
before the first one with a reference to a table with a schema, an index definition or an unnamed EXCLUDE followed by another entry at
its start. -/
theorem C64_statements [CaseMap] {isNum : Str → Bool} (hN : NumOK isNum) {d : Rdbms} {ddl : List Char} {toks : List Str}
    {ss ss2 : List Stmt} {T : List Table} (hl : Lexes d ddl toks) (hs : script isNum d (noNewlines toks) (ss ++ ss2))
    (hf : Placed ss) (hr : Returns isNum ddl d (T, none)) : tablesRep isNum d ss <+: T := by
  obtain ⟨os, m, r, h, hn, hc⟩ := before_script hN hl hs hr
  obtain ⟨os1, os2, rfl, h5, h6⟩ := all2_split h
  rw [List.flatten_append] at hc hn
  rw [List.length_append] at hn
  obtain ⟨k, acc, h0, h1, h2⟩ := convert_prefixR (d := d) hN (known_vd d) h5
    (fun t ht => scriptOk_of hs t (by simp [ht])) hf os2.flatten [] m (by omega)
  rw [h2] at hc
  obtain ⟨l, rfl⟩ := convert_grow hc
  subst h0
  exact ⟨l, rfl⟩

/-- C64, within the next statement: its table is there, with the right name, and begins with the columns and constraints
of the entries before the first one with a reference to a table with a schema or an index definition (or before any other one). -/
theorem C64_entries [CaseMap] {isNum : Str → Bool} (hN : NumOK isNum) {d : Rdbms} {ddl : List Char} {toks : List Str}
    {ss ss2 : List Stmt} {t : TableAst} {T : List Table} (hl : Lexes d ddl toks)
    (hs : script isNum d (noNewlines toks) (ss ++ .table t :: ss2))
    (hf : Placed ss) (hr : Returns isNum ddl d (T, none)) :
    ∃ T1 T2, T = tablesRep isNum d ss ++ T1 :: T2 ∧ ∀ is is2, t.items = is ++ is2 → (∀ i ∈ is, i.Placed) →
      (is = [] ∨ ∀ i is', t.items ≠ Item.exclude .absent :: i :: is') →
      Begins (tableRep isNum d { t with items := is }) T1 := by
  obtain ⟨os, m, r, h, hn, hc⟩ := before_script hN hl hs hr
  exact script_beginsR hN h (scriptOk_of hs) hf hn hc

/-- C02: `Parse` returns unless an opening parenthesis is never closed, or the script is accepted and has a reference to a
table with a schema, an index definition or an unnamed EXCLUDE followed by another entry at the start of a definition. This is
`C02_returns_partial` without the exclusion of constraint names. Missing: for these scripts the statement is false, see C03, C33 and
C34. -/
theorem C02_placed_partial [CaseMap] {isNum : Str → Bool} (hN : NumOK isNum) {d : Rdbms} {ddl : List Char}
    (hu : ∀ toks, Lexes d ddl toks → ¬ Unclosed (noNewlines toks))
    (hf : ∀ toks ss, Lexes d ddl toks → script isNum d (noNewlines toks) ss → Placed ss) :
    ∃ r, Returns isNum ddl d r := by
  rcases lexes_or_fails d ddl with ⟨toks, hl⟩ | ⟨e, he⟩
  · by_cases h : ∃ ss, script isNum d (strip toks) ss
    · obtain ⟨ss, h⟩ := h
      exact ⟨_, returns_placed hN hl h (hf toks ss hl h)⟩
    · rcases rejected_or_hangs hN hl (fun ss hs => h ⟨ss, hs⟩) with ⟨e, h⟩ | ⟨_, h⟩
      · exact ⟨_, h⟩
      · exact absurd h (hu toks hl)
  · exact ⟨([], some e), returns_err_iff.2 ⟨rfl, .inl he⟩⟩

/-- A script to which C64 applies, with a misread name. -/
def misreadStmts : List Stmt :=
  [.table ⟨false, ⟨none, S "tt"⟩, [.column ⟨S "cc", ⟨S "INTEGER", false, none⟩, .named (S "auto_increment"), [.notNull]⟩]⟩]

theorem misread_lexes : Lexes .sqlite "CREATE TABLE tt (cc INTEGER CONSTRAINT auto_increment NOT NULL);".toList
    [S "CREATE", S "TABLE", S "tt", S "(", S "cc", S "INTEGER", S "CONSTRAINT", S "auto_increment", S "NOT", S "NULL",
      S ")", S ";"] := ⟨80, by decide +kernel⟩

/-- C64 says what is returned for it; the name is lost, and the column is AUTOINCREMENT. -/
theorem misread_rep : tablesRep simpleNum .sqlite misreadStmts =
    [{ name := S "tt"
       columns := [{ name := S "cc", dataType := { name := S "INTEGER" }
                     constraint := { isNotNull := true, isAutoincrement := true } }] }] := by
  have h : (ConName.named (S "auto_increment")).Misread := ⟨_, rfl, by decide⟩
  unfold tablesRep misreadStmts tableRep
  simp only [List.filterMap_cons, List.filterMap_nil, Item.columnRep?, columnRep, if_pos h]
  rfl

theorem misread_script : script simpleNum .sqlite
    [S "CREATE", S "TABLE", S "tt", S "(", S "cc", S "INTEGER", S "CONSTRAINT", S "auto_increment", S "NOT", S "NULL",
      S ")", S ";"] misreadStmts := by
  have ht : Name .sqlite (S "tt") := .inr ⟨⟨_, _, rfl, by decide, by decide⟩, by decide +kernel⟩
  have hc : Name .sqlite (S "cc") := .inr ⟨⟨_, _, rfl, by decide, by decide⟩, by decide +kernel⟩
  have ha : Name .sqlite (S "auto_increment") := .inr ⟨⟨_, _, rfl, by decide, by decide⟩, by decide +kernel⟩
  refine .cons (stmt_simple ht (by decide) (.one (.inr ⟨_, _, name_intro hc, S "INTEGER", _, ⟨rfl, by decide⟩, _, _,
    ⟨some _, _, optKw_some (by decide) (name_intro ha), rfl, rfl⟩, [.notNull], _, ⟨.cons ⟨rfl, _, _, rfl, by decide⟩
      ?_ (.nil (notAt_cons (by decide))), by decide⟩, rfl, rfl⟩)
    (notAt_cons (by decide)))) .nil
  exact .inr (.inl ⟨(), _, kw_intro (by decide), (), _, kw_intro (by decide), (), _,
    ⟨none, _, optKw_none (notAt_cons (by decide)), rfl, rfl⟩, rfl, rfl⟩)

/-- The hypotheses of C64 are met by this script. -/
example : Returns simpleNum "CREATE TABLE tt (cc INTEGER CONSTRAINT auto_increment NOT NULL);".toList .sqlite
    ([{ name := S "tt"
        columns := [{ name := S "cc", dataType := { name := S "INTEGER" }
                      constraint := { isNotNull := true, isAutoincrement := true } }] }], none) := by
  rw [← misread_rep]
  refine C64_tables simpleNum_ok misread_lexes misread_script ?_
  intro t ht
  cases List.mem_singleton.1 ht
  refine ⟨fun i hi => ?_, fun i is h => by cases h⟩
  cases List.mem_singleton.1 hi
  intro r hr
  cases List.mem_singleton.1 hr

/-- A script to which `C64_entries` applies, with a misread name before a reference with a schema. -/
def misreadThenBroken : List Str :=
  [S "CREATE", S "TABLE", S "tt", S "(", S "cc", S "INTEGER", S "CONSTRAINT", S "auto_increment", S "NOT", S "NULL", S ",",
   S "dd", S "INTEGER", S "REFERENCES", S "ss", S ".", S "uu", S ")", S ";",
   S "CREATE", S "TABLE", S "vv", S "(", S "ww", S "INTEGER", S ")", S ";"]

/-- The column whose constraint has the misread name. -/
def misreadColumn : Item := .column ⟨S "cc", ⟨S "INTEGER", false, none⟩, .named (S "auto_increment"), [.notNull]⟩

theorem misreadThenBroken_script : script simpleNum .sqlite misreadThenBroken
    ([] ++ .table ⟨false, ⟨none, S "tt"⟩,
        [misreadColumn, intColumn "dd" [.references ⟨⟨some (S "ss"), S "uu"⟩, none⟩]]⟩ ::
      [.table ⟨false, ⟨none, S "vv"⟩, [intColumn "ww" []]⟩]) := by
  have hn : ∀ n ∈ [S "cc", S "dd", S "tt", S "ss", S "uu", S "vv", S "ww", S "auto_increment"], Name .sqlite n := by
    intro n hn
    simp only [List.mem_cons, List.not_mem_nil, or_false] at hn
    rcases hn with rfl | rfl | rfl | rfl | rfl | rfl | rfl | rfl <;>
      exact .inr ⟨⟨_, _, rfl, by decide, by decide⟩, by decide +kernel⟩
  have hcol : ∀ r, itemOf simpleNum .sqlite (S "cc" :: S "INTEGER" :: S "CONSTRAINT" :: S "auto_increment" :: S "NOT" :: S "NULL" ::
      S "," :: r) misreadColumn (S "," :: r) := by
    intro r
    refine .inr ⟨_, _, name_intro (hn _ (by decide)), S "INTEGER", _, ⟨rfl, by decide⟩, _, _,
      ⟨some _, _, optKw_some (by decide) (name_intro (hn _ (by decide))), rfl, rfl⟩, [.notNull], _,
      ⟨.cons ⟨rfl, _, _, rfl, by decide⟩ ?_ (.nil (notAt_cons (by decide))), by decide⟩, rfl, rfl⟩
    exact .inr (.inl ⟨(), _, kw_intro (by decide), (), _, kw_intro (by decide), (), _,
      ⟨none, _, optKw_none (notAt_cons (by decide)), rfl, rfl⟩, rfl, rfl⟩)
  exact .cons (stmt_simple (hn _ (by decide)) (by decide)
      (.cons (hcol _) (kw_intro (by decide))
        (.one (item_simple (hn _ (by decide)) (by decide) (by decide)
        ⟨.cons ⟨rfl, _, _, rfl, by decide⟩ (.inr (.inr (.inr (.inr (.inr (.inr (.inl ⟨_, _,
          ⟨(), _, kw_intro (by decide), _, _, ⟨S "ss", _, ⟨rfl, hn _ (by decide)⟩, some (S "uu"), _,
            optKw_some (by decide) ⟨rfl, hn _ (by decide)⟩, rfl, rfl⟩, none, _,
            optKw_none (notAt_cons (by decide)), rfl, rfl⟩,
          (), _, ⟨[], _, .nil (notAt_cons (by decide)), rfl, rfl⟩, rfl, rfl⟩)))))))
        (.nil (notAt_cons (by decide))), by decide⟩) (notAt_cons (by decide)))))
    (.cons (stmt_simple (hn _ (by decide)) (by decide) (.one (item_simple (hn _ (by decide)) (by decide) (by decide)
    ⟨.nil (notAt_cons (by decide)), by decide⟩) (notAt_cons (by decide)))) .nil)

/-- What is returned for it. -/
theorem misreadThenBroken_returns : Returns simpleNum
    "CREATE TABLE tt (cc INTEGER CONSTRAINT auto_increment NOT NULL, dd INTEGER REFERENCES ss.uu); CREATE TABLE vv (ww INTEGER);".toList
    .sqlite
    ([{ name := S "tt"
        columns :=
          [{ name := S "cc", dataType := { name := S "INTEGER" }
             constraint := { isNotNull := true, isAutoincrement := true } },
           { name := S "dd", dataType := { name := S "INTEGER" }
             constraint := { references := { tableName := S "ss" } } },
           { name := S "uu", dataType := { name := S ")" } },
           { name := S "CREATE", dataType := { name := S "TABLE" } },
           { name := S "(", dataType := { name := S "WW" } }] }], none) :=
  ⟨300, by decide +kernel⟩

/-- The hypotheses can be met, by a script that is not `Placed`. -/
example : ∃ T1, Begins (tableRep simpleNum .sqlite ⟨false, ⟨none, S "tt"⟩, [misreadColumn]⟩) T1 ∧ T1.columns.length = 5 := by
  have hl : Lexes .sqlite
      "CREATE TABLE tt (cc INTEGER CONSTRAINT auto_increment NOT NULL, dd INTEGER REFERENCES ss.uu); CREATE TABLE vv (ww INTEGER);".toList
      misreadThenBroken := ⟨250, by decide +kernel⟩
  obtain ⟨T1, T2, e, h⟩ := C64_entries simpleNum_ok hl misreadThenBroken_script (fun _ ht => nomatch ht)
    misreadThenBroken_returns
  refine ⟨T1, h [misreadColumn] _ rfl (by
    intro i hi
    cases List.mem_singleton.1 hi
    intro r hr
    cases List.mem_singleton.1 hr) (.inr (by intro i is h; cases h)), ?_⟩
  cases e
  rfl

end DDL.Props
