import Verif.Proof.ResultFacts
import Verif.Props.Tables
/-
C23, C24, C25, C31, C32, C35, C36: what is known about the parts of the returned tables.

`ss` are the statements of the script. The scripts are those of C07, C08, C09 (`Faithful`); for
the others the statements below are false, see the theorems with suffix `_negation`.
-/

namespace DDL.Props
open DDL Spec Conv

/-! ### C25 -/

/-- C25: a column with two constraints of the same kind (`NULL` and `NOT NULL` are the same kind)
does not pass the syntax check, and unless a parenthesis is left open an error is returned. -/
theorem C25_repeated_rejected [CaseMap] {isNum : Str → Bool} (hN : NumOK isNum) {d : Rdbms} {ddl : List Char}
    {toks body rest : List Str} {c : Str} {τ : TypeAst} {cn : ConName} {cs : List ColCon}
    (hl : Lexes d ddl toks) (hc : ColumnAt isNum d (noNewlines toks) c τ cn body)
    (hm : Many (colConFirstOf d) (colConOf isNum d) body cs rest)
    (hdup : ¬ (cs.map ColCon.kind).Nodup) :
    ¬ Passes isNum d ddl ∧
      (¬ Unclosed (noNewlines toks) → ∃ e, Returns isNum ddl d ([], some e)) := by
  have hno := no_script_dup hN (strip_good (Lexes.good hl)) hc hm hdup
  refine ⟨fun hp => ?_, fun hu => ?_⟩
  · obtain ⟨toks', ss, hl', hs⟩ := (passes_iff hN).1 hp
    cases Lexes.unique hl hl'
    exact hno ss hs
  · rcases rejected_or_hangs hN hl hno with h | ⟨_, h⟩
    · exact h
    · exact absurd h hu

/-- The hypotheses can be met: `NOT NULL NULL` in PostgreSQL. -/
example : ¬ Passes simpleNum .postgres "CREATE TABLE tt (cc INTEGER NOT NULL NULL);".toList :=
  (C25_repeated_rejected (d := .postgres) (toks := [S "CREATE", S "TABLE", S "tt", S "(", S "cc", S "INTEGER", S "NOT", S "NULL",
      S "NULL", S ")", S ";"]) (cs := [.notNull, .null]) (rest := [S ")", S ";"])
    (body := [S "NOT", S "NULL", S "NULL", S ")", S ";"]) (c := S "cc") (cn := .absent)
    (τ := ⟨S "INTEGER", false, none⟩)
    simpleNum_ok ⟨60, by decide +kernel⟩
    ⟨[], [], S "CREATE", S "TABLE", S "tt", _, _, [S "NOT", S "NULL", S "NULL", S ")", S ";"], rfl, .nil,
      by decide, by decide, .nil, .inr ⟨⟨'c', ['c'], rfl, by decide, by decide⟩, by decide +kernel⟩,
      .inr (.inr (.inr (.inr (.inr ⟨S "INTEGER", _, ⟨rfl, by decide +kernel, by decide⟩, rfl, rfl⟩)))),
      ⟨none, _, optKw_none (notAt_cons (by decide)), rfl, rfl⟩⟩
    (.cons ⟨rfl, _, _, rfl, by decide⟩ (.inr (.inl ⟨(), _, kw_intro (by decide), (), _, kw_intro (by decide), rfl, rfl⟩))
      (.cons ⟨rfl, _, _, rfl, by decide⟩ (.inr (.inr (.inl ⟨(), _, kw_intro (by decide), rfl, rfl⟩)))
        (.nil (notAt_cons (by decide)))))
    (by decide)).1

/-! ### C24 -/

/-- C24: the type name of every returned column is one of the names of the dialect in upper case,
and the digits are as they should be. -/
theorem C24_types [CaseMap] {isNum : Str → Bool} (hN : NumOK isNum) {d : Rdbms} {ddl : List Char}
    {toks : List Str} {ss : List Stmt} {T : List Table} {e : Option VErr} (hl : Lexes d ddl toks)
    (hs : script isNum d (noNewlines toks) ss) (hf : Faithful ss) (hr : Returns isNum ddl d (T, e))
    {t : Table} (ht : t ∈ T) {c : Column} (hc : c ∈ t.columns) :
    (∃ k ∈ typeNames d, c.dataType.name = k.toList) ∧
    0 ≤ c.dataType.digitN ∧ 0 ≤ c.dataType.digitM ∧
    (c.dataType.digitM ≠ 0 → c.dataType.digitN ≠ 0) ∧
    (d = .sqlite ∨ d = .other → c.dataType.digitN = 0 ∧ c.dataType.digitM = 0) := by
  obtain ⟨rfl, _⟩ := result_eq hN hl hs hf hr
  obtain ⟨a, ha, rfl⟩ := mem_tablesVal ht
  obtain ⟨x, hx, rfl⟩ := mem_columns hc
  obtain ⟨_, _, ⟨h1, h2, h3, h4⟩, _⟩ := script_colCon hs ha hx
  refine ⟨?_, ?_⟩
  · show ∃ k ∈ typeNames d, typeName x.type = k.toList
    unfold typeName
    split
    · next hv =>
      obtain ⟨rfl, _⟩ := h3 hv
      split
      · exact ⟨"VARBIT", by decide +kernel, rfl⟩
      · exact ⟨"VARCHAR", by decide +kernel, rfl⟩
    · obtain ⟨k, hk, h⟩ := h1
      refine ⟨k, hk, ?_⟩
      have : ∀ k ∈ typeNames d, (k.toList.map Char.toUpper).map Char.toUpper = k.toList ∧
          (k.toList.map Char.toLower).map Char.toUpper = k.toList := by
        cases d <;> decide +kernel
      rcases h with h | h <;> rw [h]
      · exact (this k hk).1
      · exact (this k hk).2
  · show 0 ≤ digitNVal x.type.digits ∧ 0 ≤ digitMVal x.type.digits ∧ (digitMVal x.type.digits ≠ 0 → digitNVal x.type.digits ≠ 0) ∧
      (d = .sqlite ∨ d = .other → digitNVal x.type.digits = 0 ∧ digitMVal x.type.digits = 0)
    match hg : x.type.digits, h2, h4 with
    | none, _, _ => exact ⟨Int.le_refl _, Int.le_refl _, fun h => absurd rfl h, fun _ => ⟨rfl, rfl⟩⟩
    | some (n, none), h2, h4 =>
      exact ⟨Int.natCast_nonneg _, Int.le_refl _, fun h => absurd rfl h, fun h => by cases h4 h⟩
    | some (n, some m), h2, h4 =>
      exact ⟨Int.natCast_nonneg _, Int.natCast_nonneg _, fun _ => by have := h2.1; show (n : Int) ≠ 0; omega,
        fun h => by cases h4 h⟩

/-- Outside these scripts C24 is false: a reference with a schema gives a column of type `)`, and
the next statement is taken for columns. -/
theorem C24_schema_negation : Returns simpleNum
    "CREATE TABLE tt (cc INTEGER REFERENCES ss.uu); CREATE TABLE vv (ww INTEGER, xx TEXT);".toList .sqlite
    ([{ name := S "tt"
        columns :=
          [{ name := S "cc", dataType := { name := S "INTEGER" }
             constraint := { references := { tableName := S "ss" } } },
           { name := S "uu", dataType := { name := S ")" } },
           { name := S "CREATE", dataType := { name := S "TABLE" } },
           { name := S "(", dataType := { name := S "WW" } },
           { name := S ",", dataType := { name := S "XX" } }] }], none) :=
  ⟨200, by decide +kernel⟩

/-- Outside these scripts C24 is false: a full text index gives a column of type `)`. -/
theorem C24_fulltext_negation : Returns simpleNum
    "CREATE TABLE tt (cc INT, FULLTEXT ii (cc), dd INT);".toList .mysql
    ([{ name := S "tt"
        columns :=
          [{ name := S "cc", dataType := { name := S "INT" } },
           { name := S "ii", dataType := { name := S ")" } },
           { name := S "dd", dataType := { name := S "INT" } }] }], none) :=
  ⟨200, by decide +kernel⟩

/-! ### C31 -/

/-- C31: in SQLite, an autoincrement column is a primary key. -/
theorem C31_autoincrement [CaseMap] {isNum : Str → Bool} (hN : NumOK isNum) {d : Rdbms} (hd : d ≠ .mysql)
    {ddl : List Char} {toks : List Str} {ss : List Stmt} {T : List Table} {e : Option VErr}
    (hl : Lexes d ddl toks) (hs : script isNum d (noNewlines toks) ss) (hf : Faithful ss)
    (hr : Returns isNum ddl d (T, e)) {t : Table} (ht : t ∈ T) {c : Column} (hc : c ∈ t.columns)
    (hi : c.constraint.isAutoincrement = true) : c.constraint.isPrimaryKey = true := by
  obtain ⟨rfl, _⟩ := result_eq hN hl hs hf hr
  obtain ⟨a, ha, rfl⟩ := mem_tablesVal ht
  obtain ⟨x, hx, rfl⟩ := mem_columns hc
  obtain ⟨_, _, _, _, _, h⟩ := script_colCon hs ha hx
  obtain ⟨k, hk, hi⟩ := List.any_eq_true.1 hi
  refine List.any_eq_true.2 ⟨k, hk, ?_⟩
  obtain ⟨_, _, hsrc⟩ := h k hk
  cases k with
  | primaryKey b => rfl
  | autoIncrement => exact absurd hsrc hd
  | _ => cases hi

/-- In MySQL the two are independent. -/
example : Returns simpleNum "CREATE TABLE tt (cc INTEGER AUTO_INCREMENT);".toList .mysql
    ([{ name := S "tt"
        columns := [{ name := S "cc", dataType := { name := S "INTEGER" }
                      constraint := { isAutoincrement := true } }] }], none) :=
  ⟨200, by decide +kernel⟩

/-- Outside these scripts C31 is false: it is enough to name a constraint `auto_increment`. -/
theorem C31_named_negation : Returns simpleNum
    "CREATE TABLE tt (cc INTEGER CONSTRAINT auto_increment NOT NULL);".toList .sqlite
    ([{ name := S "tt"
        columns := [{ name := S "cc", dataType := { name := S "INTEGER" }
                      constraint := { isAutoincrement := true, isPrimaryKey := false, isNotNull := true } }] }],
      none) :=
  ⟨200, by decide +kernel⟩

/-! ### C36 -/

/-- C36: the CHECK of every returned column is empty or the text of a parenthesised expression of
the source that follows the keyword CHECK. -/
theorem C36_column_check [CaseMap] {isNum : Str → Bool} (hN : NumOK isNum) {d : Rdbms}
    {ddl : List Char} {toks : List Str} {ss : List Stmt} {T : List Table} {e : Option VErr}
    (hl : Lexes d ddl toks) (hs : script isNum d (noNewlines toks) ss) (hf : Faithful ss)
    (hr : Returns isNum ddl d (T, e)) {t : Table} (ht : t ∈ T) {c : Column} (hc : c ∈ t.columns) :
    c.constraint.check = [] ∨
      ∃ x, ExprSrc (noNewlines toks) "CHECK" x ∧ c.constraint.check = exprText x := by
  obtain ⟨rfl, _⟩ := result_eq hN hl hs hf hr
  obtain ⟨a, ha, rfl⟩ := mem_tablesVal ht
  obtain ⟨x, hx, rfl⟩ := mem_columns hc
  obtain ⟨_, _, _, _, _, h⟩ := script_colCon hs ha hx
  show ((x.cons.findSome? ColCon.checked).map exprText).getD [] = [] ∨
    ∃ y, _ ∧ ((x.cons.findSome? ColCon.checked).map exprText).getD [] = exprText y
  cases hfs : x.cons.findSome? ColCon.checked with
  | none => exact .inl rfl
  | some y =>
    obtain ⟨k, hk, hy⟩ := findSome_mem hfs
    obtain ⟨ts', h1, h2⟩ := h k hk
    cases k with
    | check z =>
      cases hy
      obtain ⟨t, r, he, hk, hp⟩ := h2
      exact .inr ⟨_, suffix_expr h1 he hk hp, rfl⟩
    | _ => cases hy

/-- C36: the default of every returned column is absent, the value of a literal of the source that
follows DEFAULT, or the text of an expression of the source that follows DEFAULT. -/
theorem C36_column_default [CaseMap] {isNum : Str → Bool} (hN : NumOK isNum) {d : Rdbms} (hd : d ≠ .other)
    {ddl : List Char} {toks : List Str} {ss : List Stmt} {T : List Table} {e : Option VErr}
    (hl : Lexes d ddl toks) (hs : script isNum d (noNewlines toks) ss) (hf : Faithful ss)
    (hr : Returns isNum ddl d (T, e)) {t : Table} (ht : t ∈ T) {c : Column} (hc : c ∈ t.columns) :
    c.constraint.default = .nil ∨
      (∃ x, LitSrc isNum d (noNewlines toks) "DEFAULT" x ∧ c.constraint.default = litVal isNum d x) ∨
      ∃ x, ExprSrc (noNewlines toks) "DEFAULT" x ∧ c.constraint.default = .str (exprText x) := by
  obtain ⟨rfl, _⟩ := result_eq hN hl hs hf hr
  obtain ⟨a, ha, rfl⟩ := mem_tablesVal ht
  obtain ⟨x, hx, rfl⟩ := mem_columns hc
  obtain ⟨_, _, _, _, _, h⟩ := script_colCon hs ha hx
  have e1 : (columnVal isNum d x).constraint.default = ((x.cons.findSome? ColCon.dflt).map (dfltVal isNum d)).getD .nil := rfl
  rw [e1]
  cases hfs : x.cons.findSome? ColCon.dflt with
  | none => exact .inl rfl
  | some y =>
    obtain ⟨k, hk, hy⟩ := findSome_mem hfs
    obtain ⟨ts', h1, h2⟩ := h k hk
    cases k with
    | default z =>
      cases hy
      cases y with
      | lit z =>
        obtain ⟨t, r, rfl, hk, hp⟩ := h2
        obtain ⟨p, hp'⟩ := h1
        have hp : Literal isNum d z := by cases d <;> first | exact hp | exact absurd rfl hd
        exact .inr (.inl ⟨z, ⟨hp, p, t, r, hp'.symm, hk⟩, rfl⟩)
      | expr z =>
        obtain ⟨t, r, he, hk, hp⟩ := h2
        exact .inr (.inr ⟨z, suffix_expr h1 he hk hp, rfl⟩)
    | _ => cases hy

/-- C36: the expression of every returned table CHECK is the text of an expression of the source. -/
theorem C36_table_check [CaseMap] {isNum : Str → Bool} (hN : NumOK isNum) {d : Rdbms}
    {ddl : List Char} {toks : List Str} {ss : List Stmt} {T : List Table} {e : Option VErr}
    (hl : Lexes d ddl toks) (hs : script isNum d (noNewlines toks) ss) (hf : Faithful ss)
    (hr : Returns isNum ddl d (T, e)) {t : Table} (ht : t ∈ T) {c : Check} (hc : c ∈ t.constraints.check) :
    ∃ x, ExprSrc (noNewlines toks) "CHECK" x ∧ c.expr = exprText x := by
  obtain ⟨rfl, _⟩ := result_eq hN hl hs hf hr
  obtain ⟨a, ha, rfl⟩ := mem_tablesVal ht
  obtain ⟨n, x, hx, rfl⟩ := mem_checks hc
  exact ⟨x, (script_itemSrc hs ha hx).2, rfl⟩

/-- C36: the text of an expression without two commas in a row is the concatenation of its tokens. -/
theorem C36_text {e : List Str} (h : ∀ a b, e ≠ a ++ S "," :: S "," :: b) : exprText e = e.flatten := by
  unfold exprText
  have : mergeCommas e = e := by
    induction e with
    | nil => rfl
    | cons t r ih =>
      have hr : mergeCommas r = r := ih fun a b he => h (t :: a) b (by rw [he]; rfl)
      unfold mergeCommas
      split
      · next hc =>
        obtain ⟨rfl, hc⟩ := hc
        cases r with
        | nil => cases hc
        | cons x y => cases hc; exact absurd rfl (h [] y)
      · rw [hr]
  rw [this]

/-! The hypotheses of C24, C31 and C36 are met by the printed example table of C10. -/

theorem printed_returns [CaseMap] (d : Rdbms) (hd : d ≠ .other) :
    Returns simpleNum (scriptText d [exampleTable]) d ([exampleTable], none) := by
  obtain ⟨toks, ss, hl, hs, hf, he⟩ := printed_example d hd
  have := returns_of_script simpleNum_ok hl hs hf
  rwa [he] at this

example : ∃ c ∈ exampleTable.columns, c.dataType.name ≠ [] ∧ ∃ k ∈ typeNames .postgres, c.dataType.name = k.toList := by
  obtain ⟨toks, ss, hl, hs, hf, he⟩ := printed_example .postgres (by decide)
  exact ⟨_, .head _, by decide, (C24_types simpleNum_ok hl hs hf (printed_returns _ (by decide)) (List.mem_singleton.2 rfl) (.head _)).1⟩

example : ∃ c ∈ exampleTable.constraints.check, c.expr ≠ [] ∧ ∃ toks x,
    Lexes .mysql (scriptText .mysql [exampleTable]) toks ∧ ExprSrc (noNewlines toks) "CHECK" x ∧ c.expr = exprText x := by
  obtain ⟨toks, ss, hl, hs, hf, he⟩ := printed_example .mysql (by decide)
  obtain ⟨x, h⟩ := C36_table_check simpleNum_ok hl hs hf (printed_returns _ (by decide)) (List.mem_singleton.2 rfl)
    (c := ⟨S "ck", S "(x>0)"⟩) (by decide)
  exact ⟨_, by decide, by decide, toks, x, hl, h⟩

/-! ### C23 -/

/-- C23: every table, schema, column and constraint name that is returned is the content of a
quoted identifier of the source, or an identifier of the source that is not reserved. -/
theorem C23_names [CaseMap] {isNum : Str → Bool} (hN : NumOK isNum) {d : Rdbms} (hd : d ≠ .other)
    {ddl : List Char} {toks : List Str} {ss : List Stmt} {T : List Table} {e : Option VErr}
    (hl : Lexes d ddl toks) (hs : script isNum d (noNewlines toks) ss) (hf : Faithful ss)
    (hr : Returns isNum ddl d (T, e)) {t : Table} (ht : t ∈ T) :
    NameOf d (noNewlines toks) t.name ∧
    (t.schema = [] ∨ NameOf d (noNewlines toks) t.schema) ∧
    (∀ c ∈ t.columns, NameOf d (noNewlines toks) c.name ∧
      (c.constraint.name = [] ∨ NameOf d (noNewlines toks) c.constraint.name)) ∧
    (∀ p ∈ t.constraints.primaryKey, p.name = [] ∨ NameOf d (noNewlines toks) p.name) ∧
    (∀ p ∈ t.constraints.unique, p.name = [] ∨ NameOf d (noNewlines toks) p.name) ∧
    (∀ p ∈ t.constraints.check, p.name = [] ∨ NameOf d (noNewlines toks) p.name) ∧
    (∀ p ∈ t.constraints.foreignKey, (p.name = [] ∨ NameOf d (noNewlines toks) p.name) ∧
      NameOf d (noNewlines toks) p.references.tableName) := by
  obtain ⟨rfl, _⟩ := result_eq hN hl hs hf hr
  obtain ⟨a, ha, rfl⟩ := mem_tablesVal ht
  have hq := script_name hs ha
  refine ⟨nameVal_of hd hq.1, ?_, ?_, ?_, ?_, ?_, ?_⟩
  · show (a.name.schema.map (nameVal d)).getD [] = [] ∨ NameOf d _ ((a.name.schema.map (nameVal d)).getD [])
    cases hsc : a.name.schema with
    | none => exact .inl rfl
    | some s => exact .inr (nameVal_of hd (hq.2 s hsc))
  · intro c hc
    obtain ⟨x, hx, rfl⟩ := mem_columns hc
    obtain ⟨h1, h2, _, h3, _⟩ := script_colCon hs ha hx
    exact ⟨nameVal_of hd ⟨h1, h2⟩, conNameVal_of hd h3⟩
  · intro p hp
    obtain ⟨n, ks, hx, rfl⟩ := mem_pks hp
    exact conNameVal_of hd (script_itemSrc hs ha hx).1
  · intro p hp
    obtain ⟨n, ks, hx, rfl⟩ := mem_uniques hp
    exact conNameVal_of hd (script_itemSrc hs ha hx).1
  · intro p hp
    obtain ⟨n, ks, hx, rfl⟩ := mem_checks hp
    exact conNameVal_of hd (script_itemSrc hs ha hx).1
  · intro p hp
    obtain ⟨n, ks, r, hx, rfl⟩ := mem_fks hp
    have := script_itemSrc hs ha hx
    exact ⟨conNameVal_of hd this.1, nameVal_of hd this.2.2.1.1⟩

/-- The hypotheses are met by the printed example. -/
example : ∃ toks, Lexes .mysql (scriptText .mysql [exampleTable]) toks ∧
    NameOf .mysql (noNewlines toks) (S "my orders") := by
  obtain ⟨toks, ss, hl, hs, hf, he⟩ := printed_example .mysql (by decide)
  exact ⟨toks, hl, (C23_names simpleNum_ok (by decide) hl hs hf (printed_returns _ (by decide))
    (List.mem_singleton.2 rfl)).1⟩

/-- Names may be reserved words only if they are quoted: an unquoted one is never part of the
name of anything, since the script does not pass. -/
example : ¬ Passes simpleNum .sqlite "CREATE TABLE select (cc INTEGER);".toList := by
  rintro ⟨toks, out, ⟨n, h⟩, ⟨m, h'⟩⟩
  have e : toks = [S "CREATE", S "TABLE", S "select", S "(", S "cc", S "INTEGER", S ")", S ";"] :=
    Lexes.unique ⟨n, h⟩ ⟨60, by decide +kernel⟩
  subst e
  exact validates_not_rejects (e := ⟨1, S "select"⟩) ⟨m, h'⟩ ⟨100, by decide +kernel⟩

/-- Outside these scripts C23 is false: a column named `,` (PostgreSQL). -/
theorem C23_exclude_negation : Returns simpleNum
    "CREATE TABLE tt (EXCLUDE (cc WITH +), cc INT);".toList .postgres
    ([{ name := S "tt", columns := [{ name := S ",", dataType := { name := S "CC" } }] }], none) :=
  ⟨200, by decide +kernel⟩

/-- Outside these scripts C23 is false: an index gives a table of its own, named `INT`, a reserved
word (MySQL). -/
theorem C23_index_negation : Returns simpleNum
    "CREATE TABLE tt (INDEX (aa), cc INT, dd INT);".toList .mysql
    ([{ name := S "tt" },
      { name := S "INT", columns := [{ name := S "dd", dataType := { name := S "INT" } }] }], none) :=
  ⟨200, by decide +kernel⟩

/-! ### C32 -/

/-- C32: the columns of all key lists are reported as they are written. -/
theorem C32_keys_as_written [CaseMap] {isNum : Str → Bool} (hN : NumOK isNum) {d : Rdbms} (hd : d ≠ .other)
    {ddl : List Char} {toks : List Str} {ss : List Stmt} {T : List Table} {e : Option VErr}
    (hl : Lexes d ddl toks) (hs : script isNum d (noNewlines toks) ss) (hf : Faithful ss)
    (hr : Returns isNum ddl d (T, e)) {t : Table} (ht : t ∈ T) :
    (∀ p ∈ t.constraints.primaryKey, ∀ n ∈ p.columnNames, n ∈ noNewlines toks ∧ Name d n) ∧
    (∀ p ∈ t.constraints.unique, ∀ n ∈ p.columnNames, n ∈ noNewlines toks ∧ Name d n) ∧
    (∀ p ∈ t.constraints.foreignKey, ∀ n ∈ p.columnNames, n ∈ noNewlines toks ∧ Name d n) := by
  obtain ⟨rfl, _⟩ := result_eq hN hl hs hf hr
  obtain ⟨a, ha, rfl⟩ := mem_tablesVal ht
  have hvd : vd d = d := by cases d <;> first | rfl | exact absurd rfl hd
  have key : ∀ {ks : List KeyPart}, KeysSrc (noNewlines toks) (vd d) ks → ∀ n ∈ keyCols ks, n ∈ noNewlines toks ∧ Name d n := by
    intro ks h n hn
    obtain ⟨k, hk, he⟩ := List.mem_filterMap.1 hn
    cases k with
    | col m => cases he; exact hvd ▸ h _ hk
    | expr => cases he
  refine ⟨?_, ?_, ?_⟩
  · intro p hp
    obtain ⟨n, ks, hx, rfl⟩ := mem_pks hp
    exact key (script_itemSrc hs ha hx).2
  · intro p hp
    obtain ⟨n, ks, hx, rfl⟩ := mem_uniques hp
    exact key (script_itemSrc hs ha hx).2
  · intro p hp
    obtain ⟨n, ks, r, hx, rfl⟩ := mem_fks hp
    exact key (script_itemSrc hs ha hx).2.1

/-- C32: a column that is listed in a PRIMARY KEY (with the same token) is reported there under the
name it has in Columns iff it is not quoted. -/
theorem C32_same_name_iff [CaseMap] {isNum : Str → Bool} (hN : NumOK isNum) {d : Rdbms} (hd : d ≠ .other)
    {ddl : List Char} {toks : List Str} {ss : List Stmt} {T : List Table} {e : Option VErr}
    (hl : Lexes d ddl toks) (hs : script isNum d (noNewlines toks) ss) (hf : Faithful ss)
    (hr : Returns isNum ddl d (T, e)) {a : TableAst} {x : ColAst} {m : ConName} {ks : List KeyPart}
    (ha : Stmt.table a ∈ ss) (hx : .column x ∈ a.items) (hk : .primaryKey m ks ∈ a.items)
    (hm : .col x.name ∈ ks) :
    ∃ t ∈ T, ∃ c ∈ t.columns, ∃ p ∈ t.constraints.primaryKey,
      c.name = nameVal d x.name ∧ x.name ∈ p.columnNames ∧
      (c.name = x.name ↔ ¬ StartsWith (nameQuotes d) x.name) := by
  obtain ⟨rfl, _⟩ := result_eq hN hl hs hf hr
  refine ⟨tableVal isNum d a, List.mem_filterMap.2 ⟨_, ha, rfl⟩, columnVal isNum d x,
    List.mem_filterMap.2 ⟨_, hx, rfl⟩, ⟨conNameVal d m, keyCols ks⟩, List.mem_filterMap.2 ⟨_, hk, rfl⟩, rfl,
    List.mem_filterMap.2 ⟨_, hm, rfl⟩, ?_⟩
  have hq : identQuotes d = nameQuotes d := by cases d <;> first | rfl | exact absurd rfl hd
  show nameVal d x.name = x.name ↔ _
  unfold nameVal
  rw [hq]
  constructor
  · rintro h ⟨c, r, e, hc⟩
    rw [e] at h
    have h : content (c :: r) = c :: r := by
      have : unquote (nameQuotes d) (c :: r) = content (c :: r) := by
        show (if c ∈ nameQuotes d then _ else _) = _; rw [if_pos hc]
      rwa [this] at h
    have := congrArg List.length h
    simp [content] at this
  · intro h
    cases hn : x.name with
    | nil => rfl
    | cons c r =>
      show (if c ∈ nameQuotes d then _ else _) = _
      rw [if_neg fun hc => h ⟨c, r, hn, hc⟩]

/-- The two reported names of a quoted column differ. -/
theorem C32_quoted_negation : Returns simpleNum
    "CREATE TABLE tt (\"cc\" INTEGER, PRIMARY KEY (\"cc\"));".toList .sqlite
    ([{ name := S "tt", columns := [{ name := S "cc", dataType := { name := S "INTEGER" } }]
        constraints := { primaryKey := [{ name := [], columnNames := [S "\"cc\""] }] } }], none) :=
  ⟨200, by decide +kernel⟩

/-! ### C35 -/

/-- C35 (MySQL): a column declared `... CHECK (expr) NOT NULL ...` is returned with IsNotNull
false, whatever the expression and the constraints before and after. -/
theorem C35_not_null_lost [CaseMap] {isNum : Str → Bool} (hN : NumOK isNum)
    {ddl : List Char} {toks body i rest : List Str} {ss : List Stmt} {T : List Table} {e : Option VErr}
    {c k n u : Str} {τ : TypeAst} {cn : ConName} {cs : List ColCon}
    (hl : Lexes .mysql ddl toks) (hs : script isNum .mysql (noNewlines toks) ss) (hf : Faithful ss)
    (hr : Returns isNum ddl .mysql (T, e))
    (hc : ColumnAt isNum .mysql (noNewlines toks) c τ cn body)
    (hb : Reads Mysql.colConFirst (Mysql.colCon isNum) body cs
      (k :: S "(" :: (i ++ S ")" :: n :: u :: rest)))
    (hk : Kw ["CHECK"] k) (hi : Bal i) (hn : Kw ["NOT"] n) (hu : Kw ["NULL"] u) :
    ∃ t ∈ T, ∃ col ∈ t.columns, col.name = nameVal .mysql c ∧ col.dataType = typeVal τ ∧
      col.constraint.check = exprText (S "(" :: i ++ [S ")"]) ∧ col.constraint.isNotNull = false := by
  obtain ⟨rfl, _⟩ := result_eq hN hl hs hf hr
  obtain ⟨t, cs', r, h1, h2, hg, h3, h4⟩ := column_at hN (strip_good (Lexes.good hl)) hc hs
  have hsuf : Suff (Mysql.colCon isNum) := fun _ _ _ h => (cons_colCon isNum .mysql _ _ _ h).1
  obtain ⟨us, rfl, h5, g5⟩ := many_after (det_colCon hN .mysql) hsuf hg hb h3
  have hp : parens (S "(" :: (i ++ S ")" :: n :: u :: rest)) (S "(" :: i ++ [S ")"]) (n :: u :: rest) :=
    ⟨i, hi, rfl, by simp⟩
  have d1 : Mysql.colCon isNum (k :: S "(" :: (i ++ S ")" :: n :: u :: rest)) (.check (S "(" :: i ++ [S ")"])) (u :: rest) :=
    .inr (.inr (.inr (.inr (.inr (.inl ⟨_, _, ⟨(), _, kw_intro hk, _, _, hp, true, _,
      optWord_some hn, false, _, optWord_none (notAt_cons (kw_disj hu (by decide))), rfl, rfl⟩, rfl, rfl⟩)))))
  have d2 : Mysql.colCon isNum (u :: rest) .null rest := .inr (.inr (.inr (.inl ⟨(), _, kw_intro hu, rfl, rfl⟩)))
  obtain ⟨vs, rfl, _, _⟩ := many_after (det_colCon hN .mysql) hsuf g5
    (.cons ⟨rfl, _, _, rfl, Kw.mono (by decide) hk⟩ d1 (.cons ⟨rfl, _, _, rfl, Kw.mono (by decide) hu⟩ d2 .nil)) h5
  refine ⟨_, List.mem_filterMap.2 ⟨_, h1, rfl⟩, _, List.mem_filterMap.2 ⟨_, h2, rfl⟩, rfl, rfl, ?_, ?_⟩
  · show (((cs ++ ([ColCon.check (S "(" :: i ++ [S ")"]), .null] ++ vs)).findSome? ColCon.checked).map exprText).getD [] = _
    have : cs.findSome? ColCon.checked = none := by
      apply List.findSome?_eq_none_iff.2
      intro x hx
      cases x with
      | check y =>
        rw [List.map_append, List.nodup_append] at h4
        exact absurd rfl (h4.2.2 "CHECK" (List.mem_map.2 ⟨_, hx, rfl⟩) "CHECK" (.head _))
      | _ => rfl
    rw [List.findSome?_append, this]
    rfl
  · show (cs ++ ([ColCon.check (S "(" :: i ++ [S ")"]), .null] ++ vs)).any ColCon.isNotNull = false
    apply List.any_eq_false.2
    intro x hx hnn
    have hnd : ∀ x ∈ cs ++ ([ColCon.check (S "(" :: i ++ [S ")"]), .null] ++ vs), x = .notNull → False := by
      rintro x hx rfl
      have e : cs ++ ([ColCon.check (S "(" :: i ++ [S ")"]), .null] ++ vs) =
        (cs ++ [.check (S "(" :: i ++ [S ")"])]) ++ .null :: vs := by simp
      rw [e] at hx h4
      rw [List.map_append, List.map_cons, List.nodup_append, List.nodup_cons] at h4
      rcases List.mem_append.1 hx with h | h
      · exact h4.2.2 "NULL" (List.mem_map.2 ⟨_, h, rfl⟩) "NULL" (.head _) rfl
      · rcases List.mem_cons.1 h with h | h
        · cases h
        · exact h4.2.1.1 (List.mem_map.2 ⟨_, h, rfl⟩)
    cases x with
    | notNull => exact hnd _ hx rfl
    | _ => cases hnn

/-- The hypotheses can be met. -/
example : ∃ T e, Returns simpleNum "CREATE TABLE tt (cc INTEGER CHECK (cc > 0) NOT NULL);".toList .mysql (T, e) ∧
    ∃ t ∈ T, ∃ col ∈ t.columns, col.constraint.isNotNull = false := by
  have hn : ∀ n, n = S "tt" ∨ n = S "cc" → Name .mysql n := by
    rintro n (rfl | rfl)
    · exact .inr ⟨⟨'t', ['t'], rfl, by decide, by decide⟩, by decide +kernel⟩
    · exact .inr ⟨⟨'c', ['c'], rfl, by decide, by decide⟩, by decide +kernel⟩
  have hb : Bal [S "cc", S ">", S "0"] :=
    .plain _ _ (by decide) (by decide) (.plain _ _ (by decide) (by decide) (.plain _ _ (by decide) (by decide) .nil))
  have hl : Lexes .mysql "CREATE TABLE tt (cc INTEGER CHECK (cc > 0) NOT NULL);".toList
      [S "CREATE", S "TABLE", S "tt", S "(", S "cc", S "INTEGER", S "CHECK", S "(", S "cc", S ">", S "0", S ")",
        S "NOT", S "NULL", S ")", S ";"] := ⟨60, by decide +kernel⟩
  have hs : script simpleNum .mysql
      [S "CREATE", S "TABLE", S "tt", S "(", S "cc", S "INTEGER", S "CHECK", S "(", S "cc", S ">", S "0", S ")",
        S "NOT", S "NULL", S ")", S ";"] [.table ⟨false, ⟨none, S "tt"⟩, [.column ⟨S "cc", ⟨S "INTEGER", false, none⟩, .absent,
          [.check [S "(", S "cc", S ">", S "0", S ")"], .null]⟩]⟩] :=
    .cons (stmt_simple (hn _ (.inl rfl)) (by decide) (.one (item_simple (hn _ (.inr rfl)) (by decide) (by decide)
      ⟨.cons ⟨rfl, _, _, rfl, by decide⟩ (.inr (.inr (.inr (.inr (.inr (.inl ⟨_, _, ⟨(), _, kw_intro (by decide), _, _,
          ⟨_, hb, rfl, rfl⟩, true, _, optWord_some (by decide), false, _, optWord_none (notAt_cons (by decide)),
          rfl, rfl⟩, rfl, rfl⟩))))))
        (.cons ⟨rfl, _, _, rfl, by decide⟩ (.inr (.inr (.inr (.inl ⟨(), _, kw_intro (by decide), rfl, rfl⟩))))
          (.nil (notAt_cons (by decide)))), by decide⟩) (notAt_cons (by decide)))) .nil
  have hf : Faithful [.table ⟨false, ⟨none, S "tt"⟩, [.column ⟨S "cc", ⟨S "INTEGER", false, none⟩, .absent,
          [.check [S "(", S "cc", S ">", S "0", S ")"], .null]⟩]⟩] := by
    intro t ht
    cases List.mem_singleton.1 ht
    refine ⟨fun i hi => ?_, by rintro i is h; cases h⟩
    cases List.mem_singleton.1 hi
    refine ⟨fun r hr => ?_, by rintro n h; cases h⟩
    simp at hr
  have hr := returns_of_script simpleNum_ok hl hs hf
  refine ⟨_, _, hr, ?_⟩
  obtain ⟨t, h1, col, h2, _, _, _, h3⟩ := C35_not_null_lost simpleNum_ok hl hs hf hr (τ := ⟨S "INTEGER", false, none⟩)
    (c := S "cc") (cn := .absent)
    ⟨[], [], S "CREATE", S "TABLE", S "tt", _, _, [S "CHECK", S "(", S "cc", S ">", S "0", S ")",
        S "NOT", S "NULL", S ")", S ";"], rfl, .nil, by decide, by decide, .nil, hn _ (.inr rfl),
      .inl ⟨S "INTEGER", _, ⟨rfl, by decide⟩, none, _, digitN_none (notAt_cons (by decide)), rfl, rfl⟩,
      ⟨none, _, optKw_none (notAt_cons (by decide)), rfl, rfl⟩⟩
    (.nil (ts := S "CHECK" :: S "(" :: ([S "cc", S ">", S "0"] ++ S ")" :: S "NOT" :: S "NULL" :: [S ")", S ";"])))
    (by decide) hb (by decide) (by decide)
  exact ⟨t, h1, col, h2, h3⟩

/-- This is what is returned. -/
example : Returns simpleNum "CREATE TABLE tt (cc INTEGER CHECK (cc > 0) NOT NULL);".toList .mysql
    ([{ name := S "tt"
        columns := [{ name := S "cc", dataType := { name := S "INTEGER" }
                      constraint := { check := S "(cc>0)", isNotNull := false } }] }], none) :=
  ⟨200, by decide +kernel⟩

/-- In the other order it is reported. -/
example : Returns simpleNum "CREATE TABLE tt (cc INTEGER NOT NULL CHECK (cc > 0));".toList .mysql
    ([{ name := S "tt"
        columns := [{ name := S "cc", dataType := { name := S "INTEGER" }
                      constraint := { check := S "(cc>0)", isNotNull := true } }] }], none) :=
  ⟨200, by decide +kernel⟩

end DDL.Props
