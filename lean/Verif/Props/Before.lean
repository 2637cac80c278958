import Verif.Proof.Before
import Verif.Proof.Simple
import Verif.Props.Columns
/-
C60: up to the first entry that is reported wrongly, the result is right.
-/

namespace DDL.Props
open DDL Spec Conv

theorem before_script [CaseMap] {isNum : Str → Bool} (hN : NumOK isNum) {d : Rdbms} {ddl : List Char} {toks : List Str}
    {ss : List Stmt} {T : List Table} (hl : Lexes d ddl toks) (hs : script isNum d (noNewlines toks) ss)
    (hr : Returns isNum ddl d (T, none)) : ∃ os m r, All2 (stmtE (vd d) (itemE isNum (vd d))) ss os ∧
      2 * os.flatten.length < m ∧ C.convert isNum d m [] os.flatten = .ok T r := by
  obtain ⟨toks', out, hl', hv, n, hc⟩ := returns_ok_iff.1 hr
  cases Lexes.unique hl hl'
  obtain ⟨os, hos, rfl⟩ := validates_scriptE hN (Lexes.good hl) hv hs
  have hc := Converts.mono hc (Nat.le_max_left n (2 * os.flatten.length + 1))
  have hm := Nat.le_max_right n (2 * os.flatten.length + 1)
  generalize max n (2 * os.flatten.length + 1) = m at hc hm
  unfold convertN at hc
  cases e : C.convert isNum d m [] os.flatten with
  | panic => rw [e] at hc; cases hc
  | timeout => rw [e] at hc; cases hc
  | ok M r =>
    rw [e] at hc
    cases hc
    exact ⟨os, m, r, hos, by omega, e⟩

/-- C60: whatever `Parse` returns for an accepted script begins with the tables of the statements before the first one
that is not one of those of C07, C08 and C09. -/
theorem C60_statements [CaseMap] {isNum : Str → Bool} (hN : NumOK isNum) {d : Rdbms} {ddl : List Char} {toks : List Str}
    {ss ss2 : List Stmt} {T : List Table} (hl : Lexes d ddl toks) (hs : script isNum d (noNewlines toks) (ss ++ ss2))
    (hf : Faithful ss) (hr : Returns isNum ddl d (T, none)) : tablesVal isNum d ss <+: T := by
  obtain ⟨os, m, r, h, hn, hc⟩ := before_script hN hl hs hr
  obtain ⟨os1, os2, rfl, h5, h6⟩ := all2_split h
  rw [List.flatten_append] at hc hn
  rw [List.length_append] at hn
  obtain ⟨k, acc, h0, h1, h2⟩ := convert_prefix (d := d) hN (known_vd d) h5
    (fun t ht => scriptOk_of hs t (by simp [ht])) hf os2.flatten [] m (by omega)
  rw [h2] at hc
  obtain ⟨l, rfl⟩ := convert_grow hc
  subst h0
  exact ⟨l, rfl⟩

/-- C60, within the next statement: its table is there, with the right name, and begins with the columns and
constraints of the entries before the first one that is not as in C07, C08 and C09 (or before any other one). In PostgreSQL the
columns and constraints may be wrong if the definition starts with an unnamed EXCLUDE. -/
theorem C60_entries [CaseMap] {isNum : Str → Bool} (hN : NumOK isNum) {d : Rdbms} {ddl : List Char} {toks : List Str}
    {ss ss2 : List Stmt} {t : TableAst} {T : List Table} (hl : Lexes d ddl toks)
    (hs : script isNum d (noNewlines toks) (ss ++ .table t :: ss2))
    (hf : Faithful ss) (hr : Returns isNum ddl d (T, none)) :
    ∃ T1 T2, T = tablesVal isNum d ss ++ T1 :: T2 ∧ ∀ is is2, t.items = is ++ is2 → (∀ i ∈ is, i.Faithful) →
      (is = [] ∨ ∀ i is', t.items ≠ Item.exclude .absent :: i :: is') →
      Begins (tableVal isNum d { t with items := is }) T1 := by
  obtain ⟨os, m, r, h, hn, hc⟩ := before_script hN hl hs hr
  exact script_begins hN h (scriptOk_of hs) hf hn hc

/-- A script to which C60 applies: the second statement has a reference with a schema. -/
def brokenScript : List Str :=
  [S "CREATE", S "TABLE", S "aa", S "(", S "bb", S "INTEGER", S ")", S ";",
   S "CREATE", S "TABLE", S "tt", S "(", S "dd", S "INTEGER", S ",", S "cc", S "INTEGER", S "REFERENCES", S "ss", S ".", S "uu", S ")", S ";",
   S "CREATE", S "TABLE", S "vv", S "(", S "ww", S "INTEGER", S ")", S ";"]

/-- A column of type INTEGER. -/
def intColumn (n : String) (cs : List ColCon) : Item := .column ⟨S n, ⟨S "INTEGER", false, none⟩, .absent, cs⟩

theorem brokenScript_script : script simpleNum .sqlite brokenScript
    ([.table ⟨false, ⟨none, S "aa"⟩, [intColumn "bb" []]⟩] ++
      .table ⟨false, ⟨none, S "tt"⟩, [intColumn "dd" [], intColumn "cc" [.references ⟨⟨some (S "ss"), S "uu"⟩, none⟩]]⟩ ::
      [.table ⟨false, ⟨none, S "vv"⟩, [intColumn "ww" []]⟩]) := by
  have hn : ∀ n ∈ [S "aa", S "bb", S "cc", S "dd", S "tt", S "ss", S "uu", S "vv", S "ww"], Name .sqlite n := by
    intro n hn
    simp only [List.mem_cons, List.not_mem_nil, or_false] at hn
    rcases hn with rfl | rfl | rfl | rfl | rfl | rfl | rfl | rfl | rfl <;>
      exact .inr ⟨⟨_, _, rfl, by decide, by decide⟩, by decide +kernel⟩
  have plain : ∀ {k : Str} {ts : List Str}, k = S ")" ∨ k = S "," →
      colCons (colConFirstOf .sqlite) (colConOf simpleNum .sqlite) (k :: ts) [] (k :: ts) := by
    rintro k ts (rfl | rfl) <;> exact ⟨.nil (notAt_cons (by decide)), by decide⟩
  refine .cons (stmt_simple (hn _ (by decide)) (by decide) (.one (item_simple (hn _ (by decide)) (by decide) (by decide)
    (plain (.inl rfl))) (notAt_cons (by decide)))) (.cons (stmt_simple (hn _ (by decide)) (by decide)
      (.cons (item_simple (hn _ (by decide)) (by decide) (by decide) (plain (.inr rfl))) (kw_intro (by decide))
        (.one (item_simple (hn _ (by decide)) (by decide) (by decide)
        ⟨.cons ⟨rfl, _, _, rfl, by decide⟩ (.inr (.inr (.inr (.inr (.inr (.inr (.inl ⟨_, _,
          ⟨(), _, kw_intro (by decide), _, _, ⟨S "ss", _, ⟨rfl, hn _ (by decide)⟩, some (S "uu"), _,
            optKw_some (by decide) ⟨rfl, hn _ (by decide)⟩, rfl, rfl⟩, none, _,
            optKw_none (notAt_cons (by decide)), rfl, rfl⟩,
          (), _, ⟨[], _, .nil (notAt_cons (by decide)), rfl, rfl⟩, rfl, rfl⟩)))))))
        (.nil (notAt_cons (by decide))), by decide⟩) (notAt_cons (by decide)))))
    (.cons (stmt_simple (hn _ (by decide)) (by decide) (.one (item_simple (hn _ (by decide)) (by decide) (by decide)
    (plain (.inl rfl))) (notAt_cons (by decide)))) .nil))

/-- What is returned for it. -/
theorem brokenScript_returns : Returns simpleNum
    "CREATE TABLE aa (bb INTEGER); CREATE TABLE tt (dd INTEGER, cc INTEGER REFERENCES ss.uu); CREATE TABLE vv (ww INTEGER);".toList
    .sqlite
    ([{ name := S "aa", columns := [{ name := S "bb", dataType := { name := S "INTEGER" } }] },
      { name := S "tt"
        columns :=
          [{ name := S "dd", dataType := { name := S "INTEGER" } },
           { name := S "cc", dataType := { name := S "INTEGER" }
             constraint := { references := { tableName := S "ss" } } },
           { name := S "uu", dataType := { name := S ")" } },
           { name := S "CREATE", dataType := { name := S "TABLE" } },
           { name := S "(", dataType := { name := S "WW" } }] }], none) :=
  ⟨300, by decide +kernel⟩

/-- The hypotheses can be met, by a script that is not faithful. -/
example : ∃ T1 T2, [T1, T2] <+: ([{ name := S "aa", columns := [{ name := S "bb", dataType := { name := S "INTEGER" } }] },
      { name := S "tt"
        columns :=
          [{ name := S "dd", dataType := { name := S "INTEGER" } },
           { name := S "cc", dataType := { name := S "INTEGER" }
             constraint := { references := { tableName := S "ss" } } },
           { name := S "uu", dataType := { name := S ")" } },
           { name := S "CREATE", dataType := { name := S "TABLE" } },
           { name := S "(", dataType := { name := S "WW" } }] }] : List Table) ∧
      T1.name = S "aa" ∧ Begins { name := S "tt", columns := [{ name := S "dd", dataType := { name := S "INTEGER" } }] } T2 := by
  have hl : Lexes .sqlite
      "CREATE TABLE aa (bb INTEGER); CREATE TABLE tt (dd INTEGER, cc INTEGER REFERENCES ss.uu); CREATE TABLE vv (ww INTEGER);".toList
      brokenScript := ⟨200, by decide +kernel⟩
  have hf : Faithful [.table ⟨false, ⟨none, S "aa"⟩, [intColumn "bb" []]⟩] := by
    intro t ht
    cases List.mem_singleton.1 ht
    refine ⟨fun i hi => ?_, by rintro i is h; cases h⟩
    cases List.mem_singleton.1 hi
    exact ⟨(fun r hr => nomatch hr), (fun n h => nomatch h)⟩
  obtain ⟨T1, T2, e, h⟩ := C60_entries simpleNum_ok hl brokenScript_script hf brokenScript_returns
  refine ⟨_, T1, ⟨T2, e.symm⟩, rfl, ?_⟩
  exact h [intColumn "dd" []] _ rfl (by
    intro i hi
    cases List.mem_singleton.1 hi
    exact ⟨(fun r hr => nomatch hr), (fun n h => nomatch h)⟩) (.inr (by intro i is h; cases h))

end DDL.Props
