import Verif.Proof.ExactScript
import Verif.Proof.Simple
import Verif.Props.Tables
/-
C59: the scripts left out of C07, C08 and C09 (those that are not `Faithful`) are exactly the accepted scripts
whose tables are not reported.
-/

namespace DDL.Props
open DDL Spec Conv

/-- No table has an index entry (these exist in MySQL only). -/
def NoIndex (ss : List Stmt) : Prop := ∀ t, Stmt.table t ∈ ss → ∀ i ∈ t.items, ¬ i.Index

/-- No table is called `,` or `)`, and no column is called `,` (such names can be written in quotes). -/
def OrdinaryNames (ts : List Table) : Prop :=
  ∀ t ∈ ts, t.name ≠ S "," ∧ t.name ≠ S ")" ∧ ∀ c ∈ t.columns, c.name ≠ S ","

/-- C59: an accepted script gets the tables it denotes if and only if it is one of the scripts of C07, C08 and
C09. Scripts with an index entry and a table or column named like a comma or a parenthesis are left out. -/
theorem C59_exact [CaseMap] {isNum : Str → Bool} (hN : NumOK isNum) {d : Rdbms} {ddl : List Char} {toks : List Str}
    {ss : List Stmt} (hl : Lexes d ddl toks) (hs : script isNum d (noNewlines toks) ss)
    (hn : NoIndex ss ∨ OrdinaryNames (tablesVal isNum d ss)) :
    Returns isNum ddl d (tablesVal isNum d ss, none) ↔ Faithful ss := by
  refine ⟨fun h => ?_, returns_of_script hN hl hs⟩
  obtain ⟨toks', out, hl', hv, n, hc⟩ := returns_ok_iff.1 h
  cases Lexes.unique hl hl'
  obtain ⟨os, hos, rfl⟩ := validates_scriptE hN (Lexes.good hl) hv hs
  have hc := Converts.mono hc (Nat.le_max_left n (3 * os.flatten.length + 10))
  have hm := Nat.le_max_right n (3 * os.flatten.length + 10)
  generalize max n (3 * os.flatten.length + 10) = m at hc hm
  unfold convertN at hc
  cases e : C.convert isNum d m [] os.flatten with
  | panic => rw [e] at hc; cases hc
  | timeout => rw [e] at hc; cases hc
  | ok M r =>
    rw [e] at hc
    cases hc
    exact exact_state hN hos (scriptOk_of hs) (fun t ht i hi => home_of hs ht hi) hm
      (by rw [List.nil_append]; exact typed_of hs) (by rw [List.nil_append]; exact hn) e

/-- C59, for the result whatever it is: the tables returned for an accepted script are those it denotes if and only
if the script is one of those of C07, C08 and C09. -/
theorem C59_result [CaseMap] {isNum : Str → Bool} (hN : NumOK isNum) {d : Rdbms} {ddl : List Char} {toks : List Str}
    {ss : List Stmt} {T : List Table} (hl : Lexes d ddl toks)
    (hs : script isNum d (noNewlines toks) ss) (hn : NoIndex ss ∨ OrdinaryNames (tablesVal isNum d ss))
    (hr : Returns isNum ddl d (T, none)) : T = tablesVal isNum d ss ↔ Faithful ss := by
  refine ⟨?_, fun hf => (result_eq hN hl hs hf hr).1⟩
  rintro rfl
  exact (C59_exact hN hl hs hn).1 hr

/-- The hypotheses are met by the printed example table of C10, and the script is faithful. -/
example (d : Rdbms) (hd : d ≠ .other) : ∃ toks ss, Lexes d (scriptText d [exampleTable]) toks ∧
    script simpleNum d (noNewlines toks) ss ∧ OrdinaryNames (tablesVal simpleNum d ss) ∧ Faithful ss := by
  obtain ⟨toks, ss, h1, h2, h3, h4⟩ := printed_example d hd
  refine ⟨toks, ss, h1, h2, ?_, h3⟩
  rw [h4]
  intro t ht
  rw [List.mem_singleton.1 ht]
  exact ⟨by decide, by decide, by decide⟩

/-- The hypotheses are met by a script that is not faithful: `REFERENCES ss.uu`. Its table is not reported as it is
written, with the column `cc` alone. -/
example : ¬ Returns simpleNum "CREATE TABLE tt (cc INTEGER REFERENCES ss.uu);".toList .sqlite
    ([{ name := S "tt"
        columns := [{ name := S "cc", dataType := { name := S "INTEGER" }
                      constraint := { references := { tableName := S "uu" } } }] }], none) := by
  have hn : ∀ n, n = S "tt" ∨ n = S "cc" ∨ n = S "ss" ∨ n = S "uu" → Name .sqlite n := by
    rintro n (rfl | rfl | rfl | rfl)
    · exact .inr ⟨⟨'t', ['t'], rfl, by decide, by decide⟩, by decide +kernel⟩
    · exact .inr ⟨⟨'c', ['c'], rfl, by decide, by decide⟩, by decide +kernel⟩
    · exact .inr ⟨⟨'s', ['s'], rfl, by decide, by decide⟩, by decide +kernel⟩
    · exact .inr ⟨⟨'u', ['u'], rfl, by decide, by decide⟩, by decide +kernel⟩
  have hl : Lexes .sqlite "CREATE TABLE tt (cc INTEGER REFERENCES ss.uu);".toList
      [S "CREATE", S "TABLE", S "tt", S "(", S "cc", S "INTEGER", S "REFERENCES", S "ss", S ".", S "uu", S ")", S ";"] :=
    ⟨60, by decide +kernel⟩
  have hs : script simpleNum .sqlite
      [S "CREATE", S "TABLE", S "tt", S "(", S "cc", S "INTEGER", S "REFERENCES", S "ss", S ".", S "uu", S ")", S ";"]
      [.table ⟨false, ⟨none, S "tt"⟩, [.column ⟨S "cc", ⟨S "INTEGER", false, none⟩, .absent,
        [.references ⟨⟨some (S "ss"), S "uu"⟩, none⟩]⟩]⟩] :=
    .cons (stmt_simple (hn _ (.inl rfl)) (by decide) (.one (item_simple (hn _ (.inr (.inl rfl))) (by decide) (by decide)
      ⟨.cons ⟨rfl, _, _, rfl, by decide⟩ (.inr (.inr (.inr (.inr (.inr (.inr (.inl ⟨_, _,
          ⟨(), _, kw_intro (by decide), _, _, ⟨S "ss", _, ⟨rfl, hn _ (.inr (.inr (.inl rfl)))⟩, some (S "uu"), _,
            optKw_some (by decide) ⟨rfl, hn _ (.inr (.inr (.inr rfl)))⟩, rfl, rfl⟩, none, _,
            optKw_none (notAt_cons (by decide)), rfl, rfl⟩,
          (), _, ⟨[], _, .nil (notAt_cons (by decide)), rfl, rfl⟩, rfl, rfl⟩)))))))
        (.nil (notAt_cons (by decide))), by decide⟩) (notAt_cons (by decide)))) .nil
  have hne : NoIndex [.table ⟨false, ⟨none, S "tt"⟩, [.column ⟨S "cc", ⟨S "INTEGER", false, none⟩, .absent,
        [.references ⟨⟨some (S "ss"), S "uu"⟩, none⟩]⟩]⟩] := by
    intro t ht i hi h
    cases List.mem_singleton.1 ht
    cases List.mem_singleton.1 hi
    exact h
  intro h
  have hf := (C59_exact simpleNum_ok hl hs (.inl hne)).1 h
  have := (hf _ (List.mem_singleton.2 rfl)).1 _ (List.mem_singleton.2 rfl)
  exact absurd (this.1 _ (List.mem_singleton.2 rfl)) (by intro h; cases h)

/-- `Parse` does not return for it. When another statement follows it returns wrong tables, see
`C24_schema_negation`; for index entries see `C24_fulltext_negation`. -/
example : parseN simpleNum 300 "CREATE TABLE tt (cc INTEGER REFERENCES ss.uu);".toList .sqlite = .timeout := by
  decide +kernel

end DDL.Props
