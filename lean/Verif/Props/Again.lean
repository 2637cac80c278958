import Verif.Proof.Again
import Verif.Proof.Num
/-
C38: checking the tokens kept by the SQLite syntax check once more.
-/

namespace DDL.Props
open DDL Spec

/-- C38, exactly: the tokens kept of an accepted SQLite script are accepted as a script iff no
`NOT NULL` has come to stand directly after `REFERENCES`. -/
theorem C38_again_iff (isNum : Str → Bool) (hN : NumOK isNum) (ddl : List Char) (toks kept : List Str)
    (ss : List Stmt) (hl : Lexes .sqlite ddl toks) (hs : script isNum .sqlite (noNewlines toks) ss)
    (hv : Validates isNum .sqlite toks kept) :
    (∃ kept', Validates isNum .sqlite kept kept') ↔ Apart ss :=
  (validates_again hN (Lexes.good hl) hv hs).1

/-- C38 for these scripts (all of them but the ones of `C38_negation`): checking the kept tokens
keeps all of them, and a text that consists of them is parsed in the same way as the script. -/
theorem C38_again_partial [CaseMap] (isNum : Str → Bool) (hN : NumOK isNum) (ddl : List Char) (toks kept : List Str)
    (ss : List Stmt) (hl : Lexes .sqlite ddl toks) (hs : script isNum .sqlite (noNewlines toks) ss)
    (ha : Apart ss) (hv : Validates isNum .sqlite toks kept) :
    Validates isNum .sqlite kept kept ∧
    ∀ ddl', Lexes .sqlite ddl' kept → SameOutcome isNum .sqlite ddl ddl' := by
  obtain ⟨h1, h2⟩ := validates_again hN (Lexes.good hl) hv hs
  obtain ⟨k, hk⟩ := h1.2 ha
  obtain rfl := h2 k hk
  refine ⟨hk, fun ddl' hl' => sameOutcome_of_validates hl hl' (fun o => ⟨fun h => ?_, fun h => ?_⟩)
    fun x => ⟨?_, ?_⟩⟩
  · rw [← Validates.unique hv h]; exact hk
  · rw [← Validates.unique hk h]; exact hv
  · rintro ⟨l, h⟩; exact (validates_not_rejects hv h).elim
  · rintro ⟨l, h⟩; exact (validates_not_rejects hk h).elim

/-- A script for which this holds, its kept tokens, and a text made of them. -/
example :
    let a := "create temp table tt (aa integer primary key asc on conflict fail autoincrement, bb text references uu (cc) on delete cascade, check (aa > 0)) strict; create view vv as select 1;".toList
    let b := "CREATE table tt ( aa integer primary key autoincrement , bb text references uu ( cc ) , check ( aa > 0 ) ) ;".toList
    ∃ toks kept, Lexes .sqlite a toks ∧ Validates simpleNum .sqlite toks kept ∧ Lexes .sqlite b kept ∧
      Validates simpleNum .sqlite kept kept ∧
      ∃ t, Returns simpleNum a .sqlite ([t], none) ∧ Returns simpleNum b .sqlite ([t], none) ∧
        t.columns.length = 2 :=
  ⟨(["create", "temp", "table", "tt", "(", "aa", "integer", "primary", "key", "asc", "on", "conflict", "fail", "autoincrement", ",", "bb", "text", "references", "uu", "(", "cc", ")", "on", "delete", "cascade", ",", "check", "(", "aa", ">", "0", ")", ")", "strict", ";", "create", "view", "vv", "as", "select", "1", ";"].map S),
    (["CREATE", "table", "tt", "(", "aa", "integer", "primary", "key", "autoincrement", ",", "bb", "text", "references", "uu", "(", "cc", ")", ",", "check", "(", "aa", ">", "0", ")", ")", ";"].map S),
    ⟨200, by decide +kernel⟩, ⟨200, by decide +kernel⟩, ⟨200, by decide +kernel⟩, ⟨200, by decide +kernel⟩,
    ⟨[], S "tt", false, [⟨S "aa", ⟨S "INTEGER", 0, 0⟩, { isPrimaryKey := true, isAutoincrement := true }⟩,
      ⟨S "bb", ⟨S "TEXT", 0, 0⟩, { references := ⟨S "uu", some [S "cc"]⟩ }⟩],
      { check := [⟨[], S "(aa>0)"⟩] }⟩, ⟨200, by decide +kernel⟩, ⟨200, by decide +kernel⟩, by decide +kernel⟩

/-- C38 is false of the code: the script is accepted, its kept tokens are not. -/
theorem C38_negation :
    let a := "CREATE TABLE tt (aa TEXT REFERENCES uu GENERATED ALWAYS AS (1) NOT NULL);".toList
    let b := "CREATE TABLE tt ( aa TEXT REFERENCES uu NOT NULL ) ;".toList
    ∃ toks kept t e, Lexes .sqlite a toks ∧ Validates simpleNum .sqlite toks kept ∧ Lexes .sqlite b kept ∧
      Returns simpleNum a .sqlite ([t], none) ∧ Rejects simpleNum .sqlite kept e ∧
      Returns simpleNum b .sqlite ([], some e) :=
  ⟨(["CREATE", "TABLE", "tt", "(", "aa", "TEXT", "REFERENCES", "uu", "GENERATED", "ALWAYS", "AS", "(", "1", ")", "NOT", "NULL", ")", ";"].map S),
    (["CREATE", "TABLE", "tt", "(", "aa", "TEXT", "REFERENCES", "uu", "NOT", "NULL", ")", ";"].map S),
    ⟨[], S "tt", false, [⟨S "aa", ⟨S "TEXT", 0, 0⟩, { isNotNull := true, references := ⟨S "uu", none⟩ }⟩], {}⟩,
    ⟨1, S "NULL"⟩, ⟨200, by decide +kernel⟩, ⟨200, by decide +kernel⟩, ⟨200, by decide +kernel⟩,
    ⟨200, by decide +kernel⟩, ⟨200, by decide +kernel⟩, ⟨200, by decide +kernel⟩⟩

end DDL.Props
