import Verif.Props.Alike
import Verif.Proof.Float
/-
C22 with the numbers of Go: nothing is assumed.
-/

namespace DDL.Props
open DDL Spec

/-- C22 for the numbers that `strconv.ParseFloat` accepts. -/
theorem C22_case_go [CaseMap] (d : Rdbms) (ddl ddl' : List Char) (h : upper ddl = upper ddl')
    (hk : KeyWordsOneCase d ddl) (hk' : KeyWordsOneCase d ddl') :
    (∀ tbs, Returns Go.isNumeric ddl d (tbs, none) →
      ∃ tbs', Returns Go.isNumeric ddl' d (tbs', none) ∧ tbs.map upperTable = tbs'.map upperTable) ∧
    (∀ e, Returns Go.isNumeric ddl d ([], some e) →
      ∃ e', Returns Go.isNumeric ddl' d ([], some e') ∧ e'.line = e.line ∧ upper e'.near = upper e.near) ∧
    (Hangs Go.isNumeric ddl d ↔ Hangs Go.isNumeric ddl' d) :=
  C22_case Go.isNumeric Go.isNumeric_case d ddl ddl' h hk hk'

example : Returns Go.isNumeric "create table tt (aa integer default 0x1p-2);".toList .sqlite
    ([{ name := S "tt", columns := [⟨S "aa", ⟨S "INTEGER", 0, 0⟩, { default := .num (S "0x1p-2") }⟩] }], none) :=
  ⟨200, by decide +kernel⟩
example : Returns Go.isNumeric "CREATE TABLE TT (AA INTEGER DEFAULT 0X1P-2);".toList .sqlite
    ([{ name := S "TT", columns := [⟨S "AA", ⟨S "INTEGER", 0, 0⟩, { default := .num (S "0X1P-2") }⟩] }], none) :=
  ⟨200, by decide +kernel⟩

end DDL.Props
