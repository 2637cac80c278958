import Verif.Proof.GoSame
import Verif.Props.Bound
/-
C53: the program text itself. Running the syntax trees of the functions in /repo, statement by statement, has the
outcomes that the model has.

`source isNum f args k` runs the function `f` of the source with calls nested at most `k` deep and loops of at most `k`
rounds (Go/Semantics.lean; the trees are in Go/Src*.lean).
-/

namespace DDL.Props
open DDL Src

/-- C53 (Parse). For every text and dialect the program text of `Parse` returns exactly what the model returns, and never
returns exactly when the model does not. It does not panic. -/
theorem C53_parse [CaseMap] (isNum : Str → Bool) (ddl : Str) (d : Rdbms) :
    Same (source isNum .dp_Parse [.str ddl, .rdbms d]) (Returns isNum ddl d) (Hangs isNum ddl d) :=
  same_of (fun _ _ => Returns.unique) (fun _ => not_returns_and_hangs) (parse_same isNum ddl d)

/-- C53 (ParseForce). -/
theorem C53_force [CaseMap] (isNum : Str → Bool) (ddl : Str) :
    Same (source isNum .dp_ParseForce [.str ddl]) (ForceReturns isNum ddl) (∀ n, parseForceN isNum n ddl = .timeout) :=
  same_of (fun _ _ => ForceReturns.unique) (fun _ ⟨n, h⟩ h' => nomatch (h' n).symm.trans h) (go_ParseForce isNum ddl)

/-- C53 (ParseSQLite). -/
theorem C53_sqlite [CaseMap] (isNum : Str → Bool) (ddl : Str) :
    Same (source isNum .dp_ParseSQLite [.str ddl]) (Returns isNum ddl .sqlite) (Hangs isNum ddl .sqlite) :=
  same_of (fun _ _ => Returns.unique) (fun _ => not_returns_and_hangs) (by
    rw [go_ParseSQLite]; exact parse_same isNum ddl .sqlite)

/-- C53 (ParsePostgreSQL). -/
theorem C53_postgres [CaseMap] (isNum : Str → Bool) (ddl : Str) :
    Same (source isNum .dp_ParsePostgreSQL [.str ddl]) (Returns isNum ddl .postgres) (Hangs isNum ddl .postgres) :=
  same_of (fun _ _ => Returns.unique) (fun _ => not_returns_and_hangs) (by
    rw [go_ParsePostgreSQL]; exact parse_same isNum ddl .postgres)

/-- C53 (ParseMySQL). -/
theorem C53_mysql [CaseMap] (isNum : Str → Bool) (ddl : Str) :
    Same (source isNum .dp_ParseMySQL [.str ddl]) (Returns isNum ddl .mysql) (Hangs isNum ddl .mysql) :=
  same_of (fun _ _ => Returns.unique) (fun _ => not_returns_and_hangs) (by
    rw [go_ParseMySQL]; exact parse_same isNum ddl .mysql)

/-- C53 (results). Different results are different values. -/
theorem C53_results (a b : List Table × Option VErr) (h : encResult a = encResult b) : a = b := encResult_inj a b h

/-- For a script with a default value, a comment and a table constraint. -/
example : ∃ k, source (fun _ => false) .dp_Parse [.str "CREATE TABLE tt (aa TEXT DEFAULT 'x', -- c\n UNIQUE (aa));".toList, .rdbms .postgres] k =
    .ok (encResult ([⟨[], S "tt", false, [⟨S "aa", { name := S "TEXT" }, { default := .str (S "x") }⟩],
      { unique := [⟨[], [S "aa"]⟩] }⟩], none)) [] [] :=
  ((C53_parse _ _ _).returns _).2 ⟨60, by decide +kernel⟩

/-- For a script with a missing parenthesis, which never returns. -/
example : ∀ k, source simpleNum .dp_ParseMySQL [.str "CREATE TABLE t (a INTEGER CHECK (a".toList] k = .timeout := by
  refine (C53_mysql _ _).hangs.2 ((C41_hangs_iff simpleNum_ok _ _).2 ?_)
  decide +kernel

/-- The error that a call returned. -/
def errorOf : Ret → Option (Int × Str)
  | .ok (.tuple [.slice [], .err line near]) [] [] => some (line, near)
  | _ => none

/-- The names of the tables that a call returned. -/
def tablesOf : Ret → Option (List Src.Val)
  | .ok (.tuple [.slice ts, .nil]) [] [] => some (ts.filterMap fun t => match t with
    | .obj .Table fs => look .Name fs
    | _ => none)
  | _ => none

/-- The program text, run: an error in line 2. -/
example : errorOf (source (fun _ => false) .dp_ParseMySQL [.str "CREATE TABLE\n , (".toList] 40) =
    some (2, S ",") := by decide +kernel

/-- The program text, run: one table. -/
example : (tablesOf (source (fun _ => false) .dp_ParseForce [.str "CREATE TABLE t (a TEXT);".toList] 40)).map (·.length) =
    some 1 := by decide +kernel

end DDL.Props
