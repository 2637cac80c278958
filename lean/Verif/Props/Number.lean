import Verif.Proof.NumberText
import Verif.Props.Origin
import Verif.Props.RoundTrip
/-
C46: which default values are numbers.
-/

namespace DDL.Props
open DDL Spec Spec.Num

/-- C46: a default value that is returned as a number is written as a number. -/
theorem C46_number_default [CaseMap] {d : Rdbms} {ddl : List Char} {tbs : List Table}
    (h : Returns Go.isNumeric ddl d (tbs, none)) {t : Table} (ht : t ∈ tbs)
    {c : Column} (hc : c ∈ t.columns) {x : Str} (hx : c.constraint.default = .num x) : Number x := by
  obtain ⟨h1, h2, _⟩ := C43_no_point Go.isNumeric_ok (by decide) h ht hc hx
  exact (Go.isNumeric_iff h2).1 h1

example : Number (S "-1_000e-3") :=
  .inr ⟨_, S "1_000e-3", .inr (.inr rfl), rfl, .inl ⟨S "1_000", [1, 0, 0, 0], S "e-3", rfl,
    .under (by decide) (.next (by decide) (.next (by decide) (.one (by decide)))),
    .inr ⟨S "-", 3, ⟨'e', S "3", [3], by decide, .inr (.inr rfl), rfl, .one (by decide), .inl (by decide)⟩,
      by decide +kernel⟩⟩⟩

example : Number (S "0x_1Fp2") :=
  .inr ⟨_, _, .inl rfl, rfl, .inr ⟨'x', S "_", S "1F", [1, 15], S "p2", [], 2, by decide, .inr rfl, rfl,
    .next (by decide) (.one (by decide)),
    ⟨'p', S "2", [2], by decide, .inl rfl, rfl, .one (by decide), .inl (by decide)⟩, by decide +kernel⟩⟩

/-- The table with one numeric column. -/
def numTable (table column : Str) (x : Str) : Table :=
  { name := table, columns := [⟨column, { name := S "NUMERIC" }, { default := .num x }⟩] }

theorem numeric_ok (d : Rdbms) : TypeOK d { name := S "NUMERIC" } := by
  have h0 : ∀ k, DigitsOK k { name := S "NUMERIC" } := fun k => by
    refine ⟨?_, ?_, ?_, ?_, ?_, ?_, ?_⟩ <;> simp
  cases d with
  | other => exact ⟨_, .head _, "NUMERIC", by decide, rfl, h0 _⟩
  | sqlite => exact ⟨_, .head _, "NUMERIC", by decide, rfl, h0 _⟩
  | postgres => exact ⟨(["NUMERIC", "DECIMAL"], 2), by decide, "NUMERIC", by decide, rfl, h0 _⟩
  | mysql => exact ⟨(["NUMERIC", "DECIMAL", "FLOAT", "REAL", "DOUBLE"], 2), by decide, "NUMERIC", by decide, rfl, h0 _⟩

theorem numTable_text (d : Rdbms) (table column x : Str) :
    scriptText d [numTable table column x] =
      S "CREATE TABLE " ++ (nameText d table ++ (S "( " ++ (nameText d column ++
        (S "NUMERIC DEFAULT " ++ (x ++ S " ) ; "))))) := by
  have e3 : typeText d { name := S "NUMERIC" } = S "NUMERIC " := by
    unfold typeText
    rw [show (S "NUMERIC" == S "DOUBLE") = false by decide, Bool.and_false]
    decide
  have e5 : constraintText d { default := .num x } = S "DEFAULT " ++ piece x := by
    show [] ++ [] ++ [] ++ [] ++ [] ++ (S "DEFAULT " ++ piece x) ++ [] ++ [] ++ [] = _
    simp only [List.append_nil, List.nil_append]
  have e4 : columnText d ⟨column, { name := S "NUMERIC" }, { default := .num x }⟩ =
      nameText d column ++ (S "NUMERIC " ++ (S "DEFAULT " ++ (x ++ S " "))) := by
    unfold columnText
    rw [e3, e5]
    simp only [List.append_assoc]
    rfl
  show tableText d (numTable table column x) ++ [] = _
  rw [List.append_nil]
  show S "CREATE TABLE " ++ [] ++ [] ++ nameText d table ++ S "( " ++ columnText d _ ++ S ") ; " = _
  rw [e4]
  simp only [List.append_assoc, List.append_nil]
  rfl

/-- C46: the value after DEFAULT is returned as a number exactly when it is one. Nothing is assumed of
`x`. -/
theorem C46_number_iff [CaseMap] {d : Rdbms} (hd : d ≠ .other) {table column : Str} (h1 : Quotable table)
    (h2 : Quotable column) (x : Str) :
    Returns Go.isNumeric (S "CREATE TABLE " ++ (nameText d table ++ (S "( " ++ (nameText d column ++
        (S "NUMERIC DEFAULT " ++ (x ++ S " ) ; ")))))) d
      ([{ name := table, columns := [⟨column, { name := S "NUMERIC" }, { default := .num x }⟩] }], none) ↔
    Number x := by
  constructor
  · intro h
    exact C46_number_default h (List.mem_singleton.2 rfl) (List.mem_singleton.2 rfl) rfl
  · intro h
    have := returns_printed Go.isNumeric_ok hd (tabs := [numTable table column x]) (by
      intro t ht
      rw [List.mem_singleton.1 ht]
      refine ⟨fun _ h => (List.not_mem_nil h).elim, h1, ?_, fun _ h => (List.not_mem_nil h).elim,
        fun _ h => (List.not_mem_nil h).elim, fun _ h => (List.not_mem_nil h).elim,
        fun _ h => (List.not_mem_nil h).elim, by simp [itemTexts, numTable]⟩
      intro c hc
      rw [List.mem_singleton.1 hc]
      exact ⟨h2, numeric_ok d, fun _ h => (List.not_mem_nil h).elim, ⟨Go.number_isNumeric h, (Go.isWord_number h d).1⟩,
        .inl rfl, fun h => (h rfl).elim,
        ⟨fun _ hc => (List.not_mem_nil hc).elim, fun _ h => (nomatch h)⟩, fun _ h => (nomatch h), fun h => (nomatch h)⟩)
    rw [numTable_text] at this
    exact this

/-- Too large, a misplaced underscore, a hexadecimal number without exponent: no numbers. -/
example : ∀ x ∈ [S "1e309", S "1__0", S "0x10", S "-1e", S "12a"],
    ¬ Returns Go.isNumeric (S "CREATE TABLE " ++ (nameText .sqlite (S "tt") ++ (S "( " ++ (nameText .sqlite (S "aa") ++
        (S "NUMERIC DEFAULT " ++ (x ++ S " ) ; ")))))) .sqlite
      ([{ name := S "tt", columns := [⟨S "aa", { name := S "NUMERIC" }, { default := .num x }⟩] }], none) := by
  intro x hx h
  have hn := Go.number_isNumeric (C46_number_default h (List.mem_singleton.2 rfl) (List.mem_singleton.2 rfl) rfl)
  simp only [List.mem_cons, List.not_mem_nil, or_false] at hx
  rcases hx with rfl | rfl | rfl | rfl | rfl <;> exact absurd hn (by decide +kernel)

end DDL.Props
