import Verif.Proof.PrintScript
import Verif.Proof.Num
/-
C10: what is written is what is read.
-/

namespace DDL.Props
open DDL V Spec

/-- C10: writing well-formed table descriptions and parsing the script returns exactly them. -/
theorem C10_round_trip [CaseMap] {isNum : Str → Bool} (hN : NumOK isNum) {d : Rdbms} (hd : d ≠ .other)
    {tables : List Table} (h : ∀ t ∈ tables, TableOK isNum d t) :
    Returns isNum (scriptText d tables) d (tables, none) :=
  returns_printed hN hd h

/-- Different descriptions are written differently. -/
theorem C10_text_determines_tables [CaseMap] {isNum : Str → Bool} (hN : NumOK isNum) {d : Rdbms}
    (hd : d ≠ .other) {a b : List Table} (ha : ∀ t ∈ a, TableOK isNum d t)
    (hb : ∀ t ∈ b, TableOK isNum d t) (h : scriptText d a = scriptText d b) : a = b := by
  have h1 := returns_printed hN hd ha
  have h2 := returns_printed hN hd hb
  rw [h] at h1
  exact (Prod.mk.inj (Returns.unique h1 h2)).1

/-- A table with one column. -/
def oneColumn (schema table column con value : Str) : Table :=
  { schema := schema, name := table
    columns := [⟨column, { name := S "TEXT" }, { name := con, default := .str value }⟩] }

theorem text_ok (d : Rdbms) : TypeOK d { name := S "TEXT" } := by
  have h0 : ∀ k, DigitsOK k { name := S "TEXT" } := fun k => by
    refine ⟨?_, ?_, ?_, ?_, ?_, ?_, ?_⟩ <;> simp
  cases d with
  | other => exact ⟨_, .head _, "TEXT", by decide, rfl, h0 _⟩
  | sqlite => exact ⟨_, .head _, "TEXT", by decide, rfl, h0 _⟩
  | postgres => exact ⟨(dataTypePostgres, 0), by decide, "TEXT", by decide, rfl, h0 _⟩
  | mysql => exact ⟨_, .head _, "TEXT", by decide, rfl, h0 _⟩

theorem oneColumn_ok {isNum : Str → Bool} {d : Rdbms} {schema table column con value : Str}
    (h1 : Quotable schema) (h2 : Quotable table) (h3 : Quotable column) (h4 : Quotable con)
    (h5 : Quotable value) : TableOK isNum d (oneColumn schema table column con value) := by
  refine ⟨h1, h2, ?_, fun _ h => (List.not_mem_nil h).elim, fun _ h => (List.not_mem_nil h).elim,
    fun _ h => (List.not_mem_nil h).elim, fun _ h => (List.not_mem_nil h).elim, by simp [itemTexts, oneColumn]⟩
  intro c hc
  rw [List.mem_singleton.1 hc]
  exact ⟨h3, text_ok d, h4, h5, .inl rfl, fun h => (h rfl).elim, ⟨fun _ hc => (List.not_mem_nil hc).elim,
    fun _ h => (nomatch h)⟩, fun _ h => (nomatch h), fun h => (nomatch h)⟩

theorem oneColumn_text {d : Rdbms} {schema table column con value : Str} (h0 : schema ≠ []) :
    scriptText d [oneColumn schema table column con value] =
      S "CREATE TABLE " ++ (nameText d schema ++ (S ". " ++ (nameText d table ++ (S "( " ++
        (nameText d column ++ (S "TEXT " ++ (conNameText d con ++
        (S "DEFAULT '" ++ (value ++ (S "' " ++ S ") ; ")))))))))) := by
  have e1 : (schema != []) = true := by simpa using h0
  have e3 : typeText d { name := S "TEXT" } = S "TEXT " := by
    unfold typeText
    rw [show (S "TEXT" == S "DOUBLE") = false by decide, Bool.and_false]
    decide
  have e4 : columnText d ⟨column, { name := S "TEXT" }, { name := con, default := .str value }⟩ =
      nameText d column ++ (S "TEXT " ++ (conNameText d con ++ (S "DEFAULT '" ++ (value ++ S "' ")))) := by
    have e5 : constraintText d { name := con, default := .str value } =
        conNameText d con ++ (S "DEFAULT '" ++ value ++ S "' ") := by
      show conNameText d con ++ [] ++ [] ++ [] ++ [] ++ (S "DEFAULT '" ++ value ++ S "' ") ++ [] ++ [] ++ [] = _
      simp only [List.append_nil]
    unfold columnText
    rw [e3, e5]
    simp only [List.append_assoc]
  show tableText d (oneColumn schema table column con value) ++ [] = _
  rw [List.append_nil]
  show S "CREATE TABLE " ++ [] ++ textIf (schema != []) (nameText d schema ++ S ". ") ++ nameText d table ++
    S "( " ++ columnText d _ ++ S ") ; " = _
  rw [e4, e1]
  simp only [List.append_assoc, List.nil_append, textIf, if_true]

/-- C21: the names and the string written between quotes are reported without them: the schema,
the table, a column, its constraint (if it has a name) and its default value. -/
theorem C21_content_reported [CaseMap] {isNum : Str → Bool} (hN : NumOK isNum) {d : Rdbms}
    (hd : d ≠ .other) {schema table column con value : Str} (h1 : Quotable schema) (h0 : schema ≠ [])
    (h2 : Quotable table) (h3 : Quotable column) (h4 : Quotable con) (h5 : Quotable value) :
    Returns isNum
      (S "CREATE TABLE " ++ (nameText d schema ++ (S ". " ++ (nameText d table ++ (S "( " ++
        (nameText d column ++ (S "TEXT " ++ (conNameText d con ++
        (S "DEFAULT '" ++ (value ++ (S "' " ++ S ") ; "))))))))))) d
      ([{ schema := schema, name := table
          columns := [⟨column, { name := S "TEXT" }, { name := con, default := .str value }⟩] }], none) := by
  have := returns_printed hN hd (tabs := [oneColumn schema table column con value])
    (fun t ht => by rw [List.mem_singleton.1 ht]; exact oneColumn_ok h1 h2 h3 h4 h5)
  rw [oneColumn_text h0] at this
  exact this

/-! A concrete script for each dialect. -/

/-- Content without quotes and newlines, as a test. -/
def quotableB (s : Str) : Bool := s.all fun c => !(quotes.contains c) && c != '\n'

theorem quotable_of {s : Str} (h : quotableB s = true) : Quotable s := by
  intro c hc
  have := List.all_eq_true.1 h c hc
  simpa using this

theorem key_of {d : Rdbms} {s : Str} (h : plainName d s = true) : KeyName d s :=
  .inr ((plainName_iff d s).1 h)

/-- Expression of the example. -/
theorem expr_example {d : Rdbms} : ExprOK d (S "(x>0)") := by
  refine ⟨[.punct '(', .word (S "x>0"), .punct ')'], [S "x>0"], ⟨?_, ?_⟩, ?_, rfl, rfl, ?_, trivial⟩
  · intro l hl
    simp only [List.mem_cons, List.not_mem_nil, or_false] at hl
    rcases hl with rfl | rfl | rfl
    · exact (by decide : '(' ∈ puncts)
    · refine ⟨by decide, ?_, by decide, by decide, trivial⟩
      intro c hc
      have : ∀ c ∈ S "x>0", c ∉ nonWord .mysql ∧ c ∉ nonWord .sqlite := by decide
      have := this c hc
      cases d
      · exact this.2
      · exact this.2
      · exact this.1
      · exact this.2
    · exact (by decide : ')' ∈ puncts)
  · refine ⟨?_, ?_, trivial⟩ <;> simp [Lexeme.May, Lexeme.isComment]
  · intro l hl
    simp only [List.mem_cons, List.not_mem_nil, or_false] at hl
    rcases hl with rfl | rfl | rfl <;> trivial
  · exact .plain _ _ (by decide) (by decide) .nil

/-- A table with columns, key, unique constraint, check and foreign key. -/
def exampleTable : Table :=
  { schema := S "main", name := S "my orders", ifNotExists := true
    columns := [
      ⟨S "id", { name := S "INTEGER" }, { isPrimaryKey := true, isNotNull := true }⟩,
      ⟨S "x y", { name := S "NUMERIC" }, {
        name := S "c", isUnique := true, default := .num (S "10"), check := S "(x>0)"
        references := { tableName := S "t", columnNames := some [S "kk"] } }⟩]
    constraints := {
      primaryKey := [⟨S "pk", [S "id"]⟩]
      unique := [⟨[], [S "id", S "kk"]⟩]
      check := [⟨S "ck", S "(x>0)"⟩]
      foreignKey := [⟨[], [S "id", S "kk"], { tableName := S "u", columnNames := some [S "kk", S "ll"] }⟩] } }

theorem exampleTable_ok (d : Rdbms) (hd : d ≠ .other) : TableOK simpleNum d exampleTable := by
  have hk : KeyNames d [S "id"] ∧ KeyNames d [S "id", S "kk"] ∧ KeyNames d [S "kk", S "ll"] ∧ KeyNames d [S "kk"] := by
    have h : ∀ s ∈ [S "id", S "kk", S "ll"], KeyName d s := by
      intro s hs
      refine key_of ?_
      have : ∀ s ∈ [S "id", S "kk", S "ll"], plainName .sqlite s = true ∧ plainName .postgres s = true ∧
          plainName .mysql s = true ∧ plainName .other s = true := by decide +kernel
      have := this s hs
      cases d
      · exact this.1
      · exact this.2.1
      · exact this.2.2.1
      · exact this.2.2.2
    refine ⟨⟨by simp, ?_⟩, ⟨by simp, ?_⟩, ⟨by simp, ?_⟩, ⟨by simp, ?_⟩⟩ <;> intro s hs <;> refine h s ?_ <;>
      simp only [List.mem_cons, List.not_mem_nil, or_false] at hs ⊢
    · exact .inl hs
    · exact hs.elim .inl (fun h => .inr (.inl h))
    · exact hs.elim (fun h => .inr (.inl h)) (fun h => .inr (.inr h))
    · exact .inr (.inl hs)
  have hq : ∀ s, quotableB s = true → Quotable s := fun s h => quotable_of h
  have hw : IsWord d (S "10") := isWord_alnum (by decide) (by decide)
  have h0 : ∀ k n, DigitsOK k { name := n } := fun k n => by
    refine ⟨?_, ?_, ?_, ?_, ?_, ?_, ?_⟩ <;> simp
  have ht : TypeOK d { name := S "INTEGER" } ∧ TypeOK d { name := S "NUMERIC" } := by
    cases d with
    | other => exact (hd rfl).elim
    | sqlite => exact ⟨⟨_, .head _, "INTEGER", by decide, rfl, h0 _ _⟩, ⟨_, .head _, "NUMERIC", by decide, rfl, h0 _ _⟩⟩
    | postgres => exact ⟨⟨(dataTypePostgres, 0), by decide, "INTEGER", by decide, rfl, h0 _ _⟩,
        ⟨(dataTypePostgres, 0), by decide, "NUMERIC", by decide, rfl, h0 _ _⟩⟩
    | mysql => exact ⟨⟨(dataTypeMysql, 0), by decide, "INTEGER", by decide, rfl, h0 _ _⟩,
        ⟨(dataTypeMysql, 0), by decide, "NUMERIC", by decide, rfl, h0 _ _⟩⟩
  have hr : ∀ n ks, quotableB n = true → KeyNames d ks → ReferenceOK d { tableName := n, columnNames := some ks } :=
    fun n ks h1 h2 => ⟨hq n h1, fun ks' e => by cases e; exact h2⟩
  refine ⟨hq _ (by decide), hq _ (by decide), ?_, ?_, ?_, ?_, ?_, by simp [itemTexts, exampleTable]⟩
  · intro c hc
    rcases List.mem_cons.1 hc with rfl | hc
    · exact ⟨hq _ (by decide), ht.1, hq _ (by decide), trivial, .inl rfl, fun h => (h rfl).elim,
        ⟨hq _ (by decide), fun _ h => (nomatch h)⟩, fun _ h => (nomatch h), fun h => (nomatch h)⟩
    · cases List.mem_singleton.1 hc
      exact ⟨hq _ (by decide), ht.2, hq _ (by decide), ⟨by decide, hw⟩, .inl rfl, fun _ => expr_example,
        hr _ _ (by decide) hk.2.2.2, fun _ h => by cases h; rfl, fun h => (nomatch h)⟩
  · intro k h
    cases List.mem_singleton.1 h
    exact ⟨hq _ (by decide), hk.1⟩
  · intro k h
    cases List.mem_singleton.1 h
    exact ⟨hq _ (by decide), hk.2.1⟩
  · intro k h
    cases List.mem_singleton.1 h
    exact ⟨hq _ (by decide), expr_example⟩
  · intro k h
    cases List.mem_singleton.1 h
    exact ⟨hq _ (by decide), hk.2.1, hr _ _ (by decide) hk.2.2.1, fun _ h => (nomatch h)⟩

/-- C10 applies to the table in every dialect, also written twice. -/
example (d : Rdbms) (hd : d ≠ .other) :
    Returns simpleNum (scriptText d [exampleTable, exampleTable]) d ([exampleTable, exampleTable], none) :=
  C10_round_trip simpleNum_ok hd (by
    intro t ht
    simp only [List.mem_cons, List.not_mem_nil, or_false, or_self] at ht
    rw [ht]
    exact exampleTable_ok d hd)

/-- The text of the example. -/
example : scriptText .postgres [exampleTable] =
    S "CREATE TABLE IF NOT EXISTS \"main\" . \"my orders\" ( \"id\" INTEGER PRIMARY KEY NOT NULL , " ++
    S "\"x y\" NUMERIC CONSTRAINT \"c\" UNIQUE DEFAULT 10 CHECK (x>0) REFERENCES \"t\" ( kk ) , " ++
    S "CONSTRAINT \"pk\" PRIMARY KEY ( id ) , UNIQUE ( id , kk ) , CONSTRAINT \"ck\" CHECK (x>0) , " ++
    S "FOREIGN KEY ( id , kk ) REFERENCES \"u\" ( kk , ll ) ) ; " := by decide +kernel

end DDL.Props
