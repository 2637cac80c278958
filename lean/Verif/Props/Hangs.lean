import Verif.Proof.Simple
import Verif.Proof.ConvHang
import Verif.Proof.Num
/-
C03, C33, C34: texts on which `Parse` never returns.
-/

namespace DDL.Props
open DDL Spec Conv

/-! ### C03 -/

/-- C03, any place of any statement: if a parenthesis is opened and never closed, and closing it
after whatever balanced tokens would give a script, then `Parse` does not return. -/
theorem C03_unclosed_hangs [CaseMap] {isNum : Str → Bool} (hN : NumOK isNum) {d : Rdbms} {ddl : List Char}
    {toks before inside after : List Str} (hl : Lexes d ddl toks)
    (hs : noNewlines toks = before ++ S "(" :: inside)
    (hu : ∀ e r, Bal e → inside ≠ e ++ S ")" :: r) (ha : ∀ t ∈ after, TokenShape d t)
    (H : ∀ e, Bal e → ∃ ss, script isNum d (before ++ S "(" :: e ++ S ")" :: after) ss) :
    Hangs isNum ddl d :=
  hangs_unclosed hN hl hs hu (fun t ht => TokenShape.good (ha t ht)) fun e he _ => H e he

/-- C03: after any script, a table whose column has a CHECK or DEFAULT expression that is never
closed: `Parse` does not return, in any dialect, for all names and all tokens that follow. -/
theorem C03_check_default_hangs [CaseMap] {isNum : Str → Bool} (hN : NumOK isNum) {d : Rdbms} {ddl : List Char}
    {toks before inside : List Str} {ss : List Stmt} {t c k : Str} (hl : Lexes d ddl toks)
    (hs : noNewlines toks =
      before ++ [S "CREATE", S "TABLE", t, S "(", c, S "INTEGER", k, S "("] ++ inside)
    (hb : script isNum d before ss) (hk : k = S "CHECK" ∨ k = S "DEFAULT")
    (ht : Name d t) (hi : ¬ Kw ["IF"] t) (hc : Name d c)
    (hu : ∀ e r, Bal e → inside ≠ e ++ S ")" :: r) : Hangs isNum ddl d := by
  have hvd : ∀ n, Name d n → Name (vd d) n := by cases d <;> exact fun n h => h
  refine C03_unclosed_hangs hN (before := before ++ [S "CREATE", S "TABLE", t, S "(", c, S "INTEGER", k])
    (after := [S ")", S ";"]) hl (by rw [hs]; simp) hu ?_ fun e he => ?_
  · intro t ht
    refine .inr (.inl ?_)
    simp only [List.mem_cons, List.not_mem_nil, or_false] at ht
    rcases ht with rfl | rfl
    · exact ⟨')', by decide, rfl⟩
    · exact ⟨';', by decide, rfl⟩
  · obtain ⟨s, h⟩ := stmt_expr (isNum := isNum) hk (hvd t ht) hi (hvd c hc) he
    refine ⟨ss ++ [s], ?_⟩
    have := Script.append hb (.cons h .nil)
    rw [List.append_assoc, List.append_assoc]
    exact this

/-- The hypotheses can be met: nothing closes `CHECK ( cc > ( 1 ) ;`. -/
example : Hangs simpleNum "CREATE TABLE tt ( cc INTEGER CHECK ( cc > ( 1 ) ;".toList .postgres :=
  C03_check_default_hangs (toks := [S "CREATE", S "TABLE", S "tt", S "(", S "cc", S "INTEGER", S "CHECK",
      S "(", S "cc", S ">", S "(", S "1", S ")", S ";"]) (before := [])
    (inside := [S "cc", S ">", S "(", S "1", S ")", S ";"]) (k := S "CHECK")
    simpleNum_ok ⟨60, by decide +kernel⟩ (by decide +kernel) .nil (.inl rfl)
    (.inr ⟨⟨'t', ['t'], rfl, by decide, by decide⟩, by decide +kernel⟩) (by decide)
    (.inr ⟨⟨'c', ['c'], rfl, by decide, by decide⟩, by decide +kernel⟩) (unclosed_of_count (by decide +kernel))

/-- The same text with the parenthesis closed is answered. -/
example : ¬ Hangs simpleNum "CREATE TABLE tt ( cc INTEGER CHECK ( cc > ( 1 ) ) ) ;".toList .postgres :=
  fun h => absurd (h 100) (by decide +kernel)

/-! ### C33 -/

/-- C33: a script is accepted, and the last entry of its last table ends in a reference to
`schema.table` or `schema.table (column)`, as a column constraint or as a foreign key; what comes
before is reported faithfully. Then `Parse` does not return, in any dialect. -/
theorem C33_qualified_reference_hangs [CaseMap] {isNum : Str → Bool} (hN : NumOK isNum) {d : Rdbms}
    {ddl : List Char} {toks : List Str} {before after : List Stmt} {t : TableAst} {is : List Item}
    {i : Item} (hl : Lexes d ddl toks)
    (hs : script isNum d (noNewlines toks) (before ++ .table t :: after)) (hb : Faithful before)
    (ha : ∀ s ∈ after, s = .other) (hi : t.items = is ++ [i]) (hf : ∀ i ∈ is, i.Faithful)
    (hx : is.head? ≠ some (.exclude .absent)) (hq : i.EndsQualified) : Hangs isNum ddl d :=
  hangs_lost hN hl hs hb ha hi hf (fun is' e => hx (by rw [e]; rfl)) (.inr hq)

/-- C33, for all names: after any faithfully reported script, a table with a column
`c INTEGER REFERENCES s . u`. -/
theorem C33_column_hangs [CaseMap] {isNum : Str → Bool} (hN : NumOK isNum) {d : Rdbms} {ddl : List Char}
    {toks before : List Str} {ss : List Stmt} {t c s u : Str} (hl : Lexes d ddl toks)
    (hs : noNewlines toks = before ++ [S "CREATE", S "TABLE", t, S "(", c, S "INTEGER",
      S "REFERENCES", s, S ".", u, S ")", S ";"])
    (hb : script isNum d before ss) (hf : Faithful ss) (ht : Name d t) (hi : ¬ Kw ["IF"] t)
    (hc : Name d c) (hsn : Name d s) (hu : Name d u) : Hangs isNum ddl d := by
  have hvd : ∀ n, Name d n → Name (vd d) n := by cases d <;> exact fun n h => h
  have hn : ¬ Kw (colConFirstOf d) (S ")") := by cases d <;> decide
  have hst := stmt_simple (isNum := isNum) (r := []) (hvd t ht) hi (.one
    (item_simple (hvd c hc) (by decide) (by decide)
      (colCons_one (by cases d <;> decide) (ref_simple d [S ";"] (hvd s hsn) (hvd u hu)) hn))
    (notAt_cons (by decide)))
  refine C33_qualified_reference_hangs hN hl (hs ▸ Script.append hb (.cons hst .nil)) hf
    (fun s hs => (List.not_mem_nil hs).elim) (is := []) rfl (fun i hi => (List.not_mem_nil hi).elim)
    (fun h => (nomatch h)) ?_
  exact ⟨fun n h => (nomatch h), [], _, [], rfl, ⟨⟨s, rfl⟩, .inl rfl⟩, fun x hx => (List.not_mem_nil hx).elim⟩

/-- The hypotheses can be met. -/
example : Hangs simpleNum "CREATE TABLE tt (cc INTEGER REFERENCES main.uu);".toList .sqlite :=
  C33_column_hangs (toks := [S "CREATE", S "TABLE", S "tt", S "(", S "cc", S "INTEGER",
      S "REFERENCES", S "main", S ".", S "uu", S ")", S ";"]) (before := [])
    simpleNum_ok ⟨60, by decide +kernel⟩ (by decide +kernel) .nil (fun _ h => (List.not_mem_nil h).elim)
    (.inr ⟨⟨'t', ['t'], rfl, by decide, by decide⟩, by decide +kernel⟩) (by decide)
    (.inr ⟨⟨'c', ['c'], rfl, by decide, by decide⟩, by decide +kernel⟩)
    (.inr ⟨⟨'m', ['a', 'i', 'n'], rfl, by decide, by decide⟩, by decide +kernel⟩)
    (.inr ⟨⟨'u', ['u'], rfl, by decide, by decide⟩, by decide +kernel⟩)

/-- The same text without the schema is answered. -/
example : ¬ Hangs simpleNum "CREATE TABLE tt (cc INTEGER REFERENCES uu);".toList .sqlite :=
  fun h => absurd (h 100) (by decide +kernel)

/-! ### C34 -/

/-- C34: a MySQL script is accepted, and the last entry of its last table is an index definition;
what comes before is reported faithfully. Then `Parse` does not return. -/
theorem C34_index_hangs [CaseMap] {isNum : Str → Bool} (hN : NumOK isNum) {d : Rdbms} {ddl : List Char}
    {toks : List Str} {before after : List Stmt} {t : TableAst} {is : List Item} {i : Item}
    (hl : Lexes d ddl toks)
    (hs : script isNum d (noNewlines toks) (before ++ .table t :: after)) (hb : Faithful before)
    (ha : ∀ s ∈ after, s = .other) (hi : t.items = is ++ [i]) (hf : ∀ i ∈ is, i.Faithful)
    (hx : is.head? ≠ some (.exclude .absent)) (hq : i.IsIndex) : Hangs isNum ddl d :=
  hangs_lost hN hl hs hb ha hi hf (fun is' e => hx (by rw [e]; rfl)) (.inl hq)

/-- C34, for all names: after any faithfully reported script, a table
`t ( c INTEGER , INDEX ( c' ) )`. -/
theorem C34_column_index_hangs [CaseMap] {isNum : Str → Bool} (hN : NumOK isNum) {ddl : List Char}
    {toks before : List Str} {ss : List Stmt} {t c c' : Str} (hl : Lexes .mysql ddl toks)
    (hs : noNewlines toks = before ++ [S "CREATE", S "TABLE", t, S "(", c, S "INTEGER",
      S ",", S "INDEX", S "(", c', S ")", S ")", S ";"])
    (hb : script isNum .mysql before ss) (hf : Faithful ss) (ht : Name .mysql t)
    (hi : ¬ Kw ["IF"] t) (hc : Name .mysql c) (hc' : Name .mysql c') : Hangs isNum ddl .mysql := by
  have hst := stmt_simple (isNum := isNum) (d := .mysql) (r := []) ht hi (.cons
    (item_simple (d := .mysql) (k := S ",") hc (by decide) (by decide) (colCons_nil (notAt_cons (by decide))))
    (kwS (by decide)) (.one (index_simple [S ";"] hc') (notAt_cons (by decide))))
  refine C34_index_hangs hN hl (hs ▸ Script.append hb (.cons hst .nil)) hf
    (fun s hs => (List.not_mem_nil hs).elim) 
    (is := [.column ⟨c, ⟨S "INTEGER", false, none⟩, .absent, []⟩]) (i := .index .absent) rfl ?_
    (fun h => (nomatch h)) trivial
  intro i hi
  rw [List.mem_singleton.1 hi]
  exact ⟨fun r h => (List.not_mem_nil h).elim, fun n h => (nomatch h)⟩

/-- The hypotheses can be met. -/
example : Hangs simpleNum "CREATE TABLE tt (cc INTEGER, INDEX (cc));".toList .mysql :=
  C34_column_index_hangs (toks := [S "CREATE", S "TABLE", S "tt", S "(", S "cc", S "INTEGER",
      S ",", S "INDEX", S "(", S "cc", S ")", S ")", S ";"]) (before := [])
    simpleNum_ok ⟨60, by decide +kernel⟩ (by decide +kernel) .nil (fun _ h => (List.not_mem_nil h).elim)
    (.inr ⟨⟨'t', ['t'], rfl, by decide, by decide⟩, by decide +kernel⟩) (by decide)
    (.inr ⟨⟨'c', ['c'], rfl, by decide, by decide⟩, by decide +kernel⟩)
    (.inr ⟨⟨'c', ['c'], rfl, by decide, by decide⟩, by decide +kernel⟩)

/-- A unique constraint in the same place is answered. -/
example : ¬ Hangs simpleNum "CREATE TABLE tt (cc INTEGER, UNIQUE (cc));".toList .mysql :=
  fun h => absurd (h 100) (by decide +kernel)

end DDL.Props
