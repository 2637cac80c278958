import Verif.Proof.ForceFacts
/-
C26, C27, C28: ParseForce, unknown dialects.
-/

namespace DDL.Props
open DDL Spec

/-- C26: `ParseForce` tries SQLite, PostgreSQL and MySQL in this order and returns the result of
the first that accepts, provided the ones before it return an error. -/
theorem C26_first_accepted [CaseMap] {isNum : Str → Bool} {ddl : List Char} {pre post : List Rdbms}
    {d : Rdbms} {tables : List Table} (hd : [.sqlite, .postgres, .mysql] = pre ++ d :: post)
    (hpre : ∀ d' ∈ pre, ∃ r e, Returns isNum ddl d' (r, some e))
    (h : Returns isNum ddl d (tables, none)) : ForceReturns isNum ddl (tables, none) := by
  obtain ⟨n, hn⟩ := forceLoop_skip (ds := d :: post) hpre
  obtain ⟨m, hm⟩ := h
  refine ⟨n + m, ?_⟩
  unfold parseForceN
  rw [hd, hn _ (by omega)]
  have : parseN isNum (n + m) ddl d = .ok (tables, none) := by
    rcases parseN_mono isNum d (by omega : m ≤ n + m) ddl with e' | e'
    · rw [hm] at e'; cases e'
    · rw [← e', hm]
  simp only [parseForceLoop, this]

/-- C26, the other direction: a result comes from the first dialect that does not return an
error, or it is the empty one because all of them do. -/
theorem C26_result_origin [CaseMap] {isNum : Str → Bool} {ddl : List Char} {r : List Table × Option VErr}
    (h : ForceReturns isNum ddl r) :
    (∃ pre d post, [.sqlite, .postgres, .mysql] = pre ++ d :: post ∧
      (∀ d' ∈ pre, ∃ r e, Returns isNum ddl d' (r, some e)) ∧ Returns isNum ddl d r ∧ r.2 = none) ∨
    ((∀ d ∈ [Rdbms.sqlite, .postgres, .mysql], ∃ r e, Returns isNum ddl d (r, some e)) ∧
      r = ([], none)) := by
  obtain ⟨n, h⟩ := h
  unfold parseForceN at h
  generalize [Rdbms.sqlite, .postgres, .mysql] = ds at h ⊢
  induction ds with
  | nil => simp only [parseForceLoop] at h; cases h; exact .inr ⟨by simp, rfl⟩
  | cons d ds ih =>
    simp only [parseForceLoop] at h
    cases hp : parseN isNum n ddl d with
    | ok x =>
      obtain ⟨ts, e⟩ := x
      rw [hp] at h
      cases e with
      | none => cases h; exact .inl ⟨[], d, ds, rfl, by simp, ⟨n, hp⟩, rfl⟩
      | some e =>
        rcases ih h with ⟨pre, d', post, h1, h2, h3, h4⟩ | ⟨h1, h2⟩
        · refine .inl ⟨d :: pre, d', post, by rw [h1]; rfl, ?_, h3, h4⟩
          intro x hx
          rcases List.mem_cons.1 hx with rfl | hx
          · exact ⟨ts, e, n, hp⟩
          · exact h2 x hx
        · refine .inr ⟨?_, h2⟩
          intro x hx
          rcases List.mem_cons.1 hx with rfl | hx
          · exact ⟨ts, e, n, hp⟩
          · exact h1 x hx
    | err e => rw [hp] at h; cases h
    | panic => rw [hp] at h; cases h
    | timeout => rw [hp] at h; cases h

/-- Example for C26: SQLite rejects the type SERIAL, PostgreSQL accepts it. -/
example : (∃ r e, Returns simpleNum "CREATE TABLE t (a SERIAL);".toList .sqlite (r, some e)) ∧
    ForceReturns simpleNum "CREATE TABLE t (a SERIAL);".toList
      ([{ name := S "t", columns := [{ name := S "a", dataType := { name := S "SERIAL" } }] }],
        none) :=
  ⟨⟨[], ⟨1, S "SERIAL"⟩, 60, by decide +kernel⟩, 60, by decide +kernel⟩

/-- C27 is false of the code: `ParseForce` never returns an error. -/
theorem C27_force_never_errors_negation [CaseMap] {isNum : Str → Bool} {ddl : List Char}
    {r : List Table × Option VErr} (h : ForceReturns isNum ddl r) : r.2 = none := by
  rcases C26_result_origin h with ⟨_, _, _, _, _, _, h⟩ | ⟨_, rfl⟩
  · exact h
  · rfl

/-- C27 is false of the code: if the three dialects return an error, `ParseForce` returns no
tables and no error. -/
theorem C27_all_rejected_negation [CaseMap] {isNum : Str → Bool} {ddl : List Char}
    (h : ∀ d ∈ [Rdbms.sqlite, .postgres, .mysql], ∃ r e, Returns isNum ddl d (r, some e)) :
    ForceReturns isNum ddl ([], none) := by
  obtain ⟨n, hn⟩ := forceLoop_skip (ds := []) h
  exact ⟨n, by unfold parseForceN; rw [← List.append_nil [_, _, _], hn n (Nat.le_refl _)]; rfl⟩

/-- Example: a text that every dialect rejects. -/
example : ∀ d ∈ [Rdbms.sqlite, .postgres, .mysql],
    ∃ r e, Returns simpleNum "DROP TABLE t;".toList d (r, some e) := by
  intro d hd
  simp at hd
  rcases hd with rfl | rfl | rfl <;> exact ⟨[], ⟨1, S "DROP"⟩, 30, by decide +kernel⟩

/-! ### Unknown dialects -/

/-- C28: an unknown `Rdbms` value accepts what SQLite accepts. -/
theorem C28_accepts {isNum : Str → Bool} {ddl : List Char} :
    Passes isNum .other ddl ↔ Passes isNum .sqlite ddl := by
  unfold Passes
  simp only [lexes_other]
  rfl

/-- C28: ... and reports the same errors. -/
theorem C28_errors [CaseMap] {isNum : Str → Bool} {ddl : List Char} {r : List Table} {e : VErr} :
    Returns isNum ddl .other (r, some e) ↔ Returns isNum ddl .sqlite (r, some e) := by
  rw [returns_err_iff, returns_err_iff]
  simp only [lexFails_other, lexes_other]
  rfl

/-- C28: names and strings are reported with their quotes: for a table `t` of a script, the
reported names are the tokens as they are. -/
theorem C28_keeps_quotes [CaseMap] {isNum : Str → Bool} (hN : NumOK isNum) {ddl : List Char}
    {toks : List Str} {ss : List Stmt} (hl : Lexes .other ddl toks)
    (hs : script isNum .sqlite (noNewlines toks) ss) (hf : Faithful ss) :
    ∃ tables, Returns isNum ddl .other (tables, none) ∧
      tables.map (fun t => (t.schema, t.name, t.columns.map Column.name)) =
        ss.filterMap (fun
          | .table t => some (t.name.schema.getD [], t.name.name, t.items.filterMap (fun
              | .column c => some c.name
              | _ => none))
          | .other => none) := by
  refine ⟨_, returns_of_script hN hl hs hf, ?_⟩
  have hname : ∀ t : Str, nameVal .other t = t := by
    intro t; cases t <;> simp [nameVal, identQuotes, unquote]
  clear hs hl hf
  simp only [tablesVal, List.map_filterMap]
  apply filterMap_congr
  intro s _
  cases s with
  | other => rfl
  | table t =>
    simp only [tableVal, Option.map_some, hname, List.map_filterMap]
    congr 2
    · cases t.name.schema <;> simp [hname]
    congr 1
    apply filterMap_congr
    intro i _
    cases i <;> simp [Item.column?, columnVal, hname]

/-- Example: `"t"` keeps its quotes with an unknown dialect and loses them with SQLite. -/
example : Returns simpleNum "CREATE TABLE \"t\" (a TEXT);".toList .other
      ([{ name := S "\"t\"", columns := [{ name := S "a", dataType := { name := S "TEXT" } }] }],
        none) ∧
    Returns simpleNum "CREATE TABLE \"t\" (a TEXT);".toList .sqlite
      ([{ name := S "t", columns := [{ name := S "a", dataType := { name := S "TEXT" } }] }],
        none) :=
  ⟨⟨60, by decide +kernel⟩, 60, by decide +kernel⟩

end DDL.Props
