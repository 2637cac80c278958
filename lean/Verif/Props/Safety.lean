import Verif.Proof.ErrFacts
/-
C01, C17, C37: no panic, errors, the lexer.
-/

namespace DDL.Props
open DDL Spec

/-- C01: whatever the text, the dialect and the number of steps, `Parse` does not panic. -/
theorem C01_never_panics [CaseMap] (isNum : Str → Bool) (n : Nat) (ddl : List Char) (d : Rdbms) :
    parseN isNum n ddl d ≠ .panic :=
  parseN_ne_panic isNum n ddl d

/-- C01: neither does `ParseForce`. -/
theorem C01_force_never_panics [CaseMap] (isNum : Str → Bool) (n : Nat) (ddl : List Char) :
    parseForceN isNum n ddl ≠ .panic := by
  have : ∀ ds, parseForceLoop isNum n ddl ds ≠ .panic := by
    intro ds
    induction ds with
    | nil => simp [parseForceLoop]
    | cons d ds ih =>
      simp only [parseForceLoop]
      cases h : parseN isNum n ddl d with
      | ok r => obtain ⟨r, e⟩ := r; cases e <;> simp [ih]
      | panic => exact absurd h (parseN_ne_panic _ _ _ _)
      | _ => simp
  exact this _

/-- Example: text that is lexed, checked and converted, with quotes and an index access on each. -/
example : parseN simpleNum 60 "CREATE TABLE `t` (\"a\" TEXT DEFAULT '');".toList .sqlite ≠ .panic ∧
    parseN simpleNum 60 "CREATE TABLE `t` (\"a\" TEXT DEFAULT '');".toList .sqlite ≠ .timeout := by
  decide +kernel

/-- Example: empty tokens would make `Validate` panic, so the theorem depends on the lexer. -/
example : validateN simpleNum .sqlite 9 [S "CREATE", S "TABLE", []] = .panic := by decide +kernel

/-- C17: with an error no table is returned; its line is positive and its token not empty. -/
theorem C17_error_shape [CaseMap] {isNum : Str → Bool} {ddl : List Char} {d : Rdbms} {r : List Table}
    {e : VErr} (h : Returns isNum ddl d (r, some e)) : r = [] ∧ 1 ≤ e.line ∧ e.near ≠ [] := by
  obtain ⟨hr, h | ⟨toks, hl, n, hv⟩⟩ := returns_err_iff.1 h
  · obtain ⟨h1, h2⟩ := Lex.scan_err (lexFails_iff.1 h)
    refine ⟨hr, h1, ?_⟩
    rcases h2 with h2 | ⟨c, _, h2⟩ | ⟨⟨t, h2⟩, _⟩
    · rw [h2]; decide
    · rw [h2]; simp
    · cases h2
  · refine ⟨hr, validateN_err_line hv, ?_⟩
    rcases validateN_err hv with ⟨pre, t, r, h1, _, rfl, _⟩ | rfl
    · exact (Lexes.good hl t (by rw [h1]; simp)).1
    · exact EOF_ne_nil

/-- Example: an error of the syntax check and one of the lexer. -/
example : Returns simpleNum "CREATE TABLE t (\n a INTEGERR);".toList .sqlite
    ([], some ⟨2, S "INTEGERR"⟩) := ⟨60, by decide +kernel⟩
example : Returns simpleNum "CREATE TABLE\nt (`a` INTEGER);".toList .postgres
    ([], some ⟨2, S "`"⟩) := ⟨60, by decide +kernel⟩

/-- C37: the lexer finishes on every text, within as many steps as there are characters. -/
theorem C37_lexer_terminates (d : Rdbms) (ddl : List Char) :
    (∃ toks, Lex.lexN d (ddl.length + 1) ddl = .ok toks) ∨
    (∃ e, Lex.lexN d (ddl.length + 1) ddl = .err e) := by
  rw [Lex.lexN_eq_scan d _ ddl (Nat.lt_succ_self _)]
  cases h : Lex.scan d (.top []) ddl 1 [] with
  | ok t => exact .inl ⟨t, rfl⟩
  | err e => exact .inr ⟨e, rfl⟩
  | panic => exact absurd h (Lex.scan_ne_panic _ _ _ _ _)
  | timeout => exact absurd h (Lex.scan_ne_timeout _ _ _ _ _)

/-- C37: what tokens look like. -/
theorem C37_token_shape {d : Rdbms} {ddl : List Char} {toks : List Str} (h : Lexes d ddl toks) :
    ∀ t ∈ toks, TokenShape d t := by
  obtain ⟨n, h⟩ := h; exact lexN_shape h

example : Lexes .sqlite "CREATE /* x\n */ TABLE \"a b\"('c');--".toList
    [S "CREATE", S "\n", S "TABLE", S "\"a b\"", S "(", S "'c'", S ")", S ";"] :=
  ⟨60, by decide +kernel⟩

end DDL.Props
