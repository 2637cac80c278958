import Verif.Proof.Layout
/-
C14, C15, C16, C18: where errors are reported, and what they do not depend on.
-/

namespace DDL.Props
open DDL Spec

/-- The first token is a newline: the text starts, after blanks and comments, with a newline. -/
def StartsWithNewline (ls : List Lexeme) : Prop := (toksOf ls).head? = some nl

instance (ls : List Lexeme) : Decidable (StartsWithNewline ls) := by
  unfold StartsWithNewline; infer_instance

/-- C14, the exact line for every rejected text made of lexemes none of which hides a newline: the
line on which the offending token ends (or the text ends, for `<EOF>`), minus one if the first token
is a newline. -/
theorem C14_line_exact [CaseMap] {isNum : Str → Bool} {d : Rdbms} {ls : List Lexeme} {r : List Table} {e : VErr}
    (hw : WellFormed d ls) (hh : ∀ l ∈ ls, l.hides = false)
    (h : Returns isNum (srcOf ls) d (r, some e)) :
    (∃ l1 l l2, ls = l1 ++ l :: l2 ∧ e.near ∈ l.toks ∧ e.near ≠ nl ∧
      e.line = 1 + (srcOf (l1 ++ [l])).count '\n' - (if StartsWithNewline ls then 1 else 0)) ∨
    (e.near = EOF ∧
      e.line = 1 + (srcOf ls).count '\n' - (if StartsWithNewline ls then 1 else 0)) := by
  obtain ⟨_, h | ⟨toks, hl, n, hv⟩⟩ := returns_err_iff.1 h
  · exact (lex_not_both (lexes_lexemes hw) h).elim
  · cases Lexes.unique hl (lexes_lexemes hw)
    rcases validateN_err hv with ⟨pre, t, r, h1, ht, rfl, _⟩ | rfl
    · left
      obtain ⟨l1, l, l2, h2, h3, h4⟩ := toksOf_split hw.1 ht h1
      refine ⟨l1, l, l2, h2, h3, ht, ?_⟩
      have hm : ∀ x ∈ l1 ++ [l], x ∈ ls := by
        intro x hx; rw [h2]; simp at hx ⊢; rcases hx with hx | hx <;> simp [hx]
      rw [h4, nls_toksOf (fun x hx => hw.1 x (hm x hx)) (fun x hx => hh x (hm x hx))]
      rfl
    · right
      refine ⟨rfl, ?_⟩
      rw [nls_toksOf hw.1 hh]; rfl

/-- C14 as stated, for texts that do not start with a newline (and hide none). Missing: texts whose
first token is a newline, see `C14_leading_newline_negation`; texts in which a comment hides a newline, see
`C14_hidden_newline_negation`. -/
theorem C14_line_partial [CaseMap] {isNum : Str → Bool} {d : Rdbms} {ls : List Lexeme} {r : List Table} {e : VErr}
    (hw : WellFormed d ls) (hh : ∀ l ∈ ls, l.hides = false) (hs : ¬ StartsWithNewline ls)
    (h : Returns isNum (srcOf ls) d (r, some e)) :
    (∃ l1 l l2, ls = l1 ++ l :: l2 ∧ e.near ∈ l.toks ∧ e.near ≠ nl ∧
      e.line = 1 + (srcOf (l1 ++ [l])).count '\n') ∨
    (e.near = EOF ∧ e.line = 1 + (srcOf ls).count '\n') := by
  have := C14_line_exact hw hh h
  simpa [hs] using this

/-- Example: hypotheses and conclusion on a text with comments and a quoted name. -/
example : ∃ ls, WellFormed .sqlite ls ∧ (∀ l ∈ ls, l.hides = false) ∧ ¬ StartsWithNewline ls ∧
    Returns simpleNum (srcOf ls) .sqlite ([], some ⟨3, S "oops"⟩) := by
  refine ⟨[.word (S "create"), .space, .word (S "table"), .line (S " c"), .quoted '"' (S "a b"),
    .newline, .word (S "oops")], ⟨?_, ?_⟩, by decide, by decide, ⟨60, by decide +kernel⟩⟩
  · simp [Lexeme.Ok, IsWord, NoMark, marks, nonWord, quotes, puncts, S]
  · simp [Adjacent, Lexeme.May, Lexeme.isComment, S]

/-- C14 is false when the text starts with a newline: the offending token is on line 2. -/
theorem C14_leading_newline_negation (isNum : Str → Bool) (d : Rdbms) :
    Returns isNum "\nx".toList d ([], some ⟨1, S "x"⟩) := by
  cases d <;> exact ⟨9, by rfl⟩

/-- C14 is false when a block comment has a newline after a `*`: the offending token is on line 2. -/
theorem C14_hidden_newline_negation (d : Rdbms) :
    Returns simpleNum "create /* *\n */ x".toList d ([], some ⟨1, S "x"⟩) := by
  cases d <;> exact ⟨30, by decide +kernel⟩

/-- C14 for every text whatever: the line is within the text. -/
theorem C14_line_bounds [CaseMap] {isNum : Str → Bool} {d : Rdbms} {ddl : List Char} {r : List Table} {e : VErr}
    (h : Returns isNum ddl d (r, some e)) : 1 ≤ e.line ∧ e.line ≤ 1 + ddl.count '\n' := by
  obtain ⟨_, h | ⟨toks, hl, n, hv⟩⟩ := returns_err_iff.1 h
  · exact ⟨(Lex.scan_err (lexFails_iff.1 h)).1, Lex.scan_err_le (lexFails_iff.1 h)⟩
  · refine ⟨validateN_err_line hv, ?_⟩
    have hc : nls toks ≤ ddl.count '\n' := by
      exact Lex.scan_nls (lexes_iff.1 hl)
    rcases validateN_err hv with ⟨pre, t, r, h1, ht, rfl, _⟩ | rfl
    · have : nls toks = nls pre + nls (t :: r) := by rw [h1, nls_append]
      simp only; split <;> omega
    · simp only; split <;> omega

example : Returns simpleNum "create /* *\n */\n\ntable 't".toList .sqlite ([], some ⟨3, EOF⟩) :=
  ⟨60, by decide +kernel⟩

/-- C15: the token of an error of the syntax check is a token of the script, or `<EOF>`; that of an
error of the lexer is a character of the text, or `<EOF>`. -/
theorem C15_near [CaseMap] {isNum : Str → Bool} {d : Rdbms} {ddl : List Char} {r : List Table} {e : VErr}
    (h : Returns isNum ddl d (r, some e)) :
    e.near = EOF ∨ (∃ toks, Lexes d ddl toks ∧ e.near ∈ toks ∧ e.near ≠ nl) ∨
      ((∀ toks, ¬ Lexes d ddl toks) ∧ ∃ c ∈ ddl, e.near = [c]) := by
  obtain ⟨_, h | ⟨toks, hl, n, hv⟩⟩ := returns_err_iff.1 h
  · rcases (Lex.scan_err (lexFails_iff.1 h)).2 with h2 | ⟨c, hc, h2⟩ | ⟨⟨t, h2⟩, _⟩
    · exact .inl h2
    · exact .inr (.inr ⟨fun t ht => lex_not_both ht h, c, hc, h2⟩)
    · cases h2
  · rcases validateN_err hv with ⟨pre, t, r, h1, ht, rfl, _⟩ | rfl
    · exact .inr (.inl ⟨toks, hl, by rw [h1]; simp, ht⟩)
    · exact .inl rfl

/-- C15: the reported token is where the script goes wrong: nothing that starts with the tokens up to
and including it is a script, whatever follows. -/
theorem C15_near_is_wrong [CaseMap] {isNum : Str → Bool} (hN : NumOK isNum) {d : Rdbms} {ddl : List Char}
    {toks : List Str} {r : List Table} {e : VErr} (hl : Lexes d ddl toks)
    (h : Returns isNum ddl d (r, some e)) :
    (∃ pre post, toks = pre ++ e.near :: post ∧ e.near ≠ nl ∧
      ∀ post' ss, (∀ t ∈ post', TokenShape d t) →
        ¬ script isNum d (noNewlines (pre ++ e.near :: post')) ss) ∨
    (e.near = EOF ∧ ∀ ss, ¬ script isNum d (noNewlines toks) ss) := by
  obtain ⟨_, h | ⟨toks', hl', n, hv⟩⟩ := returns_err_iff.1 h
  · exact (lex_not_both hl h).elim
  · cases Lexes.unique hl hl'
    have hg := Lexes.good hl
    rcases validateN_err hv with ⟨pre, t, r, h1, ht, rfl, h3⟩ | rfl
    · left
      refine ⟨pre, r, h1, ht, fun post ss hp hs => ?_⟩
      have hg' : ∀ x ∈ pre ++ t :: post, Good x := by
        intro x hx
        by_cases hx' : x ∈ post
        · exact TokenShape.good (hp x hx')
        · apply hg; rw [h1]; simp [hx'] at hx ⊢
          rcases hx with hx | hx <;> simp [hx]
      obtain ⟨o, ho⟩ := (validates_iff hN hg').2 ⟨ss, hs⟩
      exact validates_not_rejects ho ⟨n, h3 post⟩
    · right
      refine ⟨rfl, fun ss hs => ?_⟩
      obtain ⟨o, ho⟩ := (validates_iff hN hg).2 ⟨ss, hs⟩
      exact validates_not_rejects ho ⟨n, hv⟩

/-- Example: a script that goes wrong at its fourth token. -/
example : Lexes .mysql "create\ntable t [ a int );".toList
      [S "create", nl, S "table", S "t", S "[", S "a", S "int", S ")", S ";"] ∧
    Returns simpleNum "create\ntable t [ a int );".toList .mysql ([], some ⟨2, S "["⟩) :=
  ⟨⟨60, by decide +kernel⟩, ⟨60, by decide +kernel⟩⟩

/-- C16: if the syntax check rejects a script, either the script ended too early, or there is a token
such that all scripts with the same tokens up to it are rejected with the same line and token. -/
theorem C16_error_is_final [CaseMap] {isNum : Str → Bool} {d : Rdbms} {ddl : List Char} {toks : List Str}
    {r : List Table} {e : VErr} (hl : Lexes d ddl toks) (h : Returns isNum ddl d (r, some e)) :
    (∃ pre post, toks = pre ++ e.near :: post ∧
      ∀ b post', Lexes d b (pre ++ e.near :: post') → Returns isNum b d ([], some e)) ∨
    e.near = EOF := by
  obtain ⟨_, h | ⟨toks', hl', n, hv⟩⟩ := returns_err_iff.1 h
  · exact (lex_not_both hl h).elim
  · cases Lexes.unique hl hl'
    rcases validateN_err hv with ⟨pre, t, r, h1, ht, rfl, h3⟩ | rfl
    · exact .inl ⟨pre, r, h1, fun b post' hb =>
        returns_err_iff.2 ⟨rfl, .inr ⟨_, hb, n, h3 post'⟩⟩⟩
    · exact .inr rfl

/-- C16 for errors of the lexer: a rejected character is rejected whatever follows. -/
theorem C16_lexer_error_is_final [CaseMap] {isNum : Str → Bool} {d : Rdbms} {ddl : List Char} {r : List Table}
    {e : VErr} (hl : ∀ toks, ¬ Lexes d ddl toks) (h : Returns isNum ddl d (r, some e))
    (hE : e.near ≠ EOF) :
    ∃ a b, ddl = a ++ b ∧ ∀ b', Returns isNum (a ++ b') d ([], some e) := by
  obtain ⟨_, h | ⟨toks, hl', _⟩⟩ := returns_err_iff.1 h
  · obtain ⟨a, b, h1, h2⟩ := Lex.scan_err_final (lexFails_iff.1 h) hE
    exact ⟨a, b, h1, fun b' => returns_err_iff.2 ⟨rfl, .inl (lexFails_iff.2 (h2 b'))⟩⟩
  · exact (hl _ hl').elim

/-- Examples: one error of each kind. -/
example : Lexes .sqlite "CREATE t (".toList [S "CREATE", S "t", S "("] ∧
    Returns simpleNum "CREATE t (".toList .sqlite ([], some ⟨1, S "t"⟩) :=
  ⟨⟨60, by decide +kernel⟩, ⟨60, by decide +kernel⟩⟩
example : (∀ toks, ¬ Lexes .postgres "CREATE `t` (".toList toks) ∧
    Returns simpleNum "CREATE `t` (".toList .postgres ([], some ⟨1, S "`"⟩) := by
  refine ⟨fun toks h => ?_, ⟨60, by decide +kernel⟩⟩
  exact lex_not_both h (e := ⟨1, S "`"⟩) ⟨60, by decide +kernel⟩

/-- C18: newlines between tokens change neither acceptance, nor the tables, nor the token of an
error, nor whether `Parse` returns. -/
theorem C18_newlines_do_not_matter [CaseMap] {isNum : Str → Bool} {d : Rdbms} {a b : List Char}
    {ta tb : List Str} (ha : Lexes d a ta) (hb : Lexes d b tb) (h : noNewlines ta = noNewlines tb) :
    SameOutcome isNum d a b := sameOutcome_of_strip ha hb h

/-- C18 for the syntax check alone: the tokens it keeps are the same. -/
theorem C18_validate_same {isNum : Str → Bool} {d : Rdbms} {ta tb out : List Str}
    (h : noNewlines ta = noNewlines tb) (hv : Validates isNum d ta out) : Validates isNum d tb out := by
  obtain ⟨n, hv⟩ := hv
  exact ⟨n, (validateN_strip h).1 _ hv⟩

/-- Example: the same script on one line and on many. -/
example : ∃ ta tb, Lexes .postgres "CREATE TABLE t(a INT);".toList ta ∧
    Lexes .postgres "\nCREATE\n\nTABLE t\n(a\nINT\n)\n;\n".toList tb ∧ noNewlines ta = noNewlines tb :=
  ⟨[S "CREATE", S "TABLE", S "t", S "(", S "a", S "INT", S ")", S ";"],
   [nl, S "CREATE", nl, nl, S "TABLE", S "t", nl, S "(", S "a", nl, S "INT", nl, S ")", nl, S ";", nl],
   ⟨60, by decide +kernel⟩, ⟨60, by decide +kernel⟩, by decide⟩

end DDL.Props
