import Verif.Proof.Lexical
import Verif.Proof.Num
import Verif.Proof.Simple
/-
C57: the lexical grammar.
-/

namespace DDL.Props
open DDL Spec

/-- C57: the lexer returns these tokens for a text exactly if the rules give them, in every dialect. -/
theorem C57_tokens {d : Rdbms} {ddl : List Char} {toks : List Str} :
    Lexes d ddl toks ↔ Lexed d false ddl toks none :=
  Lex.lexes_lexed

/-- C57: the lexer rejects a text at a line near a string exactly if the rules say so. -/
theorem C57_errors {d : Rdbms} {ddl : List Char} {line : Nat} {near : Str} :
    LexFails d ddl ⟨line, near⟩ ↔ ∃ toks, Lexed d false ddl toks (some near) ∧ line = 1 + toks.count nl :=
  Lex.lexFails_lexed

/-- C57: the rules say something about every text, -/
theorem C57_total (d : Rdbms) (ddl : List Char) : ∃ toks out, Lexed d false ddl toks out :=
  Lex.lexed_exists d _ ddl (Nat.le_refl _) false

/-- and nothing contradictory. -/
theorem C57_unique {d : Rdbms} {ddl : List Char} {toks toks' : List Str} {out out' : Option Str}
    (h : Lexed d false ddl toks out) (h' : Lexed d false ddl toks' out') :
    out = out' ∧ toks.count nl = toks'.count nl ∧ (out = none → toks = toks') := by
  have e := (Lex.scan_lexed h 1 []).symm.trans (Lex.scan_lexed h' 1 [])
  cases out with
  | none =>
    cases out' with
    | none =>
      simp only [Lex.answer, List.nil_append, Lex.Out.ok.injEq] at e
      subst e
      exact ⟨rfl, rfl, fun _ => rfl⟩
    | some _ => simp [Lex.answer] at e
  | some x =>
    cases out' with
    | none => simp [Lex.answer] at e
    | some y =>
      simp only [Lex.answer, Lex.Out.err.injEq, VErr.mk.injEq] at e
      obtain ⟨e1, rfl⟩ := e
      exact ⟨rfl, Nat.add_left_cancel e1, fun h => nomatch h⟩

/-- C57: a text that the rules reject is rejected by `Parse`, on that line near that string. -/
theorem C57_rejected [CaseMap] (isNum : Str → Bool) {d : Rdbms} {ddl : List Char} {toks : List Str} {near : Str}
    (h : Lexed d false ddl toks (some near)) :
    Returns isNum ddl d ([], some ⟨1 + toks.count nl, near⟩) :=
  returns_err_iff.2 ⟨rfl, .inl (C57_errors.2 ⟨toks, h, rfl⟩)⟩

/-- C57, with C04–C09: from the text to the tables. If the rules make tokens of a text, these form a script of
the dialect, and the script is within the exclusions of C07–C09, then `Parse` returns the tables the script
denotes. -/
theorem C57_parse [CaseMap] {isNum : Str → Bool} (hN : NumOK isNum) {d : Rdbms} {ddl : List Char}
    {toks : List Str} {ss : List Stmt} (hl : Lexed d false ddl toks none)
    (hs : script isNum d (noNewlines toks) ss) (hf : Faithful ss) :
    Returns isNum ddl d (tablesVal isNum d ss, none) :=
  returns_of_script hN (C57_tokens.2 hl) hs hf

/-- C57, with C04–C06: a text passes the syntax check exactly if the rules make tokens of it that form a script. -/
theorem C57_passes {isNum : Str → Bool} (hN : NumOK isNum) {d : Rdbms} {ddl : List Char} :
    Passes isNum d ddl ↔ ∃ toks ss, Lexed d false ddl toks none ∧ script isNum d (noNewlines toks) ss := by
  rw [passes_iff hN]
  exact ⟨fun ⟨t, ss, h, hs⟩ => ⟨t, ss, C57_tokens.1 h, hs⟩, fun ⟨t, ss, h, hs⟩ => ⟨t, ss, C57_tokens.2 h, hs⟩⟩

/-- The second of two comments is read as a word, because the first blinds its first character. -/
example (d : Rdbms) : Lexed d false "x--a\n--b c".toList [S "x", nl, S "--b", S "c"] none := by
  have w : ∀ c : Char, c ∈ ['x', '-', 'b', 'c'] → c ∉ nonWord d := by cases d <;> decide
  refine .word (w := ['x']) (by decide) (.char (w _ (by decide)) (by decide) (.mark ⟨'-', '-', _, rfl, by decide⟩)) ?_
  refine .line (i := ['a']) (by decide) ?_
  refine .word (w := ['-', '-', 'b']) (by decide) (.blind (w _ (by decide)) (.pair (by decide) (w _ (by decide)) (by decide)
    (.ends (.inr ⟨' ', ['c'], rfl, by cases d <;> decide⟩)))) ?_
  refine .blank (.inl rfl) (.word (w := ['c']) (by decide) (.char (w _ (by decide)) (by decide) (.ends (.inl rfl))) .nil)

/-- A `-` takes the `/` after it with it, so that no comment begins there; the mark at the end is an error. -/
example : Lexed .mysql false "a-/*b*/".toList [S "a-/*b"] (some (S "*")) :=
  .word (w := ['a', '-', '/', '*', 'b']) (by decide) (.char (by decide) (by decide) (.pair (by decide) (by decide) (by decide)
    (.pair (by decide) (by decide) (by decide) (.mark ⟨'*', '/', [], rfl, by decide⟩)))) .starSlash

/-- A string with another kind of quotes inside, and a comment, not closed. -/
example (isNum : Str → Bool) : Returns isNum "'a\"b\"' /* c".toList .sqlite ([], some ⟨1, EOF⟩) :=
  C57_rejected isNum (toks := []) (.openQuote (n := 0) (by decide) (by simp)
    (.char (by decide) (by decide) (.inner (i := ['b', '"']) (by decide) (by decide)
      (.char (by decide) (by decide) .close) (.char (by decide) (by decide) (.char (by decide) (by decide)
      (.char (by decide) (by decide) (.char (by decide) (by decide) (.char (by decide) (by decide) .eof))))))))

/-- A text that meets the hypotheses of `C57_parse`. -/
example : ∃ toks ss, Lexed .sqlite false "CREATE TABLE tt (aa INTEGER);--end".toList toks none ∧
    script simpleNum .sqlite (noNewlines toks) ss ∧ Faithful ss := by
  have nm : ∀ s : Str, V.plainName .sqlite s = true → Name .sqlite s := fun s h => .inr ((plainName_iff _ s).1 h)
  refine ⟨[S "CREATE", S "TABLE", S "tt", S "(", S "aa", S "INTEGER", S ")", S ";"],
    [.table ⟨false, ⟨none, S "tt"⟩, [.column ⟨S "aa", ⟨S "INTEGER", false, none⟩, .absent, []⟩]⟩],
    C57_tokens.1 ⟨200, by decide +kernel⟩, .cons (stmt_simple (d := .sqlite) (nm _ (by decide +kernel)) (by decide)
      (.one (.inr ?_) (notAt_cons (by decide)))) .nil, ?_⟩
  · exact ⟨S "aa", _, ⟨rfl, nm _ (by decide +kernel)⟩, S "INTEGER", _, ⟨rfl, by decide⟩, .absent, _,
      ⟨none, _, optKw_none (notAt_cons (by decide)), rfl, rfl⟩, _, _,
      ⟨.nil (notAt_cons (by decide)), by decide⟩, rfl, rfl⟩
  · intro t ht
    cases List.mem_singleton.1 ht
    refine ⟨fun i hi => ?_, fun i is e => by cases e⟩
    cases List.mem_singleton.1 hi
    exact ⟨(fun r hr => nomatch hr), fun n e => by cases e⟩

end DDL.Props
