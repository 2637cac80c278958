import Verif.Proof.ViableText
import Verif.Props.Bound
import Verif.Props.Errors
/-
C51: an error is reported at the first wrong token.
-/

namespace DDL.Props
open DDL Spec

/-- Some tokens of the lexer can be appended so that a script results. -/
def Completable (isNum : Str → Bool) (d : Rdbms) (ts : List Str) : Prop :=
  ∃ w ss, (∀ t ∈ w, TokenShape d t) ∧ script isNum d (noNewlines (ts ++ w)) ss

theorem Completable.of_fillers {isNum : Str → Bool} {d : Rdbms} {ts w : List Str} {ss : List Stmt}
    (hw : ∀ t ∈ w, filler t = true) (h : script isNum d (strip ts ++ w) ss) : Completable isNum d ts :=
  ⟨w, ss, fun t ht => filler_shape (hw t ht), by
    rw [noNewlines_eq, strip_append, strip_filler hw]; exact h⟩

/-- What can be completed after more tokens can be completed before them. -/
theorem Completable.prefix {isNum : Str → Bool} {d : Rdbms} {a b : List Str} (hb : ∀ t ∈ b, TokenShape d t)
    (h : Completable isNum d (a ++ b)) : Completable isNum d a := by
  obtain ⟨w, ss, hw, h⟩ := h
  refine ⟨b ++ w, ss, fun t ht => ?_, by rwa [← List.append_assoc]⟩
  rcases List.mem_append.1 ht with h1 | h1
  · exact hb t h1
  · exact hw t h1

/-- C51: the syntax check reports the first token that is wrong: the tokens before it can be completed
to a script, the tokens up to and including it cannot. If it reports `<EOF>`, the whole text can be
completed but is not a script. -/
theorem C51_first_wrong [CaseMap] {isNum : Str → Bool} (hN : NumOK isNum) {d : Rdbms} {ddl : List Char}
    {toks : List Str} {r : List Table} {e : VErr} (hl : Lexes d ddl toks)
    (h : Returns isNum ddl d (r, some e)) :
    (∃ pre post, toks = pre ++ e.near :: post ∧ e.near ≠ nl ∧
      e.line = 1 + pre.count nl - (if toks.head? = some nl then 1 else 0) ∧
      Completable isNum d pre ∧ ¬ Completable isNum d (pre ++ [e.near])) ∨
    (e.near = EOF ∧ Completable isNum d toks ∧ ∀ ss, ¬ script isNum d (noNewlines toks) ss) := by
  obtain ⟨_, h | ⟨toks', hl', n, hv⟩⟩ := returns_err_iff.1 h
  · exact (lex_not_both hl h).elim
  · cases Lexes.unique hl hl'
    have hg := Lexes.good hl
    rcases validateN_err_at hv with ⟨pre, t, post, h1, ht, rfl, hr, h3⟩ | ⟨rfl, hr⟩
    · obtain ⟨w, ss, h5, h6⟩ := err_viable (pre := pre) hN hg
        (by rw [h1, strip_append, strip_cons _ _ ht]) hr
      refine .inl ⟨pre, post, h1, ht, by simp only [nls], .of_fillers h5 h6, ?_⟩
      rintro ⟨w', ss', hw', hs'⟩
      rw [List.append_assoc, List.singleton_append] at hs'
      have hg' : ∀ x ∈ pre ++ t :: w', Good x := by
        intro x hx
        by_cases hx' : x ∈ w'
        · exact TokenShape.good (hw' x hx')
        · apply hg; rw [h1]; simp [hx'] at hx ⊢
          rcases hx with hx | hx <;> simp [hx]
      obtain ⟨o, ho⟩ := (validates_iff hN hg').2 ⟨ss', hs'⟩
      exact validates_not_rejects ho ⟨n, h3 w'⟩
    · obtain ⟨w, ss, h5, h6⟩ := err_viable (pre := toks) hN hg (by simp) hr
      refine .inr ⟨rfl, .of_fillers h5 h6, fun ss hs => ?_⟩
      obtain ⟨o, ho⟩ := (validates_iff hN hg).2 ⟨ss, hs⟩
      exact validates_not_rejects ho ⟨n, hv⟩

/-- Example: `[` is wrong after `create table t`, which `( a int ) ;` completes. -/
example : Returns simpleNum "create\ntable t [ a int );".toList .mysql ([], some ⟨2, S "["⟩) ∧
    Passes simpleNum .mysql "create\ntable t\n\n( a int ) ;".toList :=
  ⟨⟨60, by decide +kernel⟩,
    ⟨[S "create", nl, S "table", S "t", nl, nl, S "(", S "a", S "int", S ")", S ";"],
      [S "CREATE", S "table", S "t", S "(", S "a", S "int", S ")", S ";"],
      ⟨60, by decide +kernel⟩, ⟨60, by decide +kernel⟩⟩⟩

/-- C51, for texts: when the syntax check reports an error, the text before the reported token can be
completed to a text that passes it, by writing the right text after it (or after the whole text, if the
error is near `<EOF>`). -/
theorem C51_text [CaseMap] {isNum : Str → Bool} (hN : NumOK isNum) {d : Rdbms} {ddl : List Char}
    {toks : List Str} {r : List Table} {e : VErr} (hl : Lexes d ddl toks)
    (h : Returns isNum ddl d (r, some e)) :
    ∃ a b A s, ddl = a ++ b ∧ Lexes d a A ∧ Passes isNum d (a ++ '\n' :: '\n' :: s) ∧
      ((∃ post, noNewlines toks = noNewlines A ++ e.near :: post) ∨ (b = [] ∧ e.near = EOF)) := by
  obtain ⟨_, h | ⟨toks', hl', n, hv⟩⟩ := returns_err_iff.1 h
  · exact (lex_not_both hl h).elim
  · cases Lexes.unique hl hl'
    have hg := Lexes.good hl
    rcases validateN_err_at hv with ⟨pre, t, post, h1, ht, rfl, hr, h3⟩ | ⟨rfl, hr⟩
    · have hst : strip toks = strip pre ++ t :: strip post := by rw [h1, strip_append, strip_cons _ _ ht]
      obtain ⟨w, ss, h5, h6⟩ := err_viable (pre := pre) hN hg hst hr
      obtain ⟨a, b, A, h7, h8, h9⟩ := lexes_cut hl h1 ht
      rw [← h9] at h6
      obtain ⟨s, hs⟩ := complete_text hN h8 h5 h6
      refine ⟨a, b, A, s, h7, h8, hs, .inl ⟨strip post, ?_⟩⟩
      rw [noNewlines_eq, noNewlines_eq, h9]; exact hst
    · obtain ⟨w, ss, h5, h6⟩ := err_viable (pre := toks) hN hg (by simp) hr
      obtain ⟨s, hs⟩ := complete_text hN hl h5 h6
      exact ⟨ddl, [], toks, s, by simp, hl, hs, .inr ⟨rfl, rfl⟩⟩

/-- C51: a text on which `Parse` never returns is the beginning of a text that passes the syntax check. -/
theorem C51_hang [CaseMap] {isNum : Str → Bool} (hN : NumOK isNum) {d : Rdbms} {ddl : List Char}
    (h : Hangs isNum ddl d) : ∃ s, Passes isNum d (ddl ++ '\n' :: '\n' :: s) := by
  obtain ⟨toks, w, ss, h1, h2, h3⟩ := hangs_viable hN h
  exact complete_text hN h1 h2 h3

/-- Example: the syntax check does not return here; with `) ) ;` the text passes. -/
example : Hangs simpleNum "CREATE TABLE tt (aa INTEGER CHECK (aa".toList .sqlite ∧
    Passes simpleNum .sqlite "CREATE TABLE tt (aa INTEGER CHECK (aa\n\n) ) ;".toList :=
  ⟨(C41_hangs_iff simpleNum_ok _ _).2 (by decide +kernel),
    ⟨[S "CREATE", S "TABLE", S "tt", S "(", S "aa", S "INTEGER", S "CHECK", S "(", S "aa", nl, nl, S ")", S ")", S ";"],
      [S "CREATE", S "TABLE", S "tt", S "(", S "aa", S "INTEGER", S "CHECK", S "(", S "aa", S ")", S ")", S ";"],
      ⟨100, by decide +kernel⟩, ⟨100, by decide +kernel⟩⟩⟩

end DDL.Props
