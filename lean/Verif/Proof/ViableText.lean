import Verif.Proof.ViableScript
import Verif.Proof.Cut
import Verif.Proof.Concat
import Verif.Proof.PrintText
/-
Completing a text.
-/

namespace DDL
open V Spec

theorem isWord_eq {d : Rdbms} : IsWord d (S "=") := by
  refine ⟨by decide, by cases d <;> decide, trivial⟩

theorem filler_txt {d : Rdbms} {t : Str} (h : filler t = true) : Txt d (piece t) [t] := by
  unfold filler at h
  simp only [Bool.or_eq_true, Bool.and_eq_true] at h
  rcases h with ⟨h1, h2⟩ | h
  · have hne : t ≠ [] := by cases t <;> simp_all
    refine Txt.word (isWord_alnum hne fun c hc => ?_)
    have := List.all_eq_true.1 h2 c hc
    simpa using this
  · simp only [List.contains_eq_mem, List.mem_cons, List.not_mem_nil, or_false, decide_eq_true_eq] at h
    rcases h with rfl | rfl | rfl | rfl | rfl | rfl | rfl
    · exact Txt.punct (c := '(') (by decide)
    · exact Txt.punct (c := ')') (by decide)
    · exact Txt.punct (c := ',') (by decide)
    · exact Txt.punct (c := ';') (by decide)
    · exact Txt.punct (c := '.') (by decide)
    · exact Txt.word isWord_eq
    · exact Txt.quoted (q := '\'') (s := []) (by decide) (by intro _; decide) (by unfold Quotable; simp)

theorem fillers_txt {d : Rdbms} {w : List Str} (h : ∀ t ∈ w, filler t = true) : ∃ s, Txt d s w := by
  induction w with
  | nil => exact ⟨[], Txt.nil⟩
  | cons t w ih =>
    obtain ⟨s, hs⟩ := ih fun t ht => h t (by simp [ht])
    exact ⟨_, (filler_txt (h t (by simp))).append hs⟩

theorem fillers_lex {d : Rdbms} {w : List Str} (h : ∀ t ∈ w, filler t = true) : ∃ s, Lexes d s w := by
  obtain ⟨s, ls, h1, _, rfl, rfl, _⟩ := fillers_txt (d := d) h
  exact ⟨_, lexes_lexemes h1⟩

/-- A text whose tokens can be completed by fillers can be completed. -/
theorem complete_text {isNum : Str → Bool} (hN : NumOK isNum) {d : Rdbms} {a : List Char} {A w : List Str}
    {ss : List Stmt} (ha : Lexes d a A) (hw : ∀ t ∈ w, filler t = true) (h : script isNum d (strip A ++ w) ss) :
    ∃ s, Passes isNum d (a ++ '\n' :: '\n' :: s) := by
  obtain ⟨s, hs⟩ := fillers_lex (d := d) hw
  refine ⟨s, (passes_iff hN).2 ⟨_, ss, (lexes_two_newlines ha).1 _ hs, ?_⟩⟩
  rw [strip_two, strip_filler hw]; exact h

/-- If `Parse` does not return, either the syntax check does not, or the text passes it. -/
theorem hangs_viable [CaseMap] {isNum : Str → Bool} (hN : NumOK isNum) {d : Rdbms} {ddl : List Char} (h : Hangs isNum ddl d) :
    ∃ toks w ss, Lexes d ddl toks ∧ (∀ t ∈ w, filler t = true) ∧ script isNum d (strip toks ++ w) ss := by
  by_cases hl : ∃ toks, Lexes d ddl toks
  · obtain ⟨toks, hl⟩ := hl
    refine ⟨toks, ?_⟩
    have hg := Lexes.good hl
    rcases validateN_spec hN d hg (Nat.lt_succ_self toks.length) with ⟨ss, out, _, h2, _⟩ | ⟨e, h1, _⟩ | ⟨h1, _⟩
    · exact ⟨[], ss, hl, by simp, by simpa using h2⟩
    · exact (not_returns_and_hangs (returns_err_iff.2 ⟨rfl, .inr ⟨toks, hl, _, h1⟩⟩) h).elim
    · obtain ⟨w, ss, h2, h3⟩ := timeout_viable hN hg (Nat.lt_succ_self _) h1
      exact ⟨w, ss, hl, h2, h3⟩
  · obtain ⟨e, he⟩ : ∃ e, LexFails d ddl e := by
      cases hs : Lex.scan d (.top []) ddl 1 [] with
      | ok t => exact absurd ⟨t, lexes_iff.2 hs⟩ hl
      | err e => exact ⟨e, lexFails_iff.2 hs⟩
      | panic => exact (Lex.scan_ne_panic _ _ _ _ _ hs).elim
      | timeout => exact (Lex.scan_ne_timeout _ _ _ _ _ hs).elim
    exact (not_returns_and_hangs (returns_err_iff.2 ⟨rfl, .inl he⟩) h).elim

end DDL
