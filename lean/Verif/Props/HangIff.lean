import Verif.Proof.ViableText
import Verif.Props.Hangs
/-
C03: exactly when the syntax check never returns.
-/

namespace DDL.Props
open DDL Spec

/-- A token as the lexer can make it: not empty, and if it starts with a quote it has a second character. -/
def WholeToken (t : Str) : Prop :=
  t ≠ [] ∧ ∀ c r, t = c :: r → (c = '"' ∨ c = '\'' ∨ c = '`') → 2 ≤ t.length

/-- A parenthesis is opened and never closed, at a place where any balanced tokens in parentheses are allowed:
whatever balanced tokens are put there, some tokens complete the script. -/
def OpenExpression (isNum : Str → Bool) (d : Rdbms) (ts : List Str) : Prop :=
  ∃ before inside after, ts = before ++ S "(" :: inside ∧ (∀ e r, Bal e → inside ≠ e ++ S ")" :: r) ∧
    (∀ t ∈ after, TokenShape d t) ∧
    ∀ e, Bal e → (∀ t ∈ e, WholeToken t) → ∃ ss, script isNum d (before ++ S "(" :: e ++ S ")" :: after) ss

/-- C03, exactly: the syntax check never returns (`Parse` does not return, and the text does not pass the
check) if and only if the tokens contain an open expression. Nothing else stops the check from returning. -/
theorem C03_iff [CaseMap] {isNum : Str → Bool} (hN : NumOK isNum) {d : Rdbms} {ddl : List Char} :
    (Hangs isNum ddl d ∧ ¬ Passes isNum d ddl) ↔
      ∃ toks, Lexes d ddl toks ∧ OpenExpression isNum d (noNewlines toks) := by
  constructor
  · rintro ⟨h, hp⟩
    obtain ⟨toks, _, _, hl, _⟩ := hangs_viable hN h
    refine ⟨toks, hl, ?_⟩
    have hg := Lexes.good hl
    rcases validateN_spec hN d hg (Nat.lt_succ_self toks.length) with ⟨ss, out, _, h2, _⟩ | ⟨e, h1, _⟩ | ⟨h1, _⟩
    · exact absurd ((passes_iff hN).2 ⟨_, ss, hl, h2⟩) hp
    · exact (not_returns_and_hangs (returns_err_iff.2 ⟨rfl, .inr ⟨toks, hl, _, h1⟩⟩) h).elim
    · obtain ⟨a, b, w, h2, h3, h4, h5⟩ := timeout_open hN hg (Nat.lt_succ_self _) h1
      exact ⟨a, b, w, h2, h3, fun t ht => filler_shape (h4 t ht), h5⟩
  · rintro ⟨toks, hl, a, b, w, h2, h3, h4, h5⟩
    have hw := fun t ht => TokenShape.good (h4 t ht)
    refine ⟨hangs_unclosed hN hl h2 h3 hw h5, fun hp => ?_⟩
    obtain ⟨toks', ss, hl', hs⟩ := (passes_iff hN).1 hp
    rw [← Lexes.unique hl hl'] at hs
    have hv := timeout_unclosed hN (Lexes.good hl) h2 h3 hw h5 (toks.length + 1)
    rcases validateN_spec hN d (Lexes.good hl) (Nat.lt_succ_self toks.length) with ⟨_, _, h, _⟩ | ⟨e, h1, _⟩ | ⟨_, h⟩
    · rw [hv] at h; cases h
    · rw [hv] at h1; cases h1
    · exact h.1 _ hs

/-- The condition is met by `CHECK ( cc > ( 1 ) ;`: the parenthesis after CHECK is never closed. -/
example : Hangs simpleNum "CREATE TABLE tt ( cc INTEGER CHECK ( cc > ( 1 ) ;".toList .postgres ∧
    ¬ Passes simpleNum .postgres "CREATE TABLE tt ( cc INTEGER CHECK ( cc > ( 1 ) ;".toList := by
  refine (C03_iff simpleNum_ok).2 ⟨[S "CREATE", S "TABLE", S "tt", S "(", S "cc", S "INTEGER", S "CHECK",
      S "(", S "cc", S ">", S "(", S "1", S ")", S ";"], ⟨60, by decide +kernel⟩,
    [S "CREATE", S "TABLE", S "tt", S "(", S "cc", S "INTEGER", S "CHECK"],
    [S "cc", S ">", S "(", S "1", S ")", S ";"], [S ")", S ";"], by decide +kernel,
    unclosed_of_count (by decide +kernel), ?_, fun e he _ => ?_⟩
  · intro t ht
    refine .inr (.inl ?_)
    simp only [List.mem_cons, List.not_mem_nil, or_false] at ht
    rcases ht with rfl | rfl
    · exact ⟨')', by decide, rfl⟩
    · exact ⟨';', by decide, rfl⟩
  · obtain ⟨s, h⟩ := stmt_expr (isNum := simpleNum) (d := .postgres) (t := S "tt") (c := S "cc") (k := S "CHECK") (.inl rfl)
      (.inr ⟨⟨'t', ['t'], rfl, by decide, by decide⟩, by decide +kernel⟩) (by decide)
      (.inr ⟨⟨'c', ['c'], rfl, by decide, by decide⟩, by decide +kernel⟩) he
    exact ⟨[s], .cons h .nil⟩

/-- The parenthesis of the table itself is no such place: leaving it open is answered with an error. -/
example : ¬ OpenExpression simpleNum .postgres [S "CREATE", S "TABLE", S "tt", S "(", S "cc", S "INTEGER"] := by
  intro h
  have hl : Lexes .postgres "CREATE TABLE tt ( cc INTEGER".toList
      [S "CREATE", S "TABLE", S "tt", S "(", S "cc", S "INTEGER"] := ⟨60, by decide +kernel⟩
  have hs : noNewlines [S "CREATE", S "TABLE", S "tt", S "(", S "cc", S "INTEGER"] =
      [S "CREATE", S "TABLE", S "tt", S "(", S "cc", S "INTEGER"] := by decide +kernel
  have := ((C03_iff simpleNum_ok).2 ⟨_, hl, by rw [hs]; exact h⟩).1 100
  exact absurd this (by decide +kernel)

end DDL.Props
