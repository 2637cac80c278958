import Verif.Proof.Bound
import Verif.Proof.Num
/-
C41: whether `Parse` returns is decided within a number of steps linear in the length of the text.
-/

namespace DDL.Props
open DDL Spec

/-- C41: what `Parse` does with loops and recursion limited to `2 * length + 1` is what it does: if
it has not returned by then, it never does. -/
theorem C41_hangs_iff [CaseMap] {isNum : Str → Bool} (hN : NumOK isNum) (ddl : List Char) (d : Rdbms) :
    Hangs isNum ddl d ↔ parseN isNum (2 * ddl.length + 1) ddl d = .timeout := by
  refine ⟨fun h => h _, fun h n => ?_⟩
  rcases parseN_mono isNum d (Nat.le_add_right n (2 * ddl.length + 1)) ddl with e | e
  · exact e
  · rw [e, parseN_final hN d ddl (by omega)]; exact h

/-- C41: every call of `Parse` that returns does so with loops and recursion limited to
`2 * length + 1`. -/
theorem C41_returns_iff [CaseMap] {isNum : Str → Bool} (hN : NumOK isNum) (ddl : List Char) (d : Rdbms)
    (r : List Table × Option VErr) :
    Returns isNum ddl d r ↔ parseN isNum (2 * ddl.length + 1) ddl d = .ok r := by
  refine ⟨fun ⟨n, h⟩ => ?_, fun h => ⟨_, h⟩⟩
  rcases parseN_mono isNum d (Nat.le_add_right n (2 * ddl.length + 1)) ddl with e | e
  · rw [e] at h; cases h
  · rw [← parseN_final hN d ddl (Nat.le_add_left _ n), ← e]; exact h

/-- C41: the same for `ParseForce`. -/
theorem C41_force_returns_iff [CaseMap] {isNum : Str → Bool} (hN : NumOK isNum) (ddl : List Char)
    (r : List Table × Option VErr) :
    ForceReturns isNum ddl r ↔ parseForceN isNum (2 * ddl.length + 1) ddl = .ok r := by
  refine ⟨fun ⟨n, h⟩ => ?_, fun h => ⟨_, h⟩⟩
  unfold parseForceN at h ⊢
  rcases parseForceLoop_mono isNum [.sqlite, .postgres, .mysql] (Nat.le_add_right n (2 * ddl.length + 1)) ddl with e | e
  · rw [e] at h; cases h
  · rw [← parseForceLoop_final hN _ ddl (Nat.le_add_left _ n), ← e]; exact h

/-- It is decidable whether `Parse` returns. -/
def hangsDecidable [CaseMap] {isNum : Str → Bool} (hN : NumOK isNum) (ddl : List Char) (d : Rdbms) :
    Decidable (Hangs isNum ddl d) :=
  decidable_of_iff _ (C41_hangs_iff hN ddl d).symm

/-- C41: the syntax check keeps at most two tokens for each token, and there are no more tokens
than characters. -/
theorem C41_sizes {isNum : Str → Bool} (hN : NumOK isNum) {d : Rdbms} {ddl : List Char}
    {toks out : List Str} (hl : Lexes d ddl toks) (hv : Validates isNum d toks out) :
    toks.length ≤ ddl.length ∧ out.length ≤ 2 * toks.length := by
  obtain ⟨n, hl⟩ := hl
  have hg := lexN_good hl
  obtain ⟨m, hv⟩ := hv
  refine ⟨?_, validateN_le hN hg hv⟩
  rcases Lex.lexN_mono d (Nat.le_add_right n (ddl.length + 1)) ddl with e | e
  · rw [e] at hl; cases hl
  · exact Lex.lexN_le (Nat.lt_of_lt_of_le (Nat.lt_succ_self _) (Nat.le_add_left _ n)) (e ▸ hl)

example : Hangs simpleNum "CREATE TABLE tt (aa INTEGER CHECK (aa".toList .sqlite :=
  (C41_hangs_iff simpleNum_ok _ _).2 (by decide +kernel)
example : Hangs simpleNum "CREATE TABLE tt (aa INTEGER REFERENCES s.u(a));".toList .mysql :=
  (C41_hangs_iff simpleNum_ok _ _).2 (by decide +kernel)
example : ∃ e, Returns simpleNum "CREATE TABLE tt (aa INTEGER".toList .sqlite ([], some e) :=
  ⟨⟨1, EOF⟩, (C41_returns_iff simpleNum_ok _ _ _).2 (by decide +kernel)⟩

end DDL.Props
