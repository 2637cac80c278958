import Verif.Props.Viable
import Verif.Props.HangIff
import Verif.Props.Lexical
import Verif.Props.Compose
/-
C66: exactly which error is reported, for every text.
-/

namespace DDL.Props
open DDL Spec

/-- A first token that is a newline is not counted. -/
def leading (toks : List Str) : Nat := if toks.head? = some nl then 1 else 0

/-- The first wrong token, and its line: the tokens before it can be completed to a script, with it they cannot. -/
def FirstWrong (isNum : Str → Bool) (d : Rdbms) (toks : List Str) (e : VErr) : Prop :=
  ∃ pre t post, toks = pre ++ t :: post ∧ Completable isNum d pre ∧ ¬ Completable isNum d (pre ++ [t]) ∧
    e = ⟨1 + pre.count nl - leading toks, t⟩

/-- Something is missing at the end: the tokens can be completed to a script, but are none. -/
def Missing (isNum : Str → Bool) (d : Rdbms) (toks : List Str) (e : VErr) : Prop :=
  Completable isNum d toks ∧ (∀ ss, ¬ script isNum d (noNewlines toks) ss) ∧ e = ⟨1 + toks.count nl - leading toks, EOF⟩

/-- The error of a text: the one that the rules of Spec/Lexical.lean say, or that of the first wrong token, or one at the end, unless
a parenthesis is open there whose contents are not looked at. -/
def ErrorOf (isNum : Str → Bool) (d : Rdbms) (ddl : List Char) (e : VErr) : Prop :=
  (∃ toks near, Lexed d false ddl toks (some near) ∧ e = ⟨1 + toks.count nl, near⟩) ∨
  ∃ toks, Lexed d false ddl toks none ∧
    (FirstWrong isNum d toks e ∨ Missing isNum d toks e ∧ ¬ OpenExpression isNum d (noNewlines toks))

theorem Lexes.shape {d : Rdbms} {ddl : List Char} {toks : List Str} (h : Lexes d ddl toks) : ∀ t ∈ toks, TokenShape d t := by
  obtain ⟨n, h⟩ := h
  exact lexN_shape h

/-- What the syntax check reports. -/
theorem rejects_at {isNum : Str → Bool} (hN : NumOK isNum) {d : Rdbms} {toks : List Str} {e : VErr} (hg : ∀ t ∈ toks, Good t)
    (h : Rejects isNum d toks e) : FirstWrong isNum d toks e ∨ Missing isNum d toks e := by
  obtain ⟨n, hv⟩ := h
  rcases validateN_err_at hv with ⟨pre, t, post, h1, ht, rfl, hr, h3⟩ | ⟨rfl, hr⟩
  · obtain ⟨w, ss, h5, h6⟩ := err_viable (pre := pre) hN hg (by rw [h1, strip_append, strip_cons _ _ ht]) hr
    refine .inl ⟨pre, t, post, h1, .of_fillers h5 h6, ?_, rfl⟩
    rintro ⟨w', ss', hw', hs'⟩
    rw [List.append_assoc, List.singleton_append] at hs'
    have hg' : ∀ x ∈ pre ++ t :: w', Good x := by
      intro x hx
      rcases List.mem_append.1 hx with hx | hx
      · exact hg x (by rw [h1]; simp [hx])
      · rcases List.mem_cons.1 hx with rfl | hx
        · exact hg x (by rw [h1]; simp)
        · exact TokenShape.good (hw' x hx)
    obtain ⟨out, hv'⟩ := (validates_iff hN hg').2 ⟨ss', hs'⟩
    exact validates_not_rejects hv' ⟨n, h3 w'⟩
  · obtain ⟨w, ss, h5, h6⟩ := err_viable (pre := toks) hN hg (by simp) hr
    refine .inr ⟨.of_fillers h5 h6, fun ss hs => ?_, rfl⟩
    obtain ⟨out, hv'⟩ := (validates_iff hN hg).2 ⟨ss, hs⟩
    exact validates_not_rejects hv' ⟨n, hv⟩

/-- There is only one first wrong token, and none if the tokens can be completed. -/
theorem firstWrong_unique {isNum : Str → Bool} {d : Rdbms} {toks : List Str} {e e' : VErr} (hg : ∀ t ∈ toks, TokenShape d t)
    (h : FirstWrong isNum d toks e ∨ Missing isNum d toks e) (h' : FirstWrong isNum d toks e' ∨ Missing isNum d toks e') : e = e' := by
  have key : ∀ {pre t post more : List Str} {x : Str}, toks = pre ++ x :: post → toks = pre ++ x :: more ++ t →
      ¬ Completable isNum d (pre ++ [x]) → Completable isNum d (pre ++ x :: more) → False := by
    intro pre t post more x _ h2 h3 h4
    refine h3 (Completable.prefix (b := more) (fun y hy => hg y (by rw [h2]; simp [hy])) ?_)
    rw [List.append_assoc]
    exact h4
  have miss : ∀ {e e' : VErr}, FirstWrong isNum d toks e → Missing isNum d toks e' → False := by
    rintro e e' ⟨pre, t, post, h1, _, h2, _⟩ ⟨h3, _, _⟩
    exact key (t := []) h1 (by rw [List.append_nil]; exact h1) h2 (h1 ▸ h3)
  rcases h with h | h <;> rcases h' with h' | h'
  · obtain ⟨pre, t, post, h1, h2, h3, rfl⟩ := h
    obtain ⟨pre', t', post', h1', h2', h3', rfl⟩ := h'
    rcases List.append_eq_append_iff.1 (h1.symm.trans h1') with ⟨as, e1, e2⟩ | ⟨as, e1, e2⟩
    · cases as with
      | nil =>
        simp only [List.nil_append, List.cons.injEq, List.append_nil] at e1 e2
        rw [e1, e2.1]
      | cons a as =>
        simp only [List.cons_append, List.cons.injEq] at e2
        obtain ⟨rfl, e2⟩ := e2
        exact (key (t := t' :: post') (more := as) h1 (by rw [h1', e1]) h3 (e1 ▸ h2')).elim
    · cases as with
      | nil =>
        simp only [List.nil_append, List.cons.injEq, List.append_nil] at e1 e2
        rw [e1, e2.1]
      | cons a as =>
        simp only [List.cons_append, List.cons.injEq] at e2
        obtain ⟨rfl, e2⟩ := e2
        exact (key (t := t :: post) (more := as) h1' (by rw [h1, e1]) h3' (e1 ▸ h2)).elim
  · exact (miss h h').elim
  · exact (miss h' h).elim
  · rw [h.2.2, h'.2.2]

/-- C66: exactly the errors that are reported. -/
theorem C66_errors [CaseMap] {isNum : Str → Bool} (hN : NumOK isNum) {d : Rdbms} {ddl : List Char} {r : List Table} {e : VErr} :
    Returns isNum ddl d (r, some e) ↔ r = [] ∧ ErrorOf isNum d ddl e := by
  rw [returns_err_iff]
  refine and_congr_right fun _ => ⟨fun h => ?_, fun h => ?_⟩
  · rcases h with h | ⟨toks, hl, hr⟩
    · obtain ⟨toks, h1, h2⟩ := C57_errors.1 (show LexFails d ddl ⟨e.line, e.near⟩ from h)
      exact .inl ⟨toks, e.near, h1, by rw [← h2]⟩
    · refine .inr ⟨toks, C57_tokens.1 hl, ?_⟩
      rcases rejects_at hN (Lexes.good hl) hr with h | h
      · exact .inl h
      · refine .inr ⟨h, fun ho => ?_⟩
        exact not_returns_and_hangs (returns_err_iff.2 ⟨rfl, .inr ⟨toks, hl, hr⟩⟩) ((C03_iff hN).2 ⟨toks, hl, ho⟩).1
  · rcases h with ⟨toks, near, h1, rfl⟩ | ⟨toks, h1, h2⟩
    · exact .inl (C57_errors.2 ⟨toks, h1, rfl⟩)
    · have hl := C57_tokens.2 h1
      refine .inr ⟨toks, hl, ?_⟩
      have hg := Lexes.good hl
      have h2' : FirstWrong isNum d toks e ∨ Missing isNum d toks e := h2.imp id And.left
      rcases validateN_spec hN d hg (Nat.lt_succ_self toks.length) with ⟨ss, out, _, hs, _⟩ | ⟨e', he', _⟩ | ⟨ht, _⟩
      · exfalso
        rcases h2 with ⟨pre, t, post, e1, _, h3, _⟩ | ⟨⟨_, h3, _⟩, _⟩
        · refine h3 (Completable.prefix (b := post) (fun y hy => Lexes.shape hl y (by rw [e1]; simp [hy])) ⟨[], ss, by simp, ?_⟩)
          have : pre ++ [t] ++ post ++ [] = toks := by rw [e1]; simp
          rw [this]
          exact hs
        · exact h3 ss hs
      · cases firstWrong_unique (Lexes.shape hl) h2' (rejects_at hN hg ⟨_, he'⟩)
        exact ⟨_, he'⟩
      · exfalso
        obtain ⟨w, ss, h5, h6⟩ := timeout_viable hN hg (Nat.lt_succ_self _) ht
        rcases h2 with ⟨pre, t, post, e1, _, h3, _⟩ | ⟨_, h3⟩
        · refine h3 (Completable.prefix (b := post) (fun y hy => Lexes.shape hl y (by rw [e1]; simp [hy])) ?_)
          have : pre ++ [t] ++ post = toks := by rw [e1]; simp
          rw [this]
          exact .of_fillers h5 h6
        · obtain ⟨a, b, w, h2, h3', h4, h5⟩ := timeout_open hN hg (Nat.lt_succ_self _) ht
          exact h3 ⟨a, b, w, h2, h3', fun t ht => filler_shape (h4 t ht), h5⟩

/-- C66: the definition of the error says at most one for a text. -/
theorem C66_one [CaseMap] {isNum : Str → Bool} (hN : NumOK isNum) {d : Rdbms} {ddl : List Char} {e e' : VErr}
    (h : ErrorOf isNum d ddl e) (h' : ErrorOf isNum d ddl e') : e = e' := by
  have := Returns.unique ((C66_errors hN (r := [])).2 ⟨rfl, h⟩) ((C66_errors hN).2 ⟨rfl, h'⟩)
  simpa using this

/-- C66: for every text one of three things is the case, and only one: it has an error, and `Parse` returns it; a parenthesis is
open whose contents are not looked at, and `Parse` does not return; or it is a script, and `Parse` goes on to convert it. -/
theorem C66_every_text [CaseMap] {isNum : Str → Bool} (hN : NumOK isNum) (d : Rdbms) (ddl : List Char) :
    ((∃ e, ErrorOf isNum d ddl e) ∨ (∃ toks, Lexed d false ddl toks none ∧ OpenExpression isNum d (noNewlines toks)) ∨
      ∃ toks ss, Lexed d false ddl toks none ∧ script isNum d (noNewlines toks) ss) ∧
    ¬ ((∃ e, ErrorOf isNum d ddl e) ∧ ∃ toks, Lexed d false ddl toks none ∧ OpenExpression isNum d (noNewlines toks)) ∧
    ¬ ((∃ e, ErrorOf isNum d ddl e) ∧ ∃ toks ss, Lexed d false ddl toks none ∧ script isNum d (noNewlines toks) ss) ∧
    ¬ ((∃ toks, Lexed d false ddl toks none ∧ OpenExpression isNum d (noNewlines toks)) ∧
      ∃ toks ss, Lexed d false ddl toks none ∧ script isNum d (noNewlines toks) ss) := by
  have hopen : (∃ toks, Lexed d false ddl toks none ∧ OpenExpression isNum d (noNewlines toks)) →
      Hangs isNum ddl d ∧ ¬ Passes isNum d ddl := fun ⟨toks, h1, h2⟩ => (C03_iff hN).2 ⟨toks, C57_tokens.2 h1, h2⟩
  have hscr : (∃ toks ss, Lexed d false ddl toks none ∧ script isNum d (noNewlines toks) ss) → Passes isNum d ddl :=
    fun ⟨toks, ss, h1, h2⟩ => (passes_iff hN).2 ⟨toks, ss, C57_tokens.2 h1, h2⟩
  refine ⟨?_, ?_, ?_, fun ⟨h1, h2⟩ => (hopen h1).2 (hscr h2)⟩
  · by_cases hp : Passes isNum d ddl
    · obtain ⟨toks, ss, h1, h2⟩ := (passes_iff hN).1 hp
      exact .inr (.inr ⟨toks, ss, C57_tokens.1 h1, h2⟩)
    · rcases returns_or_hangs isNum ddl d with ⟨⟨r, e⟩, hr⟩ | hh
      · cases e with
        | none =>
          obtain ⟨A, oa, hA, hv, _⟩ := returns_ok_iff.1 hr
          exact absurd ⟨A, oa, hA, hv⟩ hp
        | some e => exact .inl ⟨e, ((C66_errors hN).1 hr).2⟩
      · obtain ⟨toks, h1, h2⟩ := (C03_iff hN).1 ⟨hh, hp⟩
        exact .inr (.inl ⟨toks, C57_tokens.1 h1, h2⟩)
  · rintro ⟨⟨e, he⟩, h⟩
    exact not_returns_and_hangs ((C66_errors hN (r := [])).2 ⟨rfl, he⟩) (hopen h).1
  · rintro ⟨⟨e, he⟩, toks, ss, h1, h2⟩
    obtain ⟨out, hv⟩ := (validates_iff hN (Lexes.good (C57_tokens.2 h1))).2 ⟨ss, h2⟩
    obtain ⟨_, h | ⟨toks', hl, hr⟩⟩ := returns_err_iff.1 ((C66_errors hN (r := [])).2 ⟨rfl, he⟩)
    · exact lex_not_both (C57_tokens.2 h1) h
    · cases Lexes.unique hl (C57_tokens.2 h1)
      exact validates_not_rejects hv hr

/-- C66: an error in a later script is reported further down. If `a` is accepted and has the tokens `A`, then what is wrong in `b` is
reported, after `a` and two newlines, on the line it is on there, plus the lines of `a`, plus 2, with the same token. A newline
at the start of `b` counts then, one at the start of the whole does not. -/
theorem C66_further_down [CaseMap] {isNum : Str → Bool} (hN : NumOK isNum) {d : Rdbms} {a b : List Char} {A : List Str} {ta r : List Table}
    {e : VErr} (hA : Lexed d false a A none) (ha : Returns isNum a d (ta, none)) (hb : Returns isNum b d (r, some e)) :
    (∀ B, Lexed d false b B none → Returns isNum (a ++ '\n' :: '\n' :: b) d
      ([], some ⟨e.line + leading B + (A.count nl + 2) - leading (A ++ [nl, nl]), e.near⟩)) ∧
    ((∀ B, ¬ Lexed d false b B none) → Returns isNum (a ++ '\n' :: '\n' :: b) d ([], some ⟨e.line + (A.count nl + 2), e.near⟩)) := by
  obtain ⟨A', oa, hA', hv, hc⟩ := returns_ok_iff.1 ha
  have hlA := C57_tokens.2 hA
  cases Lexes.unique hA' hlA
  obtain ⟨l1, l2⟩ := lexes_two_newlines (b := b) hlA
  obtain ⟨_, hb' | ⟨B, hB, hrB⟩⟩ := returns_err_iff.1 hb
  · exact ⟨fun B hB => (lex_not_both (C57_tokens.2 hB) hb').elim, fun _ => returns_err_iff.2 ⟨rfl, .inl (l2 e hb')⟩⟩
  · refine ⟨fun B' hB' => ?_, fun h => (h B (C57_tokens.1 hB)).elim⟩
    cases Lexes.unique hB (C57_tokens.2 hB')
    have hlT := l1 B hB
    have hgA := Lexes.good hlA
    obtain ⟨sa, hsa⟩ := (validates_iff hN hgA).1 ⟨oa, hv⟩
    -- scripts after a script
    have put : ∀ X, (∀ t ∈ X, Good t) → (∃ ss, script isNum d (noNewlines X) ss) →
        ∃ ss, script isNum d (noNewlines (A ++ [nl, nl] ++ X)) ss := by
      intro X hX hs
      obtain ⟨ob, hob⟩ := (validates_iff hN hX).2 hs
      have hg : ∀ t ∈ A ++ [nl, nl] ++ X, Good t := by
        intro t ht
        rcases List.mem_append.1 ht with ht | ht
        · exact Lexes.good hlT t (List.mem_append_left _ ht)
        · exact hX t ht
      exact (validates_iff hN hg).1 ⟨_, (validates_concat hv (strip_two A X)).1 ob hob⟩
    have take : ∀ X, (∀ t ∈ X, Good t) → (∃ ss, script isNum d (noNewlines (A ++ [nl, nl] ++ X)) ss) →
        ∃ ss, script isNum d (noNewlines X) ss := by
      intro X hX hs
      have hg : ∀ t ∈ A ++ [nl, nl] ++ X, Good t := by
        intro t ht
        rcases List.mem_append.1 ht with ht | ht
        · exact Lexes.good hlT t (List.mem_append_left _ ht)
        · exact hX t ht
      obtain ⟨o, ho⟩ := (validates_iff hN hg).2 hs
      obtain ⟨ob, _, hob⟩ := (validates_concat hv (strip_two A X)).2.2.1 o ho
      exact (validates_iff hN hX).1 ⟨ob, hob⟩
    have hsB := Lexes.shape hB
    have comp : ∀ X, (∀ t ∈ X, TokenShape d t) → (Completable isNum d (A ++ [nl, nl] ++ X) ↔ Completable isNum d X) := by
      intro X hX
      have hgd : ∀ w, (∀ t ∈ w, TokenShape d t) → ∀ t ∈ X ++ w, Good t := fun w hw t ht =>
        TokenShape.good ((List.mem_append.1 ht).elim (hX t) (hw t))
      constructor
      · rintro ⟨w, ss, hw, hs⟩
        rw [List.append_assoc] at hs
        obtain ⟨ss', hs'⟩ := take (X ++ w) (hgd w hw) ⟨ss, hs⟩
        exact ⟨w, ss', hw, hs'⟩
      · rintro ⟨w, ss, hw, hs⟩
        obtain ⟨ss', hs'⟩ := put (X ++ w) (hgd w hw) ⟨ss, hs⟩
        exact ⟨w, ss', hw, by rw [List.append_assoc]; exact hs'⟩
    have hlead : leading (A ++ [nl, nl] ++ B) = leading (A ++ [nl, nl]) := by
      unfold leading
      cases A <;> simp
    have hle : leading (A ++ [nl, nl]) ≤ A.count nl + 2 := by
      unfold leading
      split <;> omega
    obtain ⟨l', hrT⟩ := (validates_concat hv (strip_two A B)).2.1 e.line e.near hrB
    have hT := rejects_at hN (Lexes.good hlT) hrT
    have hE := rejects_at hN (Lexes.good hB) hrB
    have goal : FirstWrong isNum d (A ++ [nl, nl] ++ B)
          ⟨e.line + leading B + (A.count nl + 2) - leading (A ++ [nl, nl]), e.near⟩ ∨
        Missing isNum d (A ++ [nl, nl] ++ B)
          ⟨e.line + leading B + (A.count nl + 2) - leading (A ++ [nl, nl]), e.near⟩ := by
      have lead_le : ∀ pre t post, B = pre ++ t :: post → t ≠ nl → leading B ≤ pre.count nl := by
        intro pre t post h1 h2
        unfold leading
        split
        · rename_i hh
          cases pre with
          | nil => rw [h1] at hh; simp at hh; exact absurd hh h2
          | cons p ps =>
            rw [h1] at hh
            simp at hh
            rw [hh]
            simp
        · omega
      rcases hE with ⟨pre, t, post, h1, h2, h3, h4⟩ | ⟨h1, h2, h4⟩
      · refine .inl ⟨A ++ [nl, nl] ++ pre, t, post, by rw [h1]; simp, ?_, ?_, ?_⟩
        · exact (comp pre fun x hx => hsB x (by rw [h1]; simp [hx])).2 h2
        · rw [List.append_assoc]
          refine fun hc => h3 ((comp (pre ++ [t]) fun x hx => hsB x ?_).1 hc)
          rw [h1]
          rcases List.mem_append.1 hx with hx | hx
          · simp [hx]
          · rw [List.mem_singleton.1 hx]; simp
        · have htn : t ≠ nl := by
            rintro rfl
            refine h3 ?_
            obtain ⟨w, ss, hw, hs⟩ := h2
            refine ⟨w, ss, hw, ?_⟩
            have : noNewlines (pre ++ [nl] ++ w) = noNewlines (pre ++ w) := by simp [noNewlines]
            rw [this]
            exact hs
          have := lead_le pre t post h1 htn
          rw [h4, hlead]
          simp only [List.count_append, VErr.mk.injEq, and_true]
          have e2 : List.count nl [nl, nl] = 2 := by decide
          omega
      · refine .inr ⟨(comp B hsB).2 h1, fun ss hs => ?_, ?_⟩
        · obtain ⟨ss', hs'⟩ := take B (Lexes.good hB) ⟨ss, hs⟩
          exact h2 ss' hs'
        · have : leading B ≤ B.count nl := by
            unfold leading
            split
            · rename_i hh
              cases B with
              | nil => simp at hh
              | cons p ps =>
                simp at hh
                rw [hh]
                simp
            · omega
          rw [h4, hlead]
          simp only [List.count_append, VErr.mk.injEq, and_true]
          have e2 : List.count nl [nl, nl] = 2 := by decide
          omega
    have := firstWrong_unique (Lexes.shape hlT) goal hT
    rw [this]
    exact returns_err_iff.2 ⟨rfl, .inr ⟨_, hlT, hrT⟩⟩

/-! ### examples -/

/-- A wrong token, after a newline in a comment and one before the token. -/
example : ErrorOf simpleNum .sqlite "CREATE /* \n */ TABLE t (aa TEXT,\n bb BLOB);".toList ⟨3, S "BLOB"⟩ :=
  ((C66_errors simpleNum_ok (r := [])).1 ⟨150, by decide +kernel⟩).2

/-- The end is missing; the first newline is not counted. -/
example : ErrorOf simpleNum .mysql "\nCREATE TABLE t\n".toList ⟨2, EOF⟩ :=
  ((C66_errors simpleNum_ok (r := [])).1 ⟨150, by decide +kernel⟩).2

/-- A character that the lexer does not take. -/
example : ErrorOf simpleNum .postgres "CREATE TABLE\n `t`".toList ⟨2, S "`"⟩ :=
  ((C66_errors simpleNum_ok (r := [])).1 ⟨150, by decide +kernel⟩).2

/-- Further down: `b` alone has its error on line 2, after `a`, which has two lines, on line 6. -/
example : Returns simpleNum "CREATE TABLE t (aa TEXT);\n-- end\n".toList .sqlite
      ([{ schema := [], name := S "t", ifNotExists := false,
          columns := [{ name := S "aa", dataType := { name := S "TEXT", digitN := 0, digitM := 0 }, constraint := {} }],
          constraints := {} }], none) ∧
    Lexed .sqlite false "CREATE TABLE t (aa TEXT);\n-- end\n".toList
      [S "CREATE", S "TABLE", S "t", S "(", S "aa", S "TEXT", S ")", S ";", nl, nl] none ∧
    Returns simpleNum "CREATE TABLE u (\n bb);".toList .sqlite ([], some ⟨2, S ")"⟩) := by
  refine ⟨⟨150, by decide +kernel⟩, C57_tokens.1 ⟨150, by decide +kernel⟩, ⟨150, by decide +kernel⟩⟩

example : Returns simpleNum ("CREATE TABLE t (aa TEXT);\n-- end\n".toList ++ '\n' :: '\n' :: "CREATE TABLE u (\n bb);".toList) .sqlite
    ([], some ⟨6, S ")"⟩) := ⟨250, by decide +kernel⟩

end DDL.Props
