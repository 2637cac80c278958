import Verif.Proof.Output
import Verif.Proof.ResultFacts
import Verif.Props.Origin
import Verif.Props.Errors
/-
C44, C45: the message of an error, and writing the tables as JSON.
-/

namespace DDL.Props
open DDL Spec

/-- C44: the message tells the line and the token. -/
theorem C44_message_tells (a b : VErr) (h : Out.message a = Out.message b) : a = b := message_inj h

/-- A token that looks like the end of a message is no exception. -/
example : Out.message ⟨1, S "x' at line 2.' at line 3"⟩ =
    S "ValidateError: Syntax error: near 'x' at line 2.' at line 3' at line 1." := by decide

/-- C44: the message of an error of `Parse` is on one line. -/
theorem C44_message_one_line [CaseMap] {isNum : Str → Bool} {d : Rdbms} {ddl : List Char} {r : List Table} {e : VErr}
    (h : Returns isNum ddl d (r, some e)) :
    '\n' ∉ Out.message e := by
  have hn : '\n' ∉ e.near := by
    rcases (returns_err_iff.1 h).2 with h1 | ⟨toks, ⟨n, hl⟩, k, hv⟩
    · rcases Lex.scan_refused (lexFails_iff.1 h1) with h1 | h1 | h1 | h1 <;> rw [h1] <;> decide
    · rcases validateN_err hv with ⟨pre, t, r, h1, ht, rfl, _⟩ | rfl
      · intro hm
        rcases lexN_shape hl t (by rw [h1]; simp) with h | ⟨c, hc, rfl⟩ | ⟨q, hq, body, hb, rfl⟩ | ⟨_, h⟩
        · exact ht h
        · have := List.mem_singleton.1 hm; subst this; exact absurd hc (by decide)
        · simp only [List.cons_append, List.mem_cons, List.mem_append, List.not_mem_nil, or_false] at hm
          rcases hm with rfl | hm | rfl
          · exact absurd hq (by decide)
          · exact hb hm
          · exact absurd hq (by decide)
        · exact h _ hm (by cases d <;> decide)
      · show '\n' ∉ EOF
        decide
  intro hm
  unfold Out.message at hm
  simp only [List.mem_append] at hm
  rcases hm with (((hm | hm) | hm) | hm) | hm
  · exact absurd hm (by decide)
  · exact hn hm
  · exact absurd hm (by decide)
  · exact toDigits_no (by decide) hm
  · exact absurd hm (by decide)

example : Returns simpleNum "create table tt (\ntt 'a\nb')".toList .sqlite ([], some ⟨3, S "'ab'"⟩) :=
  ⟨200, by decide +kernel⟩

/-- C44: what the lexer refuses. -/
theorem C44_lexer_near {d : Rdbms} {ddl : List Char} {e : VErr} (h : LexFails d ddl e) :
    e.near ∈ [EOF, S "*", S "`", S "　"] := by
  rcases Lex.scan_refused (lexFails_iff.1 h) with h | h | h | h <;> rw [h] <;> decide

example : LexFails .mysql "a　b".toList ⟨1, S "　"⟩ := ⟨9, by decide +kernel⟩
example : LexFails .sqlite "a\n*/".toList ⟨2, S "*"⟩ := ⟨9, by decide +kernel⟩

/-- C45: `json.Marshal` fails on a result of `Parse`, in each dialect. -/
theorem C45_json_negation :
    ¬ ∀ (d : Rdbms) (ddl : List Char) (tbs : List Table), d ≠ .other →
      Returns Go.isNumeric ddl d (tbs, none) → Out.marshalFails tbs = false := fun h => by
  have := h .sqlite "CREATE TABLE tt (aa INTEGER DEFAULT nan);".toList
    [{ name := S "tt", columns := [⟨S "aa", ⟨S "INTEGER", 0, 0⟩, { default := .num (S "nan") }⟩] }]
    (by decide) ⟨200, by decide +kernel⟩
  exact absurd this (by decide)

example : ∀ d ∈ [Rdbms.postgres, .mysql],
    Returns Go.isNumeric "CREATE TABLE tt (aa INTEGER DEFAULT -Infinity);".toList d
      ([{ name := S "tt", columns := [⟨S "aa", ⟨S "INTEGER", 0, 0⟩, { default := .num (S "-Infinity") }⟩] }],
        none) := by
  intro d hd
  simp only [List.mem_cons, List.not_mem_nil, or_false] at hd
  rcases hd with rfl | rfl <;> exact ⟨200, by decide +kernel⟩

/-- C45: it fails for no other reason. If the text has no such word, writing the tables succeeds. -/
theorem C45_json_partial [CaseMap] {d : Rdbms} {ddl : List Char} {toks : List Str} {tbs : List Table}
    (hl : Lexes d ddl toks) (hw : ∀ w ∈ toks, ¬ NotFinite w) (h : Returns Go.isNumeric ddl d (tbs, none)) :
    Out.marshalFails tbs = false := by
  cases hm : Out.marshalFails tbs with
  | false => rfl
  | true =>
    obtain ⟨t, ht, c, hc, x, hx, hn⟩ := marshalFails_iff.1 hm
    obtain ⟨_, _, toks', hl', hx'⟩ := C43_no_point Go.isNumeric_ok (by decide) h ht hc hx
    cases Lexes.unique hl hl'
    exact absurd hn (hw x hx')

example : Lexes .sqlite "CREATE TABLE tt (aa INTEGER DEFAULT 1e3);".toList
      [S "CREATE", S "TABLE", S "tt", S "(", S "aa", S "INTEGER", S "DEFAULT", S "1e3", S ")", S ";"] ∧
    (∀ w ∈ [S "CREATE", S "TABLE", S "tt", S "(", S "aa", S "INTEGER", S "DEFAULT", S "1e3", S ")", S ";"],
      ¬ NotFinite w) :=
  ⟨⟨200, by decide +kernel⟩, by decide⟩

/-- C45, exactly: `json.Marshal` fails on what a script denotes iff some column has one of these words as
its default. -/
theorem C45_json_iff [CaseMap] {d : Rdbms} {ddl : List Char} {toks : List Str} {ss : List Stmt} (hl : Lexes d ddl toks)
    (hs : script Go.isNumeric d (noNewlines toks) ss) (hf : Faithful ss) :
    ∃ tbs, Returns Go.isNumeric ddl d (tbs, none) ∧
      (Out.marshalFails tbs = true ↔
        ∃ t, Stmt.table t ∈ ss ∧ ∃ c, Item.column c ∈ t.items ∧ ∃ x, ColCon.default (.lit x) ∈ c.cons ∧ NotFinite x) := by
  refine ⟨_, returns_of_script Go.isNumeric_ok hl hs hf, marshalFails_iff.trans ⟨?_, ?_⟩⟩
  · rintro ⟨tb, ht, co, hc, x, hx, hn⟩
    obtain ⟨t, hm, rfl⟩ := tablesVal_mem.1 ht
    obtain ⟨i, hi, e⟩ := List.mem_filterMap.1 hc
    cases i with
    | column c =>
      cases e
      refine ⟨t, hm, c, hi, x, ?_, hn⟩
      have hx : ((c.cons.findSome? ColCon.dflt).map (dfltVal Go.isNumeric d)).getD .nil = .num x := hx
      cases hd : c.cons.findSome? ColCon.dflt with
      | none => rw [hd] at hx; cases hx
      | some v =>
        rw [hd] at hx
        obtain ⟨k, hk, e⟩ := List.exists_of_findSome?_eq_some hd
        cases k with
        | default w =>
          cases e
          cases v with
          | expr e => cases hx
          | lit y =>
            have hx : litVal Go.isNumeric d y = .num x := hx
            unfold litVal at hx
            repeat' split at hx
            all_goals cases hx
            exact hk
        | _ => cases e
    | _ => cases e
  · rintro ⟨t, ht, c, hc, x, hx, hn⟩
    refine ⟨_, tablesVal_mem.2 ⟨t, ht, rfl⟩, _, List.mem_filterMap.2 ⟨_, hc, rfl⟩, x, ?_, hn⟩
    obtain ⟨_, _, _, _, hnd, _⟩ := script_colCon hs ht hc
    show ((c.cons.findSome? ColCon.dflt).map (dfltVal Go.isNumeric d)).getD .nil = .num x
    have e : c.cons.findSome? ColCon.dflt = some (.lit x) := findSome_dflt hnd hx
    rw [e]
    show litVal Go.isNumeric d x = .num x
    have : Go.isNumeric x = true := by
      have := (special_iff x).2 hn
      simp [Go.isNumeric, this]
    simp [litVal, this]

/-- A script that meets the hypotheses. -/
example : ∃ toks ss, Lexes .sqlite "CREATE TABLE tt (aa INTEGER DEFAULT nan);".toList toks ∧
    script Go.isNumeric .sqlite (noNewlines toks) ss ∧ Faithful ss ∧
    ∃ t, Stmt.table t ∈ ss ∧ ∃ c, Item.column c ∈ t.items ∧ ∃ x, ColCon.default (.lit x) ∈ c.cons ∧ NotFinite x := by
  have nm : ∀ s : Str, V.plainName .sqlite s = true → Name .sqlite s := fun s h => .inr ((plainName_iff _ s).1 h)
  refine ⟨[S "CREATE", S "TABLE", S "tt", S "(", S "aa", S "INTEGER", S "DEFAULT", S "nan", S ")", S ";"],
    [.table ⟨false, ⟨none, S "tt"⟩, [.column ⟨S "aa", ⟨S "INTEGER", false, none⟩, .absent, [.default (.lit (S "nan"))]⟩]⟩],
    ⟨200, by decide +kernel⟩, ?_, ?_, _, .head _, _, .head _, S "nan", .head _, by decide⟩
  · refine .cons (mid := []) ?_ .nil
    refine ⟨(), _, kw_intro (by decide), false, _, .inr ⟨(), _, notAt_cons (by decide), rfl, rfl⟩, .inl ⟨(), _,
      kw_intro (by decide), false, _, ⟨none, _, optKw_none (notAt_cons (by decide)), rfl, rfl⟩, ⟨none, S "tt"⟩, _,
      ⟨S "tt", _, ⟨rfl, nm _ (by decide +kernel)⟩, none, _, optKw_none (notAt_cons (by decide)), rfl, rfl⟩, (), _,
      kw_intro (by decide), _, [S ")", S ";"], .one (.inr ?_) (notAt_cons (by decide)), (), [S ";"], kw_intro (by decide), (), [S ";"],
      .inr (.inr (notAt_cons (by decide))), (), _, kw_intro (by decide), rfl, rfl⟩⟩
    refine ⟨S "aa", _, ⟨rfl, nm _ (by decide +kernel)⟩, S "INTEGER", _, ⟨rfl, by decide⟩, .absent, _,
      ⟨none, _, optKw_none (notAt_cons (by decide)), rfl, rfl⟩, _, _, ⟨.cons ⟨rfl, _, _, rfl, by decide⟩
        (.inr (.inr (.inr (.inr (.inl ⟨(), _, kw_intro (by decide), .lit (S "nan"), _,
          .inr ⟨(), _, notAt_cons (by decide), S "nan", _, ⟨rfl, .inl (by decide +kernel)⟩, rfl, rfl⟩, rfl, rfl⟩)))))
        (.nil (notAt_cons (by decide))), by decide⟩, rfl, rfl⟩
  · intro t ht
    cases List.mem_singleton.1 ht
    refine ⟨fun i hi => ?_, fun i is e => by cases e⟩
    cases List.mem_singleton.1 hi
    exact ⟨fun r hr => (nomatch List.mem_singleton.1 hr), fun n e => by cases e⟩

end DDL.Props
