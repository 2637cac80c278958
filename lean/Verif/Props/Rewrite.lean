import Verif.Proof.Rewrite
import Verif.Props.RoundTrip
import Verif.Proof.Float
/-
C58: what `Parse` returns can be written out again, and parses to the same.
-/

namespace DDL.Props
open DDL V Spec

/-- C58: the tables of a tidy script are well-formed, so writing them and parsing the text gives the
same tables. -/
theorem C58_rewrite [CaseMap] {isNum : Str → Bool} (hN : NumOK isNum) (hdot : isNum (S ".") = false) {d : Rdbms}
    (hd : d ≠ .other) {ddl : List Char} {toks : List Str} {ss : List Stmt} (hl : Lexes d ddl toks)
    (hs : script isNum d (noNewlines toks) ss) (hf : Faithful ss) (ht : Tidy d (noNewlines toks) ss) :
    ∃ tables, (∀ t ∈ tables, TableOK isNum d t) ∧ Returns isNum ddl d (tables, none) ∧
      Returns isNum (scriptText d tables) d (tables, none) := by
  have hok : ∀ t ∈ tablesVal isNum d ss, TableOK isNum d t := by
    intro t hm
    obtain ⟨a, ha, rfl⟩ := mem_tablesVal hm
    exact table_ok hN hdot hd hs ht ha
  exact ⟨_, hok, returns_of_script hN hl hs hf, returns_printed hN hd hok⟩

/-- The tables that tidy scripts describe are exactly the well-formed ones. -/
theorem C58_image {isNum : Str → Bool} (hN : NumOK isNum) (hdot : isNum (S ".") = false) {d : Rdbms}
    (hd : d ≠ .other) (tables : List Table) :
    (∃ ddl toks ss, Lexes d ddl toks ∧ script isNum d (noNewlines toks) ss ∧ Faithful ss ∧
      Tidy d (noNewlines toks) ss ∧ tablesVal isNum d ss = tables) ↔ ∀ t ∈ tables, TableOK isNum d t := by
  constructor
  · rintro ⟨ddl, toks, ss, _, hs, _, ht, rfl⟩ t hm
    obtain ⟨a, ha, rfl⟩ := mem_tablesVal hm
    exact table_ok hN hdot hd hs ht ha
  · intro h
    obtain ⟨ts, ss, h1, h2, h3, h4, h5⟩ := script_ok hN hd h
    have e : noNewlines ts = ts := strip_id h1.no_nl
    exact ⟨_, ts, ss, h1.lexes, e.symm ▸ h2, h4, ⟨e.symm ▸ h1.plain, h5⟩, h3⟩

/-- The tokens of well-formed text are plain, so that in such a text only the statements matter. -/
theorem C58_tokens {d : Rdbms} {ls : List Lexeme} (h : WellFormed d ls) :
    ∀ t ∈ noNewlines (toksOf ls), PlainToken d t := by
  intro t ht
  obtain ⟨hm, hn⟩ := List.mem_filter.1 ht
  have hn : t ≠ nl := of_decide_eq_true hn
  obtain ⟨l, hl, hm⟩ := List.mem_flatMap.1 hm
  have ho := h.1 l hl
  cases l with
  | space => cases hm
  | tab => cases hm
  | newline => exact absurd (List.mem_singleton.1 hm) hn
  | punct c => exact ⟨.punct c, ho, trivial, by rw [List.mem_singleton.1 hm]; rfl⟩
  | word w => exact ⟨.word w, ho, trivial, by rw [List.mem_singleton.1 hm]; rfl⟩
  | quoted q b =>
    rcases List.mem_append.1 hm with hm | hm
    · exact absurd (List.eq_of_mem_replicate hm) hn
    · refine ⟨.quoted q (b.filter (· ≠ '\n')), ⟨ho.1, ho.2.1, fun c hc => ho.2.2 c (List.mem_filter.1 hc).1⟩, ?_, ?_⟩
      · show '\n' ∉ b.filter (· ≠ '\n')
        simp
      · have : (b.filter (· ≠ '\n')).count '\n' = 0 := List.count_eq_zero_of_not_mem (by simp)
        rw [List.mem_singleton.1 hm]
        simp only [Lexeme.toks, this, List.filter_filter, Bool.and_self, List.replicate_zero, List.nil_append]
  | line b => exact absurd (List.mem_singleton.1 hm) hn
  | sharp b => exact absurd (List.mem_singleton.1 hm) hn
  | block b =>
    obtain ⟨p, hp, hm⟩ := List.mem_flatMap.1 hm
    cases p with
    | ch c =>
      by_cases hc : c = '\n'
      · rw [Part.toks, if_pos hc] at hm; exact absurd (List.mem_singleton.1 hm) hn
      · rw [Part.toks, if_neg hc] at hm; cases hm
    | star c => cases hm
    | slash c => cases hm

/-- For the number test of the code. -/
example : NumOK Go.isNumeric ∧ Go.isNumeric (S ".") = false := ⟨Go.isNumeric_ok, by decide +kernel⟩

/-- A text that meets the hypotheses, unlike what is written: lower case, a comment, blanks in the
expression, a name without quotes. -/
example : ∃ toks ss, Lexes .sqlite "create table tt -- tt\n(aa integer collate nocase check (aa > - 1));".toList toks ∧
    script simpleNum .sqlite (noNewlines toks) ss ∧ Faithful ss ∧ Tidy .sqlite (noNewlines toks) ss := by
  have nm : ∀ s : Str, V.plainName .sqlite s = true → Name .sqlite s := fun s h => .inr ((plainName_iff _ s).1 h)
  have hnl : noNewlines [S "create", S "table", S "tt", S "\n", S "(", S "aa", S "integer", S "collate", S "nocase",
      S "check", S "(", S "aa", S ">", S "-", S "1", S ")", S ")", S ";"] =
      [S "create", S "table", S "tt", S "(", S "aa", S "integer", S "collate", S "nocase",
      S "check", S "(", S "aa", S ">", S "-", S "1", S ")", S ")", S ";"] := by decide +kernel
  refine ⟨[S "create", S "table", S "tt", S "\n", S "(", S "aa", S "integer", S "collate", S "nocase",
      S "check", S "(", S "aa", S ">", S "-", S "1", S ")", S ")", S ";"],
    [.table ⟨false, ⟨none, S "tt"⟩, [.column ⟨S "aa", ⟨S "integer", false, none⟩, .absent,
      [.collate (S "nocase"), .check [S "(", S "aa", S ">", S "-", S "1", S ")"]]⟩]⟩],
    ⟨200, by decide +kernel⟩, ?_, ?_, ?_, ?_⟩
  · rw [hnl]
    exact .cons (s := .table ⟨false, ⟨none, S "tt"⟩, _⟩) ⟨(), _, kw_intro (by decide), false, _,
      optWord_none (notAt_cons (by decide)), .inl ⟨(), _, kw_intro (by decide), false, _, ⟨none, _, optKw_none (notAt_cons (by decide)), rfl, rfl⟩,
        ⟨none, S "tt"⟩, _, ⟨S "tt", _, ⟨rfl, nm _ (by decide +kernel)⟩, none, _, optKw_none (notAt_cons (by decide)), rfl, rfl⟩, (), _, kw_intro (by decide), _, _, .one (.inr
      ⟨S "aa", _, ⟨rfl, nm _ (by decide +kernel)⟩, S "integer", _, ⟨rfl, by decide⟩, .absent, _,
            ⟨none, _, optKw_none (notAt_cons (by decide)), rfl, rfl⟩, _, _,
            ⟨.cons ⟨rfl, _, _, rfl, by decide⟩ (.inr (.inr (.inr (.inr (.inr (.inl ⟨(), _, kw_intro (by decide), _, _, ⟨rfl, by decide⟩,
                rfl, rfl⟩))))))
              (.cons ⟨rfl, _, _, rfl, by decide⟩ (.inr (.inr (.inr (.inl ⟨(), _, kw_intro (by decide), _, _,
                ⟨[S "aa", S ">", S "-", S "1"], .plain _ _ (by decide) (by decide) (.plain _ _ (by decide) (by decide)
                  (.plain _ _ (by decide) (by decide) (.plain _ _ (by decide) (by decide) .nil))), rfl, rfl⟩,
                rfl, rfl⟩))))
              (.nil (notAt_cons (by decide)))), by decide⟩, rfl, rfl⟩) (notAt_cons (by decide)), (), _, kw_intro (by decide),
        (), _, .inr (.inr (notAt_cons (by decide))), (), _, kw_intro (by decide), rfl, rfl⟩⟩ .nil
  · intro t ht
    cases List.mem_singleton.1 ht
    refine ⟨fun i hi => ?_, fun i is e => by cases e⟩
    cases List.mem_singleton.1 hi
    refine ⟨fun r hr => ?_, fun n e => by cases e⟩
    simp at hr
  · rw [hnl]
    intro t ht
    simp only [List.mem_cons, List.not_mem_nil, or_false] at ht
    have word : ∀ {t : Str}, Ident t → PlainToken .sqlite t := fun h => ⟨.word _, isWord_ident h, trivial, rfl⟩
    have punct : ∀ {c : Char}, c ∈ puncts → PlainToken .sqlite [c] := fun h => ⟨.punct _, h, trivial, rfl⟩
    have short : ∀ {c : Char}, c ∉ nonWord .sqlite → PlainToken .sqlite [c] := fun {c} h =>
      ⟨.word [c], ⟨by simp, fun x hx => by rw [List.mem_singleton.1 hx]; exact h, trivial⟩, trivial, rfl⟩
    rcases ht with rfl | rfl | rfl | rfl | rfl | rfl | rfl | rfl | rfl | rfl | rfl | rfl | rfl | rfl | rfl | rfl | rfl <;>
      first
      | exact word ⟨_, _, rfl, by decide, by decide⟩
      | exact punct (by decide)
      | exact short (by decide)
  · intro t ht
    cases List.mem_singleton.1 ht
    refine ⟨fun i hi => ?_, _, .head _, trivial⟩
    cases List.mem_singleton.1 hi
    intro x hx
    simp only [List.mem_cons, List.not_mem_nil, or_false] at hx
    rcases hx with rfl | rfl
    · trivial
    · show Spaced _
      have key : ∀ a b : Str, (match a.getLast?, b.head? with | some x, some y => decide ((x, y) ∉ marks) | _, _ => true) = true →
          ∀ x y, a.getLast? = some x → b.head? = some y → (x, y) ∉ marks := by
        intro a b h x y hx hy
        rw [hx, hy] at h
        exact of_decide_eq_true h
      exact ⟨key _ _ (by decide), key _ _ (by decide), key _ _ (by decide), key _ _ (by decide), key _ _ (by decide), trivial⟩

/-- The condition on expressions is needed: the blanks of a CHECK are not kept, so that a comment
can arise in the text that is written. -/
theorem C58_apart_negation :
    ∃ tables, Returns simpleNum "CREATE TABLE tt (aa INTEGER CHECK (aa / * 1));".toList .sqlite (tables, none) ∧
      ¬ ∃ tables', Returns simpleNum (scriptText .sqlite tables) .sqlite (tables', none) := by
  refine ⟨[{ name := S "tt", columns := [⟨S "aa", { name := S "INTEGER" }, { check := S "(aa/*1)" }⟩] }], ⟨200, by decide +kernel⟩, ?_⟩
  rintro ⟨T, h⟩
  have h2 : Returns simpleNum (scriptText .sqlite [{ name := S "tt", columns := [⟨S "aa", { name := S "INTEGER" }, { check := S "(aa/*1)" }⟩] }]) .sqlite ([], some ⟨1, EOF⟩) := ⟨200, by decide +kernel⟩
  cases Returns.unique h h2

/-- The condition on the quotes of a default expression is needed. -/
theorem C58_quotes_negation :
    ∃ tables, Returns simpleNum "CREATE TABLE tt (aa TEXT DEFAULT ('x'));".toList .sqlite (tables, none) ∧
      ¬ ∃ tables', Returns simpleNum (scriptText .sqlite tables) .sqlite (tables', none) := by
  refine ⟨[{ name := S "tt", columns := [⟨S "aa", { name := S "TEXT" }, { default := .str (S "('x')") }⟩] }], ⟨200, by decide +kernel⟩, ?_⟩
  rintro ⟨T, h⟩
  have h2 : Returns simpleNum (scriptText .sqlite [{ name := S "tt", columns := [⟨S "aa", { name := S "TEXT" }, { default := .str (S "('x')") }⟩] }]) .sqlite ([], some ⟨1, S "x"⟩) := ⟨200, by decide +kernel⟩
  cases Returns.unique h h2

/-- A key needs a column. -/
theorem C58_key_negation :
    ∃ tables, Returns simpleNum "CREATE TABLE tt (aa INT, UNIQUE ((aa+1)));".toList .mysql (tables, none) ∧
      ¬ ∃ tables', Returns simpleNum (scriptText .mysql tables) .mysql (tables', none) := by
  refine ⟨[{ name := S "tt", columns := [⟨S "aa", { name := S "INT" }, {}⟩], constraints := { unique := [⟨[], []⟩] } }], ⟨200, by decide +kernel⟩, ?_⟩
  rintro ⟨T, h⟩
  have h2 : Returns simpleNum (scriptText .mysql [{ name := S "tt", columns := [⟨S "aa", { name := S "INT" }, {}⟩], constraints := { unique := [⟨[], []⟩] } }]) .mysql ([], some ⟨1, S ")"⟩) := ⟨200, by decide +kernel⟩
  cases Returns.unique h h2

end DDL.Props
