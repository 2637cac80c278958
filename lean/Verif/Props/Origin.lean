import Verif.Proof.Letters
import Verif.Proof.Float
/-
C42, C43: where the parts of the returned tables come from.
-/

namespace DDL.Props
open DDL Spec

/-- C42: every name, type, default value, expression and column list of a returned table consists of
words of the text. Nothing is assumed about the text: this holds also when constraints are given that
the conversion does not know. -/
theorem C42_from_text [CaseMap] {isNum : Str → Bool} (hN : NumOK isNum) {d : Rdbms} {ddl : List Char}
    {toks : List Str} {tbs : List Table} (hl : Lexes d ddl toks) (h : Returns isNum ddl d (tbs, none)) :
    ∀ t ∈ tbs, TableFrom CaseMap.up isNum (WordOf toks) t := returns_from hN hl h

/-- What is made of the words is the same with another upper case that agrees on these words. -/
theorem tableFrom_mono {up up' : Char → Char} {isNum : Str → Bool} {P : Str → Prop} (hP : ∀ w, P w → w.map up = w.map up')
    {t : Table} (h : TableFrom up isNum P t) : TableFrom up' isNum P t := by
  refine ⟨h.schema, h.name, fun c hc => ?_, h.constraints⟩
  obtain ⟨h1, ⟨w, hw, h2⟩, h3⟩ := h.columns c hc
  refine ⟨h1, ⟨w, hw, by rwa [← hP w hw]⟩, h3.name, ?_, h3.check, h3.collate, h3.references⟩
  have hd := h3.default
  cases hv : c.constraint.default with
  | nil => trivial
  | num x => rw [hv] at hd; exact hd
  | str x => rw [hv] at hd; exact hd
  | bool b =>
    rw [hv] at hd
    obtain ⟨x, hx, e⟩ := hd
    exact ⟨x, hx, by rw [← hP x hx]; exact e⟩

/-- C42, ASCII: in a text whose words are ASCII, whatever `strings.ToUpper` does to other letters, types are words in the usual
upper case. -/
theorem C42_ascii [CaseMap] {isNum : Str → Bool} (hN : NumOK isNum) {d : Rdbms} {ddl : List Char}
    {toks : List Str} {tbs : List Table} (hl : Lexes d ddl toks) (ha : ∀ w ∈ toks, ∀ c ∈ w, c.toNat < 128)
    (h : Returns isNum ddl d (tbs, none)) : ∀ t ∈ tbs, TableFrom Char.toUpper isNum (WordOf toks) t := by
  refine fun t ht => tableFrom_mono (fun w hw => ?_) (C42_from_text hN hl h t ht)
  have hc : ∀ c ∈ w, c.toNat < 128 := by
    rcases hw with hw | hw
    · exact ha w (List.mem_filter.1 hw).1
    · revert w; decide
  have := upStr_of_plain (t := w) fun ⟨c, h1, h2⟩ => absurd (hc c h1) (by omega)
  exact this.trans (upper_eq w).symm

/-- C42, the end marker: `<EOF>` is the name of a table or a column only if it is in the text. -/
theorem C42_no_eof [CaseMap] {isNum : Str → Bool} (hN : NumOK isNum) {d : Rdbms} {ddl : List Char}
    {toks : List Str} {tbs : List Table} (hl : Lexes d ddl toks) (h : Returns isNum ddl d (tbs, none))
    {t : Table} (ht : t ∈ tbs) {x : Str} (hx : x = t.name ∨ ∃ c ∈ t.columns, x = c.name)
    (he : x = EOF) : ∃ w ∈ toks, w = EOF ∨ ∃ q, w = q :: EOF ++ [q] := by
  have hT := returns_from hN hl h t ht
  have hn : Named (WordOf toks) x := by
    rcases hx with rfl | ⟨c, hc, rfl⟩
    · exact hT.name
    · exact (hT.columns c hc).name
  subst he
  have nl : ∀ w, w ∈ noNewlines toks → w ∈ toks := fun w h => (List.mem_filter.1 h).1
  rcases hn with (h | h) | ⟨q, _, h | h⟩
  · exact ⟨_, nl _ h, .inl rfl⟩
  · exact absurd h (by decide)
  · exact ⟨_, nl _ h, .inr ⟨q, rfl⟩⟩
  · have hlen : (q :: EOF ++ [q]).length = 7 := rfl
    simp only [List.mem_cons, List.not_mem_nil, or_false] at h
    rcases h with h | h | h
    · rw [h] at hlen; exact absurd hlen (by decide)
    · have h1 : some '<' = some 'R' := congrArg (fun l : Str => l[1]?) h
      exact absurd h1 (by decide)
    · rw [h] at hlen; exact absurd hlen (by decide)

/-- Example: a table with quoted names and an expression. -/
example : Lexes .postgres "create table \"T\" (cc character varying(3) default (now( ))); ".toList
      [S "create", S "table", S "\"T\"", S "(", S "cc", S "character", S "varying", S "(", S "3", S ")",
        S "default", S "(", S "now", S "(", S ")", S ")", S ")", S ";"] ∧
    Returns simpleNum "create table \"T\" (cc character varying(3) default (now( ))); ".toList .postgres
      ([{ name := S "T", columns := [⟨S "cc", ⟨S "VARCHAR", 3, 0⟩, { default := .str (S "(now())") }⟩] }],
        none) :=
  ⟨⟨200, by decide +kernel⟩, ⟨200, by decide +kernel⟩⟩

/-- Example: the conversion has lost its place and takes the name of the index for a column and a
parenthesis for its type. Both are words of the text. -/
example : Returns simpleNum "CREATE TABLE tt (aa INT, FULLTEXT kk (aa));".toList .mysql
    ([{ name := S "tt", columns := [⟨S "aa", ⟨S "INT", 0, 0⟩, {}⟩, ⟨S "kk", ⟨S ")", 0, 0⟩, {}⟩] }], none) :=
  ⟨200, by decide +kernel⟩

/-- C43: a default value that is returned as a number was written without a decimal point. -/
theorem C43_no_point [CaseMap] {isNum : Str → Bool} (hN : NumOK isNum) (hdot : isNum (S ".") = false) {d : Rdbms}
    {ddl : List Char} {tbs : List Table} (h : Returns isNum ddl d (tbs, none)) {t : Table} (ht : t ∈ tbs)
    {c : Column} (hc : c ∈ t.columns) {x : Str} (hx : c.constraint.default = .num x) :
    isNum x = true ∧ '.' ∉ x ∧ ∃ toks, Lexes d ddl toks ∧ x ∈ toks := by
  obtain ⟨toks, _, hl, _, _⟩ := returns_ok_iff.1 h
  have hD := ((returns_from hN hl h t ht).columns c hc).constraint.default
  rw [hx] at hD
  obtain ⟨hw, hn⟩ := hD
  have hK : x ∈ toks := by
    rcases hw with hw | hw
    · exact (List.mem_filter.1 hw).1
    · obtain ⟨a, r, rfl, ha⟩ := hN x hn
      simp only [List.mem_cons, List.not_mem_nil, or_false] at hw
      rcases hw with h | h | h <;>
      · obtain ⟨rfl, _⟩ := List.cons.inj h
        exact absurd ha (by decide)
  refine ⟨hn, fun hp => ?_, toks, hl, hK⟩
  obtain ⟨n, hl'⟩ := hl
  rcases lexN_shape hl' x hK with rfl | ⟨a, ha, rfl⟩ | ⟨q, hq, body, _, rfl⟩ | ⟨_, h⟩
  · exact absurd hp (by decide)
  · rw [List.mem_singleton] at hp; subst hp; rw [show isNum ['.'] = false from hdot] at hn; cases hn
  · obtain ⟨a, r, he, ha⟩ := hN _ hn
    have e : q = a := (List.cons.inj he).1
    clear hx hp hn hw he hK
    subst e
    revert q
    decide
  · exact h '.' hp (by cases d <;> decide)

/-- C43 for Go's numbers. -/
theorem C43_no_point_go [CaseMap] {d : Rdbms} {ddl : List Char} {tbs : List Table}
    (h : Returns Go.isNumeric ddl d (tbs, none)) {t : Table} (ht : t ∈ tbs)
    {c : Column} (hc : c ∈ t.columns) {x : Str} (hx : c.constraint.default = .num x) : '.' ∉ x :=
  (C43_no_point Go.isNumeric_ok (by decide) h ht hc hx).2.1

example : Returns Go.isNumeric "CREATE TABLE tt (aa INTEGER DEFAULT -15e-1);".toList .postgres
    ([{ name := S "tt", columns := [⟨S "aa", ⟨S "INTEGER", 0, 0⟩, { default := .num (S "-15e-1") }⟩] }], none) :=
  ⟨200, by decide +kernel⟩
/-- A decimal point ends the number. -/
example : ∀ d ∈ [Rdbms.sqlite, .postgres, .mysql],
    Returns Go.isNumeric "CREATE TABLE tt (aa INTEGER DEFAULT 1.5);".toList d ([], some ⟨1, S "."⟩) := by
  intro d hd
  simp only [List.mem_cons, List.not_mem_nil, or_false] at hd
  rcases hd with rfl | rfl | rfl <;> exact ⟨200, by decide +kernel⟩

end DDL.Props
