import Verif.Proof.Layout
/-
C19, C20, C21, C29, C30: layout, comments, quotes.
-/

namespace DDL.Props
open DDL Spec

/-- C19: two texts made of the same lexemes apart from blanks, tabs and newlines have the same
outcome. -/
theorem C19_layout [CaseMap] {isNum : Str → Bool} {d : Rdbms} {la lb : List Lexeme}
    (ha : WellFormed d la) (hb : WellFormed d lb)
    (h : la.filter (fun l => !l.isLayout) = lb.filter (fun l => !l.isLayout)) :
    SameOutcome isNum d (srcOf la) (srcOf lb) := by
  apply sameOutcome_of_strip (lexes_lexemes ha) (lexes_lexemes hb)
  have hp : ∀ l : Lexeme, (!l.isLayout) = false → strip l.toks = [] :=
    fun l hl => strip_silent (.inl (by simpa using hl))
  rw [← strip_filter hp la, ← strip_filter hp lb, h]

/-- Example: `a(b)` on one line and spread out. -/
example : ∃ la lb, WellFormed .mysql la ∧ WellFormed .mysql lb ∧ la ≠ lb ∧
    la.filter (fun l => !l.isLayout) = lb.filter (fun l => !l.isLayout) := by
  refine ⟨[.word (S "a"), .space, .word (S "b"), .punct ';'],
    [.tab, .word (S "a"), .newline, .newline, .word (S "b"), .tab, .punct ';', .newline],
    ⟨?_, ?_⟩, ⟨?_, ?_⟩, by decide, by decide⟩
  all_goals simp [Lexeme.Ok, IsWord, NoMark, nonWord, quotes, puncts, S, Adjacent, Lexeme.May,
    Lexeme.isComment]

/-- C20: two texts made of the same lexemes apart from layout and comments have the same outcome.
Missing: comments that follow a comment without a blank between them, block comments with `**/`,
because the code reads them differently: see the negations below. -/
theorem C20_comments_partial [CaseMap] {isNum : Str → Bool} {d : Rdbms} {la lb : List Lexeme}
    (ha : WellFormed d la) (hb : WellFormed d lb)
    (h : la.filter (fun l => !(l.isLayout || l.isAnyComment)) =
      lb.filter (fun l => !(l.isLayout || l.isAnyComment))) :
    SameOutcome isNum d (srcOf la) (srcOf lb) := by
  apply sameOutcome_of_strip (lexes_lexemes ha) (lexes_lexemes hb)
  have hp : ∀ l : Lexeme, (!(l.isLayout || l.isAnyComment)) = false → strip l.toks = [] :=
    fun l hl => strip_silent (by
      cases h1 : l.isLayout <;> cases h2 : l.isAnyComment <;> simp [h1, h2] at hl ⊢)
  rw [← strip_filter hp la, ← strip_filter hp lb, h]

/-- C20: a comment stands for newlines only, whatever its text: those it contains, as far as they
are not hidden. -/
theorem C20_comment_tokens {d : Rdbms} {la lb : List Lexeme} {l : Lexeme}
    (h : WellFormed d (la ++ l :: lb)) (hc : l.isAnyComment = true) (hh : l.hides = false) :
    Lexes d (srcOf la ++ l.src ++ srcOf lb)
      (toksOf la ++ List.replicate (l.src.count '\n') nl ++ toksOf lb) := by
  have := lexes_lexemes h
  have h2 : toksOf (la ++ l :: lb) = toksOf la ++ l.toks ++ toksOf lb := by simp [toksOf]
  have h3 : srcOf (la ++ l :: lb) = srcOf la ++ l.src ++ srcOf lb := by simp [srcOf]
  rw [h2, h3] at this
  have h4 : l.toks = List.replicate (l.src.count '\n') nl := by
    have hn := nls_toksOf (d := d) (ls := [l]) (by simp; exact h.1 l (by simp)) (by simpa using hh)
    simp only [toksOf, srcOf, List.flatMap_cons, List.flatMap_nil, List.append_nil] at hn
    have hs := strip_silent (.inr hc)
    rw [List.eq_replicate_iff]
    refine ⟨?_, fun t ht => ?_⟩
    · rw [← hn]
      have : ∀ ts : List Str, strip ts = [] → ts.length = nls ts := by
        intro ts
        induction ts with
        | nil => simp [nls]
        | cons t ts ih =>
          intro h
          by_cases ht : t = nl
          · subst ht; simp [strip] at h; simp [nls]; exact ih (by simpa [strip] using h)
          · rw [strip_cons _ _ ht] at h; cases h
      exact this _ hs
    · apply Classical.byContradiction
      intro hne
      have : t ∈ strip l.toks := by simp [strip, ht, hne]
      rw [hs] at this; cases this
  rw [← h4]; exact this

/-- Example: the hypotheses of `C20_comments_partial` on a text with all kinds of comments. -/
example : ∃ la lb, WellFormed .mysql la ∧ WellFormed .mysql lb ∧ la ≠ lb ∧
    la.filter (fun l => !(l.isLayout || l.isAnyComment)) =
      lb.filter (fun l => !(l.isLayout || l.isAnyComment)) := by
  refine ⟨[.word (S "a"), .space, .word (S "b"), .punct ';'],
    [.line (S " -- one"), .word (S "a"), .block [.ch 'x', .star 'y', .slash '/'], .sharp (S "'"),
     .word (S "b"), .tab, .punct ';', .newline],
    ⟨?_, ?_⟩, ⟨?_, ?_⟩, by decide, by decide⟩
  all_goals simp [Lexeme.Ok, IsWord, NoMark, nonWord, quotes, puncts, S, Adjacent, Lexeme.May,
    Lexeme.isComment, Part.Ok]

/-- C20 is false for a `--` comment on the line after a `--` comment, in every dialect and
whatever the first comment: the second one is read as a token. -/
theorem C20_adjacent_negation (d : Rdbms) (a : List Char) (ha : '\n' ∉ a) :
    Lexes d ("--".toList ++ a ++ "\n--x\n".toList) [nl, S "--x", nl] := by
  rw [lexes_iff]
  have hl : ∀ (b : List Char) l r cs, '\n' ∉ b →
      Lex.scan d .line (b ++ cs) l r = Lex.scan d .line cs l r := by
    intro b
    induction b with
    | nil => simp
    | cons c b ih =>
      intro l r cs hb
      simp at hb
      have hc : c ≠ '\n' := fun e => hb.1 e.symm
      simp only [List.cons_append, Lex.scan, Lex.step, if_neg hc]
      simpa [nls] using ih l r cs hb.2
  have e : "--".toList ++ a ++ "\n--x\n".toList = '-' :: '-' :: (a ++ "\n--x\n".toList) := by simp
  rw [e]
  simp only [Lex.scan, Lex.step, if_true]
  rw [hl _ _ _ _ ha]
  cases d <;> rfl

/-- So the second comment makes `Parse` reject a script that is accepted without it. -/
theorem C20_adjacent_rejected_negation :
    Returns simpleNum "--a\n--b\nCREATE TABLE t (a INTEGER);".toList .sqlite ([], some ⟨1, S "--b"⟩) ∧
    ∃ t, Returns simpleNum "--a\n \nCREATE TABLE t (a INTEGER);".toList .sqlite ([t], none) := by
  refine ⟨⟨60, by decide +kernel⟩, ⟨{
      name := S "t"
      columns := [{ name := S "a", dataType := { name := S "INTEGER" } }] }, ⟨60, by decide +kernel⟩⟩⟩

/-- C20 is false for block comments that end in `**/`: the comment is not closed. -/
theorem C20_star_negation (isNum : Str → Bool) (d : Rdbms) (rest : List Char) (h : '*' ∉ rest) :
    ∃ k, Returns isNum ("/***/".toList ++ rest) d ([], some ⟨k, EOF⟩) := by
  have h1 := (Lex.scan_block_open (d := d) (b := '/' :: rest) 1 []).1 (by
    intro x y e
    have hm : '*' ∈ '/' :: rest := by rw [e]; simp
    simp at hm; exact h hm)
  obtain ⟨k, hk⟩ := h1
  refine ⟨k, returns_err_iff.2 ⟨rfl, .inl (lexFails_iff.2 ?_)⟩⟩
  rw [← hk]
  cases d <;> rfl

/-- C21: quoted text without quotes and newlines inside is one token with that content. -/
theorem C21_quoted_token {d : Rdbms} {la lb : List Lexeme} {q : Char} {b : List Char}
    (h : WellFormed d (la ++ .quoted q b :: lb)) (hb : '\n' ∉ b) :
    Lexes d (srcOf la ++ (q :: b ++ [q]) ++ srcOf lb)
      (toksOf la ++ [q :: b ++ [q]] ++ toksOf lb) := by
  have := lexes_lexemes h
  have hf : b.filter (· ≠ '\n') = b := by
    rw [List.filter_eq_self]; intro c hc; simp; rintro rfl; exact hb hc
  have h2 : toksOf (la ++ .quoted q b :: lb) = toksOf la ++ [q :: b ++ [q]] ++ toksOf lb := by
    simp only [toksOf, List.flatMap_append, List.flatMap_cons, Lexeme.toks, hf,
      List.count_eq_zero_of_not_mem hb, List.replicate_zero, List.nil_append, List.append_assoc]
  have h3 : srcOf (la ++ .quoted q b :: lb) = srcOf la ++ (q :: b ++ [q]) ++ srcOf lb := by
    simp [srcOf, Lexeme.src]
  rwa [h2, h3] at this

example : WellFormed .sqlite ([.word (S "a")] ++ .quoted '\'' (S "b, (c) -- d") :: [.punct ';']) ∧
    '\n' ∉ S "b, (c) -- d" := by
  refine ⟨⟨?_, ?_⟩, by decide⟩
  all_goals simp [Lexeme.Ok, IsWord, NoMark, nonWord, quotes, puncts, S, Adjacent, Lexeme.May,
    Lexeme.isComment]

/-- C21 is false for text with quotes of another kind inside: the character after the inner quoted
text is lost, whatever it is. -/
theorem C21_nested_negation {d : Rdbms} {q q' x : Char} {a b c : List Char}
    (hq : q ∈ quotes) (hd : d = .postgres → q ≠ '`') (hq' : q' ∈ quotes) (hne : q' ≠ q)
    (ha : ∀ y ∈ a ++ b ++ c, y ∉ quotes ∧ y ≠ '\n') :
    Lexes d (q :: (a ++ q' :: (b ++ q' :: x :: (c ++ [q]))))
      [q :: (a ++ q' :: (b ++ q' :: (c ++ [q])))] := by
  rw [lexes_iff]
  have := Lex.scan_open_quote (d := d) (ls := []) ⟨by simp, trivial⟩ hq hd
    (a ++ q' :: (b ++ q' :: x :: (c ++ [q])))
  simp only [srcOf, toksOf, List.flatMap_nil, List.nil_append] at this
  rw [this]
  have n1 : q' ≠ '\n' := by rintro rfl; simp [quotes] at hq'
  have n2 : q ≠ '\n' := by rintro rfl; simp [quotes] at hq
  rw [Lex.scan_body (fun y hy => ha y (by simp [hy])) hq]
  have s1 : ∀ acc, Lex.step d (.str q [] acc) q' = .go (.str q' [q] (acc ++ [q'])) [] := by
    intro acc
    simp only [Lex.step]
    rw [if_neg n1, if_neg hne, if_pos ((Lex.isQuote_iff _).2 hq')]
  simp only [Lex.scan, s1]
  rw [Lex.scan_body (fun y hy => ha y (by simp [hy])) hq']
  have s2 : ∀ acc, Lex.step d (.str q' [q] acc) q' = .go (.drop q [] (acc ++ [q'])) [] := by
    intro acc
    simp only [Lex.step]
    rw [if_neg n1]; rfl
  have s4 : ∀ acc, Lex.step d (.drop q [] acc) x = .go (.str q [] acc) [] := fun _ => rfl
  simp only [Lex.scan, s2, s4]
  rw [Lex.scan_body (fun y hy => ha y (by simp [hy])) hq]
  have s3 : ∀ acc, Lex.step d (.str q [] acc) q = .go (.top []) [acc ++ [q]] := by
    intro acc
    simp only [Lex.step]
    rw [if_neg n2]; rfl
  simp only [Lex.scan, s3, Lex.final]
  simp [Lex.flush]

/-- So a default value loses a character, and a string ending in an inner quoted word is not closed. -/
example : ∃ t, Returns simpleNum "CREATE TABLE t (a TEXT DEFAULT 'say \"hi\", you');".toList .sqlite
    ([t], none) ∧ t.columns.map (·.constraint.default) = [.str (S "say \"hi\" you")] :=
  ⟨{ name := S "t", columns := [{ name := S "a", dataType := { name := S "TEXT" }, constraint := { default := .str (S "say \"hi\" you") } }] },
    ⟨60, by decide +kernel⟩, by decide⟩
example : Returns simpleNum "CREATE TABLE t (a TEXT DEFAULT 'say \"hi\"');".toList .sqlite
    ([], some ⟨1, EOF⟩) := ⟨60, by decide +kernel⟩

/-- C29: a quote that is opened and never closed. -/
theorem C29_open_quote [CaseMap] (isNum : Str → Bool) {d : Rdbms} {ls : List Lexeme} (h : WellFormed d ls)
    {q : Char} (hq : q ∈ quotes) (hd : d = .postgres → q ≠ '`') {b : List Char} (hb : q ∉ b) :
    ∃ k, Returns isNum (srcOf ls ++ q :: b) d ([], some ⟨k, EOF⟩) := by
  have e := Lex.scan_open_quote h hq hd b
  obtain ⟨k, hk⟩ := Lex.scan_inside (d := d) (q := q) (m := .str q [] [q])
    (.inl ⟨q, [], [q], rfl, rfl⟩) hb (1 + nls (toksOf ls)) (toksOf ls)
  exact ⟨k, returns_err_iff.2 ⟨rfl, .inl (lexFails_iff.2 (e.trans hk))⟩⟩

/-- C29: a block comment that is opened and never closed. -/
theorem C29_open_comment [CaseMap] (isNum : Str → Bool) {d : Rdbms} {ls : List Lexeme}
    (h : WellFormed d (ls ++ [.block []])) {b : List Char} (hb : ∀ x y, b ≠ x ++ '*' :: '/' :: y) :
    ∃ k, Returns isNum (srcOf ls ++ '/' :: '*' :: b) d ([], some ⟨k, EOF⟩) := by
  have e := Lex.scan_open_block h b
  obtain ⟨k, hk⟩ := (Lex.scan_block_open (d := d) (b := b) (1 + nls (toksOf ls)) (toksOf ls)).1 hb
  exact ⟨k, returns_err_iff.2 ⟨rfl, .inl (lexFails_iff.2 (e.trans hk))⟩⟩

example : WellFormed .postgres [.word (S "x"), .quoted '"' (S "y"), .newline] ∧ '\'' ∉ S "it\"s" ∧
    WellFormed .postgres ([.word (S "x"), .quoted '"' (S "y"), .newline] ++ [.block []]) := by
  refine ⟨⟨?_, ?_⟩, by decide, ⟨?_, ?_⟩⟩
  all_goals simp [Lexeme.Ok, IsWord, NoMark, nonWord, quotes, puncts, S, Adjacent, Lexeme.May,
    Lexeme.isComment]

/-- C30: a back quote outside strings and comments makes PostgreSQL reject, on its line. -/
theorem C30_backquote_postgres [CaseMap] (isNum : Str → Bool) {ls : List Lexeme}
    (h : WellFormed .postgres ls) (b : List Char) :
    Returns isNum (srcOf ls ++ '`' :: b) .postgres
      ([], some ⟨1 + (toksOf ls).count nl, S "`"⟩) :=
  returns_err_iff.2 ⟨rfl, .inl (lexFails_iff.2 (Lex.scan_bad h (.inl ⟨rfl, rfl⟩) b))⟩

/-- C30: the ideographic space makes every dialect reject. -/
theorem C30_wide_space [CaseMap] (isNum : Str → Bool) {d : Rdbms} {ls : List Lexeme} (h : WellFormed d ls)
    (b : List Char) :
    Returns isNum (srcOf ls ++ Char.ofNat 0x3000 :: b) d
      ([], some ⟨1 + (toksOf ls).count nl, [Char.ofNat 0x3000]⟩) :=
  returns_err_iff.2 ⟨rfl, .inl (lexFails_iff.2 (Lex.scan_bad h (.inr rfl) b))⟩

/-- C30: in MySQL `#` starts a comment, up to the end of the line. -/
theorem C30_sharp_mysql {la lb : List Lexeme} {b : List Char} (hb : '\n' ∉ b)
    (ha : WellFormed .mysql la) (hb' : WellFormed .mysql lb) :
    Lexes .mysql (srcOf la ++ '#' :: b ++ '\n' :: srcOf lb) (toksOf la ++ [nl] ++ toksOf lb) := by
  have h : WellFormed .mysql (la ++ .sharp b :: lb) := by
    refine ⟨?_, ?_⟩
    · intro l hl
      simp at hl
      rcases hl with hl | rfl | hl
      · exact ha.1 l hl
      · exact ⟨rfl, hb⟩
      · exact hb'.1 l hl
    · have := ha.2
      clear ha
      induction la with
      | nil =>
        cases lb with
        | nil => trivial
        | cons l lb => exact ⟨by simp [Lexeme.May, Lexeme.isComment], hb'.2⟩
      | cons x la ih =>
        cases la with
        | nil => exact ⟨by cases x <;> simp [Lexeme.May, Lexeme.isComment], ih trivial⟩
        | cons y la => exact ⟨this.1, ih this.2⟩
  have := lexes_lexemes h
  simpa [toksOf, srcOf, Lexeme.toks, Lexeme.src] using this

/-- C30: elsewhere `#` is an ordinary character of a word. -/
theorem C30_sharp_elsewhere {d : Rdbms} (hd : d ≠ .mysql) {b : List Char}
    (hb : ∀ c ∈ b, c ∉ nonWord d) (hm : NoMark b) {la lb : List Lexeme}
    (h : WellFormed d (la ++ .space :: .word b :: lb)) :
    Lexes d (srcOf la ++ ' ' :: '#' :: b ++ srcOf lb) (toksOf la ++ ['#' :: b] ++ toksOf lb) := by
  have hw : IsWord d ('#' :: b) := by
    refine ⟨by simp, ?_, ?_⟩
    · intro c hc
      simp at hc
      rcases hc with rfl | hc
      · simp [nonWord, quotes, puncts, hd]
      · exact hb c hc
    · cases b with
      | nil => trivial
      | cons c b => exact ⟨by simp [marks], hm⟩
  have h' : WellFormed d (la ++ .space :: .word ('#' :: b) :: lb) := by
    refine ⟨?_, ?_⟩
    · intro l hl
      simp at hl
      rcases hl with hl | rfl | rfl | hl
      · exact h.1 l (by simp [hl])
      · trivial
      · exact hw
      · exact h.1 l (by simp [hl])
    · have hA := h.2
      have hb0 : b ≠ [] := (h.1 (.word b) (by simp)).1
      have hlast : ('#' :: b).getLast? = b.getLast? := by
        cases b with
        | nil => exact (hb0 rfl).elim
        | cons c b => rfl
      clear h
      induction la with
      | nil =>
        obtain ⟨h1, h2⟩ := hA
        refine ⟨h1, ?_⟩
        cases lb with
        | nil => trivial
        | cons l lb =>
          refine ⟨?_, h2.2⟩
          have := h2.1
          cases l <;> simp only [Lexeme.May, hlast] at this ⊢ <;> exact this
      | cons x la ih =>
        cases la with
        | nil => exact ⟨hA.1, ih hA.2⟩
        | cons y la => exact ⟨hA.1, ih hA.2⟩
  have := lexes_lexemes h'
  simpa [toksOf, srcOf, Lexeme.toks, Lexeme.src] using this

/-- Example: the same script is accepted by MySQL and rejected by SQLite. -/
example : Returns simpleNum "CREATE TABLE t ( # c\n a INTEGER);".toList .sqlite
    ([], some ⟨1, S "#"⟩) ∧
  ∃ t, Returns simpleNum "CREATE TABLE t ( # c\n a INTEGER);".toList .mysql ([t], none) :=
  ⟨⟨60, by decide +kernel⟩, ⟨{ name := S "t"
                               columns := [{ name := S "a", dataType := { name := S "INTEGER" } }] },
    ⟨60, by decide +kernel⟩⟩⟩

end DDL.Props
