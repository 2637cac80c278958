import Verif.Proof.LexMono
import Verif.Spec.Lexeme
/-
Facts about the transducer `scan`, and that it reads lexemes as the specification says.
-/

set_option linter.unusedSimpArgs false

namespace DDL.Lex
open DDL DDL.Spec

/-! ### Reading a prefix -/

/-- Outcome of reading a prefix: mode and tokens, or rejection after `k` newlines. -/
inductive Fed where
  | go (m : Mode) (out : List Str)
  | bad (k : Nat) (near : Str)

def Fed.pre (o : List Str) : Fed → Fed
  | .go m out => .go m (o ++ out)
  | .bad k t => .bad (nls o + k) t

def feed (d : Rdbms) : Mode → List Char → Fed
  | m, [] => .go m []
  | m, c :: cs =>
    match step d m c with
    | .bad t => .bad 0 t
    | .go m' o => (feed d m' cs).pre o

theorem scan_feed (d : Rdbms) (m : Mode) (a b : List Char) (l : Nat) (r : List Str) :
    scan d m (a ++ b) l r = match feed d m a with
      | .go m' o => scan d m' b (l + nls o) (r ++ o)
      | .bad k t => .err ⟨l + k, t⟩ := by
  induction a generalizing m l r with
  | nil => simp [feed, nls]
  | cons c cs ih =>
    simp only [List.cons_append, scan, feed]
    cases step d m c with
    | bad t => simp
    | go m' o =>
      simp only [ih]
      cases feed d m' cs with
      | go m2 o2 => simp [Fed.pre, nls_append, Nat.add_assoc]
      | bad k t => simp [Fed.pre, Nat.add_assoc]

theorem Fed.pre_pre (o o2 : List Str) (x : Fed) : (x.pre o2).pre o = x.pre (o ++ o2) := by
  cases x <;> simp [Fed.pre, nls_append, Nat.add_assoc]

theorem feed_append (d : Rdbms) (m : Mode) (a b : List Char) :
    feed d m (a ++ b) = match feed d m a with
      | .go m' o => (feed d m' b).pre o
      | .bad k t => .bad k t := by
  induction a generalizing m with
  | nil =>
    simp only [List.nil_append, feed]
    cases feed d m b <;> simp [Fed.pre, nls]
  | cons c cs ih =>
    simp only [List.cons_append, feed]
    cases step d m c with
    | bad t => simp
    | go m' o =>
      simp only [ih]
      cases feed d m' cs with
      | go m2 o2 => exact Fed.pre_pre o o2 _
      | bad k t => simp [Fed.pre]

/-- From the start of a text, all of it read. -/
theorem scan_all (d : Rdbms) (m : Mode) (a : List Char) (l : Nat) (r : List Str) :
    scan d m a l r = match feed d m a with
      | .go m' o => scan d m' [] (l + nls o) (r ++ o)
      | .bad k t => .err ⟨l + k, t⟩ := by
  have := scan_feed d m a [] l r
  rwa [List.append_nil] at this

/-! ### No panic, no timeout -/

theorem scan_ne_panic (d m cs l r) : scan d m cs l r ≠ .panic := by
  induction cs generalizing m l r with
  | nil => simp only [scan]; cases final m <;> simp
  | cons c cs ih => simp only [scan]; cases step d m c <;> simp [ih]

theorem scan_ne_timeout (d m cs l r) : scan d m cs l r ≠ .timeout := by
  induction cs generalizing m l r with
  | nil => simp only [scan]; cases final m <;> simp
  | cons c cs ih => simp only [scan]; cases step d m c <;> simp [ih]

/-! ### Shape of tokens -/

def word (d : Rdbms) (t : Str) : Prop := ∀ c ∈ t, c ∉ nonWord d

/-- Invariant of the modes. -/
def ModeOk (d : Rdbms) : Mode → Prop
  | .top t | .p2 t | .hyphen t | .slash t | .star t => word d t
  | .str q st acc | .drop q st acc =>
    (∃ b body, (q :: st).getLast? = some b ∧ acc = b :: body ∧ '\n' ∉ body) ∧
      ∀ c ∈ q :: st, c ∈ quotes
  | _ => True

theorem word_append {d : Rdbms} {t : Str} {c : Char} (h : word d t) (hc : c ∉ nonWord d) :
    word d (t ++ [c]) := by
  intro x hx
  rcases List.mem_append.1 hx with hx | hx
  · exact h x hx
  · rw [List.mem_singleton.1 hx]; exact hc

theorem isQuote_iff (c : Char) : isQuote c = true ↔ c ∈ quotes := by
  simp [isQuote, quotes, or_assoc]

theorem isSymbol_iff (c : Char) : isSymbol c = true ↔ c ∈ puncts := by
  simp [isSymbol, puncts, or_assoc]

theorem flush_shape {d : Rdbms} {t : Str} (h : word d t) : ∀ x ∈ flush t, TokenShape d x := by
  unfold flush
  split
  · simp
  · rename_i hne
    intro x hx
    rw [List.mem_singleton.1 hx]
    exact .inr (.inr (.inr ⟨hne, h⟩))

theorem word_nil (d : Rdbms) : word d [] := by intro c hc; simp at hc

theorem step2_ok {d : Rdbms} {t : Str} (h : word d t) (c : Char) :
    ∀ m o, step2 d t c = .go m o → ModeOk d m ∧ ∀ x ∈ o, TokenShape d x := by
  intro m o
  unfold step2
  have hf := flush_shape h
  have hs : ∀ q, q ∈ quotes → ModeOk d (.str q [] [q]) := by
    intro q hq
    refine ⟨⟨q, [], by simp, rfl, by simp⟩, ?_⟩
    intro c hc
    rw [List.mem_singleton.1 hc]; exact hq
  by_cases c1 : c = '"'
  · rw [if_pos c1]; rintro ⟨⟩; exact ⟨hs _ (by decide), hf⟩
  rw [if_neg c1]
  by_cases c2 : c = '\''
  · rw [if_pos c2]; rintro ⟨⟩; exact ⟨hs _ (by decide), hf⟩
  rw [if_neg c2]
  by_cases c3 : c = '`'
  · rw [if_pos c3]
    split
    · simp
    · rintro ⟨⟩; exact ⟨hs _ (by decide), hf⟩
  rw [if_neg c3]
  by_cases c4 : c = '#'
  · rw [if_pos c4]
    by_cases hd : d = .mysql
    · rw [if_pos hd]; rintro ⟨⟩; exact ⟨trivial, hf⟩
    · rw [if_neg hd]; rintro ⟨⟩
      refine ⟨word_append h ?_, by simp⟩
      simp [nonWord, hd, quotes, puncts]
  rw [if_neg c4]
  by_cases c5 : c = ' ' ∨ c = '\t'
  · rw [if_pos c5]; rintro ⟨⟩; exact ⟨word_nil d, hf⟩
  rw [if_neg c5]
  by_cases c6 : c = '\n'
  · rw [if_pos c6]; rintro ⟨⟩
    refine ⟨word_nil d, ?_⟩
    intro x hx
    rcases List.mem_append.1 hx with hx | hx
    · exact hf x hx
    · rw [List.mem_singleton.1 hx]; exact .inl rfl
  rw [if_neg c6]
  by_cases c7 : isSymbol c = true
  · rw [if_pos c7]; rintro ⟨⟩
    refine ⟨word_nil d, ?_⟩
    intro x hx
    rcases List.mem_append.1 hx with hx | hx
    · exact hf x hx
    · rw [List.mem_singleton.1 hx]; exact .inr (.inl ⟨c, (isSymbol_iff c).1 c7, rfl⟩)
  rw [if_neg c7]
  by_cases c8 : c = Char.ofNat 0x3000
  · rw [if_pos c8]; simp
  rw [if_neg c8]; rintro ⟨⟩
  refine ⟨word_append h ?_, by simp⟩
  have : c ∉ puncts := fun h => c7 ((isSymbol_iff c).2 h)
  have h5 := not_or.1 c5
  simp only [nonWord, List.mem_append, quotes, List.mem_cons, List.not_mem_nil, or_false, not_or]
  refine ⟨⟨⟨⟨h5.1, h5.2, c6, c8⟩, c1, c2, c3⟩, this⟩, ?_⟩
  split <;> simp [c4]

theorem not_nonWord_mark {d : Rdbms} {c : Char} (h : c = '-' ∨ c = '/' ∨ c = '*') :
    c ∉ nonWord d := by
  rcases h with rfl | rfl | rfl <;> cases d <;> decide

theorem step_ok {d : Rdbms} {m : Mode} (h : ModeOk d m) (c : Char) :
    ∀ m' o, step d m c = .go m' o → ModeOk d m' ∧ ∀ x ∈ o, TokenShape d x := by
  have hnl : ∀ x ∈ [nl], TokenShape d x := by
    intro x hx; rw [List.mem_singleton.1 hx]; exact .inl rfl
  intro m' o
  cases m with
  | top t =>
    simp only [step]
    split
    · rintro ⟨⟩; exact ⟨h, by simp⟩
    split
    · rintro ⟨⟩; exact ⟨h, by simp⟩
    split
    · rintro ⟨⟩; exact ⟨h, by simp⟩
    · exact step2_ok h c m' o
  | p2 t => exact step2_ok h c m' o
  | hyphen t =>
    simp only [step]
    split
    · rintro ⟨⟩; exact ⟨trivial, flush_shape h⟩
    · exact step2_ok (word_append h (not_nonWord_mark (by simp))) c m' o
  | slash t =>
    simp only [step]
    split
    · rintro ⟨⟩; exact ⟨trivial, flush_shape h⟩
    · exact step2_ok (word_append h (not_nonWord_mark (by simp))) c m' o
  | star t =>
    simp only [step]
    split
    · simp
    · exact step2_ok (word_append h (not_nonWord_mark (by simp))) c m' o
  | line =>
    simp only [step]
    split
    · rintro ⟨⟩; exact ⟨word_nil d, hnl⟩
    · rintro ⟨⟩; exact ⟨trivial, by simp⟩
  | sharp =>
    simp only [step]
    split
    · rintro ⟨⟩; exact ⟨word_nil d, hnl⟩
    · rintro ⟨⟩; exact ⟨trivial, by simp⟩
  | block =>
    simp only [step]
    repeat' split
    · rintro ⟨⟩; exact ⟨trivial, hnl⟩
    all_goals rintro ⟨⟩; exact ⟨trivial, by simp⟩
  | blockStar =>
    simp only [step]
    split
    · rintro ⟨⟩; exact ⟨word_nil d, by simp⟩
    · rintro ⟨⟩; exact ⟨trivial, by simp⟩
  | blockSlash => simp only [step]; rintro ⟨⟩; exact ⟨trivial, by simp⟩
  | str q st acc =>
    obtain ⟨⟨b, body, hb, rfl, hn⟩, hq⟩ := h
    simp only [step]
    by_cases c1 : c = '\n'
    · rw [if_pos c1]; rintro ⟨⟩; exact ⟨⟨⟨b, body, hb, rfl, hn⟩, hq⟩, hnl⟩
    rw [if_neg c1]
    have hn' : '\n' ∉ body ++ [c] := by
      simp only [List.mem_append, hn, List.mem_singleton, false_or]
      exact fun h => c1 h.symm
    by_cases c2 : c = q
    · rw [if_pos c2]
      subst c2
      cases st with
      | nil =>
        simp only [close]; rintro ⟨⟩
        refine ⟨word_nil d, ?_⟩
        intro x hx
        rw [List.mem_singleton.1 hx]
        simp only [List.getLast?_singleton, Option.some.injEq] at hb
        subst hb
        exact .inr (.inr (.inl ⟨c, hq c (by simp), body, hn, rfl⟩))
      | cons q' st =>
        simp only [close]; rintro ⟨⟩
        refine ⟨⟨⟨b, body ++ [c], ?_, rfl, hn'⟩, ?_⟩, by simp⟩
        · rw [List.getLast?_cons_cons] at hb; exact hb
        · exact fun x hx => hq x (List.mem_cons_of_mem _ hx)
    rw [if_neg c2]
    by_cases c3 : isQuote c = true
    · rw [if_pos c3]; rintro ⟨⟩
      refine ⟨⟨⟨b, body ++ [c], ?_, rfl, hn'⟩, ?_⟩, by simp⟩
      · rw [List.getLast?_cons_cons]; exact hb
      · intro x hx
        rcases List.mem_cons.1 hx with rfl | hx
        · exact (isQuote_iff _).1 c3
        · exact hq x hx
    · rw [if_neg c3]; rintro ⟨⟩
      exact ⟨⟨⟨b, body ++ [c], hb, rfl, hn'⟩, hq⟩, by simp⟩
  | drop q st acc => simp only [step]; rintro ⟨⟩; exact ⟨h, by simp⟩

theorem final_ok {d : Rdbms} {m : Mode} (h : ModeOk d m) :
    ∀ o, final m = some o → ∀ x ∈ o, TokenShape d x := by
  intro o
  cases m with
  | top t => simp only [final]; rintro ⟨⟩; exact flush_shape h
  | p2 t => simp only [final]; rintro ⟨⟩; exact flush_shape h
  | hyphen t =>
    simp only [final]; rintro ⟨⟩; exact flush_shape (word_append h (not_nonWord_mark (by simp)))
  | slash t =>
    simp only [final]; rintro ⟨⟩; exact flush_shape (word_append h (not_nonWord_mark (by simp)))
  | star t =>
    simp only [final]; rintro ⟨⟩; exact flush_shape (word_append h (not_nonWord_mark (by simp)))
  | line => simp only [final]; rintro ⟨⟩; simp
  | sharp => simp only [final]; rintro ⟨⟩; simp
  | _ => simp [final]

/-- Every token has one of the four shapes. -/
theorem scan_shape {d : Rdbms} {m : Mode} (h : ModeOk d m) {cs l r toks}
    (hr : ∀ x ∈ r, TokenShape d x) (hs : scan d m cs l r = .ok toks) :
    ∀ x ∈ toks, TokenShape d x := by
  induction cs generalizing m l r with
  | nil =>
    simp only [scan] at hs
    cases hf : final m with
    | none => simp [hf] at hs
    | some o =>
      simp only [hf, Out.ok.injEq] at hs
      subst hs
      intro x hx
      rcases List.mem_append.1 hx with hx | hx
      · exact hr x hx
      · exact final_ok h o hf x hx
  | cons c cs ih =>
    simp only [scan] at hs
    cases hf : step d m c with
    | bad t => simp [hf] at hs
    | go m' o =>
      simp only [hf] at hs
      obtain ⟨h1, h2⟩ := step_ok h c m' o hf
      refine ih h1 ?_ hs
      intro x hx
      rcases List.mem_append.1 hx with hx | hx
      · exact hr x hx
      · exact h2 x hx

/-! ### Lexemes -/

/-- Mode `m` has the word `t` pending. -/
def Pend (m : Mode) (t : Str) : Prop :=
  m = .top t ∨ (m = .p2 t ∧ t = []) ∨ (∃ s, t = s ++ ['-'] ∧ m = .hyphen s) ∨
  (∃ s, t = s ++ ['/'] ∧ m = .slash s) ∨ (∃ s, t = s ++ ['*'] ∧ m = .star s)

theorem Pend.final {m t} (h : Pend m t) : final m = some (flush t) := by
  rcases h with rfl | ⟨rfl, _⟩ | ⟨s, rfl, rfl⟩ | ⟨s, rfl, rfl⟩ | ⟨s, rfl, rfl⟩ <;> rfl

/-- With a word pending, a character that cannot be part of a comment mark. -/
theorem Pend.step {d m t} (h : Pend m t) {c : Char} (h1 : c ≠ '-') (h2 : c ≠ '/') (h3 : c ≠ '*') :
    step d m c = step2 d t c := by
  rcases h with rfl | ⟨rfl, _⟩ | ⟨s, rfl, rfl⟩ | ⟨s, rfl, rfl⟩ | ⟨s, rfl, rfl⟩ <;>
    simp [Lex.step, h1, h2, h3]

theorem step2_word {d : Rdbms} {c : Char} (hc : c ∉ nonWord d) (t : Str) :
    step2 d t c = .go (.top (t ++ [c])) [] := by
  have h7 : ¬isSymbol c = true := by
    rw [isSymbol_iff]; intro h; exact hc (by simp [nonWord, h])
  simp only [nonWord, List.mem_append, quotes, List.mem_cons, List.not_mem_nil, or_false,
    not_or] at hc
  obtain ⟨⟨⟨⟨a1, a2, a3, a4⟩, a5, a6, a7⟩, _⟩, a9⟩ := hc
  unfold step2
  rw [if_neg a5, if_neg a6, if_neg a7]
  by_cases c4 : c = '#'
  · subst c4
    rw [if_pos rfl, if_neg]
    intro hd; simp [hd] at a9
  · rw [if_neg c4, if_neg (not_or.2 ⟨a1, a2⟩), if_neg a3, if_neg h7, if_neg a4]

/-- One more character of a word. -/
theorem Pend.word_step {d m t} (h : Pend m t) {c : Char} (hc : c ∉ nonWord d)
    (hm : ∀ a, t.getLast? = some a → (a, c) ∉ marks) :
    ∃ m', Lex.step d m c = .go m' [] ∧ Pend m' (t ++ [c]) := by
  have h2 := step2_word hc t
  rcases h with rfl | ⟨rfl, rfl⟩ | ⟨s, rfl, rfl⟩ | ⟨s, rfl, rfl⟩ | ⟨s, rfl, rfl⟩
  · simp only [Lex.step]
    by_cases c1 : c = '-'
    · exact ⟨_, if_pos c1, .inr (.inr (.inl ⟨t, by rw [c1], rfl⟩))⟩
    rw [if_neg c1]
    by_cases c2 : c = '/'
    · exact ⟨_, if_pos c2, .inr (.inr (.inr (.inl ⟨t, by rw [c2], rfl⟩)))⟩
    rw [if_neg c2]
    by_cases c3 : c = '*'
    · exact ⟨_, if_pos c3, .inr (.inr (.inr (.inr ⟨t, by rw [c3], rfl⟩)))⟩
    rw [if_neg c3]
    exact ⟨_, h2, .inl rfl⟩
  · exact ⟨_, h2, .inl rfl⟩
  · have : c ≠ '-' := by
      rintro rfl; exact hm '-' (by simp) (by decide)
    exact ⟨_, by simp only [Lex.step, if_neg this]; exact h2, .inl rfl⟩
  · have : c ≠ '*' := by
      rintro rfl; exact hm '/' (by simp) (by decide)
    exact ⟨_, by simp only [Lex.step, if_neg this]; exact h2, .inl rfl⟩
  · have : c ≠ '/' := by
      rintro rfl; exact hm '*' (by simp) (by decide)
    exact ⟨_, by simp only [Lex.step, if_neg this]; exact h2, .inl rfl⟩

theorem Fed.pre_nil (x : Fed) : x.pre [] = x := by cases x <;> simp [Fed.pre, nls]

/-- A word. -/
theorem feed_word {d m t w} (h : Pend m t) (hw : ∀ c ∈ w, c ∉ nonWord d)
    (hm : NoMark w) (ht : ∀ a c, t.getLast? = some a → w.head? = some c → (a, c) ∉ marks) :
    ∃ m', feed d m w = .go m' [] ∧ Pend m' (t ++ w) := by
  induction w generalizing m t with
  | nil => exact ⟨m, rfl, by simpa using h⟩
  | cons c w ih =>
    obtain ⟨m1, e1, p1⟩ := h.word_step (hw c (by simp)) (fun a ha => ht a c ha rfl)
    have hm' : NoMark w := by
      cases w with
      | nil => trivial
      | cons b r => exact hm.2
    obtain ⟨m2, e2, p2⟩ := ih p1 (fun x hx => hw x (List.mem_cons_of_mem _ hx)) hm' (by
      intro a b ha hb
      simp only [List.getLast?_append, List.getLast?_singleton, Option.some_or,
        Option.some.injEq] at ha
      subst ha
      cases w with
      | nil => simp at hb
      | cons x r => simp at hb; subst hb; exact hm.1)
    refine ⟨m2, ?_, by simpa using p2⟩
    simp only [feed, e1, e2, Fed.pre_nil]

/-- The body of a line comment. -/
theorem feed_line {d : Rdbms} {m m' : Mode} {b : List Char} (hn : '\n' ∉ b)
    (h : (m = .line ∧ m' = .p2 []) ∨ (m = .sharp ∧ m' = .top [])) :
    feed d m (b ++ ['\n']) = .go m' [nl] := by
  induction b with
  | nil =>
    rcases h with ⟨rfl, rfl⟩ | ⟨rfl, rfl⟩ <;> simp [feed, step, Fed.pre]
  | cons c b ih =>
    have hc : c ≠ '\n' := by rintro rfl; simp at hn
    have := ih (by intro h; exact hn (List.mem_cons_of_mem _ h))
    rcases h with ⟨rfl, rfl⟩ | ⟨rfl, rfl⟩ <;>
      simp only [List.cons_append, feed, step, if_neg hc, this, Fed.pre_nil]

/-- The body of a block comment. -/
theorem feed_block {d : Rdbms} {b : List Part} (hb : ∀ p ∈ b, p.Ok) :
    feed d .block (b.flatMap Part.src ++ ['*', '/']) = .go (.p2 []) (b.flatMap Part.toks) := by
  induction b with
  | nil => simp [feed, step, Fed.pre]
  | cons p b ih =>
    have ih := ih (fun p hp => hb p (List.mem_cons_of_mem _ hp))
    have hp := hb p (by simp)
    simp only [List.flatMap_cons, List.append_assoc]
    rw [feed_append]
    cases p with
    | ch c =>
      by_cases hc : c = '\n'
      · subst hc
        simp only [Part.src, feed, step, if_true, Fed.pre, List.append_nil, ih, Part.toks]
      · simp only [Part.src, feed, step, if_neg hc, if_neg hp.1, if_neg hp.2, Fed.pre,
          List.append_nil, ih, Part.toks]
    | star c =>
      have hc : c ≠ '/' := hp
      simp (config := { decide := true }) only [Part.src, feed, step, if_neg hc, Fed.pre,
        List.append_nil, ih, Part.toks, if_true, if_false]
    | slash c =>
      simp (config := { decide := true }) only [Part.src, feed, step, Fed.pre,
        List.append_nil, ih, Part.toks, if_true, if_false]

/-- The body of a quoted text without quotes inside. -/
theorem feed_str {d : Rdbms} {q : Char} {acc : Str} {b : List Char} (hb : ∀ c ∈ b, c ∉ quotes)
    (hq : q ∈ quotes) :
    feed d (.str q [] acc) b =
      .go (.str q [] (acc ++ b.filter (· ≠ '\n'))) (List.replicate (b.count '\n') nl) := by
  induction b generalizing acc with
  | nil => simp [feed]
  | cons c b ih =>
    have hc : c ∉ quotes := hb c (by simp)
    have ih := fun acc => ih (acc := acc) (fun c hc => hb c (List.mem_cons_of_mem _ hc))
    simp only [feed, step]
    by_cases c1 : c = '\n'
    · subst c1
      simp only [if_true, ih, Fed.pre]
      simp [List.replicate_succ]
    · have c2 : c ≠ q := by rintro rfl; exact hc hq
      have c3 : ¬isQuote c = true := by rw [isQuote_iff]; exact hc
      simp only [if_neg c1, if_neg c2, if_neg c3, ih, Fed.pre_nil]
      simp [c1]

/-- Quoted text. -/
theorem feed_quoted {d : Rdbms} {m : Mode} {t : Str} (h : Pend m t) {q : Char} {b : List Char}
    (hok : (Lexeme.quoted q b).Ok d) :
    feed d m (q :: b ++ [q]) = .go (.top []) (flush t ++ (Lexeme.quoted q b).toks) := by
  obtain ⟨hq, hpg, hb⟩ := hok
  have hne : q ≠ '-' ∧ q ≠ '/' ∧ q ≠ '*' ∧ q ≠ '\n' := by
    simp only [quotes, List.mem_cons, List.not_mem_nil, or_false] at hq
    rcases hq with rfl | rfl | rfl <;> decide
  have h2 : step2 d t q = .go (.str q [] [q]) (flush t) := by
    simp only [quotes, List.mem_cons, List.not_mem_nil, or_false] at hq
    unfold step2
    rcases hq with rfl | rfl | rfl
    · rfl
    · rfl
    · rw [if_neg (by decide), if_neg (by decide), if_pos rfl, if_neg]
      intro hd; exact hpg hd rfl
  simp only [List.cons_append, feed, h.step hne.1 hne.2.1 hne.2.2.1, h2]
  rw [feed_append, feed_str hb hq]
  simp only [feed, step, if_neg hne.2.2.2, if_true, close, Fed.pre, Lexeme.toks]
  simp

/-- Where a sequence of lexemes may start, with the word `t` pending. -/
def Start (m : Mode) (t : Str) : List Lexeme → Prop
  | [] => True
  | b :: _ =>
    (∀ w, b = .word w → t = []) ∧
    (b.isComment = true → m = .top t)

theorem Pend.start_top {m t} (h : Pend m t) (hl : ∀ c, t.getLast? = some c → c ∉ ['-', '/', '*'])
    (hp : m ≠ .p2 t) : m = .top t := by
  rcases h with rfl | ⟨rfl, _⟩ | ⟨s, rfl, rfl⟩ | ⟨s, rfl, rfl⟩ | ⟨s, rfl, rfl⟩
  · rfl
  · exact absurd rfl hp
  all_goals exact absurd (by simp) (hl _ (List.getLast?_concat ..))

/-- One lexeme. -/
theorem feed_lexeme {d : Rdbms} {m : Mode} {t : Str} {b : Lexeme} {r : List Lexeme}
    (h : Pend m t) (hs : Start m t (b :: r)) (hok : b.Ok d) (ha : Adjacent (b :: r)) :
    ∃ m' t' o, feed d m b.src = .go m' o ∧ o ++ flush t' = flush t ++ b.toks ∧ Pend m' t' ∧
      Start m' t' r := by
  have htop : ∀ b : Lexeme, (∀ w, b ≠ .word w) → b.isComment = false → Adjacent (b :: r) →
      Start (.top []) [] r := by
    intro b _ _ _
    cases r with
    | nil => trivial
    | cons c r => exact ⟨fun _ _ => rfl, fun _ => rfl⟩
  have hp2 : ∀ b : Lexeme, b.isComment = true → Adjacent (b :: r) → Start (.p2 []) [] r := by
    intro b hb hab
    cases r with
    | nil => trivial
    | cons c r =>
      refine ⟨fun _ _ => rfl, fun hc => ?_⟩
      exfalso
      have := hab.1
      cases b with
      | line _ => exact this ⟨rfl, hc⟩
      | block _ => exact this ⟨rfl, hc⟩
      | _ => exact absurd hb (by simp [Lexeme.isComment])
  cases b with
  | space =>
    refine ⟨.top [], [], flush t, ?_, by simp [flush, Lexeme.toks], .inl rfl,
      htop _ (by simp) rfl ha⟩
    simp only [Lexeme.src, feed, h.step (c := ' ') (by decide) (by decide) (by decide)]
    simp [step2, Fed.pre]
  | tab =>
    refine ⟨.top [], [], flush t, ?_, by simp [flush, Lexeme.toks], .inl rfl,
      htop _ (by simp) rfl ha⟩
    simp only [Lexeme.src, feed, h.step (c := '\t') (by decide) (by decide) (by decide)]
    simp [step2, Fed.pre]
  | newline =>
    refine ⟨.top [], [], flush t ++ [nl], ?_, by simp [flush, Lexeme.toks], .inl rfl,
      htop _ (by simp) rfl ha⟩
    simp only [Lexeme.src, feed, h.step (c := '\n') (by decide) (by decide) (by decide)]
    simp [step2, Fed.pre]
  | punct c =>
    have hc : c ∈ puncts := hok
    refine ⟨.top [], [], flush t ++ [[c]], ?_, by simp [flush, Lexeme.toks], .inl rfl,
      htop _ (by simp) rfl ha⟩
    simp only [puncts, List.mem_cons, List.not_mem_nil, or_false] at hc
    simp only [Lexeme.src, feed]
    rcases hc with rfl | rfl | rfl | rfl | rfl <;>
      rw [h.step (by decide) (by decide) (by decide)] <;>
      simp [step2, isSymbol, Fed.pre] <;> decide
  | word w =>
    obtain ⟨hne, hw, hm⟩ := hok
    have ht : t = [] := hs.1 w rfl
    subst ht
    obtain ⟨m', e, p⟩ := feed_word h hw hm (by simp)
    refine ⟨m', w, [], e, ?_, by simpa using p, ?_⟩
    · simp [flush, hne, Lexeme.toks]
    · cases r with
      | nil => trivial
      | cons c r =>
        have hab := ha.1
        constructor
        · rintro w' rfl
          exact absurd hab (by simp [Lexeme.May])
        · intro hc
          rw [List.nil_append] at p
          refine p.start_top ?_ ?_
          · cases c <;> simp [Lexeme.isComment] at hc <;> exact hab rfl
          · rintro rfl
            rcases p with h | ⟨_, h⟩ | ⟨_, _, h⟩ | ⟨_, _, h⟩ | ⟨_, _, h⟩
            · cases h
            · exact hne h
            all_goals cases h
  | quoted q body =>
    exact ⟨.top [], [], _, feed_quoted h hok, by simp [flush], .inl rfl, htop _ (by simp) rfl ha⟩
  | line body =>
    have hmt : m = .top t := hs.2 rfl
    subst hmt
    refine ⟨.p2 [], [], flush t ++ [nl], ?_, by simp [flush, Lexeme.toks], .inr (.inl ⟨rfl, rfl⟩),
      hp2 _ rfl ha⟩
    simp only [Lexeme.src, List.cons_append]
    simp only [feed, step, if_true]
    rw [feed_line hok (.inl ⟨rfl, rfl⟩)]
    simp [Fed.pre]
  | sharp body =>
    obtain ⟨rfl, hb⟩ := hok
    refine ⟨.top [], [], flush t ++ [nl], ?_, by simp [flush, Lexeme.toks], .inl rfl,
      htop _ (by simp) rfl ha⟩
    simp only [Lexeme.src, List.cons_append]
    simp only [feed, h.step (c := '#') (by decide) (by decide) (by decide)]
    simp (config := { decide := true }) only [step2, if_true, if_false]
    rw [feed_line hb (.inr ⟨rfl, rfl⟩)]
    simp [Fed.pre]
  | block body =>
    have hmt : m = .top t := hs.2 rfl
    subst hmt
    refine ⟨.p2 [], [], flush t ++ body.flatMap Part.toks, ?_, by simp [flush, Lexeme.toks],
      .inr (.inl ⟨rfl, rfl⟩), hp2 _ rfl ha⟩
    simp only [Lexeme.src, List.cons_append]
    simp (config := { decide := true }) only [feed, step, if_true, if_false]
    rw [feed_block hok]
    simp [Fed.pre]

/-- A sequence of lexemes. -/
theorem feed_lexemes {d : Rdbms} {m : Mode} {t : Str} {ls : List Lexeme}
    (h : Pend m t) (hs : Start m t ls) (hok : WellFormed d ls) :
    ∃ m' t' o, feed d m (srcOf ls) = .go m' o ∧ o ++ flush t' = flush t ++ toksOf ls ∧
      Pend m' t' := by
  induction ls generalizing m t with
  | nil => exact ⟨m, t, [], rfl, by simp [toksOf], h⟩
  | cons b r ih =>
    obtain ⟨m1, t1, o1, e1, f1, p1, s1⟩ := feed_lexeme h hs (hok.1 b (by simp)) hok.2
    have hr : Adjacent r := by
      cases r with
      | nil => trivial
      | cons c r => exact hok.2.2
    obtain ⟨m2, t2, o2, e2, f2, p2⟩ := ih p1 s1 ⟨fun l hl => hok.1 l (List.mem_cons_of_mem _ hl), hr⟩
    refine ⟨m2, t2, o1 ++ o2, ?_, ?_, p2⟩
    · simp only [srcOf, List.flatMap_cons]
      rw [feed_append, e1]
      simp only []
      have : feed d m1 (List.flatMap Lexeme.src r) = .go m2 o2 := e2
      rw [this]; rfl
    · rw [List.append_assoc, f2, ← List.append_assoc, f1]
      simp [toksOf]

/-- Well-formed texts lex to their tokens. -/
theorem scan_lexemes {d : Rdbms} {ls : List Lexeme} (hok : WellFormed d ls) :
    scan d (.top []) (srcOf ls) 1 [] = .ok (toksOf ls) := by
  obtain ⟨m, t, o, e, f, p⟩ := feed_lexemes (t := []) (.inl rfl) (by
    cases ls with
    | nil => trivial
    | cons b r => exact ⟨fun _ _ => rfl, fun _ => rfl⟩) hok
  rw [scan_all, e]
  simp only [scan, p.final, List.nil_append]
  rw [f]; simp [flush]

end DDL.Lex
