import Verif.Proof.ParseFacts
import Verif.Spec.Lexical
/-
The lexer reads every text by the rules of `Spec/Lexical`.
-/

set_option linter.unusedSimpArgs false

namespace DDL.Lex
open DDL DDL.Spec

theorem quote_ne {q : Char} (hq : q ∈ quotes) : q ≠ '-' ∧ q ≠ '/' ∧ q ≠ '*' ∧ q ≠ '\n' := by
  simp only [quotes, List.mem_cons, List.not_mem_nil, or_false] at hq
  rcases hq with rfl | rfl | rfl <;> decide

/-! ### Quotes -/

theorem feed_closed {d : Rdbms} {q : Char} {s : List Char} {n : Nat} {t : Str} (h : Closed q s n t) :
    ∀ (_ : q ∈ quotes) (st : List Char) (acc : Str),
      feed d (.str q st acc) s = .go (close st (acc ++ t)).1 (List.replicate n nl ++ (close st (acc ++ t)).2) := by
  induction h with
  | @close q =>
    intro hq st acc
    simp only [feed, step, if_neg (quote_ne hq).2.2.2, if_true, Fed.pre]
    simp
  | @newline q s n t _ ih =>
    intro hq st acc
    simp only [feed, step, if_true, ih hq, Fed.pre]
    simp [List.replicate_succ]
  | @char q c s n t hc hcq _ ih =>
    intro hq st acc
    have c2 : c ≠ q := by rintro rfl; exact hcq hq
    have c3 : ¬isQuote c = true := by rw [isQuote_iff]; exact hcq
    simp only [feed, step, if_neg hc, if_neg c2, if_neg c3, ih hq, Fed.pre_nil]
    simp
  | @inner q q' x i n t s n' t' hq' hne _ _ ih1 ih2 =>
    intro hq st acc
    simp only [feed, step, if_neg (quote_ne hq').2.2.2, if_neg hne, if_pos ((isQuote_iff _).2 hq'), Fed.pre_nil]
    rw [feed_append, ih1 hq']
    simp only [close, feed, step, ih2 hq, Fed.pre]
    simp [← List.replicate_append_replicate]

theorem feed_open {d : Rdbms} {q : Char} {s : List Char} {n : Nat} (h : Open q s n) :
    ∀ (_ : q ∈ quotes) (st : List Char) (acc : Str),
      ∃ m, feed d (.str q st acc) s = .go m (List.replicate n nl) ∧ final m = none := by
  induction h with
  | @eof q => exact fun hq st acc => ⟨_, rfl, rfl⟩
  | @newline q s n _ ih =>
    intro hq st acc
    obtain ⟨m, e, f⟩ := ih hq st acc
    refine ⟨m, ?_, f⟩
    simp only [feed, step, if_true, e, Fed.pre]
    simp [List.replicate_succ]
  | @char q c s n hc hcq _ ih =>
    intro hq st acc
    have c2 : c ≠ q := by rintro rfl; exact hcq hq
    have c3 : ¬isQuote c = true := by rw [isQuote_iff]; exact hcq
    obtain ⟨m, e, f⟩ := ih hq st (acc ++ [c])
    refine ⟨m, ?_, f⟩
    simp only [feed, step, if_neg hc, if_neg c2, if_neg c3, e, Fed.pre_nil]
  | @inner q q' x i n t s n' hq' hne hi _ ih =>
    intro hq st acc
    obtain ⟨m, e, f⟩ := ih hq st (acc ++ [q'] ++ t)
    refine ⟨m, ?_, f⟩
    simp only [feed, step, if_neg (quote_ne hq').2.2.2, if_neg hne, if_pos ((isQuote_iff _).2 hq'), Fed.pre_nil]
    rw [feed_append, feed_closed hi hq']
    simp only [close, feed, step, e, Fed.pre]
    simp [← List.replicate_append_replicate]
  | @eofInner q q' i n t hq' hne hi =>
    intro hq st acc
    refine ⟨.drop q st (acc ++ [q'] ++ t), ?_, rfl⟩
    simp only [feed, step, if_neg (quote_ne hq').2.2.2, if_neg hne, if_pos ((isQuote_iff _).2 hq'), Fed.pre_nil]
    rw [feed_closed hi hq']
    simp [close]
  | @openInner q q' s n hq' hne _ ih =>
    intro hq st acc
    obtain ⟨m, e, f⟩ := ih hq' (q :: st) (acc ++ [q'])
    refine ⟨m, ?_, f⟩
    simp only [feed, step, if_neg (quote_ne hq').2.2.2, if_neg hne, if_pos ((isQuote_iff _).2 hq'), Fed.pre_nil, e]

theorem closed_or_open (k : Nat) : ∀ (r : List Char) (_ : r.length ≤ k) (q : Char) (_ : q ∈ quotes),
    (∃ i n t s, Closed q i n t ∧ r = i ++ s) ∨ ∃ n, Open q r n := by
  induction k with
  | zero =>
    intro r hr q hq
    cases List.length_eq_zero_iff.1 (Nat.le_zero.1 hr)
    exact .inr ⟨0, .eof⟩
  | succ k ih =>
    intro r hr q hq
    cases r with
    | nil => exact .inr ⟨0, .eof⟩
    | cons c r =>
      have hr' : r.length ≤ k := by simpa using hr
      by_cases h1 : c = '\n'
      · subst h1
        rcases ih r hr' q hq with ⟨i, n, t, s, h, rfl⟩ | ⟨n, h⟩
        · exact .inl ⟨_, _, _, s, .newline h, rfl⟩
        · exact .inr ⟨_, .newline h⟩
      by_cases h2 : c = q
      · subst h2; exact .inl ⟨_, _, _, r, .close, rfl⟩
      by_cases h3 : c ∈ quotes
      · rcases ih r hr' c h3 with ⟨i, n, t, s, h, rfl⟩ | ⟨n, h⟩
        · cases s with
          | nil => exact .inr ⟨_, by rw [List.append_nil]; exact .eofInner h3 h2 h⟩
          | cons x s =>
            have hs : s.length ≤ k := by simp at hr'; omega
            rcases ih s hs q hq with ⟨i', n', t', s', h', rfl⟩ | ⟨n', h'⟩
            · exact .inl ⟨_, _, _, s', .inner (x := x) h3 h2 h h', by simp⟩
            · exact .inr ⟨_, .inner h3 h2 h h'⟩
        · exact .inr ⟨_, .openInner h3 h2 h⟩
      · rcases ih r hr' q hq with ⟨i, n, t, s, h, rfl⟩ | ⟨n, h⟩
        · exact .inl ⟨_, _, _, s, .char h1 h3 h, rfl⟩
        · exact .inr ⟨_, .char h1 h3 h⟩

/-! ### Comments -/

theorem block_or_open (k : Nat) : ∀ (r : List Char) (_ : r.length ≤ k),
    (∃ (ps : List Part) (s : List Char), (∀ p ∈ ps, p.Ok) ∧ r = ps.flatMap Part.src ++ '*' :: '/' :: s) ∨
    ∃ (ps : List Part) (t : List Char), (∀ p ∈ ps, p.Ok) ∧ t ∈ [[], ['*'], ['/']] ∧ r = ps.flatMap Part.src ++ t := by
  induction k with
  | zero =>
    intro r hr
    cases List.length_eq_zero_iff.1 (Nat.le_zero.1 hr)
    exact .inr ⟨[], [], by simp, by simp, rfl⟩
  | succ k ih =>
    intro r hr
    have add : ∀ (p : Part) (r : List Char), p.Ok → r.length ≤ k →
        (∃ (ps : List Part) (s : List Char), (∀ p ∈ ps, p.Ok) ∧ p.src ++ r = ps.flatMap Part.src ++ '*' :: '/' :: s) ∨
        ∃ (ps : List Part) (t : List Char), (∀ p ∈ ps, p.Ok) ∧ t ∈ [[], ['*'], ['/']] ∧
          p.src ++ r = ps.flatMap Part.src ++ t := by
      intro p r hp hl
      rcases ih r hl with ⟨ps, s, h, e⟩ | ⟨ps, t, h, ht, e⟩
      · exact .inl ⟨p :: ps, s, by simpa using ⟨hp, h⟩, by rw [e]; simp⟩
      · exact .inr ⟨p :: ps, t, by simpa using ⟨hp, h⟩, ht, by rw [e]; simp⟩
    cases r with
    | nil => exact .inr ⟨[], [], by simp, by simp, rfl⟩
    | cons c r =>
      simp only [List.length_cons] at hr
      by_cases h1 : c = '*'
      · subst h1
        cases r with
        | nil => exact .inr ⟨[], ['*'], by simp, by simp, rfl⟩
        | cons c r =>
          simp only [List.length_cons] at hr
          by_cases h2 : c = '/'
          · subst h2; exact .inl ⟨[], r, by simp, rfl⟩
          · exact add (.star c) r h2 (by omega)
      by_cases h2 : c = '/'
      · subst h2
        cases r with
        | nil => exact .inr ⟨[], ['/'], by simp, by simp, rfl⟩
        | cons c r =>
          simp only [List.length_cons] at hr
          exact add (.slash c) r trivial (by omega)
      · exact add (.ch c) r ⟨h1, h2⟩ (by omega)

theorem feed_parts {d : Rdbms} {b : List Part} (hb : ∀ p ∈ b, p.Ok) :
    feed d .block (b.flatMap Part.src) = .go .block (b.flatMap Part.toks) := by
  induction b with
  | nil => rfl
  | cons p b ih =>
    have ih := ih (fun p hp => hb p (List.mem_cons_of_mem _ hp))
    have hp := hb p (by simp)
    simp only [List.flatMap_cons]
    rw [feed_append]
    cases p with
    | ch c =>
      by_cases hc : c = '\n'
      · subst hc
        simp only [Part.src, feed, step, if_true, Fed.pre, List.append_nil, ih, Part.toks]
      · simp only [Part.src, feed, step, if_neg hc, if_neg hp.1, if_neg hp.2, Fed.pre,
          List.append_nil, ih, Part.toks]
    | star c =>
      have hc : c ≠ '/' := hp
      simp (config := { decide := true }) only [Part.src, feed, step, if_neg hc, Fed.pre,
        List.append_nil, ih, Part.toks, if_true, if_false]
    | slash c =>
      simp (config := { decide := true }) only [Part.src, feed, step, Fed.pre,
        List.append_nil, ih, Part.toks, if_true, if_false]

theorem feed_lastLine {d : Rdbms} {m : Mode} {b : List Char} (hn : '\n' ∉ b) (h : m = .line ∨ m = .sharp) :
    feed d m b = .go m [] := by
  induction b with
  | nil => rfl
  | cons c b ih =>
    have hc : c ≠ '\n' := by rintro rfl; simp at hn
    have := ih (by intro h; exact hn (List.mem_cons_of_mem _ h))
    rcases h with rfl | rfl <;> simp only [feed, step, if_neg hc, this, Fed.pre_nil]

theorem line_or_last (r : List Char) :
    (∃ i s, '\n' ∉ i ∧ r = i ++ '\n' :: s) ∨ '\n' ∉ r := by
  induction r with
  | nil => exact .inr (by simp)
  | cons c r ih =>
    by_cases h : c = '\n'
    · subst h; exact .inl ⟨[], r, by simp, rfl⟩
    · rcases ih with ⟨i, s, hi, rfl⟩ | hi
      · exact .inl ⟨c :: i, s, by simpa using ⟨fun e => h e.symm, hi⟩, rfl⟩
      · exact .inr (by simpa using ⟨fun e => h e.symm, hi⟩)

/-! ### Words -/

theorem nls_word {d : Rdbms} {t : Str} (h : ∀ c ∈ t, c ∉ nonWord d) : nls (flush t) = 0 := by
  apply nls_flush
  rintro rfl
  exact h '\n' (by simp [nl]) (by simp [nonWord])

theorem step2_flush {d : Rdbms} {c : Char} (hc : c ∈ nonWord d) (t : Str) :
    step2 d t c = match step2 d [] c with
      | .go m o => .go m (flush t ++ o)
      | .bad e => .bad e := by
  have hf : flush [] = [] := rfl
  unfold step2
  rw [hf]
  split
  · simp
  split
  · simp
  split
  · split <;> simp
  split
  · rename_i h
    subst h
    have hd : d = .mysql := by
      by_cases h : d = .mysql
      · exact h
      · simp [nonWord, quotes, puncts, h] at hc
    simp [hd]
  split
  · simp
  split
  · simp
  split
  · simp
  split
  · simp
  · rename_i a1 a2 a3 a4 a5 a6 a7 a8
    exfalso
    rw [isSymbol_iff] at a7
    simp only [nonWord, List.mem_append, quotes, List.mem_cons, List.not_mem_nil, or_false] at hc
    rcases hc with (((h | h | h | h) | h | h | h) | h) | h
    · exact a5 (.inl h)
    · exact a5 (.inr h)
    · exact a6 h
    · exact a8 h
    · exact a1 h
    · exact a2 h
    · exact a3 h
    · exact a7 h
    · split at h
      · simp at h; exact a4 h
      · simp at h

/-- Where a word ends, it is a token. -/
theorem scan_ends {d : Rdbms} {m : Mode} {t : Str} (hp : Pend m t) (ht : ∀ c ∈ t, c ∉ nonWord d) {s : List Char}
    (hs : Ends d s) (l : Nat) (r : List Str) : scan d m s l r = scan d (.top []) s l (r ++ flush t) := by
  rcases hs with rfl | ⟨c, s, rfl, hc⟩
  · simp only [scan, hp.final]
    simp [final, flush]
  · have hne : c ≠ '-' ∧ c ≠ '/' ∧ c ≠ '*' := by
      refine ⟨?_, ?_, ?_⟩ <;> rintro rfl <;> revert hc <;> cases d <;> decide
    have h0 : step d (.top []) c = step2 d [] c := by simp [step, hne.1, hne.2.1, hne.2.2]
    simp only [scan, hp.step hne.1 hne.2.1 hne.2.2, h0]
    rw [step2_flush hc]
    cases step2 d [] c with
    | bad e => rfl
    | go m o => simp only [nls_append, nls_word ht, Nat.zero_add, List.append_assoc]

theorem scan_mark {d : Rdbms} {t : Str} (ht : ∀ c ∈ t, c ∉ nonWord d) {s : List Char}
    (hs : AtMark s) (l : Nat) (r : List Str) : scan d (.top t) s l r = scan d (.top []) s l (r ++ flush t) := by
  obtain ⟨a, b, s, rfl, hm⟩ := hs
  simp only [marks, List.mem_cons, List.not_mem_nil, or_false, Prod.mk.injEq] at hm
  have hn := nls_word ht
  rcases hm with ⟨rfl, rfl⟩ | ⟨rfl, rfl⟩ | ⟨rfl, rfl⟩ <;>
    simp (config := { decide := true }) [scan, step, hn, show flush [] = [] from rfl]

/-- The mode in which a text is read. -/
def modeOf (b : Bool) (t : Str) : Mode := if b then .p2 t else .top t

theorem scan_longWord {d : Rdbms} {b : Bool} {w : Str} {s : List Char} (h : IsLongWord d b w s) :
    ∀ (t : Str) (_ : b = true → t = []) (_ : ∀ c ∈ t, c ∉ nonWord d) (l : Nat) (r : List Str),
      scan d (modeOf b t) (w ++ s) l r = scan d (.top []) s l (r ++ flush (t ++ w)) := by
  induction h with
  | @ends b s h =>
    intro t hb ht l r
    rw [List.append_nil]
    refine scan_ends ?_ ht h l r
    cases b
    · exact .inl rfl
    · exact .inr (.inl ⟨rfl, hb rfl⟩)
  | mark h =>
    intro t _ ht l r
    rw [List.append_nil]
    exact scan_mark ht h l r
  | @blind c w s hc _ ih =>
    intro t hb ht l r
    have := ih (t ++ [c]) (by simp) (word_append ht hc) l r
    rw [List.append_assoc] at this
    rw [List.cons_append, ← List.singleton_append (l := w), ← this]
    simp only [modeOf, if_true, scan, step, step2_word hc]
    simp [nls]
  | @char c w s hc hm _ ih =>
    intro t hb ht l r
    have := ih (t ++ [c]) (by simp) (word_append ht hc) l r
    rw [List.append_assoc] at this
    rw [List.cons_append, ← List.singleton_append (l := w), ← this]
    simp only [markStarts, List.mem_cons, List.not_mem_nil, or_false, not_or] at hm
    simp only [modeOf, Bool.false_eq_true, if_false, scan, step, if_neg hm.1, if_neg hm.2.1, if_neg hm.2.2, step2_word hc]
    simp [nls]
  | @pair a c w s ha hc hm _ ih =>
    intro t hb ht l r
    have hw := not_nonWord_mark (d := d) (c := a) (by simpa [markStarts] using ha)
    have := ih (t ++ [a] ++ [c]) (by simp) (word_append (word_append ht hw) hc) l r
    rw [show t ++ [a] ++ [c] ++ w = t ++ a :: c :: w by simp] at this
    rw [← this]
    simp only [markStarts, List.mem_cons, List.not_mem_nil, or_false] at ha
    rcases ha with rfl | rfl | rfl
    · have h1 : c ≠ '-' := by rintro rfl; exact hm (by decide)
      simp [modeOf, scan, step, h1, step2_word hc, nls]
    · have h1 : c ≠ '*' := by rintro rfl; exact hm (by decide)
      simp [modeOf, scan, step, h1, step2_word hc, nls]
    · have h1 : c ≠ '/' := by rintro rfl; exact hm (by decide)
      simp [modeOf, scan, step, h1, step2_word hc, nls]
  | @last a s ha h =>
    intro t hb ht l r
    have hw := not_nonWord_mark (d := d) (c := a) (by simpa [markStarts] using ha)
    simp only [markStarts, List.mem_cons, List.not_mem_nil, or_false] at ha
    rcases ha with rfl | rfl | rfl
    · rw [← scan_ends (m := .hyphen t) (.inr (.inr (.inl ⟨t, rfl, rfl⟩))) (word_append ht hw) h]
      simp [modeOf, scan, step, nls]
    · rw [← scan_ends (m := .slash t) (.inr (.inr (.inr (.inl ⟨t, rfl, rfl⟩)))) (word_append ht hw) h]
      simp [modeOf, scan, step, nls]
    · rw [← scan_ends (m := .star t) (.inr (.inr (.inr (.inr ⟨t, rfl, rfl⟩)))) (word_append ht hw) h]
      simp [modeOf, scan, step, nls]

theorem longWord_chars {d : Rdbms} {b : Bool} {w : Str} {s : List Char} (h : IsLongWord d b w s) :
    ∀ c ∈ w, c ∉ nonWord d := by
  induction h with
  | ends _ => simp
  | mark _ => simp
  | blind h _ ih => simpa using ⟨h, ih⟩
  | char h _ _ ih => simpa using ⟨h, ih⟩
  | @pair a c w s ha h _ _ ih =>
    have hw := not_nonWord_mark (d := d) (c := a) (by simpa [markStarts] using ha)
    simpa using ⟨hw, h, ih⟩
  | @last a s ha _ =>
    have hw := not_nonWord_mark (d := d) (c := a) (by simpa [markStarts] using ha)
    simpa using hw

theorem longWord_exists (d : Rdbms) (k : Nat) : ∀ (s : List Char) (_ : s.length ≤ k) (b : Bool),
    ∃ w r, s = w ++ r ∧ IsLongWord d b w r := by
  induction k with
  | zero =>
    intro s hs b
    cases List.length_eq_zero_iff.1 (Nat.le_zero.1 hs)
    exact ⟨[], [], rfl, .ends (.inl rfl)⟩
  | succ k ih =>
    intro s hs b
    cases s with
    | nil => exact ⟨[], [], rfl, .ends (.inl rfl)⟩
    | cons c s =>
      simp only [List.length_cons] at hs
      by_cases hc : c ∈ nonWord d
      · exact ⟨[], _, rfl, .ends (.inr ⟨c, s, rfl, hc⟩)⟩
      cases b with
      | true =>
        obtain ⟨w, r, rfl, h⟩ := ih s (by omega) false
        exact ⟨c :: w, r, rfl, .blind hc h⟩
      | false =>
        by_cases hm : c ∈ markStarts
        · cases s with
          | nil => exact ⟨[c], [], rfl, .last hm (.inl rfl)⟩
          | cons e s =>
            simp only [List.length_cons] at hs
            by_cases he : e ∈ nonWord d
            · exact ⟨[c], _, rfl, .last hm (.inr ⟨e, s, rfl, he⟩)⟩
            by_cases hk : (c, e) ∈ marks
            · exact ⟨[], _, rfl, .mark ⟨c, e, s, rfl, hk⟩⟩
            obtain ⟨w, r, rfl, h⟩ := ih s (by omega) false
            exact ⟨c :: e :: w, r, rfl, .pair hm he hk h⟩
        · obtain ⟨w, r, rfl, h⟩ := ih s (by omega) false
          exact ⟨c :: w, r, rfl, .char hc hm h⟩

/-! ### Texts -/

/-- What `scan` answers for tokens and an outcome. -/
def answer (l : Nat) (r ts : List Str) : Option Str → Out
  | none => .ok (r ++ ts)
  | some near => .err ⟨l + nls ts, near⟩

theorem answer_app (l : Nat) (r a ts : List Str) (o : Option Str) :
    answer (l + nls a) (r ++ a) ts o = answer l r (a ++ ts) o := by
  cases o <;> simp [answer, nls_append, Nat.add_assoc]

theorem modeOf_pend (b : Bool) : Pend (modeOf b []) [] := by
  cases b
  · exact .inl rfl
  · exact .inr (.inl ⟨rfl, rfl⟩)

/-- A prefix read, and the rest. -/
theorem scan_read {d : Rdbms} {m m' : Mode} {a s : List Char} {o : List Str} (h : feed d m a = .go m' o)
    (l : Nat) (r : List Str) : scan d m (a ++ s) l r = scan d m' s (l + nls o) (r ++ o) := by
  rw [scan_feed, h]

theorem nls_replicate (n : Nat) : nls (List.replicate n nl) = n := by simp [nls]

theorem step_char {d : Rdbms} (b : Bool) {c : Char} (h : c ∉ markStarts) : step d (modeOf b []) c = step2 d [] c := by
  simp only [markStarts, List.mem_cons, List.not_mem_nil, or_false, not_or] at h
  exact (modeOf_pend b).step h.1 h.2.1 h.2.2

theorem step2_quote {d : Rdbms} {q : Char} (hq : q ∈ quotes) (hd : d = .postgres → q ≠ '`') :
    step2 d [] q = .go (.str q [] [q]) [] := by
  simp only [quotes, List.mem_cons, List.not_mem_nil, or_false] at hq
  unfold step2
  rcases hq with rfl | rfl | rfl
  · rfl
  · rfl
  · rw [if_neg (by decide), if_neg (by decide), if_pos rfl, if_neg (fun e => hd e rfl)]; rfl

theorem quote_not_mark {q : Char} (hq : q ∈ quotes) : q ∉ markStarts := by
  simp only [markStarts, List.mem_cons, List.not_mem_nil, or_false, not_or]
  exact ⟨(quote_ne hq).1, (quote_ne hq).2.1, (quote_ne hq).2.2.1⟩

theorem scan_lexed {d : Rdbms} {b : Bool} {s : List Char} {ts : List Str} {o : Option Str} (h : Lexed d b s ts o) :
    ∀ (l : Nat) (r : List Str), scan d (modeOf b []) s l r = answer l r ts o := by
  induction h with
  | @nil b => intro l r; cases b <;> simp [modeOf, scan, final, flush, answer]
  | @blank b c s ts o hc _ ih =>
    intro l r
    have hm : c ∉ markStarts := by rcases hc with rfl | rfl <;> decide
    have h2 : step2 d [] c = .go (.top []) [] := by rcases hc with rfl | rfl <;> rfl
    simp only [scan, step_char b hm, h2]
    simpa [nls, modeOf] using ih l r
  | @newline b s ts o _ ih =>
    intro l r
    have h2 : step2 d [] '\n' = .go (.top []) [nl] := rfl
    simp only [scan, step_char b (c := '\n') (by decide), h2]
    exact (ih _ _).trans (answer_app ..)
  | @punct b c s ts o hc _ ih =>
    intro l r
    have hm : c ∉ markStarts := by
      simp only [puncts, List.mem_cons, List.not_mem_nil, or_false] at hc
      rcases hc with rfl | rfl | rfl | rfl | rfl <;> decide
    have h2 : step2 d [] c = .go (.top []) [[c]] := by
      simp only [puncts, List.mem_cons, List.not_mem_nil, or_false] at hc
      rcases hc with rfl | rfl | rfl | rfl | rfl <;> rfl
    simp only [scan, step_char b hm, h2]
    exact (ih _ _).trans (answer_app ..)
  | @word b w s ts o hw h _ ih =>
    intro l r
    rw [scan_longWord h [] (fun _ => rfl) (by simp), List.nil_append]
    have hf : flush w = [w] := by simp [flush, hw]
    have hn := nls_word (longWord_chars h)
    rw [hf] at hn ⊢
    refine (ih _ _).trans ?_
    rw [show l = l + nls [w] by rw [hn]; rfl, answer_app, hn]; rfl
  | @quoted b q i n t s ts o hq hd hi _ ih =>
    intro l r
    simp only [scan, step_char b (quote_not_mark hq), step2_quote hq hd]
    rw [scan_read (feed_closed hi hq [] [q])]
    simp only [close, nls_nil, Nat.add_zero, List.append_nil]
    refine (ih _ _).trans ((answer_app ..).trans ?_)
    simp
  | @line i s ts o hi _ ih =>
    intro l r
    have : feed d (.top []) ('-' :: '-' :: (i ++ ['\n'])) = .go (.p2 []) [nl] := by
      simp only [feed, step, if_true]
      rw [feed_line hi (.inl ⟨rfl, rfl⟩)]
      simp [flush, Fed.pre]
    have e := scan_read (s := s) this l r
    simp only [List.cons_append, List.append_assoc, List.singleton_append, List.nil_append] at e
    exact e.trans ((ih _ _).trans (answer_app ..))
  | @lastLine i hi =>
    intro l r
    have : feed d (.top []) ('-' :: '-' :: i) = .go .line [] := by
      simp only [feed, step, if_true]
      rw [feed_lastLine hi (.inl rfl)]
      simp [flush, Fed.pre]
    have e := scan_read (s := []) this l r
    rw [List.append_nil] at e
    refine e.trans ?_
    simp [scan, final, answer]
  | @sharp b i s ts o hd hi _ ih =>
    intro l r
    subst hd
    have : feed .mysql (modeOf b []) ('#' :: (i ++ ['\n'])) = .go (.top []) [nl] := by
      simp only [feed, step_char b (c := '#') (by decide)]
      simp (config := { decide := true }) only [step2, if_true, if_false]
      rw [feed_line hi (.inr ⟨rfl, rfl⟩)]
      simp [flush, Fed.pre]
    have e := scan_read (s := s) this l r
    simp only [List.cons_append, List.append_assoc, List.singleton_append, List.nil_append] at e
    exact e.trans ((ih _ _).trans (answer_app ..))
  | @lastSharp b i hd hi =>
    intro l r
    subst hd
    have : feed .mysql (modeOf b []) ('#' :: i) = .go .sharp [] := by
      simp only [feed, step_char b (c := '#') (by decide)]
      simp (config := { decide := true }) only [step2, if_true, if_false]
      rw [feed_lastLine hi (.inr rfl)]
      simp [flush, Fed.pre]
    have e := scan_read (s := []) this l r
    rw [List.append_nil] at e
    refine e.trans ?_
    simp [scan, final, answer]
  | @block ps s ts o hp _ ih =>
    intro l r
    have : feed d (.top []) ('/' :: '*' :: (ps.flatMap Part.src ++ ['*', '/'])) = .go (.p2 []) (ps.flatMap Part.toks) := by
      simp (config := { decide := true }) only [feed, step, if_true, if_false]
      rw [feed_block hp]
      simp [flush, Fed.pre]
    have e := scan_read (s := s) this l r
    simp only [List.cons_append, List.append_assoc, List.singleton_append, List.nil_append] at e
    exact e.trans ((ih _ _).trans (answer_app ..))
  | @backQuote b s hd =>
    intro l r
    subst hd
    simp only [scan, step_char b (c := '`') (by decide)]
    simp [step2, answer, S]
  | @wideSpace b s =>
    intro l r
    have h2 : step2 d [] (Char.ofNat 0x3000) = .bad [Char.ofNat 0x3000] := by
      unfold step2
      simp (config := { decide := true }) [isSymbol]
    simp only [scan, step_char b (c := Char.ofNat 0x3000) (by decide), h2]
    simp [answer]
  | @starSlash s =>
    intro l r
    simp [modeOf, scan, step, answer, S, nls]
  | @openQuote b q s n hq hd h =>
    intro l r
    simp only [scan, step_char b (quote_not_mark hq), step2_quote hq hd]
    obtain ⟨m, e, f⟩ := feed_open (d := d) h hq [] [q]
    have e := scan_read (s := []) e (l + nls []) (r ++ [])
    rw [List.append_nil] at e
    refine e.trans ?_
    simp [scan, f, answer]
  | @openBlock ps t hp ht =>
    intro l r
    have h1 : feed d (.top []) ('/' :: '*' :: ps.flatMap Part.src) = .go .block (ps.flatMap Part.toks) := by
      simp (config := { decide := true }) only [feed, step, if_true, if_false]
      rw [feed_parts hp]
      simp [flush, Fed.pre]
    have e := scan_read (s := t) h1 l r
    refine e.trans ?_
    simp only [List.mem_cons, List.not_mem_nil, or_false] at ht
    rcases ht with rfl | rfl | rfl <;> simp [scan, step, final, answer]

/-- Every text is covered by the rules. -/
theorem lexed_exists (d : Rdbms) (k : Nat) : ∀ (s : List Char) (_ : s.length ≤ k) (b : Bool),
    ∃ ts o, Lexed d b s ts o := by
  induction k with
  | zero =>
    intro s hs b
    cases List.length_eq_zero_iff.1 (Nat.le_zero.1 hs)
    exact ⟨[], none, .nil⟩
  | succ k ih =>
    intro s hs b
    cases s with
    | nil => exact ⟨[], none, .nil⟩
    | cons c s =>
      simp only [List.length_cons] at hs
      by_cases hc : c ∈ nonWord d
      · by_cases h1 : c ∈ quotes
        · by_cases h2 : d = .postgres ∧ c = '`'
          · obtain ⟨h2, rfl⟩ := h2; exact ⟨_, _, .backQuote h2⟩
          have h2 : d = .postgres → c ≠ '`' := fun a e => h2 ⟨a, e⟩
          rcases closed_or_open _ s (Nat.le_refl _) c h1 with ⟨i, n, t, s, h, rfl⟩ | ⟨n, h⟩
          · obtain ⟨ts, o, hl⟩ := ih s (by simp at hs; omega) false
            exact ⟨_, _, .quoted h1 h2 h hl⟩
          · exact ⟨_, _, .openQuote h1 h2 h⟩
        by_cases h2 : c ∈ puncts
        · obtain ⟨ts, o, hl⟩ := ih s (by omega) false
          exact ⟨_, _, .punct h2 hl⟩
        simp only [nonWord, List.mem_append, List.mem_cons, List.not_mem_nil, or_false] at hc
        rcases hc with (((h | h | h | h) | h) | h) | h
        · obtain ⟨ts, o, hl⟩ := ih s (by omega) false
          exact ⟨_, _, .blank (.inl h) hl⟩
        · obtain ⟨ts, o, hl⟩ := ih s (by omega) false
          exact ⟨_, _, .blank (.inr h) hl⟩
        · obtain ⟨ts, o, hl⟩ := ih s (by omega) false
          subst h
          exact ⟨_, _, .newline hl⟩
        · subst h; exact ⟨_, _, .wideSpace⟩
        · exact absurd h h1
        · exact absurd h h2
        · split at h
          · rename_i hd
            simp only [List.mem_singleton] at h
            subst h
            rcases line_or_last s with ⟨i, s, hi, rfl⟩ | hi
            · obtain ⟨ts, o, hl⟩ := ih s (by simp at hs; omega) false
              exact ⟨_, _, .sharp hd hi hl⟩
            · exact ⟨_, _, .lastSharp hd hi⟩
          · cases h
      · by_cases hm : b = false ∧ AtMark (c :: s)
        · obtain ⟨rfl, a, e, r, h, hm⟩ := hm
          cases h
          simp only [marks, List.mem_cons, List.not_mem_nil, or_false, Prod.mk.injEq] at hm
          simp only [List.length_cons] at hs
          rcases hm with ⟨rfl, rfl⟩ | ⟨rfl, rfl⟩ | ⟨rfl, rfl⟩
          · rcases line_or_last r with ⟨i, s, hi, rfl⟩ | hi
            · obtain ⟨ts, o, hl⟩ := ih s (by simp at hs; omega) true
              exact ⟨_, _, .line hi hl⟩
            · exact ⟨_, _, .lastLine hi⟩
          · rcases block_or_open _ r (Nat.le_refl _) with ⟨ps, s, hp, rfl⟩ | ⟨ps, t, hp, ht, rfl⟩
            · obtain ⟨ts, o, hl⟩ := ih s (by simp at hs; omega) true
              exact ⟨_, _, .block hp hl⟩
            · exact ⟨_, _, .openBlock hp ht⟩
          · exact ⟨_, _, .starSlash⟩
        · obtain ⟨w, r, e, hw⟩ := longWord_exists d _ (c :: s) (Nat.le_refl _) b
          have hne : w ≠ [] := by
            rintro rfl
            rw [List.nil_append] at e
            subst e
            cases hw with
            | ends h =>
              rcases h with h | ⟨c', r', h, hc'⟩
              · cases h
              · cases h; exact hc hc'
            | mark h => exact hm ⟨rfl, h⟩
          have hl : r.length ≤ k := by
            have := congrArg List.length e
            have hw : 0 < w.length := List.length_pos_iff.2 hne
            simp at this
            omega
          obtain ⟨ts, o, hl⟩ := ih r hl false
          exact ⟨w :: ts, o, by rw [e]; exact Lexed.word hne hw hl⟩

theorem lexes_lexed {d : Rdbms} {ddl : List Char} {toks : List Str} :
    Lexes d ddl toks ↔ Lexed d false ddl toks none := by
  rw [lexes_iff]
  constructor
  · intro h
    obtain ⟨ts, o, hl⟩ := lexed_exists d _ ddl (Nat.le_refl _) false
    have e := (scan_lexed hl 1 []).symm.trans h
    cases o with
    | none => simp only [answer, List.nil_append, Out.ok.injEq] at e; exact e ▸ hl
    | some _ => simp [answer] at e
  · intro h
    exact (scan_lexed h 1 []).trans (by simp [answer])

theorem lexFails_lexed {d : Rdbms} {ddl : List Char} {line : Nat} {near : Str} :
    LexFails d ddl ⟨line, near⟩ ↔ ∃ toks, Lexed d false ddl toks (some near) ∧ line = 1 + toks.count nl := by
  rw [lexFails_iff]
  constructor
  · intro h
    obtain ⟨ts, o, hl⟩ := lexed_exists d _ ddl (Nat.le_refl _) false
    have e := (scan_lexed hl 1 []).symm.trans h
    cases o with
    | none => simp [answer] at e
    | some _ =>
      simp only [answer, Out.err.injEq, VErr.mk.injEq] at e
      obtain ⟨rfl, rfl⟩ := e
      exact ⟨ts, hl, rfl⟩
  · rintro ⟨ts, h, rfl⟩
    exact (scan_lexed h 1 []).trans rfl

end DDL.Lex
