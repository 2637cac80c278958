import Verif.Proof.ParseFacts
/-
More facts about the transducer: errors, unterminated quotes and comments, concatenation.
-/

set_option linter.unusedSimpArgs false

namespace DDL.Lex
open DDL DDL.Spec

/-! ### Errors -/

theorem step2_bad {d t c near} (h : step2 d t c = .bad near) : near = [c] := by
  unfold step2 at h
  repeat' split at h
  all_goals first | cases h; simp_all | cases h

theorem step_bad {d m c near} (h : step d m c = .bad near) :
    near = [c] ∨ (∃ t, m = .star t) ∧ near = ['*'] := by
  cases m with
  | top t =>
    simp only [step] at h
    repeat' split at h
    all_goals first | cases h | exact .inl (step2_bad h)
  | p2 t => exact .inl (step2_bad h)
  | hyphen t =>
    simp only [step] at h
    split at h
    · cases h
    · exact .inl (step2_bad h)
  | slash t =>
    simp only [step] at h
    split at h
    · cases h
    · exact .inl (step2_bad h)
  | star t =>
    simp only [step] at h
    split at h
    · cases h; exact .inr ⟨⟨t, rfl⟩, rfl⟩
    · exact .inl (step2_bad h)
  | line => simp only [step] at h; split at h <;> cases h
  | sharp => simp only [step] at h; split at h <;> cases h
  | block => simp only [step] at h; repeat' split at h
             all_goals cases h
  | blockStar => simp only [step] at h; split at h <;> cases h
  | blockSlash => simp only [step] at h; cases h
  | str q st acc => simp only [step] at h; repeat' split at h
                    all_goals cases h
  | drop q st acc => simp only [step] at h; cases h

theorem step2_star {d t c t' o} (h : step2 d t c = .go (.star t') o) : False := by
  unfold step2 at h
  repeat' split at h
  all_goals cases h

theorem step_star {d m c t' o} (h : step d m c = .go (.star t') o) : c = '*' := by
  cases m with
  | top t =>
    simp only [step] at h
    split at h
    · cases h
    split at h
    · cases h
    split at h
    · assumption
    · exact (step2_star h).elim
  | p2 t => exact (step2_star h).elim
  | hyphen t =>
    simp only [step] at h
    split at h
    · cases h
    · exact (step2_star h).elim
  | slash t =>
    simp only [step] at h
    split at h
    · cases h
    · exact (step2_star h).elim
  | star t =>
    simp only [step] at h
    split at h
    · cases h
    · exact (step2_star h).elim
  | line => simp only [step] at h; split at h <;> cases h
  | sharp => simp only [step] at h; split at h <;> cases h
  | block => simp only [step] at h; repeat' split at h
             all_goals cases h
  | blockStar => simp only [step] at h; split at h <;> cases h
  | blockSlash => simp only [step] at h; cases h
  | str q st acc =>
    simp only [step] at h; repeat' split at h
    all_goals first | cases h | skip
    unfold close at h; cases st <;> cases h
  | drop q st acc => simp only [step] at h; cases h

/-- An error is near the end of the text or near a character of it. -/
theorem scan_err {d m cs l r e} (h : scan d m cs l r = .err e) :
    l ≤ e.line ∧ (e.near = EOF ∨ (∃ c ∈ cs, e.near = [c]) ∨ (∃ t, m = .star t) ∧ e.near = ['*']) := by
  induction cs generalizing m l r with
  | nil =>
    simp only [scan] at h
    cases hf : final m with
    | some o => rw [hf] at h; cases h
    | none => rw [hf] at h; cases h; exact ⟨Nat.le_refl _, .inl rfl⟩
  | cons c cs ih =>
    simp only [scan] at h
    cases hs : step d m c with
    | go m' o =>
      rw [hs] at h
      obtain ⟨h1, h2⟩ := ih h
      refine ⟨by omega, ?_⟩
      rcases h2 with h2 | ⟨x, hx, h2⟩ | ⟨⟨t, rfl⟩, h2⟩
      · exact .inl h2
      · exact .inr (.inl ⟨x, by simp [hx], h2⟩)
      · have := step_star hs
        exact .inr (.inl ⟨c, by simp, by rw [h2, this]⟩)
    | bad t =>
      rw [hs] at h; cases h
      refine ⟨Nat.le_refl _, ?_⟩
      rcases step_bad hs with rfl | ⟨h1, rfl⟩
      · exact .inr (.inl ⟨c, by simp, rfl⟩)
      · exact .inr (.inr ⟨h1, rfl⟩)

/-! ### Unterminated quotes and comments -/

/-- Inside a quote whose outermost quote character is `q`. -/
def Inside (q : Char) (m : Mode) : Prop :=
  (∃ p st acc, m = .str p st acc ∧ (p :: st).getLast? = some q) ∨
  (∃ p st acc, m = .drop p st acc ∧ (p :: st).getLast? = some q)

theorem Inside.step {d q m c} (h : Inside q m) (hc : c ≠ q) :
    ∃ m' o, Lex.step d m c = .go m' o ∧ Inside q m' := by
  rcases h with ⟨p, st, acc, rfl, h⟩ | ⟨p, st, acc, rfl, h⟩
  · simp only [Lex.step]
    split
    · exact ⟨_, _, rfl, .inl ⟨p, st, acc, rfl, h⟩⟩
    split
    · cases st with
      | nil => simp at h; simp_all
      | cons p' st => exact ⟨_, _, rfl, .inr ⟨p', st, _, rfl, by simpa using h⟩⟩
    split
    · exact ⟨_, _, rfl, .inl ⟨c, p :: st, _, rfl, by simpa using h⟩⟩
    · exact ⟨_, _, rfl, .inl ⟨p, st, _, rfl, h⟩⟩
  · exact ⟨_, _, rfl, .inl ⟨p, st, acc, rfl, h⟩⟩

theorem scan_inside {d q m} (h : Inside q m) {b : List Char} (hb : q ∉ b) (l r) :
    ∃ k, scan d m b l r = .err ⟨k, EOF⟩ := by
  induction b generalizing m l r with
  | nil =>
    rcases h with ⟨p, st, acc, rfl, _⟩ | ⟨p, st, acc, rfl, _⟩ <;> exact ⟨l, rfl⟩
  | cons c b ih =>
    simp at hb
    obtain ⟨m', o, e, h'⟩ := h.step (d := d) (c := c) (fun e => hb.1 e.symm)
    simp only [scan, e]
    exact ih h' hb.2 _ _

theorem step_block (d : Rdbms) (c : Char) : step d .block c =
    if c = '\n' then .go .block [nl]
    else if c = '*' then .go .blockStar []
    else if c = '/' then .go .blockSlash []
    else .go .block [] := rfl

/-- In a block comment whose text never has a `*` followed by `/`. -/
theorem scan_block_open {d : Rdbms} {b : List Char} (l r) :
    ((∀ x y, b ≠ x ++ '*' :: '/' :: y) → ∃ k, scan d .block b l r = .err ⟨k, EOF⟩) ∧
    ((∀ x y, '*' :: b ≠ x ++ '*' :: '/' :: y) → ∃ k, scan d .blockStar b l r = .err ⟨k, EOF⟩) ∧
    ((∀ x y, '/' :: b ≠ x ++ '*' :: '/' :: y) → ∃ k, scan d .blockSlash b l r = .err ⟨k, EOF⟩) := by
  induction b generalizing l r with
  | nil => exact ⟨fun _ => ⟨l, rfl⟩, fun _ => ⟨l, rfl⟩, fun _ => ⟨l, rfl⟩⟩
  | cons c b ih =>
    have tl : ∀ {z : List Char}, (∀ x y, (c :: z) ≠ x ++ '*' :: '/' :: y) →
        ∀ x y, z ≠ x ++ '*' :: '/' :: y := by
      intro z h x y e; exact h (c :: x) y (by rw [e]; rfl)
    refine ⟨fun h => ?_, fun h => ?_, fun h => ?_⟩
    · simp only [scan, step_block]
      by_cases h1 : c = '\n'
      · simp only [h1, if_true]; exact (ih _ _).1 (tl h)
      by_cases h2 : c = '*'
      · subst h2; simp only [h1, if_true, if_false]; exact (ih _ _).2.1 h
      by_cases h3 : c = '/'
      · subst h3; simp only [h1, h2, if_true, if_false]; exact (ih _ _).2.2 h
      · simp only [h1, h2, h3, if_false]; exact (ih _ _).1 (tl h)
    · simp only [scan, step]
      by_cases h1 : c = '/'
      · subst h1; exact absurd rfl (h [] b)
      · simp only [h1, if_false]
        exact (ih _ _).1 (tl fun x y e => h ('*' :: x) y (by rw [e]; rfl))
    · simp only [scan, step]
      exact (ih _ _).1 (tl fun x y e => h ('/' :: x) y (by rw [e]; rfl))

/-! ### Continuing after a well-formed beginning -/

theorem feed_lexemes_start {d : Rdbms} {m : Mode} {t : Str} {ls rest : List Lexeme}
    (h : Pend m t) (hs : Start m t (ls ++ rest)) (hok : WellFormed d (ls ++ rest)) :
    ∃ m' t' o, feed d m (srcOf ls) = .go m' o ∧ o ++ flush t' = flush t ++ toksOf ls ∧
      Pend m' t' ∧ Start m' t' rest := by
  induction ls generalizing m t with
  | nil => exact ⟨m, t, [], rfl, by simp [toksOf], h, hs⟩
  | cons b r ih =>
    obtain ⟨m1, t1, o1, e1, f1, p1, s1⟩ := feed_lexeme h hs (hok.1 b (by simp)) hok.2
    have hr : Adjacent (r ++ rest) := by
      have := hok.2
      cases hq : r ++ rest with
      | nil => trivial
      | cons c q =>
        rw [List.cons_append, hq] at this
        exact this.2
    obtain ⟨m2, t2, o2, e2, f2, p2, s2⟩ := ih p1 s1
      ⟨fun l hl => hok.1 l (List.mem_cons_of_mem _ hl), hr⟩
    refine ⟨m2, t2, o1 ++ o2, ?_, ?_, p2, s2⟩
    · simp only [srcOf, List.flatMap_cons]
      rw [feed_append, e1]
      simp only []
      have : feed d m1 (List.flatMap Lexeme.src r) = .go m2 o2 := e2
      rw [this]; rfl
    · rw [List.append_assoc, f2, ← List.append_assoc, f1]
      simp [toksOf]

theorem feed_ok {d : Rdbms} {m m' : Mode} {cs : List Char} {o : List Str} (h : ModeOk d m)
    (e : feed d m cs = .go m' o) : ModeOk d m' := by
  induction cs generalizing m o with
  | nil => simp only [feed] at e; cases e; exact h
  | cons c cs ih =>
    simp only [feed] at e
    cases hs : step d m c with
    | bad t => rw [hs] at e; cases e
    | go m1 o1 =>
      rw [hs] at e
      simp only at e
      cases hf : feed d m1 cs with
      | bad k t => rw [hf] at e; cases e
      | go m2 o2 =>
        rw [hf] at e
        cases e
        exact ih (step_ok h c _ _ hs).1 hf

theorem Pend.ne_nl {d : Rdbms} {m : Mode} {t : Str} (p : Pend m t) (h : ModeOk d m) : t ≠ nl := by
  rintro rfl
  have hn : '\n' ∈ nonWord d := by simp [nonWord]
  rcases p with rfl | ⟨rfl, e⟩ | ⟨s, e, rfl⟩ | ⟨s, e, rfl⟩ | ⟨s, e, rfl⟩
  · exact h '\n' (by simp [nl]) hn
  · cases e
  all_goals
    have := congrArg List.getLast? e
    simp [nl, List.getLast?_append] at this

/-- After well-formed lexemes: which mode, and what has been produced. -/
theorem scan_after {d : Rdbms} {ls rest : List Lexeme} (hok : WellFormed d (ls ++ rest))
    (b : List Char) :
    ∃ m t o, (∀ l r, scan d (.top []) (srcOf ls ++ b) l r = scan d m b (l + nls o) (r ++ o)) ∧
      o ++ flush t = toksOf ls ∧ Pend m t ∧ Start m t rest ∧ t ≠ nl := by
  obtain ⟨m, t, o, e, f, p, s⟩ := feed_lexemes_start (t := []) (.inl rfl) (by
    cases ls ++ rest with
    | nil => trivial
    | cons b r => exact ⟨fun _ _ => rfl, fun _ => rfl⟩) hok
  refine ⟨m, t, o, ?_, by simpa [flush] using f, p, s, p.ne_nl (feed_ok (d := d) (m := .top []) (word_nil d) e)⟩
  intro l r
  rw [scan_feed, e]

theorem WellFormed.left {d : Rdbms} {a b : List Lexeme} (h : WellFormed d (a ++ b)) :
    WellFormed d a := by
  refine ⟨fun l hl => h.1 l (by simp [hl]), ?_⟩
  have := h.2
  clear h
  induction a with
  | nil => trivial
  | cons x a ih =>
    cases a with
    | nil => trivial
    | cons y a => exact ⟨this.1, ih this.2⟩

/-- A quote after well-formed lexemes. -/
theorem scan_open_quote {d : Rdbms} {ls : List Lexeme} (hok : WellFormed d ls) {q : Char}
    (hq : q ∈ quotes) (hp : d = .postgres → q ≠ '`') (b : List Char) :
    scan d (.top []) (srcOf ls ++ q :: b) 1 [] =
      scan d (.str q [] [q]) b (1 + nls (toksOf ls)) (toksOf ls) := by
  obtain ⟨m, t, o, e, f, p, _, _⟩ := scan_after (rest := []) (by simpa using hok) (q :: b)
  rw [e]
  have hs : step d m q = .go (.str q [] [q]) (flush t) := by
    have hq' : q = '"' ∨ q = '\'' ∨ q = '`' := by simpa [quotes] using hq
    rw [p.step (by rcases hq' with rfl | rfl | rfl <;> decide)
      (by rcases hq' with rfl | rfl | rfl <;> decide)
      (by rcases hq' with rfl | rfl | rfl <;> decide)]
    rcases hq' with rfl | rfl | rfl
    · simp [step2]
    · simp [step2]
    · simp [step2]; intro h; exact absurd rfl (hp h)
  simp only [scan, hs, List.nil_append]
  rw [f, ← f, nls_append, Nat.add_assoc]

/-- A block comment after well-formed lexemes. -/
theorem scan_open_block {d : Rdbms} {ls : List Lexeme} (hok : WellFormed d (ls ++ [.block []]))
    (b : List Char) :
    scan d (.top []) (srcOf ls ++ '/' :: '*' :: b) 1 [] =
      scan d .block b (1 + nls (toksOf ls)) (toksOf ls) := by
  obtain ⟨m, t, o, e, f, p, s, _⟩ := scan_after hok ('/' :: '*' :: b)
  have hm : m = .top t := s.2 rfl
  subst hm
  rw [e]
  simp only [scan, step, show ('/' : Char) ≠ '-' from by decide, if_false, if_true, List.append_nil,
    List.nil_append]
  rw [f, ← f, nls_append, show nls [] = 0 from rfl]
  simp only [Nat.add_zero, Nat.add_assoc]

/-- A character that is always rejected, after well-formed lexemes. -/
theorem scan_bad {d : Rdbms} {ls : List Lexeme} (hok : WellFormed d ls) {c : Char}
    (hc : (c = '`' ∧ d = .postgres) ∨ c = Char.ofNat 0x3000) (b : List Char) :
    scan d (.top []) (srcOf ls ++ c :: b) 1 [] = .err ⟨1 + nls (toksOf ls), [c]⟩ := by
  obtain ⟨m, t, o, e, f, p, _, ht⟩ := scan_after (rest := []) (by simpa using hok) (c :: b)
  rw [e]
  have hs : step d m c = .bad [c] := by
    rw [p.step (by rcases hc with ⟨rfl, _⟩ | rfl <;> decide)
      (by rcases hc with ⟨rfl, _⟩ | rfl <;> decide)
      (by rcases hc with ⟨rfl, _⟩ | rfl <;> decide)]
    rcases hc with ⟨rfl, rfl⟩ | rfl
    · simp [step2]
    · cases d <;> rfl
  simp only [scan, hs]
  rw [← f, nls_append, nls_flush t ht]
  simp

/-! ### Concatenation -/

/-- Where reading starts only shifts the lines and puts the earlier tokens in front. -/
theorem scan_shift (d : Rdbms) (m : Mode) (b : List Char) (l k : Nat) (r : List Str) :
    scan d m b (l + k) r = match scan d m b l [] with
      | .ok t => .ok (r ++ t)
      | .err e => .err ⟨e.line + k, e.near⟩
      | .panic => .panic
      | .timeout => .timeout := by
  rw [scan_all d m b (l + k) r, scan_all d m b l []]
  cases feed d m b with
  | go m' o =>
    simp only [scan]
    cases final m' with
    | some f => simp
    | none => simp only [Out.err.injEq, VErr.mk.injEq]; exact ⟨by omega, trivial⟩
  | bad j t => simp only [Out.err.injEq, VErr.mk.injEq]; exact ⟨by omega, trivial⟩

theorem step_nl {d : Rdbms} {m : Mode} {f : List Str} (h : final m = some f) :
    ∃ m1 o1 o2, step d m '\n' = .go m1 o1 ∧ step d m1 '\n' = .go (.top []) o2 ∧
      o1 ++ o2 = f ++ [nl, nl] := by
  cases m with
  | top t => cases h; exact ⟨_, _, _, rfl, rfl, by simp [flush]⟩
  | p2 t => cases h; exact ⟨_, _, _, rfl, rfl, by simp [flush]⟩
  | hyphen t => cases h; exact ⟨_, _, _, rfl, rfl, by simp [flush]⟩
  | slash t => cases h; exact ⟨_, _, _, rfl, rfl, by simp [flush]⟩
  | star t => cases h; exact ⟨_, _, _, rfl, rfl, by simp [flush]⟩
  | line => cases h; exact ⟨_, _, _, rfl, rfl, by simp [flush]⟩
  | sharp => cases h; exact ⟨_, _, _, rfl, rfl, by simp [flush]⟩
  | _ => cases h

/-- Two newlines end whatever was being read. -/
theorem scan_concat {d : Rdbms} {a b : List Char} {toks : List Str}
    (h : scan d (.top []) a 1 [] = .ok toks) :
    scan d (.top []) (a ++ '\n' :: '\n' :: b) 1 [] =
      match scan d (.top []) b 1 [] with
      | .ok t => .ok (toks ++ [nl, nl] ++ t)
      | .err e => .err ⟨e.line + (nls toks + 2), e.near⟩
      | .panic => .panic
      | .timeout => .timeout := by
  rw [scan_all] at h
  rw [scan_feed]
  cases hf : feed d (.top []) a with
  | bad k t => rw [hf] at h; cases h
  | go m o =>
    rw [hf] at h
    simp only [scan, List.nil_append] at h ⊢
    cases hm : final m with
    | none => rw [hm] at h; cases h
    | some f =>
      rw [hm] at h
      cases h
      obtain ⟨m1, o1, o2, e1, e2, e3⟩ := step_nl (d := d) hm
      simp only [e1, e2]
      rw [show o ++ o1 ++ o2 = o ++ f ++ [nl, nl] by rw [List.append_assoc, e3]; simp]
      rw [show 1 + nls o + nls o1 + nls o2 = 1 + (nls (o ++ f) + 2) by
        have := congrArg nls e3
        simp only [nls_append] at this ⊢
        have h2 : nls [nl, nl] = 2 := rfl
        omega]
      exact scan_shift d _ b 1 _ _

/-! ### Newline tokens come from newlines -/

theorem word_ne_nl {d : Rdbms} {t : Str} (h : word d t) : t ≠ nl := by
  rintro rfl; exact h '\n' (by simp [nl]) (by simp [nonWord])

theorem snoc_ne_nl (t : Str) {c : Char} (h : c ≠ '\n') : t ++ [c] ≠ nl := by
  intro e
  have := congrArg List.getLast? e
  simp [nl] at this; exact h this

theorem step2_nls {d t c m o} (ht : t ≠ nl) (h : step2 d t c = .go m o) :
    nls o ≤ [c].count '\n' := by
  unfold step2 at h
  repeat' split at h
  all_goals first | cases h | skip
  all_goals first
    | (simp [nls_append, nls_flush t ht]; done)
    | (simp [nls]; done)
    | skip
  · subst_vars
    rw [nls_append, nls_flush t ht]; decide
  · rename_i hn _
    rw [nls_append, nls_flush t ht]
    have : [c] ≠ nl := by simpa [nl] using hn
    simp [nls, this]

theorem step_nls {d m c m' o} (hm : ModeOk d m) (h : step d m c = .go m' o) :
    nls o ≤ [c].count '\n' := by
  have fl : ∀ {t}, word d t → nls (flush t) = 0 := fun h => nls_flush _ (word_ne_nl h)
  cases m with
  | top t =>
    simp only [step] at h
    repeat' split at h
    all_goals first | (cases h; simp [nls]; done) | exact step2_nls (word_ne_nl hm) h
  | p2 t => exact step2_nls (word_ne_nl hm) h
  | hyphen t =>
    simp only [step] at h
    split at h
    · cases h; rw [fl hm]; omega
    · exact step2_nls (snoc_ne_nl _ (by decide)) h
  | slash t =>
    simp only [step] at h
    split at h
    · cases h; rw [fl hm]; omega
    · exact step2_nls (snoc_ne_nl _ (by decide)) h
  | star t =>
    simp only [step] at h
    split at h
    · cases h
    · exact step2_nls (snoc_ne_nl _ (by decide)) h
  | str q st acc =>
    simp only [step] at h
    split at h
    · cases h; subst_vars; decide
    split at h
    · cases h
      cases st with
      | nil =>
        have : acc ++ [c] ≠ nl := snoc_ne_nl _ (by assumption)
        simp [close, nls, this]
      | cons => simp [close, nls]
    all_goals (repeat' split at h) <;> (cases h; simp [nls])
  | drop q st acc => simp only [step] at h; cases h; simp [nls]
  | line =>
    simp only [step] at h
    split at h <;> cases h
    · subst_vars; decide
    · simp [nls]
  | sharp =>
    simp only [step] at h
    split at h <;> cases h
    · subst_vars; decide
    · simp [nls]
  | block =>
    simp only [step] at h
    repeat' split at h
    all_goals cases h
    · subst_vars; decide
    all_goals simp [nls]
  | blockStar =>
    simp only [step] at h
    split at h <;> cases h <;> simp [nls]
  | blockSlash => simp only [step] at h; cases h; simp [nls]

theorem final_nls {d m o} (hm : ModeOk d m) (h : final m = some o) : nls o = 0 := by
  cases m <;> simp only [final] at h <;> cases h
  all_goals first
    | rfl
    | exact nls_flush _ (snoc_ne_nl _ (by decide))
    | exact nls_flush _ (word_ne_nl hm)

/-- There are no more newline tokens than newlines. -/
theorem scan_nls_aux {d m cs l r toks} (hm : ModeOk d m) (h : scan d m cs l r = .ok toks) :
    nls toks ≤ nls r + cs.count '\n' := by
  induction cs generalizing m l r with
  | nil =>
    simp only [scan] at h
    cases hf : final m with
    | none => rw [hf] at h; cases h
    | some o =>
      rw [hf] at h; cases h
      rw [nls_append, final_nls hm hf]; simp
  | cons c cs ih =>
    simp only [scan] at h
    cases hs : step d m c with
    | bad t => rw [hs] at h; cases h
    | go m' o =>
      rw [hs] at h
      have h1 := ih (step_ok hm c m' o hs).1 h
      have h2 := step_nls hm hs
      rw [nls_append] at h1
      have : (c :: cs).count '\n' = [c].count '\n' + cs.count '\n' := by
        rw [show c :: cs = [c] ++ cs from rfl, List.count_append]
      omega

theorem scan_nls {d cs toks} (h : scan d (.top []) cs 1 [] = .ok toks) :
    nls toks ≤ cs.count '\n' := by
  have := scan_nls_aux (d := d) (m := .top []) (word_nil d) h
  simpa [nls] using this

/-- Errors of the lexer are within the text. -/
theorem scan_err_le_aux {d m cs l r e} (hm : ModeOk d m) (h : scan d m cs l r = .err e) :
    e.line ≤ l + cs.count '\n' := by
  induction cs generalizing m l r with
  | nil =>
    simp only [scan] at h
    cases hf : final m with
    | none => rw [hf] at h; cases h; simp
    | some o => rw [hf] at h; cases h
  | cons c cs ih =>
    simp only [scan] at h
    cases hs : step d m c with
    | bad t => rw [hs] at h; cases h; simp
    | go m' o =>
      rw [hs] at h
      have h1 := ih (step_ok hm c m' o hs).1 h
      have h2 := step_nls hm hs
      have : (c :: cs).count '\n' = [c].count '\n' + cs.count '\n' := by
        rw [show c :: cs = [c] ++ cs from rfl, List.count_append]
      omega

theorem scan_err_le {d cs e} (h : scan d (.top []) cs 1 [] = .err e) :
    e.line ≤ 1 + cs.count '\n' :=
  scan_err_le_aux (d := d) (m := .top []) (word_nil d) h

/-- A character that is rejected is rejected whatever follows. -/
theorem scan_err_final {d m cs l r e} (h : scan d m cs l r = .err e) (hE : e.near ≠ EOF) :
    ∃ a b, cs = a ++ b ∧ ∀ b', scan d m (a ++ b') l r = .err e := by
  induction cs generalizing m l r with
  | nil =>
    simp only [scan] at h
    cases hf : final m with
    | none => rw [hf] at h; cases h; exact (hE rfl).elim
    | some o => rw [hf] at h; cases h
  | cons c cs ih =>
    simp only [scan] at h
    cases hs : step d m c with
    | bad t =>
      rw [hs] at h
      exact ⟨[c], cs, rfl, fun b' => by simp only [List.cons_append, List.nil_append, scan, hs]; exact h⟩
    | go m' o =>
      rw [hs] at h
      obtain ⟨a, b, h1, h2⟩ := ih h
      exact ⟨c :: a, b, by rw [h1]; rfl, fun b' => by
        simp only [List.cons_append, scan, hs]; exact h2 b'⟩

/-- Characters inside quotes. -/
theorem scan_body {d q st acc} {b : List Char} (hb : ∀ c ∈ b, c ∉ quotes ∧ c ≠ '\n')
    (hq : q ∈ quotes) (cs l r) :
    scan d (.str q st acc) (b ++ cs) l r = scan d (.str q st (acc ++ b)) cs l r := by
  induction b generalizing acc with
  | nil => simp
  | cons c b ih =>
    have h1 := hb c (by simp)
    have hs : step d (.str q st acc) c = .go (.str q st (acc ++ [c])) [] := by
      simp only [step]
      rw [if_neg h1.2, if_neg (by rintro rfl; exact h1.1 hq), if_neg]
      rw [isQuote_iff]; exact h1.1
    simp only [List.cons_append, scan, hs]
    have := ih (acc := acc ++ [c]) (fun x hx => hb x (by simp [hx]))
    simpa [nls] using this

end DDL.Lex
