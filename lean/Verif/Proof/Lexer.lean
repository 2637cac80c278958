import Verif.Model.Lexer
import Verif.Proof.Prog
/-
The lexer is a one-pass transducer: `scan` reads the text one character at a time, without fuel.
-/

set_option linter.unusedSimpArgs false

namespace DDL.Lex
open DDL

/-- State of the transducer. `top`: start of the loop body; `p2`: second part of the loop body
(reached after a comment); `hyphen`, `slash`, `star`: that character has just been read in the
first part; `sharp`: a `#` comment; `str`: inside the quotes on the stack; `drop`: a nested
quote was just closed, the next character is dropped. -/
inductive Mode where
  | top (tok : Str)
  | p2 (tok : Str)
  | hyphen (tok : Str)
  | slash (tok : Str)
  | star (tok : Str)
  | line
  | sharp
  | block
  | blockStar
  | blockSlash
  | str (q : Char) (st : List Char) (acc : Str)
  | drop (q : Char) (st : List Char) (acc : Str)
  deriving DecidableEq, Repr

/-- One step: next mode and tokens produced, or rejection near a string. -/
inductive Step where
  | go (m : Mode) (out : List Str)
  | bad (near : Str)
  deriving DecidableEq, Repr

/-- `appendToken`. -/
def flush (tok : Str) : List Str := if tok = [] then [] else [tok]

/-- Second part of the loop body. -/
def step2 (d : Rdbms) (tok : Str) (c : Char) : Step :=
  if c = '"' then .go (.str '"' [] ['"']) (flush tok)
  else if c = '\'' then .go (.str '\'' [] ['\'']) (flush tok)
  else if c = '`' then
    if d = .postgres then .bad ['`'] else .go (.str '`' [] ['`']) (flush tok)
  else if c = '#' then
    if d = .mysql then .go .sharp (flush tok) else .go (.top (tok ++ ['#'])) []
  else if c = ' ' ∨ c = '\t' then .go (.top []) (flush tok)
  else if c = '\n' then .go (.top []) (flush tok ++ [nl])
  else if isSymbol c then .go (.top []) (flush tok ++ [[c]])
  else if c = Char.ofNat 0x3000 then .bad [c]
  else .go (.top (tok ++ [c])) []

/-- Closing the innermost quote. -/
def close (st : List Char) (acc : Str) : Mode × List Str :=
  match st with
  | [] => (.top [], [acc])
  | q :: st => (.drop q st acc, [])

/-- One character. -/
def step (d : Rdbms) : Mode → Char → Step
  | .top tok, c =>
    if c = '-' then .go (.hyphen tok) []
    else if c = '/' then .go (.slash tok) []
    else if c = '*' then .go (.star tok) []
    else step2 d tok c
  | .p2 tok, c => step2 d tok c
  | .hyphen tok, c =>
    if c = '-' then .go .line (flush tok) else step2 d (tok ++ ['-']) c
  | .slash tok, c =>
    if c = '*' then .go .block (flush tok) else step2 d (tok ++ ['/']) c
  | .star tok, c =>
    if c = '/' then .bad ['*'] else step2 d (tok ++ ['*']) c
  | .line, c => if c = '\n' then .go (.p2 []) [nl] else .go .line []
  | .sharp, c => if c = '\n' then .go (.top []) [nl] else .go .sharp []
  | .block, c =>
    if c = '\n' then .go .block [nl]
    else if c = '*' then .go .blockStar []
    else if c = '/' then .go .blockSlash []
    else .go .block []
  | .blockStar, c => if c = '/' then .go (.p2 []) [] else .go .block []
  | .blockSlash, _ => .go .block []
  | .str q st acc, c =>
    if c = '\n' then .go (.str q st acc) [nl]
    else if c = q then .go (close st (acc ++ [c])).1 (close st (acc ++ [c])).2
    else if isQuote c then .go (.str c (q :: st) (acc ++ [c])) []
    else .go (.str q st (acc ++ [c])) []
  | .drop q st acc, _ => .go (.str q st acc) []

/-- At the end of the text: the last token, or rejection. -/
def final : Mode → Option (List Str)
  | .top tok => some (flush tok)
  | .p2 tok => some (flush tok)
  | .hyphen tok => some (flush (tok ++ ['-']))
  | .slash tok => some (flush (tok ++ ['/']))
  | .star tok => some (flush (tok ++ ['*']))
  | .line => some []
  | .sharp => some []
  | _ => none

/-- The whole text: `l` is the current line, `r` the tokens so far. -/
def scan (d : Rdbms) : Mode → List Char → Nat → List Str → Out
  | m, [], l, r =>
    match final m with
    | some o => .ok (r ++ o)
    | none => .err ⟨l, EOF⟩
  | m, c :: cs, l, r =>
    match step d m c with
    | .go m' o => scan d m' cs (l + nls o) (r ++ o)
    | .bad t => .err ⟨l, t⟩

/-! ### The model's loops in terms of the transducer -/

theorem bind_def (f : LM α) (g : α → LM β) (s : LS) :
    (f >>= g) s = match f s with
      | .ok a s' => g a s'
      | .fail e s' => .fail e s'
      | .panic => .panic
      | .timeout => .timeout := rfl

theorem pure_def (a : α) (s : LS) : (pure a : LM α) s = .ok a s := rfl

theorem ite_def (c : Prop) [Decidable c] (f g : LM α) (s : LS) :
    (if c then f else g) s = if c then f s else g s := by split <;> rfl

theorem appendToken_def (t : Str) (s : LS) :
    appendToken t s = .ok () { s with result := s.result ++ flush t } := by
  unfold appendToken flush; split <;> simp_all

theorem nls_flush (tok : Str) (h : tok ≠ nl) : nls (flush tok) = 0 := by
  unfold flush; split
  · rfl
  · simp [nls, h]

theorem skipCommentLoop_nil (n l r) : skipCommentLoop (n + 1) ⟨[], l, r⟩ = .ok () ⟨[], l, r⟩ := by
  unfold skipCommentLoop; rfl

theorem skipCommentLoop_cons (n c cs l r) : skipCommentLoop (n + 1) ⟨c :: cs, l, r⟩ =
    if c = '\n' then .ok () ⟨cs, l + 1, r ++ [nl]⟩ else skipCommentLoop n ⟨cs, l, r⟩ := by
  conv => lhs; unfold skipCommentLoop
  by_cases h : c = '\n'
  · subst h; rfl
  · simp only [bind_def, isOutOfRange, char, ite_def, List.isEmpty_cons, List.head?_cons,
      Option.some.injEq, h, if_false, Bool.false_eq_true, Lex.next, List.tail_cons]

/-- A line comment, read up to its newline or the end of the text. -/
theorem skipCommentLoop_spec (d : Rdbms) (n cs l r) (h : cs.length < n) :
    ∃ s', skipCommentLoop n ⟨cs, l, r⟩ = .ok () s' ∧ s'.rest.length ≤ cs.length ∧
      scan d .line cs l r = scan d (.p2 []) s'.rest s'.line s'.result ∧
      scan d .sharp cs l r = scan d (.top []) s'.rest s'.line s'.result := by
  induction n generalizing cs l r with
  | zero => omega
  | succ n ih =>
    cases cs with
    | nil => exact ⟨_, skipCommentLoop_nil .., by simp, rfl, rfl⟩
    | cons c cs =>
      rw [skipCommentLoop_cons]
      by_cases hc : c = '\n'
      · subst hc
        exact ⟨_, if_pos rfl, by simp, rfl, rfl⟩
      · rw [if_neg hc]
        obtain ⟨s', h1, h2, h3, h4⟩ := ih cs l r (by simpa using h)
        refine ⟨s', h1, by simp; omega, ?_, ?_⟩
        · rw [← h3]; simp [scan, step, hc, nls]
        · rw [← h4]; simp [scan, step, hc, nls]

theorem skipMultiLoop_nil (n l r) :
    skipMultiLoop (n + 1) ⟨[], l, r⟩ = .fail ⟨l, EOF⟩ ⟨[], l, r⟩ := by
  unfold skipMultiLoop; rfl

theorem skipMultiLoop_cons (n c cs l r) : skipMultiLoop (n + 1) ⟨c :: cs, l, r⟩ =
    if c = '\n' then skipMultiLoop n ⟨cs, l + 1, r ++ [nl]⟩
    else if c = '*' then
      if cs.head? = some '/' then .ok () ⟨cs.tail, l, r⟩ else skipMultiLoop n ⟨cs.tail, l, r⟩
    else if c = '/' then skipMultiLoop n ⟨cs.tail, l, r⟩
    else skipMultiLoop n ⟨cs, l, r⟩ := by
  conv => lhs; unfold skipMultiLoop
  by_cases h : c = '\n'
  · subst h; rfl
  by_cases h1 : c = '*'
  · subst h1
    simp only [bind_def, isOutOfRange, char, ite_def, List.isEmpty_cons, List.head?_cons,
      Option.some.injEq, h, if_false, Bool.false_eq_true, Lex.next, List.tail_cons, if_true]
  by_cases h2 : c = '/'
  · subst h2
    simp only [bind_def, isOutOfRange, char, ite_def, List.isEmpty_cons, List.head?_cons,
      Option.some.injEq, h, h1, if_false, Bool.false_eq_true, Lex.next, List.tail_cons, if_true,
      ite_self]
  · simp only [bind_def, isOutOfRange, char, ite_def, List.isEmpty_cons, List.head?_cons,
      Option.some.injEq, h, h1, h2, if_false, Bool.false_eq_true, Lex.next, List.tail_cons]

/-- A block comment. -/
theorem skipMultiLoop_spec (d : Rdbms) (n cs l r) (h : cs.length < n) :
    (∃ s', skipMultiLoop n ⟨cs, l, r⟩ = .ok () s' ∧ s'.rest.length ≤ cs.length ∧
      scan d .block cs l r = scan d (.p2 []) s'.rest s'.line s'.result) ∨
    (∃ e s', skipMultiLoop n ⟨cs, l, r⟩ = .fail e s' ∧ scan d .block cs l r = .err e) := by
  induction n generalizing cs l r with
  | zero => omega
  | succ n ih =>
    cases cs with
    | nil => exact .inr ⟨_, _, skipMultiLoop_nil .., rfl⟩
    | cons c cs =>
      rw [skipMultiLoop_cons]
      have hl : cs.length < n := by simpa using h
      have hl' : cs.tail.length < n := by rw [List.length_tail]; omega
      by_cases hc : c = '\n'
      · subst hc
        rw [if_pos rfl]
        have hs : scan d .block ('\n' :: cs) l r = scan d .block cs (l + 1) (r ++ [nl]) := rfl
        rw [hs]
        rcases ih cs (l + 1) (r ++ [nl]) hl with ⟨s', h1, h2, h3⟩ | ⟨e, s', h1, h2⟩
        · exact .inl ⟨s', h1, by simp; omega, h3⟩
        · exact .inr ⟨e, s', h1, h2⟩
      rw [if_neg hc]
      by_cases h1 : c = '*'
      · subst h1
        rw [if_pos rfl]
        by_cases h2 : cs.head? = some '/'
        · rw [if_pos h2]
          obtain ⟨cs', rfl⟩ : ∃ cs', cs = '/' :: cs' := by
            cases cs with
            | nil => simp at h2
            | cons a b => simp at h2; exact ⟨b, by rw [h2]⟩
          exact .inl ⟨_, rfl, by simp; omega, by simp [scan, step, nls]⟩
        · rw [if_neg h2]
          have hs : scan d .block ('*' :: cs) l r = scan d .block cs.tail l r := by
            cases cs with
            | nil => simp [scan, step, final, nls]
            | cons a b => simp at h2; simp [scan, step, nls, h2]
          rw [hs]
          rcases ih cs.tail l r hl' with ⟨s', h1, h2, h3⟩ | ⟨e, s', h1, h2⟩
          · exact .inl ⟨s', h1, by simp at h2 ⊢; omega, h3⟩
          · exact .inr ⟨e, s', h1, h2⟩
      rw [if_neg h1]
      by_cases h2 : c = '/'
      · subst h2
        rw [if_pos rfl]
        have hs : scan d .block ('/' :: cs) l r = scan d .block cs.tail l r := by
          cases cs with
          | nil => simp [scan, step, final, nls]
          | cons a b => simp [scan, step, nls]
        rw [hs]
        rcases ih cs.tail l r hl' with ⟨s', h1, h2, h3⟩ | ⟨e, s', h1, h2⟩
        · exact .inl ⟨s', h1, by simp at h2 ⊢; omega, h3⟩
        · exact .inr ⟨e, s', h1, h2⟩
      · rw [if_neg h2]
        have hs : scan d .block (c :: cs) l r = scan d .block cs l r := by
          simp [scan, step, nls, hc, h1, h2]
        rw [hs]
        rcases ih cs l r hl with ⟨s', h1, h2, h3⟩ | ⟨e, s', h1, h2⟩
        · exact .inl ⟨s', h1, by simp; omega, h3⟩
        · exact .inr ⟨e, s', h1, h2⟩

theorem lexStringLoop_nil (n q str l r) :
    lexStringLoop (n + 1) q str ⟨[], l, r⟩ = .fail ⟨l, EOF⟩ ⟨[], l, r⟩ := by
  unfold lexStringLoop; rfl

theorem lexStringLoop_cons (n q str c cs l r) : lexStringLoop (n + 1) q str ⟨c :: cs, l, r⟩ =
    if c = '\n' then lexStringLoop n q str ⟨cs, l + 1, r ++ [nl]⟩
    else if c = q then .ok (str ++ [c]) ⟨cs, l, r⟩
    else if isQuote c then
      match lexStringLoop n c [c] ⟨cs, l, r⟩ with
      | .ok a s' => lexStringLoop n q (str ++ a) ⟨s'.rest.tail, s'.line, s'.result⟩
      | .fail e s' => .fail e s'
      | .panic => .panic
      | .timeout => .timeout
    else lexStringLoop n q (str ++ [c]) ⟨cs, l, r⟩ := by
  conv => lhs; unfold lexStringLoop
  by_cases h : c = '\n'
  · subst h; rfl
  by_cases h1 : c = q
  · simp only [bind_def, isOutOfRange, char, ite_def, List.isEmpty_cons, List.head?_cons,
      h, h1, if_false, Bool.false_eq_true, Lex.next, List.tail_cons, if_true]
    subst h1
    simp only [bind_def, h, if_false, if_true, Lex.next, ite_def]; rfl
  by_cases h2 : isQuote c
  · simp only [bind_def, isOutOfRange, char, ite_def, List.isEmpty_cons, List.head?_cons,
      h, h1, h2, if_false, Bool.false_eq_true, Lex.next, List.tail_cons, if_true]
    cases lexStringLoop n c [c] { rest := cs, line := l, result := r } <;> rfl
  · simp only [bind_def, isOutOfRange, char, ite_def, List.isEmpty_cons, List.head?_cons,
      h, h1, h2, if_false, Bool.false_eq_true, Lex.next, List.tail_cons]

theorem scan_close (d : Rdbms) (st acc cs l r) :
    scan d (close st acc).1 cs (l + nls (close st acc).2) (r ++ (close st acc).2) =
      match st with
      | [] => scan d (.top []) cs (l + nls [acc]) (r ++ [acc])
      | q :: st => scan d (.drop q st acc) cs l r := by
  cases st with
  | nil => rfl
  | cons q st => simp [close, nls]

/-- A string. -/
theorem lexStringLoop_spec (d : Rdbms) (n q str cs l r) (h : cs.length < n) :
    (∃ str' s', lexStringLoop n q str ⟨cs, l, r⟩ = .ok str' s' ∧ s'.rest.length < cs.length ∧
      (∃ x, str' = str ++ x ++ [q]) ∧
      ∀ st pre, scan d (.str q st (pre ++ str)) cs l r =
        scan d (close st (pre ++ str')).1 s'.rest (s'.line + nls (close st (pre ++ str')).2)
          (s'.result ++ (close st (pre ++ str')).2)) ∨
    (∃ e s', lexStringLoop n q str ⟨cs, l, r⟩ = .fail e s' ∧
      ∀ st pre, scan d (.str q st (pre ++ str)) cs l r = .err e) := by
  induction n generalizing q str cs l r with
  | zero => omega
  | succ n ih =>
    cases cs with
    | nil => exact .inr ⟨_, _, lexStringLoop_nil .., fun _ _ => rfl⟩
    | cons c cs =>
      rw [lexStringLoop_cons]
      have hl : cs.length < n := by simpa using h
      by_cases hc : c = '\n'
      · subst hc
        rw [if_pos rfl]
        have hs : ∀ st acc, scan d (.str q st acc) ('\n' :: cs) l r =
            scan d (.str q st acc) cs (l + 1) (r ++ [nl]) := fun _ _ => rfl
        simp only [hs]
        rcases ih q str cs (l + 1) (r ++ [nl]) hl with ⟨str', s', h1, h2, h3⟩ | ⟨e, s', h1, h2⟩
        · exact .inl ⟨str', s', h1, by simp; omega, h3⟩
        · exact .inr ⟨e, s', h1, h2⟩
      rw [if_neg hc]
      by_cases h1 : c = q
      · rw [if_pos h1]
        refine .inl ⟨_, _, rfl, by simp, ⟨[], by simp [h1]⟩, ?_⟩
        intro st pre
        conv => lhs; unfold scan
        simp only [step, hc, h1, if_false, if_true, List.append_assoc]
        subst h1
        simp only [hc, if_false, if_true]
      rw [if_neg h1]
      by_cases h2 : isQuote c
      · rw [if_pos h2]
        have hs : ∀ st acc, scan d (.str q st acc) (c :: cs) l r =
            scan d (.str c (q :: st) (acc ++ [c])) cs l r := by
          intro st acc
          conv => lhs; unfold scan
          simp only [step, hc, h1, h2, if_false, if_true, nls, List.count_nil, Nat.add_zero,
            List.append_nil]
        simp only [hs]
        rcases ih c [c] cs l r hl with ⟨str', s', g1, g2, _, g4⟩ | ⟨e, s', g1, g2⟩
        · rw [g1]
          have hd : ∀ st acc, scan d (.drop q st acc) s'.rest s'.line s'.result =
              scan d (.str q st acc) s'.rest.tail s'.line s'.result := by
            intro st acc
            cases hr : s'.rest with
            | nil => rfl
            | cons a b => simp [scan, step, nls]
          have hlt : s'.rest.tail.length < n := by rw [List.length_tail]; omega
          have key : ∀ st pre, scan d (.str c (q :: st) (pre ++ str ++ [c])) cs l r =
              scan d (.str q st (pre ++ (str ++ str'))) s'.rest.tail s'.line s'.result := by
            intro st pre
            rw [g4 (q :: st) (pre ++ str), scan_close]
            simp only []
            rw [hd, List.append_assoc]
          simp only [key]
          rcases ih q (str ++ str') s'.rest.tail s'.line s'.result hlt with
            ⟨str2, s2, k1, k2, ⟨x, k3⟩, k4⟩ | ⟨e, s2, k1, k2⟩
          · refine .inl ⟨str2, s2, k1, ?_, ⟨str' ++ x, by rw [k3]; simp⟩, k4⟩
            rw [List.length_tail] at k2; simp; omega
          · exact .inr ⟨e, s2, k1, k2⟩
        · rw [g1]
          exact .inr ⟨e, s', rfl, fun st pre => g2 (q :: st) (pre ++ str)⟩
      · rw [if_neg h2]
        have hs : ∀ st acc, scan d (.str q st acc) (c :: cs) l r =
            scan d (.str q st (acc ++ [c])) cs l r := by
          intro st acc
          conv => lhs; unfold scan
          simp only [step, hc, h1, h2, if_false, nls, List.count_nil, Nat.add_zero,
            List.append_nil, Bool.false_eq_true]
        simp only [hs]
        rcases ih q (str ++ [c]) cs l r hl with ⟨str', s', g1, g2, ⟨x, g3⟩, g4⟩ | ⟨e, s', g1, g2⟩
        · refine .inl ⟨str', s', g1, by simp; omega, ⟨[c] ++ x, by rw [g3]; simp⟩, ?_⟩
          intro st pre; rw [← g4]; simp
        · refine .inr ⟨e, s', g1, ?_⟩
          intro st pre; rw [← g2 st pre]; simp

/-- The outcome of a run of the main loop. -/
def toOut : Res LS Unit → Out
  | .ok _ s => .ok s.result
  | .fail e _ => .err e
  | .panic => .panic
  | .timeout => .timeout

theorem lexSpace_def (tok : Str) (s : LS) :
    lexSpace tok s = .ok [] ⟨s.rest.tail, s.line, s.result ++ flush tok⟩ := by
  simp only [lexSpace, bind_def, appendToken_def, Lex.next, pure_def]

theorem lexEOL_def (tok : Str) (s : LS) :
    lexEOL tok s = .ok [] ⟨s.rest.tail, s.line + 1, s.result ++ flush tok ++ [nl]⟩ := by
  simp only [lexEOL, bind_def, appendToken_def, Lex.next, pure_def, incLine]; rfl

theorem lexSymbol_def (c : Char) (tok : Str) (s : LS) :
    lexSymbol c tok s = .ok [] ⟨s.rest.tail, s.line, s.result ++ flush tok ++ [[c]]⟩ := by
  simp only [lexSymbol, bind_def, appendToken_def, Lex.next, pure_def]; rfl

/-- `phase2` on character `c` does what `step2` says. -/
theorem phase2_spec (d : Rdbms) (n tok c cs l r) (h : cs.length < n) (ht : '\n' ∉ tok) :
    (∃ tok' s', phase2 d n c tok ⟨c :: cs, l, r⟩ = .ok tok' s' ∧ s'.rest.length ≤ cs.length ∧
      '\n' ∉ tok' ∧
      scan d (.p2 tok) (c :: cs) l r = scan d (.top tok') s'.rest s'.line s'.result) ∨
    (∃ e s', phase2 d n c tok ⟨c :: cs, l, r⟩ = .fail e s' ∧
      scan d (.p2 tok) (c :: cs) l r = .err e) := by
  have hnl : nls (flush tok) = 0 := nls_flush tok (by rintro rfl; exact ht (by decide))
  have hscan : scan d (.p2 tok) (c :: cs) l r = match step2 d tok c with
      | .go m' o => scan d m' cs (l + nls o) (r ++ o)
      | .bad t => .err ⟨l, t⟩ := rfl
  -- strings
  have hq : ∀ q, isQuote q = true → 
      (∃ tok' s', lexQuote n q tok ⟨c :: cs, l, r⟩ = .ok tok' s' ∧ s'.rest.length ≤ cs.length ∧
        '\n' ∉ tok' ∧
        scan d (.str q [] [q]) cs l (r ++ flush tok) =
          scan d (.top tok') s'.rest s'.line s'.result) ∨
      (∃ e s', lexQuote n q tok ⟨c :: cs, l, r⟩ = .fail e s' ∧
        scan d (.str q [] [q]) cs l (r ++ flush tok) = .err e) := by
    intro q hq
    have e1 : lexQuote n q tok ⟨c :: cs, l, r⟩ =
        match lexStringLoop n q [q] ⟨cs, l, r ++ flush tok⟩ with
        | .ok a s' => .ok [] { s' with result := s'.result ++ flush a }
        | .fail e s' => .fail e s'
        | .panic => .panic
        | .timeout => .timeout := by
      simp only [lexQuote, lexString, bind_def, appendToken_def, Lex.next, List.tail_cons, pure_def]
      cases lexStringLoop n q [q] { rest := cs, line := l, result := r ++ flush tok } <;> rfl
    rw [e1]
    rcases lexStringLoop_spec d n q [q] cs l (r ++ flush tok) h with
      ⟨str', s', h1, h2, ⟨x, h3⟩, h4⟩ | ⟨e, s', h1, h2⟩
    · rw [h1]
      refine .inl ⟨_, _, rfl, by simp; omega, by simp, ?_⟩
      have := h4 [] []
      rw [List.nil_append] at this
      rw [this, scan_close]
      have hne : str' ≠ nl := by
        rw [h3]; intro h
        have := congrArg List.length h
        simp [nl] at this
      have hf : flush str' = [str'] := by
        unfold flush; rw [if_neg]; rw [h3]; simp
      simp [hf, nls, hne]
    · rw [h1]
      refine .inr ⟨e, s', rfl, ?_⟩
      have := h2 [] []
      rwa [List.nil_append] at this
  rw [hscan]
  unfold phase2 step2
  by_cases c1 : c = '"'
  · simp only [c1, if_true]
    rw [← c1, hnl]
    have := hq c (by rw [c1]; rfl)
    simpa using this
  simp only [c1, if_false]
  by_cases c2 : c = '\''
  · simp only [c2, if_true]
    rw [← c2, hnl]
    have := hq c (by rw [c2]; rfl)
    simpa using this
  simp only [c2, if_false]
  by_cases c3 : c = '`'
  · simp only [c3, if_true, lexBackQuote]
    by_cases hd : d = .postgres
    · simp only [hd, if_true, lexError]
      exact .inr ⟨_, _, rfl, rfl⟩
    · simp only [hd, if_false]
      rw [← c3, hnl]
      have := hq c (by rw [c3]; rfl)
      simpa using this
  simp only [c3, if_false]
  by_cases c4 : c = '#'
  · simp only [c4, if_true, lexSharp]
    by_cases hd : d = .mysql
    · simp only [hd, if_true, bind_def, appendToken_def, skipComment, Lex.next, List.tail_cons]
      obtain ⟨s', h1, h2, _, h4⟩ := skipCommentLoop_spec d n cs l (r ++ flush tok) h
      rw [h1, hnl]
      rw [hd] at h4
      exact .inl ⟨_, _, rfl, h2, by simp, h4⟩
    · simp only [hd, if_false]
      refine .inl ⟨_, _, rfl, by simp, ?_, by simp [nls]⟩
      simp [ht]
  simp only [c4, if_false]
  by_cases c5 : c = ' ' ∨ c = '\t'
  · simp only [c5, if_true, lexSpace_def]
    exact .inl ⟨_, _, rfl, by simp, by simp, by simp [hnl]⟩
  simp only [c5, if_false]
  by_cases c6 : c = '\n'
  · simp only [c6, if_true, lexEOL_def]
    refine .inl ⟨_, _, rfl, by simp, by simp, ?_⟩
    rw [nls_append, hnl, List.append_assoc]; simp [nls]
  simp only [c6, if_false]
  by_cases c7 : isSymbol c = true
  · simp only [c7, if_true, lexSymbol_def]
    refine .inl ⟨_, _, rfl, by simp, by simp, ?_⟩
    have hne : [c] ≠ nl := by simpa [nl] using c6
    rw [nls_append, hnl, List.append_assoc]; simp [nls, hne]
  simp only [c7, if_false, Bool.false_eq_true]
  by_cases c8 : c = Char.ofNat 0x3000
  · simp only [c8, if_true]
    exact .inr ⟨_, _, rfl, rfl⟩
  simp only [c8, if_false]
  refine .inl ⟨_, _, rfl, by simp, ?_, by simp [nls]⟩
  simp only [List.mem_append, ht, List.mem_singleton, false_or]
  exact fun h => c6 h.symm

/-- `phase1` does what the modes `top`, `hyphen`, `slash`, `star` say, up to the second part. -/
theorem phase1_spec (d : Rdbms) (n tok cs l r) (h : cs.length ≤ n) (ht : '\n' ∉ tok) :
    (∃ tok' s', phase1 n tok ⟨cs, l, r⟩ = .ok tok' s' ∧ s'.rest.length ≤ cs.length ∧
      '\n' ∉ tok' ∧
      scan d (.top tok) cs l r = scan d (.p2 tok') s'.rest s'.line s'.result) ∨
    (∃ e s', phase1 n tok ⟨cs, l, r⟩ = .fail e s' ∧ scan d (.top tok) cs l r = .err e) := by
  have hnl : nls (flush tok) = 0 := nls_flush tok (by rintro rfl; exact ht (by decide))
  cases cs with
  | nil => exact .inl ⟨tok, _, rfl, by simp, ht, rfl⟩
  | cons c cs =>
    have hl : cs.length < n := h
    have hl' : cs.tail.length < n := by rw [List.length_tail]; omega
    by_cases c1 : c = '-'
    · subst c1
      have hp : phase1 n tok ⟨'-' :: cs, l, r⟩ = if cs.head? = some '-' then
          (match skipCommentLoop n ⟨cs.tail, l, r ++ flush tok⟩ with
            | .ok _ s' => .ok [] s'
            | .fail e s' => .fail e s'
            | .panic => .panic
            | .timeout => .timeout) else .ok (tok ++ ['-']) ⟨cs, l, r⟩ := by
        simp only [phase1, bind_def, char, List.head?_cons, if_true, ite_def, lexHyphen,
          Lex.next, List.tail_cons, appendToken_def, skipComment, pure_def]
        cases skipCommentLoop n { rest := cs.tail, line := l, result := r ++ flush tok } <;> rfl
      rw [hp]
      by_cases h2 : cs.head? = some '-'
      · obtain ⟨cs, rfl⟩ : ∃ cs', cs = '-' :: cs' := by
          cases cs with
          | nil => simp at h2
          | cons a b => simp at h2; exact ⟨b, by rw [h2]⟩
        rw [if_pos h2]
        obtain ⟨s', h1, h2, h3, _⟩ := skipCommentLoop_spec d n cs l (r ++ flush tok) hl'
        simp only [List.tail_cons]
        rw [h1]
        refine .inl ⟨_, _, rfl, by simp; omega, by simp, ?_⟩
        rw [← h3]
        simp [scan, step, hnl, show nls [] = 0 from rfl]
      · rw [if_neg h2]
        refine .inl ⟨_, _, rfl, by simp, by simp [ht], ?_⟩
        cases cs with
        | nil => simp [scan, step, final, nls]
        | cons a b =>
          simp at h2
          simp [scan, step, h2, nls]
    by_cases c2 : c = '/'
    · subst c2
      have hp : phase1 n tok ⟨'/' :: cs, l, r⟩ = if cs.head? = some '*' then
          (match skipMultiLoop n ⟨cs.tail, l, r ++ flush tok⟩ with
            | .ok _ s' => .ok [] s'
            | .fail e s' => .fail e s'
            | .panic => .panic
            | .timeout => .timeout) else .ok (tok ++ ['/']) ⟨cs, l, r⟩ := by
        simp only [phase1, bind_def, char, List.head?_cons, if_true, ite_def, lexSlash,
          Lex.next, List.tail_cons, appendToken_def, skipMultiLineComment, pure_def,
          Option.some.injEq, c1, if_false]
        cases skipMultiLoop n { rest := cs.tail, line := l, result := r ++ flush tok } <;> rfl
      rw [hp]
      by_cases h2 : cs.head? = some '*'
      · obtain ⟨cs, rfl⟩ : ∃ cs', cs = '*' :: cs' := by
          cases cs with
          | nil => simp at h2
          | cons a b => simp at h2; exact ⟨b, by rw [h2]⟩
        rw [if_pos h2]
        have hs : scan d (.top tok) ('/' :: '*' :: cs) l r =
            scan d .block cs l (r ++ flush tok) := by
          simp [scan, step, hnl, show nls [] = 0 from rfl]
        rw [hs]
        simp only [List.tail_cons]
        rcases skipMultiLoop_spec d n cs l (r ++ flush tok) hl' with ⟨s', h1, h2, h3⟩ | ⟨e, s', h1, h2⟩
        · rw [h1]
          exact .inl ⟨_, _, rfl, by simp; omega, by simp, h3⟩
        · rw [h1]
          exact .inr ⟨_, _, rfl, h2⟩
      · rw [if_neg h2]
        refine .inl ⟨_, _, rfl, by simp, by simp [ht], ?_⟩
        cases cs with
        | nil => simp [scan, step, final, nls]
        | cons a b =>
          simp at h2
          simp [scan, step, h2, nls]
    by_cases c3 : c = '*'
    · subst c3
      have hp : phase1 n tok ⟨'*' :: cs, l, r⟩ = if cs.head? = some '/' then
          .fail ⟨l, ['*']⟩ ⟨'*' :: cs, l, r⟩ else .ok (tok ++ ['*']) ⟨cs, l, r⟩ := by
        simp only [phase1, bind_def, char, List.head?_cons, if_true, ite_def, lexAsterisk,
          Lex.next, List.tail_cons, pure_def, Option.some.injEq, c1, c2, if_false]
        by_cases h2 : cs.head? = some '/'
        · rw [if_pos h2]
          exact congrFun (if_pos h2 : (if cs.head? = some '/'
            then (fun _ => lexError ⟨'*' :: cs, l, r⟩ : LM Str) else LM.pure (tok ++ ['*'])) = _) _
        · rw [if_neg h2]
          exact congrFun (if_neg h2 : (if cs.head? = some '/'
            then (fun _ => lexError ⟨'*' :: cs, l, r⟩ : LM Str) else LM.pure (tok ++ ['*'])) = _) _
      rw [hp]
      by_cases h2 : cs.head? = some '/'
      · obtain ⟨cs, rfl⟩ : ∃ cs', cs = '/' :: cs' := by
          cases cs with
          | nil => simp at h2
          | cons a b => simp at h2; exact ⟨b, by rw [h2]⟩
        rw [if_pos h2]
        exact .inr ⟨_, _, rfl, by simp [scan, step, nls]⟩
      · rw [if_neg h2]
        refine .inl ⟨_, _, rfl, by simp, by simp [ht], ?_⟩
        cases cs with
        | nil => simp [scan, step, final, nls]
        | cons a b =>
          simp at h2
          simp [scan, step, h2, nls]
    · have hp : phase1 n tok ⟨c :: cs, l, r⟩ = .ok tok ⟨c :: cs, l, r⟩ := by
        simp only [phase1, bind_def, char, List.head?_cons, ite_def, Option.some.injEq, c1, c2, c3,
          if_false, pure_def]
      rw [hp]
      refine .inl ⟨_, _, rfl, by simp, ht, ?_⟩
      simp [scan, step, c1, c2, c3]

/-- The main loop computes `scan`. -/
theorem lexLoop_spec (d : Rdbms) (n tok cs l r) (h : cs.length < n) (ht : '\n' ∉ tok) :
    toOut (lexLoop d n tok ⟨cs, l, r⟩) = scan d (.top tok) cs l r := by
  induction n generalizing tok cs l r with
  | zero => omega
  | succ n ih =>
    cases cs with
    | nil =>
      unfold lexLoop
      simp only [bind_def, isOutOfRange, ite_def, List.isEmpty_nil, if_true, appendToken_def]
      rfl
    | cons c cs =>
      unfold lexLoop
      simp only [bind_def, isOutOfRange, ite_def, List.isEmpty_cons, if_false, Bool.false_eq_true]
      rcases phase1_spec d n tok (c :: cs) l r (by simp at h ⊢; omega) ht with
        ⟨tok', s', h1, h2, h3, h4⟩ | ⟨e, s', h1, h2⟩
      · rw [h1, h4]
        obtain ⟨cs', l', r'⟩ := s'
        cases cs' with
        | nil =>
          simp only [char, List.head?_nil, appendToken_def]; rfl
        | cons c' cs' =>
          simp only [char, List.head?_cons]
          have hlt : cs'.length < n := by simp at h2 h; omega
          simp only [bind_def]
          rcases phase2_spec d n tok' c' cs' l' r' hlt h3 with
            ⟨tok2, s2, k1, k2, k3, k4⟩ | ⟨e, s2, k1, k2⟩
          · rw [k1, k4]
            exact ih tok2 s2.rest s2.line s2.result (by omega) k3
          · rw [k1, k2]; rfl
      · rw [h1, h2]; rfl

/-- The lexer is the transducer, for every text, as soon as the fuel exceeds its length. -/
theorem lexN_eq_scan (d : Rdbms) (n : Nat) (ddl : List Char) (h : ddl.length < n) :
    lexN d n ddl = scan d (.top []) ddl 1 [] := by
  rw [← lexLoop_spec d n [] ddl 1 [] h (by simp)]
  unfold lexN toOut init
  rfl

end DDL.Lex
