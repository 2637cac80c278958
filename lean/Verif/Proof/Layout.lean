import Verif.Proof.ErrFacts
/-
Facts about lexeme sequences: what does not matter, where lines are.
-/

namespace DDL
open Spec

theorem lexes_lexemes {d : Rdbms} {ls : List Lexeme} (h : WellFormed d ls) :
    Lexes d (srcOf ls) (toksOf ls) := lexes_iff.2 (Lex.scan_lexemes h)

theorem toksOf_append (a b : List Lexeme) : toksOf (a ++ b) = toksOf a ++ toksOf b := by
  simp [toksOf]

theorem srcOf_append (a b : List Lexeme) : srcOf (a ++ b) = srcOf a ++ srcOf b := by
  simp [srcOf]

theorem strip_part (p : Part) : strip p.toks = [] := by
  cases p with
  | ch c => simp only [Part.toks]; split <;> simp [strip]
  | _ => rfl

theorem strip_parts (ps : List Part) : strip (ps.flatMap Part.toks) = [] := by
  induction ps with
  | nil => rfl
  | cons p ps ih => rw [List.flatMap_cons, strip_append, strip_part, ih]; rfl

/-- Lexemes that stand for nothing but newlines. -/
theorem strip_silent {l : Lexeme} (h : l.isLayout = true ∨ l.isAnyComment = true) :
    strip l.toks = [] := by
  cases l with
  | block ps => exact strip_parts ps
  | space => rfl
  | tab => rfl
  | newline => simp [Lexeme.toks, strip]
  | line _ => simp [Lexeme.toks, strip]
  | sharp _ => simp [Lexeme.toks, strip]
  | punct c => simp [Lexeme.isLayout, Lexeme.isAnyComment] at h
  | word w => simp [Lexeme.isLayout, Lexeme.isAnyComment] at h
  | quoted q b => simp [Lexeme.isLayout, Lexeme.isAnyComment] at h

theorem strip_filter {p : Lexeme → Bool} (hp : ∀ l, p l = false → strip l.toks = [])
    (ls : List Lexeme) : strip (toksOf (ls.filter p)) = strip (toksOf ls) := by
  induction ls with
  | nil => rfl
  | cons l ls ih =>
    have hc : toksOf (l :: ls) = l.toks ++ toksOf ls := by simp [toksOf]
    cases h : p l with
    | true =>
      rw [List.filter_cons_of_pos h]
      have hc' : toksOf (l :: ls.filter p) = l.toks ++ toksOf (ls.filter p) := by simp [toksOf]
      rw [hc, hc', strip_append, strip_append, ih]
    | false =>
      rw [List.filter_cons_of_neg (by simp [h]), hc, strip_append, hp l h, ih]; rfl

/-- A lexeme's tokens are newlines followed by at most one other token. -/
theorem lexeme_toks {d : Rdbms} {l : Lexeme} (hl : l.Ok d) :
    ∃ k, l.toks = List.replicate k nl ∨ ∃ t, t ≠ nl ∧ l.toks = List.replicate k nl ++ [t] := by
  cases l with
  | space => exact ⟨0, .inl rfl⟩
  | tab => exact ⟨0, .inl rfl⟩
  | newline => exact ⟨1, .inl rfl⟩
  | punct c =>
    refine ⟨0, .inr ⟨[c], ?_, rfl⟩⟩
    intro e
    have : c = '\n' := by simpa [nl] using e
    subst this
    revert hl; simp [Lexeme.Ok, puncts]
  | word w =>
    refine ⟨0, .inr ⟨w, ?_, rfl⟩⟩
    rintro rfl
    exact hl.2.1 '\n' (by simp [nl]) (by simp [nonWord])
  | quoted q b =>
    refine ⟨b.count '\n', .inr ⟨_, ?_, rfl⟩⟩
    intro e
    have := congrArg List.length e
    simp [nl] at this
  | line _ => exact ⟨1, .inl rfl⟩
  | sharp _ => exact ⟨1, .inl rfl⟩
  | block ps =>
    refine ⟨(ps.flatMap Part.toks).length, .inl ?_⟩
    simp only [Lexeme.toks]
    rw [List.eq_replicate_iff]
    refine ⟨rfl, fun t ht => ?_⟩
    apply Classical.byContradiction
    intro hne
    have : t ∈ strip (ps.flatMap Part.toks) := by simp [strip, ht, hne]
    rw [strip_parts] at this; cases this

theorem append_split {a b pre r : List Str} {t : Str} (h : a ++ b = pre ++ t :: r) :
    (∃ r', a = pre ++ t :: r') ∨ ∃ pre', pre = a ++ pre' ∧ b = pre' ++ t :: r := by
  induction a generalizing pre with
  | nil => exact .inr ⟨pre, by simp, by simpa using h⟩
  | cons x a ih =>
    cases pre with
    | nil => simp at h; exact .inl ⟨a, by simp [h.1]⟩
    | cons y pre =>
      simp only [List.cons_append, List.cons.injEq] at h
      rcases ih h.2 with ⟨r', e⟩ | ⟨pre', e1, e2⟩
      · exact .inl ⟨r', by rw [h.1, e]; rfl⟩
      · exact .inr ⟨pre', by rw [h.1, e1]; rfl, e2⟩

/-- Which lexeme a token comes from; the newlines in front of it are those of the lexemes up to and
including that one. -/
theorem toksOf_split {d : Rdbms} {ls : List Lexeme} (hok : ∀ l ∈ ls, l.Ok d) {pre r : List Str}
    {t : Str} (ht : t ≠ nl) (h : toksOf ls = pre ++ t :: r) :
    ∃ l1 l l2, ls = l1 ++ l :: l2 ∧ t ∈ l.toks ∧ nls pre = nls (toksOf (l1 ++ [l])) := by
  induction ls generalizing pre with
  | nil => simp [toksOf] at h
  | cons l ls ih =>
    have hc : toksOf (l :: ls) = l.toks ++ toksOf ls := by simp [toksOf]
    rw [hc] at h
    rcases append_split h with ⟨r', e⟩ | ⟨pre', e1, e2⟩
    · refine ⟨[], l, ls, rfl, by rw [e]; simp, ?_⟩
      have h1 : toksOf [l] = l.toks := by simp [toksOf]
      rw [List.nil_append, h1]
      obtain ⟨k, hk | ⟨t', ht', hk⟩⟩ := lexeme_toks (hok l (by simp))
      · have : t ∈ List.replicate k nl := by rw [← hk, e]; simp
        exact absurd (List.eq_of_mem_replicate this) ht
      · rw [hk] at e
        rcases append_split (a := List.replicate k nl) e with ⟨r2, e'⟩ | ⟨p2, e1', e2'⟩
        · have : t ∈ List.replicate k nl := by rw [e']; simp
          exact absurd (List.eq_of_mem_replicate this) ht
        · cases p2 with
          | nil =>
            rw [e1', List.append_nil, hk, nls_append]
            simp [nls, ht']
          | cons x p2 =>
            simp only [List.cons_append, List.cons.injEq] at e2'
            have := e2'.2; simp at this
    · obtain ⟨l1, l', l2, h1, h2, h3⟩ := ih (fun l hl => hok l (by simp [hl])) e2
      refine ⟨l :: l1, l', l2, by rw [h1]; rfl, h2, ?_⟩
      rw [e1, nls_append, h3]
      simp [toksOf, nls]

/-- Newline tokens are the newlines of the text, if no comment hides one. -/
theorem nls_toksOf {d : Rdbms} {ls : List Lexeme} (hok : ∀ l ∈ ls, l.Ok d)
    (hh : ∀ l ∈ ls, l.hides = false) : nls (toksOf ls) = (srcOf ls).count '\n' := by
  induction ls with
  | nil => rfl
  | cons l ls ih =>
    have hc : toksOf (l :: ls) = l.toks ++ toksOf ls := by simp [toksOf]
    have hs : srcOf (l :: ls) = l.src ++ srcOf ls := by simp [srcOf]
    rw [hc, hs, nls_append, List.count_append,
      ih (fun l hl => hok l (by simp [hl])) (fun l hl => hh l (by simp [hl]))]
    congr 1
    have h1 := hok l (by simp)
    have h2 := hh l (by simp)
    cases l with
    | space => rfl
    | tab => rfl
    | newline => rfl
    | punct c =>
      have : c ≠ '\n' := by rintro rfl; simp [Lexeme.Ok, puncts] at h1
      simp [Lexeme.toks, Lexeme.src, nls, nl, this]
    | word w =>
      have : '\n' ∉ w := fun hm => h1.2.1 '\n' hm (by simp [nonWord])
      have hw : w ≠ nl := by rintro rfl; exact this (by simp [nl])
      simp [Lexeme.toks, Lexeme.src, nls, hw, List.count_eq_zero_of_not_mem this]
    | quoted q b =>
      have hq : q ≠ '\n' := by rintro rfl; simp [Lexeme.Ok, quotes] at h1
      have ht : (q :: b.filter (· ≠ '\n') ++ [q]) ≠ nl := by
        intro e; have := congrArg List.length e; simp [nl] at this
      simp only [Lexeme.toks, Lexeme.src, nls_append]
      simp only [nls, List.count_replicate_self, List.count_cons, List.count_append, List.count_nil]
      simp only [beq_iff_eq, ht, if_false, hq]
    | line b =>
      simp only [Lexeme.toks, Lexeme.src]
      have : '\n' ∉ b := h1
      simp [nls, List.count_eq_zero_of_not_mem this]
    | sharp b =>
      simp only [Lexeme.toks, Lexeme.src]
      have : '\n' ∉ b := h1.2
      simp [nls, List.count_eq_zero_of_not_mem this]
    | block ps =>
      simp only [Lexeme.toks, Lexeme.src]
      have e1 : ∀ x : List Char, ('/' :: '*' :: x ++ ['*', '/']).count '\n' = x.count '\n' := by
        intro x; simp
      rw [e1]
      clear e1 hc hs ih hok hh
      induction ps with
      | nil => rfl
      | cons p ps ih =>
        simp only [List.flatMap_cons, nls_append, List.count_append]
        have hp : p.Ok := h1 p (by simp)
        simp only [Lexeme.hides, List.any_cons, Bool.or_eq_false_iff] at h2
        rw [ih (fun p hp => h1 p (by simp [hp])) h2.2]
        congr 1
        cases p with
        | ch c => simp only [Part.toks, Part.src]; by_cases hc : c = '\n' <;> simp [hc, nls, nl]
        | star c =>
          have : c ≠ '\n' := by simpa [Part.hides] using h2.1
          simp [Part.toks, Part.src, nls, this]
        | slash c =>
          have : c ≠ '\n' := by simpa [Part.hides] using h2.1
          simp [Part.toks, Part.src, nls, this]

end DDL
