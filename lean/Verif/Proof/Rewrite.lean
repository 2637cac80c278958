import Verif.Proof.ResultFacts
import Verif.Proof.PrintScript
import Verif.Spec.Tidy
/-
The tables of a tidy script can be written out (C58).
-/

namespace DDL
open V Spec Conv

/-! ### Tokens -/

/-- The three kinds of plain tokens. -/
theorem plain_cases {d : Rdbms} {t : Str} (h : PlainToken d t) :
    (∃ c ∈ puncts, t = [c]) ∨ IsWord d t ∨
    (∃ q ∈ quotes, ∃ s, Quotable s ∧ t = q :: s ++ [q]) := by
  obtain ⟨l, h1, h2, h3⟩ := h
  cases l with
  | word w => cases h3; exact .inr (.inl h1)
  | punct c => cases h3; exact .inl ⟨c, h1, rfl⟩
  | quoted q b =>
    have hn : '\n' ∉ b := h2
    have hf : b.filter (· ≠ '\n') = b := by
      rw [List.filter_eq_self]; intro c hc; simp; rintro rfl; exact hn hc
    simp only [Lexeme.toks, List.count_eq_zero_of_not_mem hn, hf] at h3
    refine .inr (.inr ⟨q, h1.1, b, fun c hc => ⟨h1.2.2 c hc, ?_⟩, (List.cons.inj h3).1.symm⟩)
    rintro rfl; exact hn hc
  | _ => exact h2.elim

theorem quotes_nonWord {d : Rdbms} {c : Char} (h : c ∈ quotes) : c ∈ nonWord d := by
  simp [nonWord, h]

theorem nl_nonWord {d : Rdbms} : '\n' ∈ nonWord d := by simp [nonWord]

theorem word_quotable {d : Rdbms} {w : Str} (h : IsWord d w) : Quotable w := fun c hc =>
  ⟨fun hq => h.2.1 c hc (quotes_nonWord hq), fun e => h.2.1 c hc (e ▸ nl_nonWord)⟩

theorem nameQuotes_quotes {d : Rdbms} {c : Char} (h : c ∈ nameQuotes d) : c ∈ quotes := by
  have : ∀ d, ∀ c ∈ nameQuotes d, c ∈ quotes := by intro d; cases d <;> decide
  exact this d c h

theorem stringQuotes_quotes {d : Rdbms} {c : Char} (h : c ∈ stringQuotes d) : c ∈ quotes := by
  have : ∀ d, ∀ c ∈ stringQuotes d, c ∈ quotes := by intro d; cases d <;> decide
  exact this d c h

/-- A plain token that starts with a quote. -/
theorem plain_quoted {d : Rdbms} {c : Char} {r : Str} (h : PlainToken d (c :: r)) (hc : c ∈ quotes) :
    ∃ s, Quotable s ∧ c :: r = c :: s ++ [c] := by
  rcases plain_cases h with ⟨p, hp, e⟩ | hw | ⟨q, hq, s, hs, e⟩
  · cases e
    have : ∀ p ∈ puncts, p ∉ quotes := by decide
    exact absurd hc (this _ hp)
  · exact absurd (quotes_nonWord hc) (hw.2.1 c (by simp))
  · have e1 := (List.cons.inj e).1
    subst e1
    exact ⟨s, hs, e⟩

theorem plainName_nameVal {d : Rdbms} {n : Str} (h : PlainName d n) : nameVal d n = n := by
  obtain ⟨⟨c, r, rfl, hc, _⟩, _⟩ := h
  show (if c ∈ identQuotes d then _ else _) = _
  rw [if_neg]
  intro hm
  have : ∀ d, ∀ c ∈ identQuotes d, ¬ (c.isAlpha = true ∨ c = '_') := by intro d; cases d <;> decide
  exact this d c hm hc

/-- The name of a plain token can be put in quotes. -/
theorem name_quotable {d : Rdbms} (hd : d ≠ .other) {n : Str} (hp : PlainToken d n) (hn : Name d n) :
    Quotable (nameVal d n) := by
  rcases hn with ⟨c, r, rfl, hc⟩ | hn
  · obtain ⟨s, hs, e⟩ := plain_quoted hp (nameQuotes_quotes hc)
    have hq : identQuotes d = nameQuotes d := by cases d <;> first | rfl | exact absurd rfl hd
    have : nameVal d (c :: r) = content (c :: r) := by
      show (if c ∈ identQuotes d then _ else _) = _
      rw [hq, if_pos hc]
    rw [this, e, content_quoted]
    exact hs
  · rw [plainName_nameVal hn]
    exact word_quotable (d := d) (isWord_ident hn.1)

theorem name_key {d : Rdbms} {n : Str} (hp : PlainToken d n) (hn : Name d n) : KeyName d n := by
  rcases hn with ⟨c, r, rfl, hc⟩ | hn
  · obtain ⟨s, hs, e⟩ := plain_quoted hp (nameQuotes_quotes hc)
    exact .inl ⟨c, hc, s, hs, e⟩
  · exact .inr hn

/-! ### Expressions -/

/-- Parentheses. -/
def isParen (t : Str) : Bool := t == ['('] || t == [')']

theorem bal_filter {e : List Str} (h : Bal e) : Bal (e.filter isParen) := by
  induction h with
  | nil => exact .nil
  | plain t ts h1 h2 _ ih => rw [List.filter_cons_of_neg (by simp [isParen, h1, h2])]; exact ih
  | paren ts us _ _ ih1 ih2 =>
    have : (['('] :: ts ++ [')'] :: us).filter isParen =
        ['('] :: ts.filter isParen ++ [')'] :: us.filter isParen := by
      simp [isParen]
    rw [this]; exact .paren _ _ ih1 ih2

theorem bal_noParen {e : List Str} (h : ∀ t ∈ e, isParen t = false) {r : List Str} (hr : Bal r) : Bal (e ++ r) := by
  induction e with
  | nil => exact hr
  | cons t e ih =>
    have := h t (by simp)
    simp only [isParen, Bool.or_eq_false_iff, beq_eq_false_iff_ne] at this
    exact .plain t _ this.1 this.2 (ih fun t ht => h t (by simp [ht]))

theorem filter_head {p : Str → Bool} {e : List Str} {a : Str} {r : List Str} (h : e.filter p = a :: r) :
    ∃ x y, e = x ++ a :: y ∧ (∀ t ∈ x, p t = false) ∧ y.filter p = r := by
  obtain ⟨x, y, rfl, h1, h2, h3⟩ := List.filter_eq_cons_iff.1 h
  exact ⟨x, y, rfl, fun t ht => by simpa using h1 t ht, h3⟩

theorem bal_of_filter {f : List Str} (h : Bal f) : ∀ {e : List Str}, e.filter isParen = f → Bal e := by
  induction h with
  | nil =>
    intro e he
    have := bal_noParen (e := e) (fun t ht => by simpa using List.filter_eq_nil_iff.1 he t ht) .nil
    simpa using this
  | plain t ts h1 h2 _ _ =>
    intro e he
    have : t ∈ e.filter isParen := by rw [he]; simp
    have := (List.mem_filter.1 this).2
    simp [isParen, h1, h2] at this
  | paren ts us _ _ ih1 ih2 =>
    intro e he
    obtain ⟨x, y, rfl, h1, h2⟩ := filter_head he
    obtain ⟨a, b, rfl, h3, h4⟩ := List.filter_eq_append_iff.1 h2
    obtain ⟨z, w, rfl, h5, h6⟩ := filter_head h4
    refine bal_noParen h1 ?_
    have h7 : Bal (a ++ z) := ih1 (by
      rw [List.filter_append, h3, List.filter_eq_nil_iff.2 (fun t ht => by simp [h5 t ht]), List.append_nil])
    have := Bal.paren _ _ h7 (ih2 h6)
    simpa using this

/-- Balance depends on the parentheses alone. -/
theorem bal_same {e e' : List Str} (h : e.filter isParen = e'.filter isParen) (hb : Bal e) : Bal e' :=
  bal_of_filter (bal_filter hb) h.symm

theorem mergeCommas_filter (e : List Str) : (mergeCommas e).filter isParen = e.filter isParen := by
  induction e with
  | nil => rfl
  | cons t e ih =>
    rw [mergeCommas]
    split
    · rename_i h
      rw [ih, List.filter_cons_of_neg]
      rw [h.1]; decide
    · rw [List.filter_cons, List.filter_cons, ih]

theorem mergeCommas_head (e : List Str) : (mergeCommas e).head? = e.head? := by
  induction e with
  | nil => rfl
  | cons t e ih =>
    rw [mergeCommas]
    split
    · rename_i h
      rw [ih, h.2, h.1]; rfl
    · rfl

theorem mergeCommas_noPair (e : List Str) : NoCommaPair (mergeCommas e) := by
  induction e with
  | nil => trivial
  | cons t e ih =>
    rw [mergeCommas]
    split
    · exact ih
    · rename_i h
      have hh := mergeCommas_head e
      cases hm : mergeCommas e with
      | nil => trivial
      | cons b r =>
        rw [hm] at ih hh
        refine ⟨?_, ih⟩
        rintro ⟨rfl, rfl⟩
        exact h ⟨rfl, hh.symm⟩

theorem mergeCommas_sub (e : List Str) : ∀ t ∈ mergeCommas e, t ∈ e := by
  induction e with
  | nil => simp [mergeCommas]
  | cons t e ih =>
    intro x hx
    rw [mergeCommas] at hx
    split at hx
    · exact List.mem_cons_of_mem _ (ih x hx)
    · rcases List.mem_cons.1 hx with rfl | hx
      · simp
      · exact List.mem_cons_of_mem _ (ih x hx)

theorem spaced_tail {a : Str} {r : List Str} (h : Spaced (a :: r)) : Spaced r := by
  cases r with
  | nil => trivial
  | cons b r => exact h.2

theorem spaced_cons {a : Str} {r : List Str}
    (h : ∀ x b y, a.getLast? = some x → r.head? = some b → b.head? = some y → (x, y) ∉ marks)
    (hr : Spaced r) : Spaced (a :: r) := by
  cases r with
  | nil => trivial
  | cons b r => exact ⟨fun x y hx hy => h x b y hx rfl hy, hr⟩

theorem spaced_head {a : Str} {r : List Str} (h : Spaced (a :: r)) :
    ∀ x b y, a.getLast? = some x → r.head? = some b → b.head? = some y → (x, y) ∉ marks := by
  cases r with
  | nil => intro x b y _ h; cases h
  | cons b r => intro x b' y hx hb hy; cases hb; exact h.1 x y hx hy

theorem spaced_left {a b : List Str} (h : Spaced (a ++ b)) : Spaced a := by
  induction a with
  | nil => trivial
  | cons x a ih =>
    refine spaced_cons (fun u v y hu hv hy => spaced_head h u v y hu ?_ hy) (ih (spaced_tail h))
    cases a with
    | nil => cases hv
    | cons z a => exact hv

theorem mergeCommas_apart {e : List Str} (h : Spaced e) : Spaced (mergeCommas e) := by
  induction e with
  | nil => trivial
  | cons t e ih =>
    rw [mergeCommas]
    split
    · exact ih (spaced_tail h)
    · refine spaced_cons ?_ (ih (spaced_tail h))
      rw [mergeCommas_head]
      exact spaced_head h

/-- Words next to each other become one word. -/
def joinWords : List Lexeme → List Lexeme
  | [] => []
  | .word w :: r =>
    match joinWords r with
    | .word v :: r' => .word (w ++ v) :: r'
    | r' => .word w :: r'
  | l :: r => l :: joinWords r

theorem srcOf_cons (l : Lexeme) (r : List Lexeme) : srcOf (l :: r) = l.src ++ srcOf r := rfl
theorem toksOf_cons (l : Lexeme) (r : List Lexeme) : toksOf (l :: r) = l.toks ++ toksOf r := rfl

theorem joinWords_other {l : Lexeme} {r : List Lexeme} (h : ∀ w, l ≠ .word w) :
    joinWords (l :: r) = l :: joinWords r := by
  cases l with
  | word w => exact absurd rfl (h w)
  | _ => rfl

theorem joinWords_word (w : Str) (r : List Lexeme) :
    (∃ v r', joinWords r = .word v :: r' ∧ joinWords (.word w :: r) = .word (w ++ v) :: r') ∨
    ((∀ v r', joinWords r ≠ .word v :: r') ∧ joinWords (.word w :: r) = .word w :: joinWords r) := by
  rw [joinWords]
  split
  · rename_i v r' h; exact .inl ⟨v, r', h, rfl⟩
  · rename_i h; exact .inr ⟨h, rfl⟩

theorem joinWords_src (ls : List Lexeme) : srcOf (joinWords ls) = srcOf ls := by
  induction ls with
  | nil => rfl
  | cons l r ih =>
    by_cases hl : ∃ w, l = .word w
    · obtain ⟨w, rfl⟩ := hl
      rcases joinWords_word w r with ⟨v, r', h1, h2⟩ | ⟨_, h2⟩
      · rw [h2, srcOf_cons, srcOf_cons, ← ih, h1, srcOf_cons]
        simp [Lexeme.src]
      · rw [h2, srcOf_cons, srcOf_cons, ih]
    · rw [joinWords_other (fun w e => hl ⟨w, e⟩), srcOf_cons, srcOf_cons, ih]

theorem joinWords_solid {ls : List Lexeme} (h : ∀ l ∈ ls, Solid l) : ∀ l ∈ joinWords ls, Solid l := by
  induction ls with
  | nil => exact h
  | cons l r ih =>
    have ih := ih fun l hl => h l (by simp [hl])
    have hr := h l (by simp)
    by_cases hl : ∃ w, l = .word w
    · obtain ⟨w, rfl⟩ := hl
      rcases joinWords_word w r with ⟨v, r', h1, h2⟩ | ⟨_, h2⟩
      · rw [h2]; rw [h1] at ih
        intro l hl
        rcases List.mem_cons.1 hl with rfl | hl
        · trivial
        · exact ih l (by simp [hl])
      · rw [h2]
        intro l hl
        rcases List.mem_cons.1 hl with rfl | hl
        · trivial
        · exact ih l hl
    · rw [joinWords_other (fun w e => hl ⟨w, e⟩)]
      intro l' hl'
      rcases List.mem_cons.1 hl' with rfl | hl'
      · exact hr
      · exact ih l' hl'

theorem noMark_append {a b : List Char} (ha : NoMark a) (hb : NoMark b)
    (h : ∀ x y, a.getLast? = some x → b.head? = some y → (x, y) ∉ marks) : NoMark (a ++ b) := by
  induction a with
  | nil => exact hb
  | cons x a ih =>
    cases a with
    | nil =>
      cases b with
      | nil => trivial
      | cons y b => exact ⟨h x y rfl rfl, hb⟩
    | cons y a => exact ⟨ha.1, ih ha.2 fun u v hu hv => h u v (by simpa using hu) hv⟩

/-- The first token and the first character of lexemes. -/
theorem solid_head {d : Rdbms} {ls : List Lexeme} (hok : ∀ l ∈ ls, l.Ok d) (h : ∀ l ∈ ls, Solid l) {c : Char}
    (hc : (srcOf ls).head? = some c) : ∃ b, (toksOf ls).head? = some b ∧ b.head? = some c := by
  cases ls with
  | nil => cases hc
  | cons l r =>
    have hs := h l (by simp)
    have ho := hok l (by simp)
    rw [srcOf_cons] at hc
    rw [toksOf_cons]
    cases l with
    | word w =>
      refine ⟨w, rfl, ?_⟩
      have hw : IsWord d w := ho
      cases w with
      | nil => exact absurd rfl hw.1
      | cons a w => exact hc
    | punct p => exact ⟨[p], rfl, hc⟩
    | quoted q b =>
      have hn : '\n' ∉ b := hs
      refine ⟨q :: b.filter (· ≠ '\n') ++ [q], ?_, hc⟩
      simp [Lexeme.toks, List.count_eq_zero_of_not_mem hn]
    | _ => exact hs.elim

/-- Joined words are words when no comment mark arises. -/
theorem joinWords_wf {d : Rdbms} {ls : List Lexeme} (hok : ∀ l ∈ ls, l.Ok d) (hs : ∀ l ∈ ls, Solid l)
    (ha : Spaced (toksOf ls)) : WellFormed d (joinWords ls) := by
  induction ls with
  | nil => exact ⟨hok, trivial⟩
  | cons l r ih =>
    have hok' : ∀ l ∈ r, l.Ok d := fun l hl => hok l (by simp [hl])
    have hs' : ∀ l ∈ r, Solid l := fun l hl => hs l (by simp [hl])
    have ho := hok l (by simp)
    have hsl := hs l (by simp)
    rw [toksOf_cons] at ha
    by_cases hl : ∃ w, l = .word w
    · obtain ⟨w, rfl⟩ := hl
      have ha : Spaced (w :: toksOf r) := ha
      obtain ⟨i1, i2⟩ := ih hok' hs' (spaced_tail ha)
      rcases joinWords_word w r with ⟨v, r', h1, h2⟩ | ⟨h1, h2⟩
      · rw [h2]; rw [h1] at i1 i2
        have hv : IsWord d v := i1 (.word v) (by simp)
        have hw : IsWord d w := ho
        refine ⟨fun l hl => ?_, ?_⟩
        · rcases List.mem_cons.1 hl with rfl | hl
          · refine ⟨by simp [hw.1], fun c hc => ?_, noMark_append hw.2.2 hv.2.2 fun x y hx hy => ?_⟩
            · rcases List.mem_append.1 hc with hc | hc
              · exact hw.2.1 c hc
              · exact hv.2.1 c hc
            · have : (srcOf r).head? = some y := by
                rw [← joinWords_src, h1, srcOf_cons]
                show (v ++ _).head? = _
                rw [List.head?_append, hy]; rfl
              obtain ⟨b, hb, hb'⟩ := solid_head hok' hs' this
              exact spaced_head ha x b y hx hb hb'
          · exact i1 l (by simp [hl])
        · cases r' with
          | nil => trivial
          | cons l' r' =>
            refine ⟨?_, i2.2⟩
            have h3 := i2.1
            have hs3 : Solid l' := joinWords_solid hs' l' (by rw [h1]; simp)
            cases l' with
            | word x => exact h3
            | punct p => intro h; cases h
            | quoted q b => intro h; cases h
            | _ => exact hs3.elim
      · rw [h2]
        refine ⟨fun l hl => ?_, ?_⟩
        · rcases List.mem_cons.1 hl with rfl | hl
          · exact ho
          · exact i1 l hl
        · cases hj : joinWords r with
          | nil => trivial
          | cons l' r' =>
            rw [hj] at i2
            refine ⟨?_, i2⟩
            have hs3 : Solid l' := joinWords_solid hs' l' (by rw [hj]; simp)
            cases l' with
            | word x => exact absurd hj (h1 x r')
            | punct p => intro h; cases h
            | quoted q b => intro h; cases h
            | _ => exact hs3.elim
    · have hlt : ∃ t, l.toks = [t] := by
        cases l with
        | word w => exact absurd ⟨w, rfl⟩ hl
        | punct p => exact ⟨_, rfl⟩
        | quoted q b =>
          have hn : '\n' ∉ b := hsl
          exact ⟨_, by simp [Lexeme.toks, List.count_eq_zero_of_not_mem hn]; rfl⟩
        | _ => exact hsl.elim
      obtain ⟨t, ht⟩ := hlt
      rw [ht] at ha
      obtain ⟨i1, i2⟩ := ih hok' hs' (spaced_tail (a := t) ha)
      rw [joinWords_other (fun w e => hl ⟨w, e⟩)]
      refine ⟨fun l' hl' => ?_, ?_⟩
      · rcases List.mem_cons.1 hl' with rfl | hl'
        · exact ho
        · exact i1 l' hl'
      · cases hj : joinWords r with
        | nil => trivial
        | cons l' r' =>
          rw [hj] at i2
          refine ⟨?_, i2⟩
          cases l with
          | word w => exact absurd ⟨w, rfl⟩ hl
          | punct p => intro h; cases h.1
          | quoted q b => intro h; cases h.1
          | _ => exact hsl.elim

theorem word_not_paren {d : Rdbms} {w : Str} (h : IsWord d w) : isParen w = false := by
  simp only [isParen, Bool.or_eq_false_iff, beq_eq_false_iff_ne]
  constructor
  · rintro rfl; exact h.2.1 '(' (by simp) (by simp [nonWord, puncts])
  · rintro rfl; exact h.2.1 ')' (by simp) (by simp [nonWord, puncts])

theorem word_not_comma {d : Rdbms} {w : Str} (h : IsWord d w) : w ≠ S "," := by
  rintro rfl; exact h.2.1 ',' (by decide) (by simp [nonWord, puncts])

theorem joinWords_parens {d : Rdbms} {ls : List Lexeme} (hok : ∀ l ∈ ls, l.Ok d) (hs : ∀ l ∈ ls, Solid l)
    (ha : Spaced (toksOf ls)) : (toksOf (joinWords ls)).filter isParen = (toksOf ls).filter isParen := by
  induction ls with
  | nil => rfl
  | cons l r ih =>
    have hok' : ∀ l ∈ r, l.Ok d := fun l hl => hok l (by simp [hl])
    have hs' : ∀ l ∈ r, Solid l := fun l hl => hs l (by simp [hl])
    have ho := hok l (by simp)
    have hap : Spaced (toksOf r) := by
      rw [toksOf_cons] at ha
      clear ih
      generalize l.toks = x at ha
      induction x with
      | nil => exact ha
      | cons a x ihx => exact ihx (spaced_tail ha)
    have ih := ih hok' hs' hap
    by_cases hl : ∃ w, l = .word w
    · obtain ⟨w, rfl⟩ := hl
      have hw : IsWord d w := ho
      have e1 : toksOf (.word w :: r) = w :: toksOf r := rfl
      rw [e1, List.filter_cons_of_neg (by simp [word_not_paren hw])]
      rcases joinWords_word w r with ⟨v, r', h1, h2⟩ | ⟨_, h2⟩
      · have hv : IsWord d v := (joinWords_wf hok' hs' hap).1 (.word v) (by rw [h1]; simp)
        rw [h1] at ih
        have e2 : toksOf (.word v :: r') = v :: toksOf r' := rfl
        have e3 : toksOf (.word (w ++ v) :: r') = (w ++ v) :: toksOf r' := rfl
        rw [e2, List.filter_cons_of_neg (by simp [word_not_paren hv])] at ih
        have hwv := (joinWords_wf hok hs ha).1 (.word (w ++ v)) (by rw [h2]; simp)
        rw [h2, e3, List.filter_cons_of_neg (by simp [word_not_paren (d := d) hwv]), ih]
      · have e3 : toksOf (.word w :: joinWords r) = w :: toksOf (joinWords r) := rfl
        rw [h2, e3, List.filter_cons_of_neg (by simp [word_not_paren hw]), ih]
    · rw [joinWords_other (fun w e => hl ⟨w, e⟩), toksOf_cons, toksOf_cons, List.filter_append, List.filter_append, ih]

theorem joinWords_comma {d : Rdbms} {ls : List Lexeme} (hw : ∀ l ∈ joinWords ls, l.Ok d) (hs : ∀ l ∈ ls, Solid l)
    (h : (toksOf (joinWords ls)).head? = some (S ",")) : (toksOf ls).head? = some (S ",") := by
  cases ls with
  | nil => exact h
  | cons l r =>
    have hsl := hs l (by simp)
    cases l with
    | word w =>
      rcases joinWords_word w r with ⟨v, r', h1, h2⟩ | ⟨_, h2⟩
      · rw [h2] at h hw
        have e : (w ++ v) = S "," := Option.some.inj h
        exact absurd e (word_not_comma (d := d) (hw (.word (w ++ v)) (by simp)))
      · rw [h2] at h
        exact h
    | punct p => exact h
    | quoted q b =>
      have hn : '\n' ∉ b := hsl
      rw [joinWords_other (by simp), toksOf_cons] at h
      rw [toksOf_cons]
      simp only [Lexeme.toks, List.count_eq_zero_of_not_mem hn] at h ⊢
      exact h
    | _ => exact hsl.elim

theorem noPair_cons {a : Str} {r : List Str} (h : a = S "," → r.head? ≠ some (S ",")) (hr : NoCommaPair r) :
    NoCommaPair (a :: r) := by
  cases r with
  | nil => trivial
  | cons b r => exact ⟨fun ⟨e1, e2⟩ => h e1 (by rw [e2]; rfl), hr⟩

theorem noPair_tail {a : Str} {r : List Str} (h : NoCommaPair (a :: r)) : NoCommaPair r := by
  cases r with
  | nil => trivial
  | cons b r => exact h.2

theorem noPair_head {a : Str} {r : List Str} (h : NoCommaPair (a :: r)) : a = S "," → r.head? ≠ some (S ",") := by
  cases r with
  | nil => intro _ h; cases h
  | cons b r => intro e1 e2; exact h.1 ⟨e1, Option.some.inj e2⟩

/-- The token of a solid lexeme. -/
theorem solid_tok {l : Lexeme} (h : Solid l) : ∃ t, l.toks = [t] := by
  cases l with
  | word w => exact ⟨_, rfl⟩
  | punct p => exact ⟨_, rfl⟩
  | quoted q b =>
    have hn : '\n' ∉ b := h
    exact ⟨_, by simp [Lexeme.toks, List.count_eq_zero_of_not_mem hn]; rfl⟩
  | _ => exact h.elim

theorem joinWords_noPair {d : Rdbms} {ls : List Lexeme} (hok : ∀ l ∈ ls, l.Ok d) (hs : ∀ l ∈ ls, Solid l)
    (ha : Spaced (toksOf ls)) (hc : NoCommaPair (toksOf ls)) : NoCommaPair (toksOf (joinWords ls)) := by
  induction ls with
  | nil => trivial
  | cons l r ih =>
    have hok' : ∀ l ∈ r, l.Ok d := fun l hl => hok l (by simp [hl])
    have hs' : ∀ l ∈ r, Solid l := fun l hl => hs l (by simp [hl])
    have ho := hok l (by simp)
    obtain ⟨t, ht⟩ := solid_tok (hs l (by simp))
    have hwf := joinWords_wf hok hs ha
    rw [toksOf_cons, ht] at ha hc
    have ha' : Spaced (toksOf r) := spaced_tail (a := t) ha
    have ih := ih hok' hs' ha' (noPair_tail (a := t) hc)
    have hwf' := joinWords_wf hok' hs' ha'
    by_cases hl : ∃ w, l = .word w
    · obtain ⟨w, rfl⟩ := hl
      rcases joinWords_word w r with ⟨v, r', h1, h2⟩ | ⟨_, h2⟩
      · rw [h2] at hwf ⊢
        rw [h1] at ih
        exact noPair_cons (a := w ++ v) (fun e => absurd e (word_not_comma (d := d) (hwf.1 (.word (w ++ v)) (by simp))))
          (noPair_tail (a := v) ih)
      · rw [h2]
        exact noPair_cons (a := w) (fun e => absurd e (word_not_comma (d := d) ho)) ih
    · rw [joinWords_other (fun w e => hl ⟨w, e⟩), toksOf_cons, ht]
      exact noPair_cons (a := t) (fun e h => noPair_head (a := t) hc e (joinWords_comma hwf'.1 hs' h)) ih

/-- Plain tokens as lexemes. -/
theorem plain_lexemes {d : Rdbms} {ts : List Str} (h : ∀ t ∈ ts, PlainToken d t) :
    ∃ ls : List Lexeme, (∀ l ∈ ls, l.Ok d) ∧ (∀ l ∈ ls, Solid l) ∧ toksOf ls = ts := by
  induction ts with
  | nil => exact ⟨[], by simp, by simp, rfl⟩
  | cons t ts ih =>
    obtain ⟨l, h1, h2, h3⟩ := h t (by simp)
    obtain ⟨ls, i1, i2, i3⟩ := ih fun t ht => h t (by simp [ht])
    refine ⟨l :: ls, ?_, ?_, by rw [toksOf_cons, h3, i3]; rfl⟩
    · intro x hx
      rcases List.mem_cons.1 hx with rfl | hx
      · exact h1
      · exact i1 x hx
    · intro x hx
      rcases List.mem_cons.1 hx with rfl | hx
      · exact h2
      · exact i2 x hx

/-- A tidy expression can be written. -/
theorem expr_ok {d : Rdbms} {e : List Str} (hp : ParenToks e) (h : ∀ t ∈ e, PlainToken d t) (ha : Spaced e) :
    ExprOK d (exprText e) := by
  obtain ⟨i, hb, rfl⟩ := hp
  have hm : mergeCommas (['('] :: i ++ [[')']]) = ['('] :: mergeCommas i ++ [[')']] := by
    rw [List.cons_append, mergeCommas_cons_ne (by decide), mergeCommas_append (by decide)]
    rfl
  obtain ⟨ls, h1, h2, h3⟩ := plain_lexemes (d := d) (ts := mergeCommas i)
    fun t ht => h t (by simp [mergeCommas_sub i t ht])
  have hai : Spaced (toksOf ls) := by
    rw [h3]
    exact mergeCommas_apart (spaced_left (spaced_tail (a := ['(']) ha))
  have wf := joinWords_wf h1 h2 hai
  have hs := joinWords_solid h2
  refine ⟨.punct '(' :: joinWords ls ++ [.punct ')'], toksOf (joinWords ls), ⟨?_, ?_⟩, ?_, ?_, ?_, ?_, ?_⟩
  · intro l hl
    simp only [List.mem_append, List.mem_cons, List.not_mem_nil, or_false] at hl
    rcases hl with (rfl | hl) | rfl
    · show '(' ∈ puncts
      decide
    · exact wf.1 l hl
    · show ')' ∈ puncts
      decide
  · refine adjacent_append (a := .punct '(' :: joinWords ls) ?_ trivial ?_
    · cases hj : joinWords ls with
      | nil => trivial
      | cons l r => exact ⟨(fun h => nomatch h.1), hj ▸ wf.2⟩
    · intro x y _ hy
      cases hy
      cases x with
      | word w => intro h; cases h
      | _ => intro h; cases h.2
  · intro l hl
    simp only [List.mem_append, List.mem_cons, List.not_mem_nil, or_false] at hl
    rcases hl with (rfl | hl) | rfl
    · trivial
    · exact hs l hl
    · trivial
  · rw [exprText, hm, List.cons_append, srcOf_cons, srcOf_append, joinWords_src, ← solid_flatten h2, h3]
    simp [Lexeme.src, srcOf]
  · rw [List.cons_append, toksOf_cons, toksOf_append]
    rfl
  · refine bal_same ?_ hb
    rw [joinWords_parens h1 h2 hai, h3, mergeCommas_filter]
  · exact joinWords_noPair h1 h2 hai (by rw [h3]; exact mergeCommas_noPair i)

/-! ### Default values -/

theorem exprText_quotable {d : Rdbms} {e : List Str} (h : ∀ t ∈ e, PlainToken d t) (hq : NoQuotes e) :
    Quotable (exprText e) := by
  intro c hc
  obtain ⟨t, ht, hct⟩ := List.mem_flatten.1 hc
  have ht := mergeCommas_sub e t ht
  refine ⟨hq t ht c hct, ?_⟩
  rintro rfl
  rcases plain_cases (h t ht) with ⟨p, hp, rfl⟩ | hw | ⟨q, hq, s, hs, rfl⟩
  · have : ∀ p ∈ puncts, '\n' ∉ [p] := by decide
    exact this p hp hct
  · exact hw.2.1 _ hct nl_nonWord
  · have : ∀ q ∈ quotes, '\n' ≠ q := by decide
    simp only [List.cons_append, List.mem_cons, List.mem_append, List.not_mem_nil, or_false] at hct
    rcases hct with h | h | h
    · exact this q hq h
    · exact (hs _ h).2 rfl
    · exact this q hq h

theorem lit_ok {isNum : Str → Bool} (hN : NumOK isNum) (hdot : isNum (S ".") = false) {d : Rdbms} (hd : d ≠ .other) {t : Str}
    (hp : PlainToken d t) (hl : Literal isNum d t) : DefaultOK isNum d (litVal isNum d t) := by
  have hq : textQuotes d = stringQuotes d := by cases d <;> first | rfl | exact absurd rfl hd
  unfold litVal
  split
  · rename_i hn
    refine ⟨hn, ?_⟩
    rcases plain_cases hp with ⟨p, hpp, rfl⟩ | hw | ⟨q, hq, s, hs, rfl⟩
    · by_cases hp' : p = '.'
      · rw [hp'] at hn; exact absurd hn (by rw [show ['.'] = S "." from rfl, hdot]; decide)
      · have : ∀ p ∈ puncts, p ≠ '.' → (isDig p || ['+', '-', '.', 'i', 'I', 'n', 'N'].contains p) = false := by decide
        rw [not_num hN (this p hpp hp')] at hn; cases hn
    · exact hw
    · have : ∀ p ∈ quotes, (isDig p || ['+', '-', '.', 'i', 'I', 'n', 'N'].contains p) = false := by decide
      rw [List.cons_append, not_num hN (this q hq)] at hn; cases hn
  · split
    · rename_i h
      cases t with
      | nil => simp at h
      | cons c r =>
        simp only [List.head?_cons, Option.any_some, decide_eq_true_eq, hq] at h
        obtain ⟨s, hs, e⟩ := plain_quoted hp (stringQuotes_quotes h)
        show Quotable (content (c :: r))
        rw [e, content_quoted]; exact hs
    · rename_i hn hs
      have hk : Kw literalWords t := by
        rcases hl with h | ⟨c, r, rfl, h⟩ | h
        · exact absurd h hn
        · exact absurd (by simp [hq, h]) hs
        · exact h
      have : ∀ t ∈ kwList literalWords, ∀ c ∈ t, c ∉ quotes ∧ c ≠ '\n' := by decide
      split
      · trivial
      · split
        · trivial
        · split
          · trivial
          · exact forall_kw this (isKw_kw.2 hk)

/-! ### Types -/

theorem posInt_lt {ts r : List Str} {v : Nat} (h : posInt ts v r) : 0 < v ∧ v < 2 ^ 63 := by
  obtain ⟨t, _, ds, _, _, _, _, h, h'⟩ := h; exact ⟨h, h'⟩

/-- The digits of a type. -/
def GDigits (k : Nat) (g : Option (Nat × Option Nat)) : Prop :=
  ∀ n, DigitsOK k ⟨n, digitNVal g, digitMVal g⟩

theorem gdigits_none (k : Nat) : GDigits k none := fun n =>
  ⟨Int.le_refl 0, show (0 : Int) < 2 ^ 63 by decide, Int.le_refl 0, show (0 : Int) < 2 ^ 63 by decide,
    fun _ => rfl, fun _ => rfl, fun _ => rfl⟩

theorem gdigits_one {n : Nat} (h : 0 < n ∧ n < 2 ^ 63) : GDigits 1 (some (n, none)) := by
  intro w
  refine ⟨?_, ?_, Int.le_refl 0, show (0 : Int) < 2 ^ 63 by decide, fun _ => rfl, ?_, fun _ => rfl⟩
  · show (0 : Int) ≤ (n : Int); omega
  · show (n : Int) < 2 ^ 63; omega
  · intro h; cases h

theorem gdigits_two {n m : Nat} (h : 0 < n ∧ n < 2 ^ 63) (h' : 0 < m ∧ m < 2 ^ 63) :
    GDigits 2 (some (n, some m)) := by
  intro w
  refine ⟨?_, ?_, ?_, ?_, ?_, ?_, ?_⟩
  · show (0 : Int) ≤ (n : Int); omega
  · show (n : Int) < 2 ^ 63; omega
  · show (0 : Int) ≤ (m : Int); omega
  · show (m : Int) < 2 ^ 63; omega
  · intro e
    have e : (n : Int) = 0 := e
    omega
  · intro h; cases h
  · intro h; omega

theorem GDigits.mono {k k' : Nat} {g : Option (Nat × Option Nat)} (h : GDigits k g) (hk : k ≤ k') : GDigits k' g :=
  fun n => DigitsOK.mono (h n) hk

theorem digitN_g : Yields digitN (GDigits 1) := by
  rintro ts v r (⟨_, _, _, w, _, ⟨n, _, h, _, _, _, rfl, rfl⟩, rfl, rfl⟩ | ⟨_, _, _, rfl, rfl⟩)
  · exact gdigits_one (posInt_lt h)
  · exact gdigits_none 1

theorem digitPS_g : Yields digitPS (GDigits 2) := by
  rintro ts v r (⟨_, _, _, w, _, ⟨n, _, h, m, _, h', _, _, _, rfl, rfl⟩, rfl, rfl⟩ | ⟨_, _, _, rfl, rfl⟩)
  · rcases h' with ⟨_, _, _, w, _, h', rfl, _⟩ | ⟨_, _, _, rfl, _⟩
    · exact gdigits_two (posInt_lt h) (posInt_lt h')
    · exact (gdigits_one (posInt_lt h)).mono (by decide)
  · exact gdigits_none 2

theorem typeOK_mk {d : Rdbms} {p : List String × Nat} (hp : p ∈ types d) {n : Str} (h : Kw p.1 n)
    (hup : ∀ t ∈ kwList p.1, ∃ w ∈ p.1, t.map Char.toUpper = w.toList) {g : Option (Nat × Option Nat)}
    (hg : GDigits p.2 g) : TypeOK d (typeVal ⟨n, false, g⟩) := by
  obtain ⟨w, hw, e⟩ := forall_kw hup (isKw_kw.2 h)
  exact ⟨p, hp, w, hw, e, hg _⟩

/-- Every type of the grammar can be written. -/
theorem type_ok {d : Rdbms} (hd : d ≠ .other) : Yields (typeLang d) (fun τ => TypeOK d (typeVal τ)) := by
  cases d with
  | other => exact absurd rfl hd
  | sqlite =>
    rintro ts v r ⟨t, _, ⟨rfl, h⟩, rfl, rfl⟩
    exact typeOK_mk (p := (["TEXT", "NUMERIC", "INTEGER", "REAL", "NONE"], 0)) (by simp [types]) h (by decide) (gdigits_none _)
  | postgres =>
    rintro ts v r (⟨n, _, ⟨_, h⟩, b, _, _, g, _, hg, rfl, rfl⟩ | ⟨n, _, ⟨_, h⟩, g, _, hg, rfl, rfl⟩ |
      ⟨n, _, ⟨_, h⟩, g, _, hg, rfl, rfl⟩ | ⟨n, _, ⟨_, h⟩, _, _, _, rfl, rfl⟩ |
      ⟨n, _, ⟨_, h⟩, g, _, hg, _, _, _, rfl, rfl⟩ | ⟨n, _, ⟨_, h, _⟩, rfl, rfl⟩)
    · cases b with
      | false => exact typeOK_mk (p := (["BIT", "CHARACTER"], 1)) (by simp [types]) h (by decide) (digitN_g _ _ _ hg)
      | true =>
        by_cases hb : n.map Char.toUpper = S "BIT"
        · exact ⟨(["VARBIT", "VARCHAR", "CHAR"], 1), by simp [types], "VARBIT", by simp,
            by simp [typeVal, typeName, hb]; rfl, digitN_g _ _ _ hg _⟩
        · exact ⟨(["VARBIT", "VARCHAR", "CHAR"], 1), by simp [types], "VARCHAR", by simp,
            by simp [typeVal, typeName, hb]; rfl, digitN_g _ _ _ hg _⟩
    · exact typeOK_mk (p := (["VARBIT", "VARCHAR", "CHAR"], 1)) (by simp [types]) h (by decide) (digitN_g _ _ _ hg)
    · exact typeOK_mk (p := (["NUMERIC", "DECIMAL"], 2)) (by simp [types]) h (by decide) (digitPS_g _ _ _ hg)
    · exact typeOK_mk (p := (["DOUBLE"], 0)) (by simp [types]) h (by decide) (gdigits_none _)
    · exact typeOK_mk (p := (["TIME", "TIMESTAMP"], 1)) (by simp [types]) h (by decide) (digitN_g _ _ _ hg)
    · exact typeOK_mk (p := (Spec.dataTypePostgres, 0)) (by simp [types]) h (by decide +kernel) (gdigits_none _)
  | mysql =>
    rintro ts v r (⟨n, _, ⟨_, h⟩, g, _, hg, rfl, rfl⟩ | ⟨n, _, ⟨_, h⟩, g, _, hg, rfl, rfl⟩ |
      ⟨n, _, ⟨_, h⟩, g, _, hg, _, _, _, rfl, rfl⟩ | ⟨n, _, ⟨_, h, _⟩, rfl, rfl⟩)
    · exact typeOK_mk (p := (Spec.Mysql.typesN, 1)) (by simp [types, Spec.Mysql.typesN]) h (by decide +kernel) (digitN_g _ _ _ hg)
    · exact typeOK_mk (p := (Spec.Mysql.typesPS, 2)) (by simp [types, Spec.Mysql.typesPS]) h (by decide +kernel) (digitPS_g _ _ _ hg)
    · exact typeOK_mk (p := (Spec.Mysql.typesTime, 1)) (by simp [types, Spec.Mysql.typesTime]) h (by decide +kernel) (digitN_g _ _ _ hg)
    · exact typeOK_mk (p := (Spec.dataTypeMysql, 0)) (by simp [types]) h (by decide +kernel) (gdigits_none _)

/-! ### Column constraints -/

/-- What `ConSrc` does not say. -/
def ConMore (T : List Str) (d : Rdbms) : ColCon → Prop
  | .collate n => (d = .sqlite ∧ Kw ["BINARY", "NOCASE", "RTRIM"] n) ∨ (d = .mysql ∧ NameSrc T d n)
  | .references r => QNameSrc T d r.table ∧ ∀ cs, r.cols = some cs → ∃ n, cs = colKeys [n] ∧ NameSrc T d n
  | .primaryKey a => a = true → d = .sqlite
  | .autoIncrement => d = .mysql
  | _ => True

theorem from_colRef (T : List Str) (d : Rdbms) {L : Lang Unit} :
    From T (do let x ← colRef d; L; return ColCon.references x : Lang ColCon) (ConMore T d) := by
  refine .bind (Q := fun r : Ref => QNameSrc T d r.table ∧ ∀ cs, r.cols = some cs → ∃ n, cs = colKeys [n] ∧ NameSrc T d n)
    (Suff.colRef d) ?_ fun x hx => .yields (by yields; exact hx)
  unfold Spec.colRef
  refine .skip (Suff.kw _) fun _ => .bind (Suff.qname d) (from_qname T d) fun t ht => ?_
  refine .bind (Q := fun o => ∀ cs, o = some cs → ∃ n, cs = colKeys [n] ∧ NameSrc T d n) ?_ ?_
    fun o ho => .pure ⟨ht, ho⟩
  · have := Suff.name d
    suff
  · unfold Spec.optKw
    refine .alt (.skip (Suff.kw _) fun _ => ?_) (.yields (by yields; rintro b ⟨⟩))
    refine .bind (Q := fun cs => ∃ n, cs = colKeys [n] ∧ NameSrc T d n) ?_ ?_ fun cs hcs => .pure (by rintro _ ⟨⟩; exact hcs)
    · have := Suff.name d
      suff
    · exact .bind (Suff.name d) (from_name T d) fun n hn => .skip (Suff.kw _) fun _ => .pure ⟨n, rfl, hn⟩

theorem from_colCon {isNum : Str → Bool} {d : Rdbms} (hd : d ≠ .other) (T : List Str) :
    From T (colConOf isNum d) (ConMore T d) := by
  cases d with
  | other => exact absurd rfl hd
  | sqlite =>
    show From T (Spec.Sqlite.colCon isNum) _
    unfold Spec.Sqlite.colCon
    refine .alt ?_ (.alt ?_ (.alt ?_ (.alt ?_ (.alt ?_ (.alt ?_ (.alt ?_ (.alt ?_ ?_)))))))
    · exact .yields (by yields; exact fun _ => rfl)
    · exact .yields (by yields; trivial)
    · exact .yields (by yields; trivial)
    · exact .yields (by yields; trivial)
    · exact .yields (by yields; trivial)
    · rintro ts v r _ ⟨_, _, _, c, _, ⟨_, h⟩, rfl, _⟩
      exact .inl ⟨rfl, h⟩
    · exact from_colRef T _
    · exact .yields (by yields; trivial)
    · exact .yields (by yields; trivial)
  | postgres =>
    show From T (Spec.Postgres.colCon isNum) _
    unfold Spec.Postgres.colCon
    refine .alt ?_ (.alt ?_ (.alt ?_ (.alt ?_ (.alt ?_ (.alt ?_ (.alt ?_ ?_))))))
    · exact .yields (by yields; rintro ⟨⟩)
    · exact .yields (by yields; trivial)
    · exact .yields (by yields; trivial)
    · exact .yields (by yields; trivial)
    · exact .yields (by yields; trivial)
    · exact .yields (by yields; trivial)
    · exact from_colRef T _
    · exact .yields (by yields; trivial)
  | mysql =>
    show From T (Spec.Mysql.colCon isNum) _
    unfold Spec.Mysql.colCon
    refine .alt ?_ (.alt ?_ (.alt ?_ (.alt ?_ (.alt ?_ (.alt ?_ (.alt ?_ (.alt ?_ (.alt ?_ ?_))))))))
    · exact .yields (by yields; rintro ⟨⟩)
    · exact .yields (by yields; rintro ⟨⟩)
    · exact .yields (by yields; trivial)
    · exact .yields (by yields; trivial)
    · exact .yields (by yields; trivial)
    · exact .yields (by yields; trivial)
    · exact .yields (by yields <;> trivial)
    · exact .skip (Suff.kw _) fun _ => .bind (Suff.name _) (from_name T _) fun n hn => .pure (.inr ⟨rfl, hn⟩)
    · exact from_colRef T _
    · exact .yields (by yields <;> first | trivial | rfl)

/-! ### The other entries -/

/-- What `ItemSrc` does not say. -/
def ItemMore (d : Rdbms) : Item → Prop
  | .primaryKey _ ks => d ≠ .mysql → HasColumn ks
  | .unique _ ks => d ≠ .mysql → HasColumn ks
  | .foreignKey _ ks r => HasColumn ks ∧ (d = .mysql → r.cols ≠ none) ∧
      (d ≠ .mysql → ∀ cs, r.cols = some cs → HasColumn cs)
  | _ => True

theorem sep_ne {L : Lang β} {ts r : List Str} {vs : List β} (h : Sep L ts vs r) : vs ≠ [] := by
  cases h <;> simp

theorem hasColumn_keys {ns : List Str} (h : ns ≠ []) : HasColumn (colKeys ns) := by
  cases ns with
  | nil => exact absurd rfl h
  | cons n ns => exact ⟨n, by simp [colKeys]⟩

theorem nameList_has {d : Rdbms} : Yields (nameList d) HasColumn := by
  rintro ts v r ⟨_, _, _, ns, _, h, _, _, _, rfl, _⟩
  exact hasColumn_keys (sep_ne h)

theorem Yields.bindQ {L : Lang α} {f : α → Lang β} {Q : α → Prop} {P : β → Prop} (hL : Yields L Q)
    (h : ∀ v, Q v → Yields (f v) P) : Yields (L >>= f) P := by
  rintro ts w r ⟨v, mid, h1, h2⟩; exact h v (hL _ _ _ h1) _ _ _ h2

theorem foreignKey_more {d : Rdbms} (hm : d ≠ .mysql) (n : ConName) : Yields (foreignKey d n) (ItemMore d) := by
  rintro ts v r ⟨_, _, _, _, _, _, ks, _, hk, _, _, _, t, _, _, o, _, ho, rfl, _⟩
  refine ⟨nameList_has _ _ _ hk, fun h => absurd h hm, fun _ cs hcs => ?_⟩
  have hcs : o = some cs := hcs
  subst hcs
  rcases ho with ⟨_, _, _, w, _, ⟨ns, _, h, _, _, _, rfl, _⟩, e, _⟩ | ⟨_, _, _, e, _⟩
  · cases e; exact hasColumn_keys (sep_ne h)
  · cases e

theorem item_more {isNum : Str → Bool} {d : Rdbms} (hd : d ≠ .other) : Yields (itemOf isNum d) (ItemMore d) := by
  cases d with
  | other => exact absurd rfl hd
  | sqlite =>
    refine .alt (.bind fun _ => .bind fun n => ?_) (by unfold Spec.Sqlite.column; yields; trivial)
    unfold Spec.Sqlite.tableCon
    refine .alt ?_ (.alt ?_ (.alt ?_ ?_))
    · exact .bind fun _ => .bind fun _ => .bindQ nameList_has fun ks hks => by yields; exact fun _ => hks
    · exact .bind fun _ => .bindQ nameList_has fun ks hks => by yields; exact fun _ => hks
    · yields; trivial
    · exact .bindQ (foreignKey_more (by decide) n) fun i hi => by yields; exact hi
  | postgres =>
    refine .alt (.bind fun _ => .bind fun n => ?_) (by unfold Spec.Postgres.column; yields; trivial)
    unfold Spec.Postgres.tableCon
    refine .alt ?_ (.alt ?_ (.alt ?_ (.alt ?_ ?_)))
    · exact .bind fun _ => .bind fun _ => .bindQ nameList_has fun ks hks => by yields; exact fun _ => hks
    · exact .bind fun _ => .bindQ nameList_has fun ks hks => by yields; exact fun _ => hks
    · yields; trivial
    · exact .bindQ (foreignKey_more (by decide) n) fun i hi => by yields; exact hi
    · yields; trivial
  | mysql =>
    refine .alt (.bind fun _ => .bind fun n => ?_) (by unfold Spec.Mysql.column; yields; trivial)
    unfold Spec.Mysql.tableCon
    refine .alt ?_ (.alt ?_ (.alt ?_ (.alt ?_ (.alt ?_ ?_))))
    · yields; exact fun h => absurd rfl h
    · yields; exact fun h => absurd rfl h
    · exact .bind fun _ => .bind fun _ => .bind fun _ => .bindQ nameList_has fun ks hks => by
        yields; exact ⟨hks, (fun _ h => nomatch h), fun h => absurd rfl h⟩
    · yields; trivial
    · yields; trivial
    · yields; trivial

/-! ### Tables -/

theorem keyCols_mem {ks : List KeyPart} {n : Str} : n ∈ keyCols ks ↔ KeyPart.col n ∈ ks := by
  unfold keyCols
  rw [List.mem_filterMap]
  constructor
  · rintro ⟨k, hk, e⟩
    cases k with
    | col m => cases e; exact hk
    | expr => cases e
  · intro h; exact ⟨_, h, rfl⟩

theorem nameSrc_quotable {d : Rdbms} (hd : d ≠ .other) {T : List Str} (hT : ∀ t ∈ T, PlainToken d t) {n : Str}
    (h : NameSrc T (vd d) n) : Quotable (nameVal d n) := by
  have e : vd d = d := by cases d <;> first | rfl | exact absurd rfl hd
  rw [e] at h
  exact name_quotable hd (hT n h.1) h.2

theorem conName_quotable {d : Rdbms} (hd : d ≠ .other) {T : List Str} (hT : ∀ t ∈ T, PlainToken d t) {n : ConName}
    (h : ConNameSrc T (vd d) n) : Quotable (conNameVal d n) := by
  cases n with
  | named m => exact nameSrc_quotable hd hT (h m rfl)
  | _ => intro c hc; cases hc

theorem keys_ok {d : Rdbms} (hd : d ≠ .other) {T : List Str} (hT : ∀ t ∈ T, PlainToken d t) {ks : List KeyPart}
    (h : KeysSrc T (vd d) ks) (hc : HasColumn ks) : KeyNames d (keyCols ks) := by
  have e : vd d = d := by cases d <;> first | rfl | exact absurd rfl hd
  rw [e] at h
  obtain ⟨n, hn⟩ := hc
  refine ⟨List.ne_nil_of_mem (keyCols_mem.2 hn), fun k hk => ?_⟩
  obtain ⟨h1, h2⟩ := h k (keyCols_mem.1 hk)
  exact name_key (hT k h1) h2

theorem mem_suffix_expr {T ts e : List Str} {k : Str} {r : List Str} (h : ts <:+ T) (he : ts = k :: (e ++ r))
    {t : Str} (ht : t ∈ e) : t ∈ T := h.subset (by rw [he]; simp [ht])

/-- The column of a tidy script can be written. -/
theorem column_ok {isNum : Str → Bool} (hN : NumOK isNum) (hdot : isNum (S ".") = false) {d : Rdbms} (hd : d ≠ .other)
    {T : List Str} {ss : List Stmt} (hs : script isNum d T ss) (hT : ∀ t ∈ T, PlainToken d t) {t : TableAst}
    (ht : .table t ∈ ss) {c : ColAst} (hc : .column c ∈ t.items) (htidy : ∀ x ∈ c.cons, x.Tidy) :
    ColumnOK isNum d (columnVal isNum d c) := by
  have ev : vd d = d := by cases d <;> first | rfl | exact absurd rfl hd
  obtain ⟨h1, h2, _, h4, _, h6⟩ := script_colCon hs ht hc
  have hmore : ∀ x ∈ c.cons, ConMore T d x := by
    obtain ⟨a, r, g1, g2⟩ := script_item hs ht hc
    obtain ⟨ty, mid, body, rfl, g3, g4, g5, g6, g7⟩ := column_inv g2
    have s1 : ty <:+ T := (List.suffix_cons _ _).trans g1
    have s2 := (suff_type d _ _ _ g4).trans s1
    have s3 := (suff_conName d _ _ _ g5).trans s2
    intro x hx
    obtain ⟨ts', r', h8, h9⟩ := many_mem (fun _ _ _ h => (cons_colCon isNum d _ _ _ h).1) g6 hx
    exact from_colCon hd T _ _ _ (h8.trans s3) h9
  have htype : TypeOK d (typeVal c.type) := by
    obtain ⟨a, r, g1, g2⟩ := script_item hs ht hc
    obtain ⟨ty, mid, body, rfl, g3, g4, _⟩ := column_inv g2
    exact type_ok hd _ _ _ g4
  refine ⟨nameSrc_quotable hd hT ⟨h1, h2⟩, htype, conName_quotable hd hT fun n hn => h4 n hn, ?_, ?_, ?_, ?_, ?_, ?_⟩
  · show DefaultOK isNum d (((c.cons.findSome? ColCon.dflt).map (dfltVal isNum d)).getD .nil)
    cases hf : c.cons.findSome? ColCon.dflt with
    | none => trivial
    | some v =>
      obtain ⟨x, hx, e⟩ := findSome_mem hf
      obtain ⟨ts', h8, h9⟩ := h6 x hx
      have htx := htidy x hx
      cases x with
      | default w =>
        cases e
        cases v with
        | lit t =>
          obtain ⟨k, r, e, _, hl⟩ := h9
          rw [ev] at hl
          exact lit_ok hN hdot hd (hT t (h8.subset (by rw [e]; simp))) hl
        | expr x =>
          obtain ⟨k, r, e, _, hl⟩ := h9
          exact exprText_quotable (fun t ht => hT t (mem_suffix_expr h8 e ht)) htx
      | _ => cases e
  · show CollateOK d (((c.cons.findSome? ColCon.collation).map (nameVal d)).getD [])
    cases hf : c.cons.findSome? ColCon.collation with
    | none => exact .inl rfl
    | some v =>
      obtain ⟨x, hx, e⟩ := findSome_mem hf
      have hm := hmore x hx
      cases x with
      | collate w =>
        cases e
        refine .inr ?_
        rcases hm with ⟨rfl, hm⟩ | ⟨rfl, hm⟩
        · have : nameVal .sqlite v = v :=
            forall_kw (P := fun x => nameVal .sqlite x = x) (ks := ["BINARY", "NOCASE", "RTRIM"]) (by decide) (isKw_kw.2 hm)
          show Kw _ (nameVal .sqlite v)
          rw [this]; exact hm
        · exact nameSrc_quotable hd hT hm
      | _ => cases e
  · show ((c.cons.findSome? ColCon.checked).map exprText).getD [] ≠ [] →
      ExprOK d (((c.cons.findSome? ColCon.checked).map exprText).getD [])
    cases hf : c.cons.findSome? ColCon.checked with
    | none => intro h; exact absurd rfl h
    | some v =>
      obtain ⟨x, hx, e⟩ := findSome_mem hf
      obtain ⟨ts', h8, h9⟩ := h6 x hx
      have htx := htidy x hx
      cases x with
      | check w =>
        cases e
        obtain ⟨k, r, e, _, hl⟩ := h9
        exact fun _ => expr_ok hl (fun t ht => hT t (mem_suffix_expr h8 e ht)) htx
      | _ => cases e
  · show ReferenceOK d (((c.cons.findSome? ColCon.reference).map (refVal d)).getD {})
    cases hf : c.cons.findSome? ColCon.reference with
    | none => exact ⟨(fun c hc => nomatch hc), (fun ks hk => nomatch hk)⟩
    | some v =>
      obtain ⟨x, hx, e⟩ := findSome_mem hf
      have hm := hmore x hx
      cases x with
      | references w =>
        cases e
        refine ⟨nameSrc_quotable hd hT (by rw [ev]; exact hm.1.1), fun ks hk => ?_⟩
        obtain ⟨cs, hcs, rfl⟩ := Option.map_eq_some_iff.1 hk
        obtain ⟨n, rfl, hn⟩ := hm.2 cs hcs
        refine keys_ok hd hT (fun m hm => ?_) ⟨n, by simp [colKeys]⟩
        have : m = n := by simpa [colKeys] using hm
        rw [this, ev]; exact hn
      | _ => cases e
  · show ∀ ks, (((c.cons.findSome? ColCon.reference).map (refVal d)).getD {}).columnNames = some ks → ks.length = 1
    cases hf : c.cons.findSome? ColCon.reference with
    | none => intro ks h; cases h
    | some v =>
      obtain ⟨x, hx, e⟩ := findSome_mem hf
      have hm := hmore x hx
      cases x with
      | references w =>
        cases e
        intro ks hk
        obtain ⟨cs, hcs, rfl⟩ := Option.map_eq_some_iff.1 hk
        obtain ⟨n, rfl, hn⟩ := hm.2 cs hcs
        rfl
      | _ => cases e
  · intro ha
    obtain ⟨x, hx, e⟩ := List.any_eq_true.1 ha
    have hm := hmore x hx
    cases x with
    | primaryKey b =>
      have hb : b = true := e
      exact .inr ⟨hm hb, List.any_eq_true.2 ⟨_, hx, rfl⟩⟩
    | autoIncrement => exact .inl hm
    | _ => cases e

/-- The table of a tidy script can be written. -/
theorem table_ok {isNum : Str → Bool} (hN : NumOK isNum) (hdot : isNum (S ".") = false) {d : Rdbms} (hd : d ≠ .other)
    {T : List Str} {ss : List Stmt} (hs : script isNum d T ss) (htd : Tidy d T ss) {t : TableAst}
    (ht : .table t ∈ ss) : TableOK isNum d (tableVal isNum d t) := by
  have ev : vd d = d := by cases d <;> first | rfl | exact absurd rfl hd
  obtain ⟨hT, htidy⟩ := htd
  obtain ⟨hit, i, hi, hrep⟩ := htidy t ht
  have hname := script_name hs ht
  have hmore : ∀ i ∈ t.items, ItemMore d i := fun i hi => by
    obtain ⟨a, r, g1, g2⟩ := script_item hs ht hi
    exact item_more hd _ _ _ g2
  constructor
  · show Quotable ((t.name.schema.map (nameVal d)).getD [])
    cases e : t.name.schema with
    | none => intro c hc; cases hc
    | some s => exact nameSrc_quotable hd hT (hname.2 s e)
  · exact nameSrc_quotable hd hT hname.1
  · intro c hc
    obtain ⟨x, hx, rfl⟩ := mem_columns hc
    exact column_ok hN hdot hd hs hT ht hx (hit _ hx)
  · intro k hk
    obtain ⟨n, ks, hx, rfl⟩ := mem_pks hk
    obtain ⟨h1, h2⟩ := script_itemSrc hs ht hx
    refine ⟨conName_quotable hd hT h1, keys_ok hd hT h2 ?_⟩
    by_cases hm : d = .mysql
    · exact hit _ hx hm
    · exact hmore _ hx hm
  · intro k hk
    obtain ⟨n, ks, hx, rfl⟩ := mem_uniques hk
    obtain ⟨h1, h2⟩ := script_itemSrc hs ht hx
    refine ⟨conName_quotable hd hT h1, keys_ok hd hT h2 ?_⟩
    by_cases hm : d = .mysql
    · exact hit _ hx hm
    · exact hmore _ hx hm
  · intro k hk
    obtain ⟨n, e, hx, rfl⟩ := mem_checks hk
    obtain ⟨h1, h2, a, k, b, e2, _⟩ := script_itemSrc hs ht hx
    refine ⟨conName_quotable hd hT h1, expr_ok h2 (fun t ht => hT t ?_) (hit _ hx)⟩
    rw [e2]; simp [ht]
  · intro k hk
    obtain ⟨n, ks, r, hx, rfl⟩ := mem_fks hk
    obtain ⟨h1, h2, h3, h4⟩ := script_itemSrc hs ht hx
    obtain ⟨m1, m2, m3⟩ := hmore _ hx
    refine ⟨conName_quotable hd hT h1, keys_ok hd hT h2 m1, ⟨nameSrc_quotable hd hT h3.1, ?_⟩, ?_⟩
    · intro ks hk
      obtain ⟨cs, hcs, rfl⟩ := Option.map_eq_some_iff.1 hk
      refine keys_ok hd hT (h4 cs hcs) ?_
      by_cases hm : d = .mysql
      · exact hit _ hx hm cs hcs
      · exact m3 hm cs hcs
    · intro hm h
      exact m2 hm (Option.map_eq_none_iff.1 h)
  · intro h
    unfold itemTexts at h
    simp only [List.append_eq_nil_iff, List.map_eq_nil_iff] at h
    obtain ⟨⟨⟨⟨h1, h2⟩, h3⟩, h4⟩, h5⟩ := h
    cases i with
    | column c => cases List.filterMap_eq_nil_iff.1 h1 _ hi
    | primaryKey n ks => cases List.filterMap_eq_nil_iff.1 h2 _ hi
    | unique n ks => cases List.filterMap_eq_nil_iff.1 h3 _ hi
    | check n e => cases List.filterMap_eq_nil_iff.1 h4 _ hi
    | foreignKey n ks r => cases List.filterMap_eq_nil_iff.1 h5 _ hi
    | _ => exact hrep

end DDL
