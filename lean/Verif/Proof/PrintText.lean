import Verif.Spec.Print
import Verif.Spec.Tidy
import Verif.Proof.GrammarFacts
import Verif.Proof.Layout
/-
The tokens of a printed text.
-/

namespace DDL
open V Spec

/-- `s` is empty or ends with a blank, and `ts` are its tokens. -/
def Txt (d : Rdbms) (s : List Char) (ts : List Str) : Prop :=
  ∃ ls, WellFormed d ls ∧ (ls = [] ∨ ls.getLast? = some .space) ∧ srcOf ls = s ∧ toksOf ls = ts ∧
    ∀ l ∈ ls, Solid l ∨ l = .space

theorem Txt.nil {d : Rdbms} : Txt d [] [] := ⟨[], ⟨by simp, trivial⟩, .inl rfl, rfl, rfl, by simp⟩

theorem space_may (l : Lexeme) : Lexeme.May .space l := by
  simp [Lexeme.May, Lexeme.isComment]

theorem may_space (l : Lexeme) : Lexeme.May l .space := by
  cases l <;> simp [Lexeme.May, Lexeme.isComment]

/-- After a blank anything may follow. -/
theorem adjacent_append {a b : List Lexeme} (ha : Adjacent a) (hb : Adjacent b)
    (hl : ∀ x y, a.getLast? = some x → b.head? = some y → x.May y) : Adjacent (a ++ b) := by
  induction a with
  | nil => exact hb
  | cons x a ih =>
    cases a with
    | nil =>
      cases b with
      | nil => trivial
      | cons y b => exact ⟨hl x y rfl rfl, hb⟩
    | cons y a =>
      exact ⟨ha.1, ih ha.2 (fun x' y' h1 h2 => hl x' y' (by simpa using h1) h2)⟩

theorem Txt.append {d : Rdbms} {s s' : List Char} {ts ts' : List Str} (h : Txt d s ts)
    (h' : Txt d s' ts') : Txt d (s ++ s') (ts ++ ts') := by
  obtain ⟨ls, h1, h2, rfl, rfl, h3⟩ := h
  obtain ⟨ls', h1', h2', rfl, rfl, h3'⟩ := h'
  refine ⟨ls ++ ls', ⟨?_, ?_⟩, ?_, srcOf_append _ _, toksOf_append _ _, fun l hl =>
    (List.mem_append.1 hl).elim (h3 l) (h3' l)⟩
  · intro l hl
    rcases List.mem_append.1 hl with hl | hl
    · exact h1.1 l hl
    · exact h1'.1 l hl
  · refine adjacent_append h1.2 h1'.2 fun x y hx hy => ?_
    rcases h2 with rfl | h2
    · cases hx
    · rw [h2] at hx; cases hx; exact space_may y
  · rcases h2' with rfl | h2'
    · simpa using h2
    · right; rw [List.getLast?_append, h2']; rfl

/-- Lexemes followed by a blank. -/
theorem Txt.of {d : Rdbms} {ls : List Lexeme} (h : WellFormed d ls) (hs : ∀ l ∈ ls, Solid l) :
    Txt d (piece (srcOf ls)) (toksOf ls) := by
  refine ⟨ls ++ [.space], ⟨?_, ?_⟩, .inr (by simp), ?_, ?_, fun l hl =>
    (List.mem_append.1 hl).elim (fun hl => .inl (hs l hl)) (fun hl => .inr (List.mem_singleton.1 hl))⟩
  · intro l hl
    rcases List.mem_append.1 hl with hl | hl
    · exact h.1 l hl
    · rw [List.mem_singleton.1 hl]; trivial
  · refine adjacent_append h.2 trivial fun x y _ hy => ?_
    cases hy; exact may_space x
  · rw [srcOf_append]; rfl
  · rw [toksOf_append]; simp [toksOf, Lexeme.toks]

theorem Txt.one {d : Rdbms} {l : Lexeme} (h : l.Ok d) (hs : Solid l) :
    Txt d (piece l.src) l.toks := by
  have := Txt.of (d := d) (ls := [l]) ⟨by simpa using h, trivial⟩ (by simpa using hs)
  simpa [srcOf, toksOf] using this

theorem Txt.word {d : Rdbms} {w : Str} (h : IsWord d w) : Txt d (piece w) [w] :=
  Txt.one (l := .word w) h trivial

theorem Txt.punct {d : Rdbms} {c : Char} (h : c ∈ puncts) : Txt d (piece [c]) [[c]] :=
  Txt.one (l := .punct c) h trivial

theorem Txt.quoted {d : Rdbms} {q : Char} {s : Str} (hq : q ∈ quotes) (hd : d = .postgres → q ≠ '`')
    (hs : Quotable s) : Txt d (piece (q :: s ++ [q])) [q :: s ++ [q]] := by
  have hn : '\n' ∉ s := fun h => (hs _ h).2 rfl
  have := Txt.one (d := d) (l := .quoted q s) ⟨hq, hd, fun c hc => (hs c hc).1⟩ hn
  have hf : s.filter (· ≠ '\n') = s := by
    rw [List.filter_eq_self]; intro c hc; simpa using (hs c hc).2
  simp only [Lexeme.src, Lexeme.toks, List.count_eq_zero_of_not_mem hn, hf] at this
  exact this

/-- Letters, digits and underscores make a word. -/
theorem isWord_alnum {d : Rdbms} {w : Str} (h0 : w ≠ [])
    (h : ∀ c ∈ w, c.isAlphanum = true ∨ c = '_') : IsWord d w := by
  have hp : ∀ c : Char, (c.isAlphanum = true ∨ c = '_') → c ∉ nonWord d ∧ c ≠ '-' ∧ c ≠ '/' ∧ c ≠ '*' := by
    intro c hc
    have hb : ∀ x ∈ [' ', '\t', '\n', Char.ofNat 0x3000] ++ quotes ++ puncts ++ ['#', '-', '/', '*'],
        ¬ (x.isAlphanum = true ∨ x = '_') := by decide
    have hne : ∀ x ∈ [' ', '\t', '\n', Char.ofNat 0x3000] ++ quotes ++ puncts ++ ['#', '-', '/', '*'],
        c ≠ x := by rintro x hx rfl; exact hb _ hx hc
    refine ⟨?_, hne _ (by simp), hne _ (by simp), hne _ (by simp)⟩
    intro hm
    refine hne c ?_ rfl
    unfold nonWord at hm
    rcases List.mem_append.1 hm with hm | hm
    · exact List.mem_append.2 (.inl hm)
    · split at hm
      · rw [List.mem_singleton.1 hm]; simp
      · cases hm
  refine ⟨h0, fun c hc => (hp c (h c hc)).1, ?_⟩
  clear h0
  induction w with
  | nil => trivial
  | cons a w ih =>
    cases w with
    | nil => trivial
    | cons b w =>
      refine ⟨?_, ih fun c hc => h c (by simp [hc])⟩
      obtain ⟨_, h1, h2, h3⟩ := hp a (h a (by simp))
      simp [marks, h1, h2, h3]

theorem isWord_ident {d : Rdbms} {w : Str} (h : Ident w) : IsWord d w := by
  obtain ⟨c, r, rfl, h1, h2⟩ := h
  refine isWord_alnum (by simp) fun x hx => ?_
  rcases List.mem_cons.1 hx with rfl | hx
  · rcases h1 with h1 | h1
    · exact .inl (by simp [Char.isAlphanum, h1])
    · exact .inr h1
  · exact h2 x hx

/-- A piece of fixed text: a word of letters, or punctuation. -/
def fixedB (w : Str) : Bool :=
  (!w.isEmpty && w.all (fun c => c.isAlphanum || c == '_')) || puncts.any (fun c => w == [c])

theorem Txt.fixed {d : Rdbms} {s : List Char} (ws : List Str) (h : ws.all fixedB = true)
    (e : s = ws.flatMap piece) : Txt d s ws := by
  subst e
  induction ws with
  | nil => exact .nil
  | cons w ws ih =>
    rw [List.all_cons, Bool.and_eq_true] at h
    rw [List.flatMap_cons]
    refine Txt.append (ts := [w]) ?_ (ih h.2)
    have hw := h.1
    unfold fixedB at hw
    rw [Bool.or_eq_true] at hw
    rcases hw with hw | hw
    · rw [Bool.and_eq_true] at hw
      refine .word (isWord_alnum (by rintro rfl; simp at hw) fun c hc => ?_)
      have := (List.all_eq_true.1 hw.2) c hc
      simpa using this
    · obtain ⟨c, hc, e⟩ := List.any_eq_true.1 hw
      have : w = [c] := by simpa using e
      subst this
      exact .punct hc

/-! ### Names -/

/-- The token of a name. -/
def nameTok (d : Rdbms) (n : Str) : Str := nameQuote d :: n ++ [nameQuote d]

theorem Txt.name {d : Rdbms} {n : Str} (h : Quotable n) : Txt d (nameText d n) [nameTok d n] := by
  have e : nameText d n = piece (nameTok d n) := by simp [nameText, piece, nameTok]
  rw [e]
  refine .quoted ?_ ?_ h
  · cases d <;> simp [nameQuote, quotes]
  · rintro rfl; decide

theorem name_nameTok (d : Rdbms) (n : Str) : Name d (nameTok d n) :=
  .inl ⟨nameQuote d, n ++ [nameQuote d], rfl, by cases d <;> decide⟩

theorem content_quoted (q q' : Char) (s : Str) : content (q :: s ++ [q']) = s := by
  simp [content]

theorem nameVal_nameTok {d : Rdbms} (hd : d ≠ .other) (n : Str) : nameVal d (nameTok d n) = n := by
  have hm : nameQuote d ∈ identQuotes d := by cases d <;> first | exact (hd rfl).elim | decide
  have e : nameVal d (nameTok d n) = if nameQuote d ∈ identQuotes d then content (nameTok d n)
      else nameTok d n := rfl
  rw [e, if_pos hm]; exact content_quoted _ _ _

/-- No spelling of a keyword starts with this character. -/
def noHead (c : Char) (k : String) : Bool :=
  (k.toList.map Char.toUpper).head? != some c && (k.toList.map Char.toLower).head? != some c

theorem not_kw_head {c : Char} {r : Str} {ks : List String} (h : ks.all (noHead c) = true) :
    ¬ Kw ks (c :: r) := by
  rintro ⟨k, hk, e⟩
  have := List.all_eq_true.1 h k hk
  simp only [noHead, Bool.and_eq_true, bne_iff_ne, ne_eq] at this
  rcases e with e | e
  · exact this.1 (by rw [← e]; rfl)
  · exact this.2 (by rw [← e]; rfl)

theorem not_kw_nameTok {d : Rdbms} {n : Str} {ks : List String}
    (h : ks.all (fun k => noHead '"' k && noHead '`' k) = true) : ¬ Kw ks (nameTok d n) := by
  refine not_kw_head (r := n ++ [nameQuote d]) (List.all_eq_true.2 fun k hk => ?_)
  have := List.all_eq_true.1 h k hk
  rw [Bool.and_eq_true] at this
  cases d
  · exact this.1
  · exact this.1
  · exact this.2
  · exact this.1

theorem Txt.key {d : Rdbms} {k : Str} (h : KeyName d k) : Txt d (piece k) [k] := by
  rcases h with ⟨q, hq, s, hs, rfl⟩ | ⟨h, _⟩
  · refine .quoted ?_ ?_ hs
    · have : ∀ x ∈ nameQuotes d, x ∈ quotes := by cases d <;> decide
      exact this q hq
    · rintro rfl; rw [List.mem_singleton.1 hq]; decide
  · exact .word (isWord_ident h)

theorem KeyName.name {d : Rdbms} {k : Str} (h : KeyName d k) : Name d k := by
  rcases h with ⟨q, hq, s, hs, rfl⟩ | h
  · exact .inl ⟨q, s ++ [q], rfl, hq⟩
  · exact .inr h

/-! ### Numbers -/

theorem decDigits_digits (n : Nat) : decDigits n ≠ [] ∧ ∀ c ∈ decDigits n, c.isDigit = true := by
  have hd : ∀ m : Nat, m < 10 → (Char.ofNat ('0'.toNat + m)).isDigit = true := by decide
  induction n using decDigits.induct with
  | case1 n h => rw [decDigits, if_pos h]; simpa using hd n h
  | case2 n h ih =>
    rw [decDigits, if_neg h]
    refine ⟨by simp, fun c hc => ?_⟩
    rcases List.mem_append.1 hc with hc | hc
    · exact ih.2 c hc
    · rw [List.mem_singleton.1 hc]; exact hd _ (Nat.mod_lt _ (by decide))

theorem decimal_decDigits (n : Nat) : decimal (decDigits n) = n := by
  have hd : ∀ m : Nat, m < 10 → (Char.ofNat ('0'.toNat + m)).toNat - '0'.toNat = m := by decide
  induction n using decDigits.induct with
  | case1 n h => rw [decDigits, if_pos h]; simp only [decimal, List.foldl]; rw [hd n h]; omega
  | case2 n h ih =>
    rw [decDigits, if_neg h]
    unfold decimal at ih ⊢
    rw [List.foldl_append, ih]
    simp only [List.foldl]
    rw [hd _ (Nat.mod_lt _ (by decide))]
    omega

theorem posInt_decDigits {n : Nat} (h0 : 0 < n) (h : n < 2 ^ 63) : PosInt (decDigits n) n :=
  ⟨decDigits n, .inl rfl, (decDigits_digits n).1, (decDigits_digits n).2,
    (decimal_decDigits n).symm, h0, h⟩

theorem Txt.dec {d : Rdbms} (n : Nat) : Txt d (piece (decDigits n)) [decDigits n] :=
  .word (isWord_alnum (decDigits_digits n).1 fun c hc => .inl (by
    simp [Char.isAlphanum, (decDigits_digits n).2 c hc]))

/-! ### Expressions -/

theorem mergeCommas_id {e : List Str} (h : NoCommaPair e) : mergeCommas e = e := by
  induction e with
  | nil => rfl
  | cons a e ih =>
    cases e with
    | nil => simp [mergeCommas]
    | cons b e =>
      have h1 := h.1
      rw [mergeCommas, ih h.2, if_neg]
      rintro ⟨e1, e2⟩
      simp only [List.head?_cons, Option.some.injEq] at e2
      exact h1 ⟨e1, e2⟩

theorem solid_flatten {ls : List Lexeme} (h : ∀ l ∈ ls, Solid l) : (toksOf ls).flatten = srcOf ls := by
  induction ls with
  | nil => rfl
  | cons l ls ih =>
    have hc : toksOf (l :: ls) = l.toks ++ toksOf ls := by simp [toksOf]
    have hs : srcOf (l :: ls) = l.src ++ srcOf ls := by simp [srcOf]
    rw [hc, hs, List.flatten_append, ih fun l hl => h l (by simp [hl])]
    congr 1
    have := h l (by simp)
    cases l with
    | word w => simp [Lexeme.toks, Lexeme.src]
    | punct w => simp [Lexeme.toks, Lexeme.src]
    | quoted q b =>
      have hn : '\n' ∉ b := this
      have hf : b.filter (· ≠ '\n') = b := by
        rw [List.filter_eq_self]; intro c hc; simp; rintro rfl; exact hn hc
      simp only [Lexeme.toks, Lexeme.src, hf, List.count_eq_zero_of_not_mem hn]
      simp
    | _ => exact this.elim

theorem solid_no_nl {d : Rdbms} {l : Lexeme} (hl : l.Ok d) (h : Solid l ∨ l = .space) :
    nl ∉ l.toks := by
  rcases h with h | rfl
  · cases l with
    | word w =>
      intro hm
      have hw : IsWord d w := hl
      have e : w = nl := (List.mem_singleton.1 hm).symm
      have := hw.2.1 '\n' (by rw [e]; decide)
      exact this (by cases d <;> decide)
    | punct c =>
      intro hm
      have hc : c ∈ puncts := hl
      have e : nl = [c] := List.mem_singleton.1 hm
      have : ∀ c ∈ puncts, nl ≠ [c] := by decide
      exact this c hc e
    | quoted q b =>
      have hn : '\n' ∉ b := h
      intro hm
      have hq : q ∈ quotes := hl.1
      simp only [Lexeme.toks, List.count_eq_zero_of_not_mem hn] at hm
      have e := List.mem_singleton.1 hm
      have : ∀ q ∈ quotes, nl.head? ≠ some q := by decide
      exact this q hq (by rw [e]; rfl)
    | _ => exact h.elim
  · simp [Lexeme.toks]

/-- No newline tokens. -/
theorem Txt.no_nl {d : Rdbms} {s : List Char} {ts : List Str} (h : Txt d s ts) : ∀ t ∈ ts, t ≠ nl := by
  obtain ⟨ls, h1, _, _, rfl, h3⟩ := h
  rintro t ht rfl
  obtain ⟨l, hl, hm⟩ := List.mem_flatMap.1 ht
  exact solid_no_nl (h1.1 l hl) (h3 l hl) hm

theorem Txt.lexes {d : Rdbms} {s : List Char} {ts : List Str} (h : Txt d s ts) : Lexes d s ts := by
  obtain ⟨ls, h1, _, rfl, rfl, _⟩ := h
  exact lexes_lexemes h1

theorem noPair_parens {e : List Str} (h : NoCommaPair e) :
    NoCommaPair (S "(" :: e ++ [S ")"]) := by
  have key : NoCommaPair (e ++ [S ")"]) := by
    induction e with
    | nil => trivial
    | cons a e ih =>
      cases e with
      | nil => exact ⟨by rintro ⟨_, e⟩; revert e; decide, trivial⟩
      | cons b e => exact ⟨h.1, ih h.2⟩
  cases e with
  | nil => exact ⟨by rintro ⟨e, _⟩; revert e; decide, trivial⟩
  | cons a e => exact ⟨by rintro ⟨e, _⟩; revert e; decide, key⟩

/-- The tokens of well-formed text are plain. -/
theorem Txt.plain {d : Rdbms} {s : List Char} {ts : List Str} (h : Txt d s ts) : ∀ t ∈ ts, PlainToken d t := by
  obtain ⟨ls, h1, _, _, rfl, h3⟩ := h
  intro t ht
  obtain ⟨l, hl, hm⟩ := List.mem_flatMap.1 ht
  rcases h3 l hl with hs | rfl
  · refine ⟨l, h1.1 l hl, hs, ?_⟩
    cases l with
    | word w => rw [List.mem_singleton.1 hm]; rfl
    | punct c => rw [List.mem_singleton.1 hm]; rfl
    | quoted q b =>
      have hn : '\n' ∉ b := hs
      simp only [Lexeme.toks, List.count_eq_zero_of_not_mem hn] at hm ⊢
      rw [List.mem_singleton.1 hm]; rfl
    | _ => exact hs.elim
  · cases hm

/-- Where the first and the last character of a token cannot be part of a comment mark. -/
def Blunt (t : Str) : Prop := ∃ c c', t.head? = some c ∧ t.getLast? = some c' ∧ c ∈ quotes ++ puncts ∧ c' ∈ quotes ++ puncts

theorem solid_blunt {d : Rdbms} {l : Lexeme} (h : l.Ok d) (hs : Solid l) :
    (∃ w, l = .word w) ∨ ∃ t, l.toks = [t] ∧ Blunt t := by
  cases l with
  | word w => exact .inl ⟨w, rfl⟩
  | punct c =>
    have hc : c ∈ puncts := h
    exact .inr ⟨[c], rfl, c, c, rfl, rfl, by simp [hc], by simp [hc]⟩
  | quoted q b =>
    have hn : '\n' ∉ b := hs
    have hq : q ∈ quotes := h.1
    refine .inr ⟨q :: b.filter (· ≠ '\n') ++ [q], ?_, q, q, rfl, List.getLast?_concat .., by simp [hq], by simp [hq]⟩
    simp [Lexeme.toks, List.count_eq_zero_of_not_mem hn]
  | _ => exact hs.elim

theorem marks_blunt : ∀ p ∈ marks, p.1 ∉ quotes ++ puncts ∧ p.2 ∉ quotes ++ puncts := by decide

/-- No comment mark arises between the lexemes of well-formed text. -/
theorem spaced_wellFormed {d : Rdbms} {ls : List Lexeme} (h : WellFormed d ls) (hs : ∀ l ∈ ls, Solid l) :
    Spaced (toksOf ls) := by
  induction ls with
  | nil => trivial
  | cons l r ih =>
    cases r with
    | nil =>
      rcases solid_blunt (h.1 l (by simp)) (hs l (by simp)) with ⟨w, rfl⟩ | ⟨t, ht, _⟩
      · trivial
      · show Spaced (l.toks ++ [])
        rw [ht]; trivial
    | cons l' r =>
      have ih := ih ⟨fun l hl => h.1 l (by simp [hl]), h.2.2⟩ fun l hl => hs l (by simp [hl])
      have hl := solid_blunt (h.1 l (by simp)) (hs l (by simp))
      have hl' := solid_blunt (h.1 l' (by simp)) (hs l' (by simp))
      have e : ∀ x y, toksOf (l :: l' :: r) = l.toks ++ (l'.toks ++ toksOf r) ∧ (l.toks = [x] → l'.toks = [y] →
          (∀ a b, x.getLast? = some a → y.head? = some b → (a, b) ∉ marks) → Spaced (toksOf (l :: l' :: r))) := by
        intro x y
        have e1 : toksOf (l :: l' :: r) = l.toks ++ (l'.toks ++ toksOf r) := rfl
        refine ⟨e1, fun hx hy hab => ?_⟩
        have e2 : toksOf (l' :: r) = l'.toks ++ toksOf r := rfl
        rw [e2, hy] at ih
        rw [e1, hx, hy]
        exact ⟨hab, ih⟩
      rcases hl with ⟨w, rfl⟩ | ⟨t, ht, c, c', _, hc', _, hb⟩
      · rcases hl' with ⟨v, rfl⟩ | ⟨t, ht, c, c', hc, _, hb, _⟩
        · exact h.2.1.elim
        · refine (e w t).2 rfl ht fun a b _ hy hm => ?_
          rw [hc] at hy; cases hy
          exact (marks_blunt _ hm).2 hb
      · have : ∃ y, l'.toks = [y] := by
          rcases hl' with ⟨v, rfl⟩ | ⟨t, ht, _⟩
          · exact ⟨v, rfl⟩
          · exact ⟨t, ht⟩
        obtain ⟨y, hy⟩ := this
        refine (e t y).2 ht hy fun a b ha _ hm => ?_
        rw [hc'] at ha; cases ha
        exact (marks_blunt _ hm).1 hb

/-- An expression is one balanced phrase, and its text is what was written. -/
theorem Txt.expr {d : Rdbms} {s : List Char} (h : ExprOK d s) :
    ∃ v, Txt d (piece s) v ∧ (∀ r, parens (v ++ r) v r) ∧ exprText v = s ∧ v.head? = some (S "(") ∧
      Spaced v := by
  obtain ⟨ls, e, h1, h2, rfl, h4, h5, h6⟩ := h
  refine ⟨S "(" :: e ++ [S ")"], h4 ▸ Txt.of h1 h2, fun r => ⟨e, h5, rfl, rfl⟩, ?_, rfl, h4 ▸ spaced_wellFormed h1 h2⟩
  rw [exprText, mergeCommas_id (noPair_parens h6), ← h4, solid_flatten h2]

end DDL
