import Verif.Proof.Order
/-
The tokens of an entry of a table definition: parentheses are balanced, and commas stand inside of
parentheses only.
-/

namespace DDL
open Spec Conv

/-- Balanced tokens without a comma outside of parentheses. -/
inductive Flat : List Str → Prop
  | nil : Flat []
  | plain (t : Str) (ts : List Str) (h1 : t ≠ ['(']) (h2 : t ≠ [')']) (h3 : t ≠ [',']) (h : Flat ts) : Flat (t :: ts)
  | paren (ts us : List Str) (h : Bal ts) (h' : Flat us) : Flat (['('] :: ts ++ [')'] :: us)

theorem Flat.bal {p : List Str} (h : Flat p) : Bal p := by
  induction h with
  | nil => exact .nil
  | plain t ts h1 h2 _ _ ih => exact .plain t ts h1 h2 ih
  | paren ts us h _ ih => exact .paren ts us h ih

theorem Flat.append {p q : List Str} (h : Flat p) (h' : Flat q) : Flat (p ++ q) := by
  induction h with
  | nil => exact h'
  | plain t ts h1 h2 h3 _ ih => exact .plain t _ h1 h2 h3 ih
  | paren ts us h _ ih => have := Flat.paren ts _ h ih; simpa using this

theorem bal_append {p q : List Str} (h : Bal p) (h' : Bal q) : Bal (p ++ q) := by
  induction h with
  | nil => exact h'
  | plain t ts h1 h2 _ ih => exact .plain t _ h1 h2 ih
  | paren ts us h _ _ ih => have := Bal.paren ts _ h ih; simpa using this

theorem bal_rest {p q : List Str} (h : Bal p) (h' : Bal (p ++ q)) : Bal q := by
  induction h with
  | nil => exact h'
  | plain t ts h1 h2 _ ih =>
    generalize hx : t :: ts ++ q = x at h'
    cases h' with
    | nil => cases hx
    | plain _ _ _ _ h => cases hx; exact ih h
    | paren ts' us' _ _ => exact (h1 (List.cons.inj hx).1).elim
  | paren ts us h _ _ ih =>
    apply ih
    have e : ['('] :: ts ++ [')'] :: us ++ q = ['('] :: (ts ++ [')'] :: (us ++ q)) := by simp
    rw [e] at h'
    generalize hx : ts ++ [')'] :: (us ++ q) = x at h'
    cases h' with
    | plain _ _ h1 => exact (h1 rfl).elim
    | paren ts' us' g g' =>
      obtain ⟨_, rfl⟩ := bal_unique h g hx
      exact g'

theorem flat_no_comma {p : List Str} (h : Flat p) {X q : List Str} (hX : Bal X) (e : p = X ++ [','] :: q) : False := by
  induction h generalizing X q with
  | nil => cases X <;> cases e
  | plain t ts h1 h2 h3 _ ih =>
    cases hX with
    | nil => cases e; exact h3 rfl
    | plain t' ts' _ _ g => cases e; exact ih g rfl
    | paren ts' us' _ _ => exact h1 (List.cons.inj e).1
  | paren ts us h _ ih =>
    cases hX with
    | nil => cases e
    | plain t' ts' g _ _ => exact g (List.cons.inj e).1.symm
    | paren ts' us' g g' =>
      have e : ts ++ [')'] :: us = ts' ++ [')'] :: (us' ++ [','] :: q) := by simpa using e
      obtain ⟨_, e⟩ := bal_unique h g e
      exact ih g' e

/-- A comma in balanced tokens that start with an entry. -/
theorem flat_split {p X m Y : List Str} (h : Flat p) (hX : Bal X) (e : p ++ [','] :: m = X ++ [','] :: Y) :
    (X = p ∧ m = Y) ∨ ∃ X', X = p ++ [','] :: X' ∧ Bal X' ∧ m = X' ++ [','] :: Y := by
  rcases List.append_eq_append_iff.1 e with ⟨a, rfl, ha⟩ | ⟨a, rfl, ha⟩
  · cases a with
    | nil => left; simpa using ha
    | cons c a =>
      right
      cases ha
      have hc : Bal ([','] :: a) := bal_rest h.bal hX
      refine ⟨a, rfl, ?_, rfl⟩
      cases hc with
      | plain _ _ _ _ h => exact h
  · cases a with
    | nil => left; exact ⟨by simp, (by simpa using ha : Y = m).symm⟩
    | cons c a =>
      cases ha
      exact (flat_no_comma h hX rfl).elim

/-! ### Phrases -/

/-- The tokens of the phrase are balanced. -/
def Blt (L : Lang β) : Prop := ∀ ts v r, L ts v r → ∃ p, ts = p ++ r ∧ Bal p

/-- The tokens of the phrase are balanced, without a comma outside of parentheses. -/
def Flt (L : Lang β) : Prop := ∀ ts v r, L ts v r → ∃ p, ts = p ++ r ∧ Flat p

/-- Tokens that are neither parentheses nor commas. -/
def FlatTok (t : Str) : Prop := t ≠ ['('] ∧ t ≠ [')'] ∧ t ≠ [',']

instance (t : Str) : Decidable (FlatTok t) := by unfold FlatTok; infer_instance

theorem Flt.blt {L : Lang β} (h : Flt L) : Blt L := fun ts v r h' => by
  obtain ⟨p, e, hp⟩ := h ts v r h'; exact ⟨p, e, hp.bal⟩

theorem Blt.bind {L : Lang α} {f : α → Lang β} (h : Blt L) (hf : ∀ a, Blt (f a)) : Blt (L >>= f) := by
  rintro ts v r ⟨a, m, h1, h2⟩
  obtain ⟨p, rfl, hp⟩ := h _ _ _ h1
  obtain ⟨q, rfl, hq⟩ := hf _ _ _ _ h2
  exact ⟨p ++ q, by simp, bal_append hp hq⟩

namespace Flt
theorem pure (v : β) : Flt (pure v : Lang β) := by rintro ts w r ⟨rfl, rfl⟩; exact ⟨[], rfl, .nil⟩

theorem bind {L : Lang α} {f : α → Lang β} (h : Flt L) (hf : ∀ a, Flt (f a)) : Flt (L >>= f) := by
  rintro ts v r ⟨a, m, h1, h2⟩
  obtain ⟨p, rfl, hp⟩ := h _ _ _ h1
  obtain ⟨q, rfl, hq⟩ := hf _ _ _ _ h2
  exact ⟨p ++ q, by simp, hp.append hq⟩

theorem alt {L M : Lang β} (h : Flt L) (h' : Flt M) : Flt (L <|> M) := by
  rintro ts v r (g | g)
  · exact h _ _ _ g
  · exact h' _ _ _ g

theorem tok {P : Str → Prop} (h : ∀ t, P t → FlatTok t) : Flt (tok P) := by
  rintro ts v r ⟨rfl, hp⟩
  obtain ⟨h1, h2, h3⟩ := h _ hp
  exact ⟨[v], rfl, .plain _ _ h1 h2 h3 .nil⟩

theorem kwTok {ks : List String} (h : ∀ t ∈ kwList ks, FlatTok t) (t : Str) (ht : Kw ks t) : FlatTok t :=
  forall_kw h (isKw_kw.2 ht)

theorem kw {ks : List String} (h : ∀ t ∈ kwList ks, FlatTok t) : Flt (kw ks) := (tok (kwTok h)).bind fun _ => .pure _

theorem at_ (ks : List String) : Flt (at_ ks) := by rintro ts v r ⟨rfl, _⟩; exact ⟨[], rfl, .nil⟩
theorem notAt (ks : List String) : Flt (notAt ks) := by rintro ts v r ⟨rfl, _⟩; exact ⟨[], rfl, .nil⟩

theorem optKw {ks : List String} {L : Lang β} (h : ∀ t ∈ kwList ks, FlatTok t) (hL : Flt L) : Flt (optKw ks L) :=
  alt ((kw h).bind fun _ => hL.bind fun _ => pure _) ((notAt _).bind fun _ => pure _)

theorem optWord {ks : List String} (h : ∀ t ∈ kwList ks, FlatTok t) : Flt (optWord ks) :=
  alt ((kw h).bind fun _ => pure _) ((notAt _).bind fun _ => pure _)

theorem many {ks : List String} {L : Lang β} (hL : Flt L) : Flt (Many ks L) := by
  intro ts v r h
  induction h with
  | nil => exact ⟨[], rfl, .nil⟩
  | cons _ h _ ih =>
    obtain ⟨p, rfl, hp⟩ := hL _ _ _ h
    obtain ⟨q, rfl, hq⟩ := ih
    exact ⟨p ++ q, by simp, hp.append hq⟩

theorem such {L : Lang β} {P : β → Prop} (hL : Flt L) : Flt (L.such P) := fun ts v r h => hL ts v r h.1

theorem parens : Flt parens := by
  rintro ts v r ⟨e, he, rfl, rfl⟩
  have := Flat.paren e [] he .nil
  exact ⟨_, rfl, this⟩

theorem name_plain {d : Rdbms} (t : Str) (h : Name d t) : FlatTok t := by
  rcases h with ⟨c, r, rfl, hc⟩ | ⟨⟨c, r, rfl, hc, _⟩, _⟩
  · refine ⟨?_, ?_, ?_⟩ <;> rintro ⟨⟩ <;> cases d <;> revert hc <;> decide
  · refine ⟨?_, ?_, ?_⟩ <;> rintro ⟨⟩ <;> revert hc <;> decide

theorem name (d : Rdbms) : Flt (name d) := tok name_plain

theorem string_plain {d : Rdbms} (t : Str) (h : StartsWith (stringQuotes d) t) : FlatTok t := by
  obtain ⟨c, r, rfl, hc⟩ := h
  refine ⟨?_, ?_, ?_⟩ <;> rintro ⟨⟩ <;> cases d <;> revert hc <;> decide

theorem string (d : Rdbms) : Flt (string d) := tok string_plain

theorem posInt : Flt posInt := by
  rintro ts v r ⟨t, rfl, ds, ht, hne, hd, _⟩
  refine ⟨[t], rfl, ?_⟩
  have : FlatTok t := by
    rcases ht with rfl | rfl
    · refine ⟨?_, ?_, ?_⟩ <;> rintro rfl <;> revert hd <;> decide
    · refine ⟨?_, ?_, ?_⟩ <;> rintro ⟨⟩
  exact .plain _ _ this.1 this.2.1 this.2.2 .nil

end Flt

theorem Flt.sep_bal {L : Lang β} (hL : Flt L) : Blt (Sep L) := by
  intro ts v r h
  induction h with
  | one h _ => obtain ⟨p, e, hp⟩ := hL _ _ _ h; exact ⟨p, e, hp.bal⟩
  | cons h hc _ ih =>
    obtain ⟨p, rfl, hp⟩ := hL _ _ _ h
    obtain ⟨q, rfl, hq⟩ := ih
    obtain ⟨t, _, ⟨rfl, ht⟩, _, rfl⟩ := hc
    refine ⟨p ++ t :: q, by simp, bal_append hp.bal (.plain _ _ ?_ ?_ hq)⟩
    · exact forall_kw (P := fun t => t ≠ ['(']) (by decide) (isKw_kw.2 ht)
    · exact forall_kw (P := fun t => t ≠ [')']) (by decide) (isKw_kw.2 ht)

theorem lparen {ts m : List Str} {u : Unit} (h : kw ["("] ts u m) : ts = ['('] :: m := by
  obtain ⟨t, _, ⟨rfl, k, hk, ht⟩, _, rfl⟩ := h
  cases hk with
  | head => rcases ht with rfl | rfl <;> rfl
  | tail _ h => cases h

theorem rparen {ts m : List Str} {u : Unit} (h : kw [")"] ts u m) : ts = [')'] :: m := by
  obtain ⟨t, _, ⟨rfl, k, hk, ht⟩, _, rfl⟩ := h
  cases hk with
  | head => rcases ht with rfl | rfl <;> rfl
  | tail _ h => cases h

theorem comma {ts m : List Str} {u : Unit} (h : kw [","] ts u m) : ts = [','] :: m := by
  obtain ⟨t, _, ⟨rfl, k, hk, ht⟩, _, rfl⟩ := h
  cases hk with
  | head => rcases ht with rfl | rfl <;> rfl
  | tail _ h => cases h

/-- `( L )` -/
theorem Flt.paren {L : Lang α} (hL : Blt L) {f : α → Unit → Lang β} (hf : ∀ a, Flt (f a ())) :
    Flt (do Spec.kw ["("]; let a ← L; let u ← Spec.kw [")"]; f a u) := by
  rintro ts v r ⟨_, m, h1, a, m', h2, _, m'', h3, h4⟩
  cases lparen h1
  obtain ⟨p, rfl, hp⟩ := hL _ _ _ h2
  cases rparen h3
  obtain ⟨q, rfl, hq⟩ := hf a _ _ _ h4
  exact ⟨['('] :: p ++ [')'] :: q, by simp, .paren p q hp hq⟩

/-- `[( L )]` -/
theorem Flt.optParen {L : Lang α} (hL : Blt L) {f : α → Unit → Lang β} (hf : ∀ a, Flt (f a ())) :
    Flt (Spec.optKw ["("] (do let a ← L; let u ← Spec.kw [")"]; f a u)) := by
  rintro ts v r (⟨_, m, h1, a, m', ⟨b, m1, h2, _, m2, h3, h4⟩, h5, rfl⟩ | h)
  · cases lparen h1
    obtain ⟨p, rfl, hp⟩ := hL _ _ _ h2
    cases rparen h3
    obtain ⟨q, rfl, hq⟩ := hf b _ _ _ h4
    exact ⟨['('] :: p ++ [')'] :: q, by simp, .paren p q hp hq⟩
  · exact ((notAt _).bind fun _ => pure _) _ _ _ h

end DDL
