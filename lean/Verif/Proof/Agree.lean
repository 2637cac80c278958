import Verif.Proof.AstFacts
import Verif.Spec.Alike
/-
Reading the same tokens with two dialects: the phrases that the dialects share.
-/

namespace DDL
open V Spec Conv

variable {isNum : Str → Bool} {d e : Rdbms}

/-! ### Inversion -/

theorem kw_def {ks : List String} {ts r : List Str} {u : Unit} : kw ks ts u r ↔ ∃ t, ts = t :: r ∧ Kw ks t := by
  constructor
  · rintro ⟨t, mid, ⟨rfl, h⟩, _, rfl⟩; exact ⟨t, rfl, h⟩
  · rintro ⟨t, rfl, h⟩; exact kw_intro h

theorem optWord_def {ks : List String} {ts r : List Str} {b : Bool} :
    optWord ks ts b r ↔ (b = true ∧ ∃ t, ts = t :: r ∧ Kw ks t) ∨ (b = false ∧ r = ts ∧ ∀ t x, ts = t :: x → ¬ Kw ks t) := by
  constructor
  · rintro (⟨_, _, h, rfl, rfl⟩ | ⟨_, _, ⟨rfl, h⟩, rfl, rfl⟩)
    · exact .inl ⟨rfl, kw_def.1 h⟩
    · exact .inr ⟨rfl, rfl, h⟩
  · rintro (⟨rfl, h⟩ | ⟨rfl, rfl, h⟩)
    · exact .inl ⟨(), _, kw_def.2 h, rfl, rfl⟩
    · exact .inr ⟨(), _, ⟨rfl, h⟩, rfl, rfl⟩

theorem optKw_def {ks : List String} {L : Lang β} {ts r : List Str} {b : Option β} :
    optKw ks L ts b r ↔ (∃ t x v, ts = t :: x ∧ Kw ks t ∧ L x v r ∧ b = some v) ∨
      (b = none ∧ r = ts ∧ ∀ t x, ts = t :: x → ¬ Kw ks t) := by
  constructor
  · rintro (⟨_, _, h, v, _, h', rfl, rfl⟩ | ⟨_, _, ⟨rfl, h⟩, rfl, rfl⟩)
    · obtain ⟨t, rfl, ht⟩ := kw_def.1 h
      exact .inl ⟨t, _, v, rfl, ht, h', rfl⟩
    · exact .inr ⟨rfl, rfl, h⟩
  · rintro (⟨t, x, v, rfl, h, h', rfl⟩ | ⟨rfl, rfl, h⟩)
    · exact .inl ⟨(), _, kw_intro h, v, _, h', rfl, rfl⟩
    · exact .inr ⟨(), _, ⟨rfl, h⟩, rfl, rfl⟩

/-- Two phrases on the same tokens read the same, with related meanings. -/
def Exact (R : α → β → Prop) (L : Lang α) (M : Lang β) : Prop :=
  ∀ ts v r w s, L ts v r → M ts w s → r = s ∧ R v w

theorem Exact.optKw {R : α → β → Prop} {ks : List String} {L : Lang α} {M : Lang β} (h : Exact R L M) :
    Exact (fun a b => (a = none ∧ b = none) ∨ ∃ v w, a = some v ∧ b = some w ∧ R v w) (optKw ks L) (optKw ks M) := by
  intro ts v r w s h1 h2
  rcases optKw_def.1 h1 with ⟨t, x, v, rfl, ht, hL, rfl⟩ | ⟨rfl, rfl, hn⟩ <;>
    rcases optKw_def.1 h2 with ⟨t', x', w, e1, ht', hM, rfl⟩ | ⟨rfl, rfl, hn'⟩
  · cases e1
    obtain ⟨rfl, hr⟩ := h _ _ _ _ _ hL hM
    exact ⟨rfl, .inr ⟨v, w, rfl, rfl, hr⟩⟩
  · exact absurd ht (hn' _ _ rfl)
  · exact absurd ht' (hn _ _ e1)
  · exact ⟨rfl, .inl ⟨rfl, rfl⟩⟩

theorem Exact.sep {R : α → β → Prop} {L : Lang α} {M : Lang β} (h : Exact R L M) :
    Exact (Each R) (Sep L) (Sep M) := by
  intro ts v r w s h1 h2
  induction h1 generalizing w s with
  | one h1 hn =>
    cases h2 with
    | one h2 hn' => obtain ⟨rfl, hr⟩ := h _ _ _ _ _ h1 h2; exact ⟨rfl, .cons hr .nil⟩
    | cons h2 hc hs =>
      obtain ⟨rfl, hr⟩ := h _ _ _ _ _ h1 h2
      obtain ⟨t, rfl, ht⟩ := kw_def.1 hc
      exact absurd ht (hn.2 _ _ rfl)
  | cons h1 hc hs ih =>
    cases h2 with
    | one h2 hn' =>
      obtain ⟨rfl, hr⟩ := h _ _ _ _ _ h1 h2
      obtain ⟨t, rfl, ht⟩ := kw_def.1 hc
      exact absurd ht (hn'.2 _ _ rfl)
    | cons h2 hc' hs' =>
      obtain ⟨rfl, hr⟩ := h _ _ _ _ _ h1 h2
      obtain ⟨t, rfl, ht⟩ := kw_def.1 hc
      obtain ⟨t', e1, ht'⟩ := kw_def.1 hc'
      cases e1
      obtain ⟨rfl, hr'⟩ := ih _ _ hs'
      exact ⟨rfl, .cons hr hr'⟩

theorem each_eq {as bs : List α} (h : Each (fun a b => a = b) as bs) : as = bs := by
  induction h with
  | nil => rfl
  | cons h _ ih => rw [h, ih]

/-! ### Names and literals -/

theorem identQuotes_known (hd : d ≠ .other) : identQuotes d = nameQuotes d := by
  cases d <;> first | rfl | exact absurd rfl hd

theorem textQuotes_known (hd : d ≠ .other) : textQuotes d = stringQuotes d := by
  cases d <;> first | rfl | exact absurd rfl hd

theorem plain_not_quote {t : Str} (h : PlainName d t) {qs : List Char} (hq : ∀ c ∈ qs, c.isAlpha = false ∧ c ≠ '_') :
    ¬ StartsWith qs t := by
  obtain ⟨⟨c, r, rfl, hc, _⟩, _⟩ := h
  rintro ⟨c', r', e, hc'⟩
  cases e
  obtain ⟨h1, h2⟩ := hq c hc'
  rcases hc with hc | hc
  · rw [h1] at hc; cases hc
  · exact h2 hc

theorem nameQuotes_no (d : Rdbms) : ∀ c ∈ nameQuotes d, c.isAlpha = false ∧ c ≠ '_' := by
  cases d <;> decide

/-- A name of both dialects stands for the same name. -/
theorem name_same (hd : d ≠ .other) (he : e ≠ .other) {t : Str} (h : Name d t) (h' : Name e t) :
    nameVal d t = nameVal e t := by
  unfold nameVal
  rw [identQuotes_known hd, identQuotes_known he]
  have key : ∀ {d : Rdbms} {c : Char} {r : Str}, Name d (c :: r) → (c ∈ nameQuotes d ↔ c ∈ ['"', '`']) := by
    intro d c r h
    constructor
    · intro hc
      have : ∀ c ∈ nameQuotes d, c ∈ ['"', '`'] := by cases d <;> decide
      exact this c hc
    · intro hc
      rcases h with ⟨c', r', e, h⟩ | h
      · cases e; exact h
      · exact absurd ⟨c, r, rfl, hc⟩ (plain_not_quote h (qs := ['"', '`']) (by decide))
  cases t with
  | nil => rfl
  | cons c r =>
    unfold unquote
    simp only [key h, key h']

theorem stringQuotes_no (d : Rdbms) {t : Str} (h : Kw literalWords t) : ¬ StartsWith (stringQuotes d) t := by
  have : ∀ t ∈ kwList literalWords, t.headD ' ' ∉ stringQuotes .mysql := by decide
  have := forall_kw this (isKw_kw.2 h)
  rintro ⟨c, r, rfl, hc⟩
  refine this ?_
  revert hc; cases d <;> simp [stringQuotes]
  all_goals (intro h; simp [h])

/-- A literal of both dialects stands for the same value. -/
theorem literal_same (hd : d ≠ .other) (he : e ≠ .other) {t : Str} (h : Literal isNum d t) (h' : Literal isNum e t) :
    litVal isNum d t = litVal isNum e t := by
  unfold litVal
  by_cases hn : isNum t = true
  · simp [hn]
  rw [if_neg hn, if_neg hn]
  have key : ∀ {d : Rdbms}, d ≠ .other → Literal isNum d t →
      (t.head?.any (fun c => decide (c ∈ textQuotes d)) = true ↔ ¬ Kw literalWords t) := by
    intro d hd h
    rw [textQuotes_known hd]
    rcases h with h | h | h
    · exact absurd h hn
    · obtain ⟨c, r, rfl, hc⟩ := h
      simp only [List.head?_cons, Option.any_some, decide_eq_true_eq]
      exact ⟨fun _ hk => stringQuotes_no d hk ⟨c, r, rfl, hc⟩, fun _ => hc⟩
    · refine ⟨fun hc => ?_, fun hk => absurd h hk⟩
      cases t with
      | nil => cases hc
      | cons c r =>
        simp only [List.head?_cons, Option.any_some, decide_eq_true_eq] at hc
        exact absurd ⟨c, r, rfl, hc⟩ (stringQuotes_no d h)
  have := (key hd h).trans (key he h').symm
  rw [Bool.eq_iff_iff.2 this]

/-! ### Shared phrases -/

section
variable (hd : d ≠ .other) (he : e ≠ .other)
include hd he

theorem name_exact : Exact (fun v w => v = w ∧ nameVal d v = nameVal e v) (name d) (name e) := by
  rintro ts v r w s ⟨rfl, h⟩ ⟨h1, h'⟩
  cases h1
  exact ⟨rfl, rfl, name_same hd he h h'⟩

theorem names_exact : Exact (fun v w => v = w) (names d) (names e) := by
  intro ts v r w s h1 h2
  obtain ⟨h, h'⟩ := (Exact.sep (R := fun a b => a = b) (L := name d) (M := name e)
    (fun ts v r w s h1 h2 => by
      obtain ⟨h, h', _⟩ := name_exact hd he _ _ _ _ _ h1 h2; exact ⟨h, h'⟩)) _ _ _ _ _ h1 h2
  exact ⟨h, each_eq h'⟩

/-- The same qualified name. -/
def QSame (d e : Rdbms) (a b : QName) : Prop :=
  a = b ∧ nameVal d a.name = nameVal e a.name ∧ a.schema.map (nameVal d) = a.schema.map (nameVal e)

theorem qname_exact : Exact (QSame d e) (qname d) (qname e) := by
  rintro ts v r w s ⟨a, mid, h1, b, mid', h2, h3⟩ ⟨a', mid1, h1', b', mid1', h2', h3'⟩
  obtain ⟨rfl, rfl, hv⟩ := name_exact hd he _ _ _ _ _ h1 h1'
  obtain ⟨rfl, hb⟩ := (name_exact hd he).optKw _ _ _ _ _ h2 h2'
  rcases hb with ⟨rfl, rfl⟩ | ⟨x, y, rfl, rfl, rfl, hx⟩
  · obtain ⟨rfl, rfl⟩ := h3
    obtain ⟨rfl, rfl⟩ := h3'
    exact ⟨rfl, rfl, hv, rfl⟩
  · obtain ⟨rfl, rfl⟩ := h3
    obtain ⟨rfl, rfl⟩ := h3'
    exact ⟨rfl, rfl, hx, congrArg some hv⟩

theorem nameList_exact : Exact (fun v w => v = w) (nameList d) (nameList e) := by
  rintro ts v r w s ⟨_, mid, h1, ns, mid', h2, _, _, h3, rfl, rfl⟩ ⟨_, mid1, h1', ns', mid1', h2', _, _, h3', rfl, rfl⟩
  obtain ⟨t, rfl, _⟩ := kw_def.1 h1
  obtain ⟨t', e1, _⟩ := kw_def.1 h1'
  cases e1
  obtain ⟨rfl, rfl⟩ := names_exact hd he _ _ _ _ _ h2 h2'
  obtain ⟨t, rfl, _⟩ := kw_def.1 h3
  obtain ⟨t', e1, _⟩ := kw_def.1 h3'
  cases e1
  exact ⟨rfl, rfl⟩

/-- The same reference. -/
def RefSame (d e : Rdbms) (a b : Ref) : Prop :=
  refVal d a = refVal e b ∧ (a.Plain ↔ b.Plain)

theorem colRef_exact : Exact (RefSame d e) (colRef d) (colRef e) := by
  rintro ts v r w s ⟨_, mid, h1, t, mid', h2, c, _, h3, rfl, rfl⟩ ⟨_, mid1, h1', t', mid1', h2', c', _, h3', rfl, rfl⟩
  obtain ⟨x, rfl, _⟩ := kw_def.1 h1
  obtain ⟨x', e1, _⟩ := kw_def.1 h1'
  cases e1
  obtain ⟨rfl, rfl, hq, _⟩ := qname_exact hd he _ _ _ _ _ h2 h2'
  have hc : Exact (fun v w => v = w) (do let n ← name d; kw [")"]; return colKeys [n])
      (do let n ← name e; kw [")"]; return colKeys [n]) := by
    rintro ts v r w s ⟨n, _, h1, _, _, h2, rfl, rfl⟩ ⟨n', _, h1', _, _, h2', rfl, rfl⟩
    obtain ⟨rfl, rfl, _⟩ := name_exact hd he _ _ _ _ _ h1 h1'
    obtain ⟨x, rfl, _⟩ := kw_def.1 h2
    obtain ⟨x', e1, _⟩ := kw_def.1 h2'
    cases e1
    exact ⟨rfl, rfl⟩
  obtain ⟨rfl, hb⟩ := hc.optKw _ _ _ _ _ h3 h3'
  refine ⟨rfl, ?_, Iff.rfl⟩
  unfold refVal
  rcases hb with ⟨rfl, rfl⟩ | ⟨x, y, rfl, rfl, rfl⟩ <;> rw [hq]

theorem conName_exact : Exact (fun v w => v = w ∧ conNameVal d v = conNameVal e w) (conName d) (conName e) := by
  rintro ts v r w s ⟨a, mid, h1, h2⟩ ⟨a', mid', h1', h2'⟩
  obtain ⟨rfl, hb⟩ := (name_exact hd he).optKw _ _ _ _ _ h1 h1'
  rcases hb with ⟨rfl, rfl⟩ | ⟨x, y, rfl, rfl, rfl, hx⟩
  · obtain ⟨rfl, rfl⟩ := h2
    obtain ⟨rfl, rfl⟩ := h2'
    exact ⟨rfl, rfl, rfl⟩
  · obtain ⟨rfl, rfl⟩ := h2
    obtain ⟨rfl, rfl⟩ := h2'
    exact ⟨rfl, rfl, hx⟩

theorem defaultValue_exact :
    Exact (fun v w => dfltVal isNum d v = dfltVal isNum e w) (defaultValue isNum d) (defaultValue isNum e) := by
  rintro ts v r w s (⟨_, _, ⟨rfl, t, x, rfl, ht⟩, p, _, h1, rfl, rfl⟩ | ⟨_, _, ⟨rfl, hn⟩, t, _, ⟨rfl, ht⟩, rfl, rfl⟩)
    (⟨_, _, ⟨rfl, t', x', e1, ht'⟩, p', _, h1', rfl, rfl⟩ | ⟨_, _, ⟨rfl, hn'⟩, t', _, ⟨e1, ht'⟩, rfl, rfl⟩)
  · obtain ⟨rfl, rfl⟩ := parens_unique h1 h1'
    exact ⟨rfl, rfl⟩
  · exact absurd ht (hn' _ _ rfl)
  · cases e1; exact absurd ht' (hn _ _ rfl)
  · cases e1; exact ⟨rfl, literal_same hd he ht ht'⟩

end

theorem parens_exact : Exact (fun v w => v = w) parens parens := by
  intro ts v r w s h1 h2
  obtain ⟨rfl, rfl⟩ := parens_unique h1 h2
  exact ⟨rfl, rfl⟩

theorem posInt_exact : Exact (fun v w => v = w) posInt posInt := by
  rintro ts v r w s ⟨t, rfl, h⟩ ⟨t', e1, h'⟩
  cases e1
  exact ⟨rfl, (posInt_unique h h').symm⟩

theorem digitN_exact : Exact (fun v w => v = w) digitN digitN := by
  intro ts v r w s h1 h2
  have hc : Exact (fun v w => v = w) (do let n ← posInt; kw [")"]; return ((n, none) : Nat × Option Nat))
      (do let n ← posInt; kw [")"]; return (n, none)) := by
    rintro ts v r w s ⟨n, _, h1, _, _, h2, rfl, rfl⟩ ⟨n', _, h1', _, _, h2', rfl, rfl⟩
    obtain ⟨rfl, rfl⟩ := posInt_exact _ _ _ _ _ h1 h1'
    obtain ⟨x, rfl, _⟩ := kw_def.1 h2
    obtain ⟨x', e1, _⟩ := kw_def.1 h2'
    cases e1
    exact ⟨rfl, rfl⟩
  obtain ⟨rfl, hb⟩ := hc.optKw _ _ _ _ _ h1 h2
  rcases hb with ⟨rfl, rfl⟩ | ⟨x, y, rfl, rfl, rfl⟩ <;> exact ⟨rfl, rfl⟩

theorem digitPS_exact : Exact (fun v w => v = w) digitPS digitPS := by
  intro ts v r w s h1 h2
  have hc : Exact (fun v w => v = w)
      (do let n ← posInt; let m ← optKw [","] posInt; kw [")"]; return ((n, m) : Nat × Option Nat))
      (do let n ← posInt; let m ← optKw [","] posInt; kw [")"]; return (n, m)) := by
    rintro ts v r w s ⟨n, _, h1, m, _, h3, _, _, h2, rfl, rfl⟩ ⟨n', _, h1', m', _, h3', _, _, h2', rfl, rfl⟩
    obtain ⟨rfl, rfl⟩ := posInt_exact _ _ _ _ _ h1 h1'
    obtain ⟨rfl, hb⟩ := posInt_exact.optKw _ _ _ _ _ h3 h3'
    obtain ⟨x, rfl, _⟩ := kw_def.1 h2
    obtain ⟨x', e1, _⟩ := kw_def.1 h2'
    cases e1
    rcases hb with ⟨rfl, rfl⟩ | ⟨x, y, rfl, rfl, rfl⟩ <;> exact ⟨rfl, rfl⟩
  obtain ⟨rfl, hb⟩ := hc.optKw _ _ _ _ _ h1 h2
  rcases hb with ⟨rfl, rfl⟩ | ⟨x, y, rfl, rfl, rfl⟩ <;> exact ⟨rfl, rfl⟩

end DDL
