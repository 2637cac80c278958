import Verif.Spec.Readme
import Verif.Proof.AgreeItem
/-
README grammar: first tokens, and how a phrase without lookahead is read by one with lookahead.
-/

namespace DDL.Readme
open V
open Spec (Lang Kw Name Literal StartsWith stringQuotes PosInt Bal Many Sep at_ notAt optKw optWord tok posInt)

variable {isNum : Str → Bool} {d : Rdbms}

/-! ### First tokens -/

/-- A kind of token a phrase may begin with. -/
inductive First where
  | w (k : String)
  | name
  | lit
  | str
  | num

/-- The token is of the kind. -/
def First.Is (isNum : Str → Bool) (d : Rdbms) : First → Str → Prop
  | .w k, t => Kw [k] t
  | .name, t => Name d t
  | .lit, t => Literal isNum d t
  | .str, t => StartsWith (stringQuotes d) t
  | .num, t => ∃ n, PosInt t n

/-- No token of the kind is one of the words. -/
def First.avoids (d : Rdbms) : First → List String → Bool
  | .w k, ks => (kwList [k]).all fun t => !isKw ks t
  | .name, ks => (kwList ks).all fun t => !isIdentifier d (t.headD ' ') && !plainName d t
  | .lit, ks => (kwList ks).all fun t =>
      !isDig (t.headD ' ') && !(['+', '-', '.', 'i', 'I', 'n', 'N'].contains (t.headD ' ')) &&
      !((stringQuotes d).contains (t.headD ' ')) && !isKw Spec.literalWords t
  | .str, ks => (kwList ks).all fun t => !((stringQuotes d).contains (t.headD ' '))
  | .num, ks => (kwList ks).all fun t => !(t.headD ' ').isDigit && t.headD ' ' != '+'

theorem First.avoids_not (hN : NumOK isNum) {m : First} {ks : List String} (h : m.avoids d ks = true)
    {t : Str} (ht : m.Is isNum d t) : ¬ Kw ks t := by
  intro hk
  have hm := isKw_mem.1 (isKw_kw.2 hk)
  cases m with
  | w k =>
    have := List.all_eq_true.1 h t (isKw_mem.1 (isKw_kw.2 ht))
    rw [isKw_kw.2 hk] at this; cases this
  | name =>
    refine name_word (d := d) (ks := ks) ?_ ht hk
    intro u hu
    have := List.all_eq_true.1 h u hu
    simpa using this
  | lit =>
    have h := List.all_eq_true.1 h t hm
    simp only [Bool.and_eq_true, Bool.not_eq_true', isKw_not] at h
    obtain ⟨⟨⟨h1, h2⟩, h3⟩, h4⟩ := h
    rcases ht with ht | ⟨c, r, rfl, hc⟩ | ht
    · obtain ⟨c, r, rfl, hc⟩ := hN t ht
      rcases hc with hc | hc
      · simp only [List.headD_cons] at h1; rw [hc] at h1; cases h1
      · simp only [List.headD_cons] at h2
        rw [List.contains_iff_mem.2 hc] at h2; cases h2
    · simp only [List.headD_cons] at h3
      rw [List.contains_iff_mem.2 hc] at h3; cases h3
    · exact h4 ht
  | str =>
    obtain ⟨c, r, rfl, hc⟩ := ht
    have h := List.all_eq_true.1 h _ hm
    simp only [Bool.not_eq_true', List.headD_cons] at h
    rw [List.contains_iff_mem.2 hc] at h; cases h
  | num =>
    obtain ⟨n, ds, e, h0, hd, _⟩ := ht
    have h := List.all_eq_true.1 h _ hm
    simp only [Bool.and_eq_true, Bool.not_eq_true', bne_iff_ne] at h
    obtain ⟨h1, h2⟩ := h
    rcases e with rfl | rfl
    · cases t with
      | nil => exact h0 rfl
      | cons c r => simp only [List.headD_cons] at h1; rw [hd c (by simp)] at h1; cases h1
    · exact h2 rfl

/-- May the phrase be empty? -/
def Bnf.nullable : Bnf → Bool
  | .eps => true
  | .seq a b => a.nullable && b.nullable
  | .alt a b => a.nullable || b.nullable
  | .opt _ => true
  | .many _ => true
  | .list a => a.nullable
  | _ => false

/-- The first tokens of a phrase. -/
def Bnf.first : Bnf → List First
  | .eps => []
  | .no => []
  | .kw ks => ks.map .w
  | .name => [.name]
  | .nameBut _ => [.name]
  | .literal => [.lit]
  | .string => [.str]
  | .number => [.num]
  | .parens => [.w "("]
  | .seq a b => a.first ++ if a.nullable then b.first else []
  | .alt a b => a.first ++ b.first
  | .opt a => a.first
  | .many a => a.first
  | .list a => a.first ++ if a.nullable then [.w ","] else []

/-- The list starts with a token of one of the kinds. -/
def Begins (isNum : Str → Bool) (d : Rdbms) (ms : List First) (ts : List Str) : Prop :=
  ∃ t u, ts = t :: u ∧ ∃ m ∈ ms, m.Is isNum d t

theorem Begins.mono {ms ms' : List First} {ts : List Str} (h : Begins isNum d ms ts)
    (hm : ∀ m ∈ ms, m ∈ ms') : Begins isNum d ms' ts := by
  obtain ⟨t, u, e, m, h1, h2⟩ := h
  exact ⟨t, u, e, m, hm m h1, h2⟩

theorem Bnf.head (r : Bnf) {ts rest : List Str} (h : r.Derives isNum d ts rest) :
    (r.nullable = true ∧ ts = rest) ∨ Begins isNum d r.first ts := by
  induction r generalizing ts rest with
  | eps => exact .inl ⟨rfl, h⟩
  | no => exact h.elim
  | kw ks =>
    obtain ⟨t, rfl, k, hk, ht⟩ := h
    exact .inr ⟨t, rest, rfl, .w k, List.mem_map.2 ⟨k, hk, rfl⟩, k, by simp, ht⟩
  | name => obtain ⟨t, rfl, ht⟩ := h; exact .inr ⟨t, rest, rfl, .name, by simp [Bnf.first], ht⟩
  | nameBut ks => obtain ⟨t, rfl, ht, _⟩ := h; exact .inr ⟨t, rest, rfl, .name, by simp [Bnf.first], ht⟩
  | literal => obtain ⟨t, rfl, ht⟩ := h; exact .inr ⟨t, rest, rfl, .lit, by simp [Bnf.first], ht⟩
  | string => obtain ⟨t, rfl, ht⟩ := h; exact .inr ⟨t, rest, rfl, .str, by simp [Bnf.first], ht⟩
  | number => obtain ⟨t, n, rfl, ht⟩ := h; exact .inr ⟨t, rest, rfl, .num, by simp [Bnf.first], n, ht⟩
  | parens =>
    obtain ⟨e, _, rfl⟩ := h
    exact .inr ⟨_, _, rfl, .w "(", by simp [Bnf.first], isKw_kw.1 (by decide)⟩
  | seq a b iha ihb =>
    obtain ⟨mid, h1, h2⟩ := h
    rcases iha h1 with ⟨ha, rfl⟩ | hb
    · rcases ihb h2 with ⟨hb, rfl⟩ | hb
      · exact .inl ⟨by simp [Bnf.nullable, ha, hb], rfl⟩
      · exact .inr (hb.mono fun m hm => by simp [Bnf.first, ha, hm])
    · exact .inr (hb.mono fun m hm => by simp [Bnf.first, hm])
  | alt a b iha ihb =>
    rcases h with h | h
    · rcases iha h with ⟨ha, rfl⟩ | hb
      · exact .inl ⟨by simp [Bnf.nullable, ha], rfl⟩
      · exact .inr (hb.mono fun m hm => by simp [Bnf.first, hm])
    · rcases ihb h with ⟨ha, rfl⟩ | hb
      · exact .inl ⟨by simp [Bnf.nullable, ha], rfl⟩
      · exact .inr (hb.mono fun m hm => by simp [Bnf.first, hm])
  | opt a ih =>
    rcases h with h | h
    · exact .inl ⟨rfl, h⟩
    · rcases ih h with ⟨_, rfl⟩ | h
      · exact .inl ⟨rfl, rfl⟩
      · exact .inr h
  | many a ih =>
    change Star _ _ _ at h
    induction h with
    | nil => exact .inl ⟨rfl, rfl⟩
    | cons h1 _ ih' =>
      rcases ih h1 with ⟨_, rfl⟩ | h
      · exact ih'
      · exact .inr h
  | list a ih =>
    change Commas _ _ _ at h
    cases h with
    | one h =>
      rcases ih h with ⟨ha, rfl⟩ | h
      · exact .inl ⟨ha, rfl⟩
      · exact .inr (h.mono fun m hm => by simp [Bnf.first, hm])
    | cons h hs =>
      rcases ih h with ⟨ha, rfl⟩ | h
      · exact .inr ⟨_, _, rfl, .w ",", by simp [Bnf.first, ha], isKw_kw.1 (by decide)⟩
      · exact .inr (h.mono fun m hm => by simp [Bnf.first, hm])

/-- None of the words can be the first of the phrase. -/
def clear (d : Rdbms) (r : Bnf) (ks : List String) : Bool := r.first.all (·.avoids d ks)

/-- In no dialect can one of the words be the first of the phrase. -/
def clearAll (r : Bnf) (ks : List String) : Bool :=
  clear .sqlite r ks && clear .postgres r ks && clear .mysql r ks && clear .other r ks

theorem clear_of {r : Bnf} {ks : List String} (h : clearAll r ks = true) : clear d r ks = true := by
  simp only [clearAll, Bool.and_eq_true] at h
  cases d
  · exact h.1.1.1
  · exact h.1.1.2
  · exact h.1.2
  · exact h.2

/-- Side condition of a sequence. -/
macro "clr" : tactic => `(tactic| first | decide +kernel | exact clear_of (by decide +kernel))

theorem Begins.notAt (hN : NumOK isNum) {r : Bnf} {ks : List String} {ts : List Str}
    (h : Begins isNum d r.first ts) (hc : clear d r ks = true) : notAt ks ts () ts := by
  obtain ⟨t, u, rfl, m, hm, ht⟩ := h
  exact notAt_cons (First.avoids_not hN (List.all_eq_true.1 hc m hm) ht)

theorem notAt_append {ks ks' : List String} {ts : List Str} :
    notAt (ks ++ ks') ts () ts ↔ notAt ks ts () ts ∧ notAt ks' ts () ts := by
  constructor
  · rintro ⟨_, h⟩
    refine ⟨⟨rfl, fun t r e hk => h t r e ?_⟩, ⟨rfl, fun t r e hk => h t r e ?_⟩⟩
    · exact Kw.mono (by simp +contextual) hk
    · exact Kw.mono (by simp +contextual) hk
  · rintro ⟨⟨_, h⟩, ⟨_, h'⟩⟩
    refine ⟨rfl, fun t r e => ?_⟩
    rintro ⟨k, hk, ht⟩
    rcases List.mem_append.1 hk with hk | hk
    · exact h t r e ⟨k, hk, ht⟩
    · exact h' t r e ⟨k, hk, ht⟩

theorem notAt_mono {ks ks' : List String} {ts : List Str} (h : notAt ks ts () ts)
    (hk : ∀ k ∈ ks', k ∈ ks) : notAt ks' ts () ts :=
  ⟨rfl, fun t r e ht => h.2 t r e (Kw.mono hk ht)⟩

theorem notAt_nil {ts : List Str} : notAt [] ts () ts := ⟨rfl, fun _ _ _ h => by obtain ⟨_, h, _⟩ := h; cases h⟩

/-! ### Reading -/

/-- Whatever `r` derives, `L` reads with a meaning satisfying `P`, if none of the words `K` follows. -/
def Takes (isNum : Str → Bool) (d : Rdbms) (r : Bnf) (L : Lang β) (K : List String) (P : β → Prop) : Prop :=
  ∀ ts rest, r.Derives isNum d ts rest → notAt K rest () rest → ∃ v, P v ∧ L ts v rest

/-- Any meaning. -/
abbrev T {β : Type} : β → Prop := fun _ => True

namespace Takes

theorem mono {r : Bnf} {L : Lang β} {K K' : List String} {P P' : β → Prop} (h : Takes isNum d r L K P)
    (hK : ∀ k ∈ K, k ∈ K') (hP : ∀ v, P v → P' v) : Takes isNum d r L K' P' := fun ts rest hd hn => by
  obtain ⟨v, hv, hL⟩ := h ts rest hd (notAt_mono hn hK)
  exact ⟨v, hP v hv, hL⟩

theorem any {r : Bnf} {L : Lang β} {K : List String} {P : β → Prop} (h : Takes isNum d r L K P) :
    Takes isNum d r L K T := h.mono (fun _ h => h) (fun _ _ => trivial)

theorem pure {v : β} {P : β → Prop} (h : P v) : Takes isNum d .eps (Pure.pure v : Lang β) [] P := by
  rintro ts rest rfl _
  exact ⟨v, h, rfl, rfl⟩

theorem no {L : Lang β} {P : β → Prop} : Takes isNum d .no L [] P := fun _ _ h => h.elim

theorem bind (hN : NumOK isNum) {r r' : Bnf} {L : Lang α} {M : α → Lang β} {K K' : List String}
    {P : α → Prop} {Q : β → Prop} (h : Takes isNum d r L K P)
    (h' : ∀ v, P v → Takes isNum d r' (M v) K' Q) (hc : clear d r' K = true := by clr) :
    Takes isNum d (r ⬝ r') (L >>= M) (K' ++ if r'.nullable then K else []) Q := by
  rintro ts rest ⟨mid, h1, h2⟩ hn
  have hm : notAt K mid () mid := by
    rcases r'.head h2 with ⟨he, rfl⟩ | hb
    · rw [he] at hn; exact (notAt_append.1 hn).2
    · exact hb.notAt hN hc
  obtain ⟨v, hv, hL⟩ := h ts mid h1 hm
  obtain ⟨u, hu, hM⟩ := h' v hv mid rest h2 (notAt_append.1 hn).1
  exact ⟨u, hu, v, mid, hL, hM⟩

theorem map {r : Bnf} {L : Lang α} {f : α → β} {K : List String}
    {P : α → Prop} {Q : β → Prop} (h : Takes isNum d r L K P) (hf : ∀ v, P v → Q (f v)) :
    Takes isNum d r (L >>= fun v => Pure.pure (f v)) K Q := by
  intro ts rest h1 hn
  obtain ⟨v, hv, hL⟩ := h ts rest h1 hn
  exact ⟨f v, hf v hv, v, rest, hL, rfl, rfl⟩

theorem inl {r : Bnf} {L M : Lang β} {K : List String} {P : β → Prop} (h : Takes isNum d r L K P) :
    Takes isNum d r (L <|> M) K P := fun ts rest hd hn => by
  obtain ⟨v, hv, hL⟩ := h ts rest hd hn
  exact ⟨v, hv, .inl hL⟩

theorem inr {r : Bnf} {L M : Lang β} {K : List String} {P : β → Prop} (h : Takes isNum d r M K P) :
    Takes isNum d r (L <|> M) K P := fun ts rest hd hn => by
  obtain ⟨v, hv, hL⟩ := h ts rest hd hn
  exact ⟨v, hv, .inr hL⟩

theorem alt {r r' : Bnf} {L : Lang β} {K K' : List String} {P : β → Prop} (h : Takes isNum d r L K P)
    (h' : Takes isNum d r' L K' P) : Takes isNum d (r ∣∣ r') L (K ++ K') P := by
  rintro ts rest (hd | hd) hn
  · exact h ts rest hd (notAt_append.1 hn).1
  · exact h' ts rest hd (notAt_append.1 hn).2

theorem kw {ks ks' : List String} (hk : ∀ k ∈ ks, k ∈ ks' := by decide) :
    Takes isNum d (.kw ks) (Spec.kw ks') [] T := by
  rintro ts rest ⟨t, rfl, ht⟩ _
  exact ⟨(), trivial, kw_intro (Kw.mono hk ht)⟩

theorem word {ks ks' : List String} (hk : ∀ k ∈ ks, k ∈ ks' := by decide) :
    Takes isNum d (.kw ks) (tok (Kw ks')) [] T := by
  rintro ts rest ⟨t, rfl, ht⟩ _
  exact ⟨t, trivial, rfl, Kw.mono hk ht⟩

theorem name : Takes isNum d .name (Spec.name d) [] T := by
  rintro ts rest ⟨t, rfl, ht⟩ _
  exact ⟨t, trivial, name_intro ht⟩

theorem nameBut {ks : List String} : Takes isNum d (.nameBut ks) (Spec.name d) [] (fun n => ¬ Kw ks n) := by
  rintro ts rest ⟨t, rfl, ht, hk⟩ _
  exact ⟨t, hk, name_intro ht⟩

theorem literal : Takes isNum d .literal (Spec.literal isNum d) [] T := by
  rintro ts rest ⟨t, rfl, ht⟩ _
  exact ⟨t, trivial, rfl, ht⟩

theorem string : Takes isNum d .string (Spec.string d) [] T := by
  rintro ts rest ⟨t, rfl, ht⟩ _
  exact ⟨t, trivial, rfl, ht⟩

theorem number : Takes isNum d .number posInt [] T := by
  rintro ts rest ⟨t, n, rfl, ht⟩ _
  exact ⟨n, trivial, t, rfl, ht⟩

theorem parens : Takes isNum d .parens Spec.parens [] T := by
  rintro ts rest ⟨e, he, rfl⟩ _
  exact ⟨_, trivial, e, he, rfl, by simp [S]⟩

theorem optKw {r : Bnf} {L : Lang β} {ks : List String} {K : List String} {P : β → Prop}
    (h : Takes isNum d r L K P) :
    Takes isNum d (.opt (.kw ks ⬝ r)) (Spec.optKw ks L) (ks ++ K) (fun o => ∀ v, o = some v → P v) := by
  rintro ts rest (rfl | ⟨mid, ⟨t, rfl, ht⟩, h1⟩) hn
  · exact ⟨none, by simp, optKw_none (notAt_append.1 hn).1⟩
  · obtain ⟨v, hv, hL⟩ := h mid rest h1 (notAt_append.1 hn).2
    exact ⟨some v, by rintro _ ⟨⟩; exact hv, optKw_some ht hL⟩

theorem optWord {ks : List String} : Takes isNum d (.opt (.kw ks)) (Spec.optWord ks) ks T := by
  rintro ts rest (rfl | ⟨t, rfl, ht⟩) hn
  · exact ⟨false, trivial, optWord_none hn⟩
  · exact ⟨true, trivial, optWord_some ht⟩

/-- The first tokens of the phrase are among the words. -/
def within (r : Bnf) (ks : List String) : Bool :=
  !r.nullable && r.first.all fun
    | .w k => ks.contains k
    | _ => false

theorem within_at {r : Bnf} {ks : List String} (h : within r ks = true) {ts rest : List Str}
    (hd : r.Derives isNum d ts rest) : at_ ks ts () ts := by
  unfold within at h
  simp only [Bool.and_eq_true, Bool.not_eq_true'] at h
  rcases r.head hd with ⟨he, _⟩ | ⟨t, u, rfl, m, hm, ht⟩
  · rw [he] at h; cases h.1
  · have := List.all_eq_true.1 h.2 m hm
    cases m with
    | w k =>
      exact ⟨rfl, t, u, rfl, Kw.mono (fun x hx => by
        cases List.mem_singleton.1 hx; exact List.contains_iff_mem.1 this) ht⟩
    | _ => cases this

theorem atKw {r : Bnf} {L : Lang β} {ks : List String} {K : List String} {P : β → Prop}
    (h : Takes isNum d r L K P) (hw : within r ks = true := by decide) :
    Takes isNum d r (at_ ks >>= fun _ => L) K P := by
  intro ts rest hd hn
  obtain ⟨v, hv, hL⟩ := h ts rest hd hn
  exact ⟨v, hv, (), ts, within_at hw hd, hL⟩

theorem notKw (hN : NumOK isNum) {r : Bnf} {L : Lang β} {ks : List String} {K : List String} {P : β → Prop}
    (h : Takes isNum d r L K P) (hw : clear d r ks = true := by clr) (h0 : r.nullable = false := by rfl) :
    Takes isNum d r (Spec.notAt ks >>= fun _ => L) K P := by
  intro ts rest hd hn
  obtain ⟨v, hv, hL⟩ := h ts rest hd hn
  rcases r.head hd with ⟨he, _⟩ | hb
  · rw [he] at h0; cases h0
  · exact ⟨v, hv, (), ts, hb.notAt hN hw, hL⟩

theorem many (hN : NumOK isNum) {r : Bnf} {L : Lang β} {ks : List String} {K : List String} {P : β → Prop}
    (h : Takes isNum d r L K P) (hw : within r ks = true := by decide) (hc : clear d r K = true := by clr) :
    Takes isNum d (.many r) (Many ks L) (ks ++ K) (fun vs => ∀ v ∈ vs, P v) := by
  intro ts rest hd hn
  change Star _ _ _ at hd
  induction hd with
  | nil => exact ⟨[], by simp, .nil (notAt_append.1 hn).1⟩
  | @cons ts mid rest h1 hs ih =>
    obtain ⟨vs, hvs, hM⟩ := ih hn
    have hm : Spec.notAt K mid () mid := by
      cases hs with
      | nil => exact (notAt_append.1 hn).2
      | cons h2 _ =>
        rcases r.head h2 with ⟨he, _⟩ | hb
        · unfold within at hw; rw [he] at hw; cases hw
        · exact hb.notAt hN hc
    obtain ⟨v, hv, hL⟩ := h _ _ h1 hm
    exact ⟨v :: vs, by simpa using ⟨hv, hvs⟩, .cons (within_at hw h1) hL hM⟩

theorem list {r : Bnf} {L : Lang β} {K : List String} {P : β → Prop}
    (h : Takes isNum d r L K P) (hc : isKw K (S ",") = false := by decide) :
    Takes isNum d (.list r) (Sep L) ("," :: K) (fun vs => ∀ v ∈ vs, P v) := by
  intro ts rest hd hn
  change Commas _ _ _ at hd
  induction hd with
  | one h1 =>
    obtain ⟨v, hv, hL⟩ := h _ _ h1 (notAt_mono hn (fun k hk => .tail _ hk))
    exact ⟨[v], by simpa using hv, .one hL (notAt_mono hn (by simp))⟩
  | cons h1 hs ih =>
    obtain ⟨vs, hvs, hM⟩ := ih hn
    obtain ⟨v, hv, hL⟩ := h _ _ h1 (notAt_cons (isKw_not.1 hc))
    exact ⟨v :: vs, by simpa using ⟨hv, hvs⟩, .cons hL (kw_intro (isKw_kw.1 (by decide))) hM⟩

end Takes

end DDL.Readme
