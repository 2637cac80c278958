import Verif.Proof.Readme
import Verif.Proof.ParseFacts
/-
README grammar: the phrases common to the dialects.
-/

namespace DDL.Readme
open V
open Spec (Lang Kw Name Literal Many Sep at_ notAt tok ColCon Item Ref ConName QName TypeAst)

variable {isNum : Str → Bool} {d : Rdbms}

namespace Takes

/-- Another phrase that derives no more. -/
theorem congr {r r' : Bnf} {L : Lang β} {K : List String} {P : β → Prop} (h : Takes isNum d r L K P)
    (hr : ∀ ts rest, r'.Derives isNum d ts rest → r.Derives isNum d ts rest) : Takes isNum d r' L K P :=
  fun ts rest hd hn => h ts rest (hr ts rest hd) hn

theorem assoc {a b c : Bnf} {L : Lang β} {K : List String} {P : β → Prop}
    (h : Takes isNum d ((a ⬝ b) ⬝ c) L K P) : Takes isNum d (a ⬝ b ⬝ c) L K P :=
  h.congr fun _ _ ⟨_, h1, _, h2, h3⟩ => ⟨_, ⟨_, h1, h2⟩, h3⟩

theorem assoc3 {a b c e : Bnf} {L : Lang β} {K : List String} {P : β → Prop}
    (h : Takes isNum d ((a ⬝ b ⬝ c) ⬝ e) L K P) : Takes isNum d (a ⬝ b ⬝ c ⬝ e) L K P :=
  h.congr fun _ _ ⟨_, h1, _, h2, _, h3, h4⟩ => ⟨_, ⟨_, h1, _, h2, h3⟩, h4⟩

theorem assoc6 {a b c e f g k : Bnf} {L : Lang β} {K : List String} {P : β → Prop}
    (h : Takes isNum d ((a ⬝ b ⬝ c ⬝ e ⬝ f ⬝ g) ⬝ k) L K P) :
    Takes isNum d (a ⬝ b ⬝ c ⬝ e ⬝ f ⬝ g ⬝ k) L K P :=
  h.congr fun _ _ ⟨_, h1, _, h2, _, h3, _, h4, _, h5, _, h6, h7⟩ =>
    ⟨_, ⟨_, h1, _, h2, _, h3, _, h4, _, h5, h6⟩, h7⟩

theorem only {l : Level} (hl : l ≠ .readme) {r : Bnf} {L : Lang β} {P : β → Prop} :
    Takes isNum d (only l r) L [] P := by
  unfold Readme.only; rw [if_neg hl]; exact no

theorem bindEps {r : Bnf} {L : Lang α} {M : α → Lang β} {K K' : List String} {P : α → Prop} {Q : β → Prop}
    (h : Takes isNum d r L K P) (h' : ∀ v, P v → Takes isNum d .eps (M v) K' Q) :
    Takes isNum d r (L >>= M) (K' ++ K) Q := by
  intro ts rest hd hn
  obtain ⟨v, hv, hL⟩ := h ts rest hd (notAt_append.1 hn).2
  obtain ⟨u, hu, hM⟩ := h' v hv rest rest rfl (notAt_append.1 hn).1
  exact ⟨u, hu, v, rest, hL, hM⟩

theorem epsBind (hN : NumOK isNum) {r : Bnf} {L : Lang α} {M : α → Lang β} {K K' : List String} {P : α → Prop}
    {Q : β → Prop} (h : Takes isNum d .eps L K P) (h' : ∀ v, P v → Takes isNum d r (M v) K' Q)
    (hc : clear d r K = true := by clr) :
    Takes isNum d r (L >>= M) (K' ++ if r.nullable then K else []) Q :=
  (bind hN h h' hc).congr fun _ _ h => ⟨_, rfl, h⟩

theorem optWordNo {ks : List String} : Takes isNum d .eps (Spec.optWord ks) ks T := by
  rintro ts rest rfl hn
  exact ⟨false, trivial, optWord_none hn⟩

theorem optWordYes {ks ks' : List String} (hk : ∀ k ∈ ks, k ∈ ks' := by decide) :
    Takes isNum d (.kw ks) (Spec.optWord ks') [] T := by
  rintro ts rest ⟨t, rfl, ht⟩ _
  exact ⟨true, trivial, optWord_some (Kw.mono hk ht)⟩

theorem optKwNo {ks : List String} {L : Lang β} : Takes isNum d .eps (Spec.optKw ks L) ks T := by
  rintro ts rest rfl hn
  exact ⟨none, trivial, optKw_none hn⟩

theorem stringLit : Takes isNum d .string (Spec.literal isNum d) [] T := by
  rintro ts rest ⟨t, rfl, ht⟩ _
  exact ⟨t, trivial, rfl, .inr (.inl ht)⟩

/-- The same words, fewer requirements. -/
theorem weaken {r : Bnf} {L : Lang β} {K K' : List String} {P : β → Prop} (h : Takes isNum d r L K P)
    (hK : (K.all fun k => K'.contains k) = true) : Takes isNum d r L K' P :=
  h.mono (fun k hk => List.contains_iff_mem.1 (List.all_eq_true.1 hK k hk)) (fun _ h => h)

end Takes

open Takes

theorem qname_takes : Takes isNum d .name (Spec.qname d) ["."] (fun q => q.schema = none) := by
  rintro ts rest ⟨t, rfl, ht⟩ hn
  exact ⟨_, rfl, qname_plain ht hn⟩

theorem table_takes : Takes isNum d table (Spec.qname d) ["."] T := by
  rintro ts rest ⟨mid, ⟨t, rfl, ht⟩, h⟩ hn
  rcases h with rfl | ⟨_, ⟨t', rfl, ht'⟩, t2, rfl, ht2⟩
  · exact ⟨_, trivial, qname_plain ht hn⟩
  · exact ⟨⟨some t, t2⟩, trivial, t, _, name_intro ht, some t2, _, optKw_some ht' (name_intro ht2), rfl, rfl⟩

theorem columns_takes (hN : NumOK isNum) : Takes isNum d columns (Spec.nameList d) [] T :=
  bind hN kw (fun _ _ =>
    bind hN (list name) (fun _ _ => map kw (fun _ _ => trivial)))
theorem onClause_takes (hN : NumOK isNum) :
    Takes isNum d onClause (do Spec.kw ["ON"]; Spec.onAction) [] T :=
  bind hN kw (fun _ _ => bind hN kw (fun _ _ =>
    alt (inl (bind hN kw (fun _ _ => kw)))
      (alt (inr (inl kw))
        (inr (inr (bind hN kw (fun _ _ => kw)))))))

theorem matchClause_takes (hN : NumOK isNum) :
    Takes isNum d matchClause (do Spec.kw ["MATCH"]; Spec.kw ["SIMPLE", "PARTIAL", "FULL"]) [] T :=
  bind hN kw (fun _ _ => kw)

theorem refClauses_takes (hN : NumOK isNum) : Takes isNum d refClauses Spec.refClauses ["ON", "MATCH"] T :=
  map (many (P := T) hN (alt (inl (onClause_takes hN)) (inr (matchClause_takes hN))))
    (fun _ _ => trivial)

theorem colRef_takes (hN : NumOK isNum) :
    Takes isNum d (w "REFERENCES" ⬝ .name ⬝ .opt (w "(" ⬝ .name ⬝ w ")")) (Spec.colRef d) ["(", "."] Ref.Plain :=
  bind hN kw (fun _ _ => bind hN qname_takes (fun _ hq =>
    map (optKw (P := T) (bind hN name (fun _ _ => map kw (fun _ _ => trivial))))
      (fun _ _ => hq)))

theorem foreignKey_takes (hN : NumOK isNum) (n : ConName) :
    Takes isNum d (w "FOREIGN" ⬝ w "KEY" ⬝ columns ⬝ w "REFERENCES" ⬝ .name ⬝ .opt columns)
      (Spec.foreignKey d n) ["(", "."] (fun i => ∃ cs r, i = .foreignKey n cs r ∧ Ref.Plain r) :=
  bind hN kw (fun _ _ => bind hN kw (fun _ _ => bind hN (columns_takes hN) (fun cs _ =>
    bind hN kw (fun _ _ => bind hN qname_takes (fun _ hq =>
      map (optKw (P := T) (bind hN (list name) (fun _ _ => map kw (fun _ _ => trivial))))
      (fun _ _ => ⟨_, _, rfl, hq⟩))))))

theorem conName_takes :
    Takes isNum d (.opt (w "CONSTRAINT" ⬝ .name)) (Spec.conName d) ["CONSTRAINT"] T := by
  rintro ts rest (rfl | ⟨_, ⟨t', rfl, ht'⟩, t2, rfl, ht2⟩) hn
  · exact ⟨_, trivial, none, _, optKw_none hn, rfl, rfl⟩
  · exact ⟨_, trivial, some t2, _, optKw_some ht' (name_intro ht2), rfl, rfl⟩

theorem default_takes (hN : NumOK isNum) : Takes isNum d default_ (Spec.defaultValue isNum d) [] T :=
  alt (inl (atKw (map parens (fun _ _ => trivial))))
    (inr (notKw hN (map literal (fun _ _ => trivial)) ))

theorem digitN_takes (hN : NumOK isNum) : Takes isNum d digits Spec.digitN ["("] T :=
  (optKw (P := T) (bind hN number (fun _ _ => map kw (fun _ _ => trivial)))).any

theorem digitPS_takes (hN : NumOK isNum) : Takes isNum d digits2 Spec.digitPS ["("] T :=
  (optKw (P := T) (bind hN number (fun _ _ => bind hN (optKw number) (fun _ _ =>
    map kw (fun _ _ => trivial))))).any

/-- Table options without commas. -/
theorem options_of (hN : NumOK isNum) {r : Bnf} {L : Lang Unit} {K : List String} (h : Takes isNum d r L K T)
    (h0 : r.nullable = false) (hc : clear d r ([";", ","] ++ K) = true) (hK : isKw K (S ";") = false)
    {ts rest : List Str} (hd : (Bnf.many r).Derives isNum d ts (S ";" :: rest)) :
    Spec.Options L ts () (S ";" :: rest) := by
  change Star _ _ _ at hd
  generalize hz : S ";" :: rest = z at hd ⊢
  have hclr : ∀ {ts rest : List Str}, r.Derives isNum d ts rest → notAt ([";", ","] ++ K) ts () ts := by
    intro ts rest hd
    rcases r.head hd with ⟨he, _⟩ | hb
    · rw [he] at h0; cases h0
    · exact hb.notAt hN hc
  induction hd with
  | nil => subst hz; exact .stop (.inl ⟨rfl, _, _, rfl, isKw_kw.1 (by decide)⟩)
  | @cons ts mid z' h1 hs ih =>
    have hn := hclr h1
    have hm : notAt K mid () mid := by
      cases hs with
      | nil => subst hz; exact notAt_cons (isKw_not.1 hK)
      | cons h2 _ => exact (notAt_append.1 (hclr h2)).2
    obtain ⟨_, _, hL⟩ := h _ _ h1 hm
    exact .more (notAt_mono hn (by simp)) (optWord_none (notAt_mono hn (by simp))) hL (ih hz)

/-- What is known of a column constraint that has been read. -/
def Good (c : Con) (v : ColCon) : Prop := v.kind = c.kind ∧ ∀ r, v = .references r → Ref.Plain r

/-- What is known of an entry that has been read. -/
def GoodItem (l : Level) (i : Item) : Prop := l = .returned → i.Faithful ∧ i ≠ .exclude .absent

/-- What is known of the column constraints of a dialect: `follow` are the words that must not follow each. -/
structure ConFacts (isNum : Str → Bool) (l : Level) (d : Rdbms) (follow : String → List String) : Prop where
  takes : ∀ c ∈ colCons l d, Takes isNum d c.phrase (Spec.colConOf isNum d) (follow c.form) (Good c)
  first : ∀ c ∈ colCons l d, within c.phrase (Spec.colConFirstOf d) = true
  next : ∀ c ∈ colCons l d, ∀ c' ∈ colCons l d, c.kind ≠ c'.kind → (c.form, c'.form) ∉ clashes d →
    clear d c'.phrase (follow c.form) = true
  last : ∀ c ∈ colCons l d, clear d (.kw [",", ")"]) (follow c.form) = true

end DDL.Readme
