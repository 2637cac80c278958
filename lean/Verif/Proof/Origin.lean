import Verif.Proof.Bound
import Verif.Spec.Origin
import Verif.Proof.AlikeParse
/-
Where the parts of the returned tables come from, also when the converter has lost its place.
-/

namespace DDL
open V Spec Conv C

/-- The converter leaves an end of the tokens. -/
class CSuf (f : CM α) : Prop where
  out : ∀ s a r, f s = .ok a r → r <:+ s

theorem nextRest_suffix (s : List Str) : nextRest s <:+ s := by
  induction s with
  | nil => exact List.suffix_refl _
  | cons a r ih =>
    unfold nextRest; split
    · exact ih.trans (List.suffix_cons _ _)
    · exact List.suffix_cons _ _

instance CSuf.bind {f : CM α} {g : α → CM β} [hf : CSuf f] [hg : ∀ a, CSuf (g a)] :
    CSuf (f.bind g) := ⟨fun s a r h => by
  obtain ⟨b, m, h1, h2⟩ := cbind_ok h
  exact ((hg b).out _ _ _ h2).trans (hf.out _ _ _ h1)⟩

instance CSuf.cond {b : Bool} {p q : CM α} [CSuf p] [CSuf q] : CSuf (cond b p q) := by
  cases b <;> assumption

instance CSuf.ifM {c : CM Bool} {p q : CM α} [CSuf c] [CSuf p] [CSuf q] :
    CSuf (C.ifM c p q) := CSuf.bind (hg := fun _ => CSuf.cond)

instance CSuf.pure (a : α) : CSuf (CM.pure a) := ⟨by rintro s a r ⟨⟩; exact List.suffix_refl _⟩
instance CSuf.zero : CSuf (C.timeout : CM α) := ⟨by rintro s a r ⟨⟩⟩
instance : CSuf C.skip := ⟨by rintro s a r ⟨⟩; exact nextRest_suffix _⟩
instance : CSuf C.next := ⟨by rintro s a r ⟨⟩; exact nextRest_suffix _⟩
instance : CSuf C.token := ⟨by rintro s a r ⟨⟩; exact List.suffix_refl _⟩
instance : CSuf C.isOutOfRange := ⟨by rintro s a r ⟨⟩; exact List.suffix_refl _⟩
instance (ks : List String) : CSuf (C.matchToken ks) := ⟨by rintro s a r ⟨⟩; exact List.suffix_refl _⟩
instance (t : Str) : CSuf (C.headChar t) := ⟨by
  rintro s a r h
  unfold headChar at h
  split at h
  · cases h
  · cases h; exact List.suffix_refl _⟩
instance (t : Str) : CSuf (C.inner t) := ⟨by
  rintro s a r h
  unfold inner at h
  split at h
  · cases h
  · cases h; exact List.suffix_refl _⟩

namespace C

instance (d : Rdbms) : CSuf (convertName d) := by unfold convertName; infer_instance
instance (d : Rdbms) : CSuf (convertTableName d) := by unfold convertTableName; infer_instance
instance : CSuf convertTypeDigit := by unfold convertTypeDigit; infer_instance
instance [CaseMap] : CSuf convertDateType := by unfold convertDateType; infer_instance
instance [CaseMap] (isNum : Str → Bool) (d : Rdbms) : CSuf (convertLiteralValue isNum d) := by
  unfold convertLiteralValue; infer_instance
instance convertExprAux_suf (n : Nat) : CSuf (convertExprAux n) := by
  induction n with
  | zero => exact CSuf.zero
  | succ n ih => unfold convertExprAux; infer_instance
instance (n : Nat) : CSuf (convertExpr n) := by unfold convertExpr; infer_instance
instance [CaseMap] (isNum : Str → Bool) (d : Rdbms) (n : Nat) : CSuf (convertDefaultValue isNum d n) := by
  unfold convertDefaultValue; infer_instance
instance columnNamesLoop_suf (n : Nat) (ls : List Str) : CSuf (columnNamesLoop n ls) := by
  induction n generalizing ls with
  | zero => exact CSuf.zero
  | succ n ih => unfold columnNamesLoop; infer_instance
instance (n : Nat) : CSuf (convertCommaSeparatedColumnNames n) := by
  unfold convertCommaSeparatedColumnNames; infer_instance
instance (d : Rdbms) (n : Nat) : CSuf (convertReference d n) := by
  unfold convertReference; infer_instance
instance convertConstraintAux_suf [CaseMap] (isNum : Str → Bool) (d : Rdbms) (n : Nat) (con : Constraint) :
    CSuf (convertConstraintAux isNum d n con) := by
  induction n generalizing con with
  | zero => exact CSuf.zero
  | succ n ih => unfold convertConstraintAux; infer_instance
instance [CaseMap] (isNum : Str → Bool) (d : Rdbms) (n : Nat) : CSuf (convertConstraint isNum d n) := by
  unfold convertConstraint; infer_instance
instance [CaseMap] (isNum : Str → Bool) (d : Rdbms) (n : Nat) : CSuf (convertColumnDefinition isNum d n) := by
  unfold convertColumnDefinition; infer_instance
instance (d : Rdbms) (n : Nat) (tc : TableConstraint) : CSuf (convertTableConstraint d n tc) := by
  unfold convertTableConstraint; infer_instance
instance tableDefinitionLoop_suf [CaseMap] (isNum : Str → Bool) (d : Rdbms) (n : Nat) (cols : List Column)
    (tc : TableConstraint) : CSuf (tableDefinitionLoop isNum d n cols tc) := by
  induction n generalizing cols tc with
  | zero => exact CSuf.zero
  | succ n ih => unfold tableDefinitionLoop; infer_instance
instance [CaseMap] (isNum : Str → Bool) (d : Rdbms) (n : Nat) : CSuf (convertTableDefinition isNum d n) := by
  unfold convertTableDefinition; infer_instance
set_option synthInstance.maxSize 1024 in
instance [CaseMap] (isNum : Str → Bool) (d : Rdbms) (n : Nat) : CSuf (convertTable isNum d n) := by
  unfold convertTable; infer_instance

end C

/-- A token that starts with a quote ends with it. -/
def QuoteShape (t : Str) : Prop :=
  ∀ q r, t = q :: r → (q = '"' ∨ q = '\'' ∨ q = '`') → ∃ x, t = q :: x ++ [q]

/-- If the converter stops in front of a token, it has read words of `P` only, and the value
satisfies `Q`. -/
def Reads (P : Str → Prop) (f : CM α) (Q : α → Prop) : Prop :=
  ∀ s, (∀ t ∈ s, P t) → ∀ a r, f s = .ok a r → r ≠ [] → Q a

namespace Reads

theorem bind {P : Str → Prop} {f : CM α} {g : α → CM β} {Q : α → Prop} {R : β → Prop} [hsf : CSuf f]
    [hsg : ∀ a, CSuf (g a)] (hf : Reads P f Q) (hg : ∀ a, Q a → Reads P (g a) R) : Reads P (f.bind g) R := by
  intro s hs a r h hr
  obtain ⟨b, m, h1, h2⟩ := cbind_ok h
  have hm : m ≠ [] := by
    rintro rfl
    exact hr (List.suffix_nil.1 ((hsg b).out _ _ _ h2))
  exact hg b (hf s hs _ _ h1 hm) m (fun t ht => hs t ((hsf.out _ _ _ h1).subset ht)) _ _ h2 hr

theorem pure {P : Str → Prop} {Q : α → Prop} {a : α} (h : Q a) : Reads P (CM.pure a) Q := by
  rintro s hs b r ⟨⟩ _; exact h

theorem cond {P : Str → Prop} {Q : α → Prop} {b : Bool} {p q : CM α} (hp : Reads P p Q) (hq : Reads P q Q) :
    Reads P (cond b p q) Q := by cases b <;> assumption

theorem ifM {P : Str → Prop} {Q : α → Prop} {ks : List String} {p q : CM α} (hp : Reads P p Q)
    (hq : Reads P q Q) : Reads P (C.ifM (C.matchToken ks) p q) Q := by
  intro s hs a r h hr
  have : (_root_.cond (isKw ks (tok s)) p q) s = .ok a r := h
  cases hk : isKw ks (tok s) <;> rw [hk] at this
  · exact hq s hs _ _ this hr
  · exact hp s hs _ _ this hr

theorem tok_mem {P : Str → Prop} {s : List Str} (hs : ∀ t ∈ s, P t) (h : s ≠ []) : P (tok s) := by
  cases s with
  | nil => exact absurd rfl h
  | cons t r => exact hs t (by simp)

theorem next {P : Str → Prop} : Reads P C.next P := by
  rintro s hs a r ⟨⟩ hr
  refine tok_mem hs ?_
  rintro rfl
  exact hr rfl

theorem skip {P : Str → Prop} : Reads P C.skip (fun _ => True) := fun _ _ _ _ _ _ => trivial

theorem mono {P : Str → Prop} {f : CM α} {Q R : α → Prop} (h : Reads P f Q) (hQ : ∀ a, Q a → R a) : Reads P f R :=
  fun s hs a r e hr => hQ a (h s hs a r e hr)

theorem skip_bind {P : Str → Prop} {g : Unit → CM β} {R : β → Prop} [∀ a, CSuf (g a)]
    (hg : Reads P (g ()) R) : Reads P (C.skip.bind g) R := bind skip fun _ _ => hg

theorem headChar {P : Str → Prop} (t : Str) : Reads P (C.headChar t) (fun c => ∃ r, t = c :: r) := by
  rintro s hs a r h hr
  unfold C.headChar at h
  split at h
  · cases h
  · cases h; exact ⟨_, rfl⟩

theorem timeout {P : Str → Prop} {Q : α → Prop} : Reads P (C.timeout : CM α) Q := by
  rintro s hs a r ⟨⟩

theorem inner {P : Str → Prop} {t : Str} {q : Char} {r : Str} (ht : P t) (hs : QuoteShape t) (he : t = q :: r)
    (hq : q = '"' ∨ q = '\'' ∨ q = '`') : Reads P (C.inner t) (Named P) := by
  obtain ⟨x, hx⟩ := hs q r he hq
  rintro s _ a m h _
  unfold C.inner at h
  split at h
  · cases h
  · cases h
    refine .inr ⟨q, hq, ?_⟩
    have : (t.drop 1).dropLast = x := by rw [hx]; simp
    rw [this, ← hx]; exact ht

end Reads

section
variable {isNum : Str → Bool} {P : Str → Prop} (hq : ∀ t, P t → QuoteShape t)
include hq

theorem convertName_from (d : Rdbms) : Reads P (convertName d) (Named P) := by
  unfold convertName
  refine .bind .next fun t ht => .bind (.headChar t) fun c ⟨r, hr⟩ => ?_
  cases hi : C.isIdentifier d c with
  | true => exact .inner ht (hq t ht) hr (isIdentifier_quote hi)
  | false => exact .pure (.inl ht)

theorem convertTableName_from (d : Rdbms) :
    Reads P (convertTableName d) (fun x => MaybeNamed P x.1 ∧ Named P x.2) := by
  unfold convertTableName
  refine .bind (convertName_from hq d) fun s hs => .ifM ?_ (.pure ⟨.inl rfl, hs⟩)
  exact .skip_bind (.bind (convertName_from hq d) fun t ht => .pure ⟨.inr hs, ht⟩)

omit hq in
theorem convertDateType_from [CaseMap] : Reads P convertDateType (fun x => TypeFrom CaseMap.up P x.name) := by
  unfold convertDateType
  refine .bind .next fun t ht => .bind (Q := TypeFrom CaseMap.up P) ?_ fun name hn => ?_
  · intro s hs a r h hr
    have : (cond (isKw ["VARYING"] (tok s)) (C.next.bind fun v => CM.pure (varyingName (upStr t) v))
      (CM.pure (upStr t))) s = .ok a r := h
    cases hk : isKw ["VARYING"] (tok s) <;> rw [hk] at this
    · cases this
      exact ⟨t, ht, .inl rfl⟩
    · cases this
      have hne : s ≠ [] := by rintro rfl; exact hr rfl
      refine ⟨t, ht, .inr ⟨tok s, Reads.tok_mem hs hne, isKw_kw.1 hk, ?_⟩⟩
      unfold varyingName
      split
      · rename_i h; exact .inl ⟨h, rfl⟩
      · split
        · rename_i h; exact .inr (.inl ⟨h, rfl⟩)
        · refine .inr (.inr ?_)
          have : upStr (tok s) = S "VARYING" := by
            have ascii : ∀ t : Str, (∀ c ∈ t, c.toNat < 128) → upStr t = toUpper t := fun t h =>
              List.map_congr_left fun c hc => CaseMap.up_ascii c (h c hc)
            rcases isKw_one.1 hk with h | h <;> rw [h, ascii _ (by decide)] <;> decide
          rw [this, List.append_assoc]; rfl
  · refine .bind (Q := fun _ => True) (fun _ _ _ _ _ _ => trivial) fun _ _ => .pure hn

omit hq in
theorem Spec.Joined.nil : Joined P [] := ⟨[], by simp, rfl⟩

omit hq in
theorem Spec.Joined.append {a b : Str} : Joined P a → Joined P b → Joined P (a ++ b) := by
  rintro ⟨x, hx, rfl⟩ ⟨y, hy, rfl⟩
  refine ⟨x ++ y, fun w hw => ?_, by simp⟩
  rcases List.mem_append.1 hw with h | h
  · exact hx w h
  · exact hy w h

omit hq in
theorem Spec.Joined.one {a : Str} (h : P a) : Joined P a := ⟨[a], by simpa using h, by simp⟩

omit hq in
theorem convertExprAux_from (n : Nat) : Reads P (convertExprAux n) (Joined P) := by
  induction n with
  | zero => exact .timeout
  | succ n ih =>
    rw [convertExprAux]
    refine .ifM (.pure .nil) (.ifM ?_ ?_)
    · exact .bind .next fun a ha => .bind ih fun b hb => .bind .next fun c hc => .bind ih fun e he =>
        .pure (.append (.append (.append (.one ha) hb) (.one hc)) he)
    · exact .bind .next fun a ha => .bind ih fun b hb => .pure (.append (.one ha) hb)

omit hq in
theorem convertExpr_from (n : Nat) : Reads P (convertExpr n) (Joined P) := by
  unfold convertExpr
  exact .bind .next fun a ha => .bind (convertExprAux_from n) fun b hb => .bind .next fun c hc =>
    .pure (.append (.append (.one ha) hb) (.one hc))

theorem convertLiteralValue_from [CaseMap] (d : Rdbms) : Reads P (convertLiteralValue isNum d) (DefaultFrom CaseMap.up isNum P) := by
  unfold convertLiteralValue
  refine .bind .next fun t ht => ?_
  cases hn : isNum t with
  | true => exact .pure ⟨ht, hn⟩
  | false =>
    refine .bind (.headChar t) fun c ⟨r, hr⟩ => ?_
    cases hi : C.isStringValue d c with
    | true => exact .bind (.inner ht (hq t ht) hr (isStringValue_quote hi)) fun s hs => .pure (.inl hs)
    | false =>
      refine .pure ?_
      split
      · trivial
      · split
        · rename_i h; exact ⟨t, ht, h⟩
        · split
          · rename_i h; exact ⟨t, ht, h⟩
          · exact .inl (.inl ht)

theorem convertDefaultValue_from [CaseMap] (d : Rdbms) (n : Nat) :
    Reads P (convertDefaultValue isNum d n) (DefaultFrom CaseMap.up isNum P) := by
  unfold convertDefaultValue
  exact .ifM (.bind (convertExpr_from n) fun s hs => .pure (.inr hs)) (convertLiteralValue_from hq d)

omit hq in
theorem columnNamesLoop_from (n : Nat) (ls : List Str) (hl : ∀ c ∈ ls, P c) :
    Reads P (columnNamesLoop n ls) (fun cs => ∀ c ∈ cs, P c) := by
  induction n generalizing ls with
  | zero => exact .timeout
  | succ n ih =>
    rw [columnNamesLoop]
    refine .ifM (.pure hl) (.ifM (.skip_bind (ih ls hl)) ?_)
    intro s hs a r h hr
    have hne : s ≠ [] := by
      rintro rfl
      have := (columnNamesLoop_suf n (ls ++ [EOF])).out [] a r h
      exact hr (List.suffix_nil.1 this)
    refine (ih (ls ++ [tok s]) ?_) (nextRest s) (fun t ht => hs t ((nextRest_suffix s).subset ht)) a r h hr
    intro c hc
    rcases List.mem_append.1 hc with hc | hc
    · exact hl c hc
    · rw [List.mem_singleton] at hc; subst hc; exact Reads.tok_mem hs hne

omit hq in
theorem convertCommaSeparatedColumnNames_from (n : Nat) :
    Reads P (convertCommaSeparatedColumnNames n) (fun cs => ∀ c ∈ cs, P c) := by
  unfold convertCommaSeparatedColumnNames
  exact .skip_bind (.bind (columnNamesLoop_from n [] (by simp)) fun ls hl => .skip_bind (.pure hl))

theorem convertReference_from (d : Rdbms) (n : Nat) : Reads P (convertReference d n) (RefFrom P) := by
  unfold convertReference
  refine .skip_bind (.bind (convertName_from hq d) fun t ht => .ifM ?_ (.pure ⟨.inr ht, by simp⟩))
  exact .bind (convertCommaSeparatedColumnNames_from n) fun cs hcs =>
    .pure ⟨.inr ht, by rintro _ ⟨⟩; exact hcs⟩

theorem convertConstraintAux_from [CaseMap] (d : Rdbms) (n : Nat) (con : Constraint) (hc : ConFrom CaseMap.up isNum P con) :
    Reads P (convertConstraintAux isNum d n con) (ConFrom CaseMap.up isNum P) := by
  induction n generalizing con with
  | zero => exact .timeout
  | succ n ih =>
    rw [convertConstraintAux]
    refine .ifM (.pure hc) <| .ifM ?_ <| .ifM ?_ <| .ifM ?_ <| .ifM ?_ <| .ifM ?_ <| .ifM ?_ <| .ifM ?_ <|
      .ifM ?_ (.pure hc)
    · exact .skip_bind (.skip_bind (ih _ ⟨hc.name, hc.default, hc.check, hc.collate, hc.references⟩))
    · exact .skip_bind (ih _ ⟨hc.name, hc.default, hc.check, hc.collate, hc.references⟩)
    · exact .skip_bind (.skip_bind (ih _ ⟨hc.name, hc.default, hc.check, hc.collate, hc.references⟩))
    · exact .skip_bind (ih _ ⟨hc.name, hc.default, hc.check, hc.collate, hc.references⟩)
    · exact .skip_bind (.bind (convertDefaultValue_from hq d n) fun v hv =>
        ih _ ⟨hc.name, hv, hc.check, hc.collate, hc.references⟩)
    · exact .skip_bind (.bind (convertExpr_from n) fun v hv =>
        ih _ ⟨hc.name, hc.default, hv, hc.collate, hc.references⟩)
    · exact .skip_bind (.bind (convertName_from hq d) fun v hv =>
        ih _ ⟨hc.name, hc.default, hc.check, .inr hv, hc.references⟩)
    · exact .bind (convertReference_from hq d n) fun v hv =>
        ih _ ⟨hc.name, hc.default, hc.check, hc.collate, hv⟩

theorem convertConstraint_from [CaseMap] (d : Rdbms) (n : Nat) :
    Reads P (convertConstraint isNum d n) (ConFrom CaseMap.up isNum P) := by
  unfold convertConstraint
  refine .bind (Q := MaybeNamed P) (.ifM (.skip_bind (.ifM (.pure (.inl rfl)) ?_)) (.pure (.inl rfl))) fun name hn => ?_
  · exact (convertName_from hq d).mono fun _ h => .inr h
  · exact convertConstraintAux_from hq d n _ ⟨hn, trivial, .nil, .inl rfl, ⟨.inl rfl, by simp⟩⟩

theorem convertColumnDefinition_from [CaseMap] (d : Rdbms) (n : Nat) :
    Reads P (convertColumnDefinition isNum d n) (ColumnFrom CaseMap.up isNum P) := by
  unfold convertColumnDefinition
  exact .bind (convertName_from hq d) fun _ h1 => .bind convertDateType_from fun _ h2 =>
    .bind (convertConstraint_from hq d n) fun _ h3 => .pure ⟨h1, h2, h3⟩

omit hq in
theorem snoc {Q : α → Prop} {l : List α} {a : α} (hl : ∀ x ∈ l, Q x) (ha : Q a) : ∀ x ∈ l ++ [a], Q x := by
  intro x hx
  rcases List.mem_append.1 hx with hx | hx
  · exact hl x hx
  · rw [List.mem_singleton] at hx; subst hx; exact ha

theorem convertTableConstraint_from (d : Rdbms) (n : Nat) (tc : TableConstraint) (h : TableConFrom P tc) :
    Reads P (convertTableConstraint d n tc) (TableConFrom P) := by
  unfold convertTableConstraint
  refine .bind (Q := MaybeNamed P) (.ifM (.skip_bind (.ifM (.pure (.inl rfl)) ?_)) (.pure (.inl rfl))) fun name hn => ?_
  · exact (convertName_from hq d).mono fun _ h => .inr h
  · refine .ifM ?_ (.ifM ?_ (.ifM ?_ (.ifM ?_ (.pure h))))
    · exact .skip_bind (.skip_bind (.bind (convertCommaSeparatedColumnNames_from n) fun cs hcs =>
        .pure ⟨snoc h.primaryKey ⟨hn, hcs⟩, h.unique, h.check, h.foreignKey⟩))
    · exact .skip_bind (.bind (convertCommaSeparatedColumnNames_from n) fun cs hcs =>
        .pure ⟨h.primaryKey, snoc h.unique ⟨hn, hcs⟩, h.check, h.foreignKey⟩)
    · exact .skip_bind (.bind (convertExpr_from n) fun cs hcs =>
        .pure ⟨h.primaryKey, h.unique, snoc h.check ⟨hn, hcs⟩, h.foreignKey⟩)
    · exact .skip_bind (.skip_bind (.bind (convertCommaSeparatedColumnNames_from n) fun cs hcs =>
        .bind (convertReference_from hq d n) fun r hr =>
        .pure ⟨h.primaryKey, h.unique, h.check, snoc h.foreignKey ⟨hn, hcs, hr⟩⟩))

/-- What is known of the definitions read so far. -/
def DefsFrom [CaseMap] (isNum : Str → Bool) (P : Str → Prop) (x : List Column × TableConstraint) : Prop :=
  (∀ c ∈ x.1, ColumnFrom CaseMap.up isNum P c) ∧ TableConFrom P x.2

theorem tableDefinitionLoop_from [CaseMap] (d : Rdbms) (n : Nat) (cols : List Column) (tc : TableConstraint)
    (h : DefsFrom isNum P (cols, tc)) : Reads P (tableDefinitionLoop isNum d n cols tc) (DefsFrom isNum P) := by
  induction n generalizing cols tc with
  | zero => exact .timeout
  | succ n ih =>
    rw [tableDefinitionLoop]
    refine .ifM (.pure h) (.bind (Q := DefsFrom isNum P) (.ifM ?_ ?_) fun ct hct => .ifM (.pure hct) (.skip_bind (ih _ _ hct)))
    · exact .bind (convertTableConstraint_from hq d _ tc h.2) fun tc' h' => .pure ⟨h.1, h'⟩
    · exact .bind (convertColumnDefinition_from hq d _) fun c hc => .pure ⟨snoc h.1 hc, h.2⟩

omit hq in
/-- The loop over the entries stops in front of a token. -/
theorem tableDefinitionLoop_stop [CaseMap] (d : Rdbms) (n : Nat) (cols : List Column) (tc : TableConstraint)
    {s : List Str} {a r} (h : tableDefinitionLoop isNum d n cols tc s = .ok a r) : r ≠ [] := by
  induction n generalizing cols tc s with
  | zero => cases h
  | succ n ih =>
    rw [tableDefinitionLoop] at h
    have hstop : ∀ {β} {x : β} {g : CM β} {s : List Str} {a : β} {r},
        (C.ifM (C.matchToken [")"]) (CM.pure x) g) s = .ok a r → r ≠ [] ∨ g s = .ok a r := by
      intro β x g s a r h
      have : (cond (isKw [")"] (tok s)) (CM.pure x) g) s = .ok a r := h
      cases hk : isKw [")"] (tok s) <;> rw [hk] at this
      · exact .inr this
      · cases this
        refine .inl ?_
        rintro rfl
        exact absurd hk (by decide)
    rcases hstop h with h | h
    · exact h
    · obtain ⟨b, m, _, h2⟩ := cbind_ok h
      rcases hstop h2 with h | h
      · exact h
      · exact ih _ _ h

theorem convertTable_from [CaseMap] (d : Rdbms) (n : Nat) (s : List Str) (hs : ∀ t ∈ s, P t) (a : Table) (r : List Str)
    (h : convertTable isNum d n s = .ok a r) : TableFrom CaseMap.up isNum P a := by
  unfold convertTable at h
  obtain ⟨_, s1, h1, h⟩ := cbind_ok h
  obtain ⟨_, s2, h2, h⟩ := cbind_ok h
  obtain ⟨ine, s3, h3, h⟩ := cbind_ok h
  obtain ⟨names, s4, h4, h⟩ := cbind_ok h
  obtain ⟨defs, s5, h5, h⟩ := cbind_ok h
  obtain ⟨_, s6, _, h⟩ := cbind_ok h
  cases h
  have e1 := (inferInstance : CSuf skip).out _ _ _ h1
  have e2 := (inferInstance : CSuf skip).out _ _ _ h2
  have e3 := CSuf.out _ _ _ h3
  have e4 := CSuf.out _ _ _ h4
  have e13 := e3.trans (e2.trans e1)
  unfold convertTableDefinition at h5
  obtain ⟨_, m1, k1, h5⟩ := cbind_ok h5
  obtain ⟨defs', m2, k2, h5⟩ := cbind_ok h5
  obtain ⟨_, m3, _, h5⟩ := cbind_ok h5
  cases h5
  have f1 := (inferInstance : CSuf skip).out _ _ _ k1
  have hm2 := tableDefinitionLoop_stop d n [] {} k2
  have f2 := (tableDefinitionLoop_suf isNum d n [] {}).out _ _ _ k2
  have hs4 : s4 ≠ [] := by
    rintro rfl
    exact hm2 (List.suffix_nil.1 (f2.trans f1))
  have hn := convertTableName_from hq d s3 (fun t ht => hs t (e13.subset ht)) _ _ h4 hs4
  have hd := tableDefinitionLoop_from (isNum := isNum) hq d n [] {} ⟨by simp, ⟨by simp, by simp, by simp, by simp⟩⟩ m1
    (fun t ht => hs t ((f1.trans (e4.trans e13)).subset ht)) _ _ k2 hm2
  exact ⟨hn.1, hn.2, hd.1, hd.2⟩

theorem convert_from [CaseMap] (d : Rdbms) (n : Nat) (acc : List Table) (hacc : ∀ t ∈ acc, TableFrom CaseMap.up isNum P t)
    (s : List Str) (hs : ∀ t ∈ s, P t) (a : List Table) (r : List Str) (h : convert isNum d n acc s = .ok a r) :
    ∀ t ∈ a, TableFrom CaseMap.up isNum P t := by
  induction n generalizing acc s with
  | zero => cases h
  | succ n ih =>
    rw [convert] at h
    have : (cond s.isEmpty (CM.pure acc) _) s = .ok a r := h
    cases hk : s.isEmpty <;> rw [hk] at this
    · obtain ⟨t, m, h1, h2⟩ := cbind_ok this
      exact ih _ (snoc hacc (convertTable_from hq d _ s hs t m h1)) m
        (fun t ht => hs t ((CSuf.out _ _ _ h1).subset ht)) h2
    · cases this; exact hacc

end

theorem TokenShape.quoteShape {d : Rdbms} {t : Str} (h : TokenShape d t) : QuoteShape t := by
  rintro q r rfl hq
  rcases h with h | ⟨c, hc, h⟩ | ⟨q', _, body, _, h⟩ | ⟨_, h⟩
  · have : q = '\n' := (List.cons.inj h).1
    subst this; exact absurd hq (by decide)
  · obtain ⟨rfl, _⟩ := List.cons.inj h
    rcases hq with rfl | rfl | rfl <;> exact absurd hc (by decide)
  · rw [List.cons_append] at h
    obtain ⟨rfl, rfl⟩ := List.cons.inj h
    exact ⟨body, rfl⟩
  · exact absurd (h q (by simp)) (by rcases hq with rfl | rfl | rfl <;> cases d <;> decide)

theorem wordOf_quoteShape {d : Rdbms} {ddl : List Char} {toks : List Str} (hl : Lexes d ddl toks) :
    ∀ t, WordOf toks t → QuoteShape t := by
  obtain ⟨n, hl⟩ := hl
  rintro t (h | h)
  · exact TokenShape.quoteShape (lexN_shape hl t (List.mem_filter.1 h).1)
  · rintro q r rfl hq
    simp only [List.mem_cons, List.not_mem_nil, or_false] at h
    rcases h with h | h | h <;> · obtain ⟨rfl, _⟩ := List.cons.inj h; exact absurd hq (by decide)

theorem returns_from [CaseMap] {isNum : Str → Bool} (hN : NumOK isNum) {d : Rdbms} {ddl : List Char}
    {toks : List Str} {tbs : List Table} (hl : Lexes d ddl toks) (h : Returns isNum ddl d (tbs, none)) :
    ∀ t ∈ tbs, TableFrom CaseMap.up isNum (WordOf toks) t := by
  obtain ⟨toks', out, hl', ⟨n, hv⟩, ⟨m, hc⟩⟩ := returns_ok_iff.1 h
  cases Lexes.unique hl hl'
  unfold convertN at hc
  split at hc
  · rename_i a r hc'
    cases hc
    refine convert_from (wordOf_quoteShape hl) d m [] (by simp) out ?_ _ _ hc'
    intro t ht
    obtain ⟨k, hk⟩ := hl
    rcases validateN_mem hN (lexN_good hk) hv t ht with ⟨h1, h2⟩ | h
    · exact .inl (List.mem_filter.2 ⟨h1, by simpa using h2⟩)
    · rcases h with rfl | rfl | rfl
      · exact .inr (by simp)
      · exact .inr (by simp)
      · exact .inr (by simp)
  · cases hc
  · cases hc

end DDL
