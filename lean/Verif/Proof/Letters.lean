import Verif.Spec.Letters
import Verif.Proof.Origin
import Verif.Proof.ForceFacts
/-
The converter with one map of letters and with another, in step.
-/

namespace DDL
open C Spec

/-- Outcomes that correspond: the same tokens are left. -/
inductive InStepRes (P : Str → Prop) (R : α → β → Prop) : CRes α → CRes β → Prop
  | ok (h : R a b) (hs : ∀ t ∈ s, P t) : InStepRes P R (.ok a s) (.ok b s)
  | panic : InStepRes P R .panic .panic
  | timeout : InStepRes P R .timeout .timeout

/-- On tokens of `P` the two go in step. -/
def InStep (P : Str → Prop) (R : α → β → Prop) (f : CM α) (g : CM β) : Prop :=
  ∀ s, (∀ t ∈ s, P t) → InStepRes P R (f s) (g s)

namespace InStep
variable {P : Str → Prop}

theorem same {f : CM α} [h : CSuf f] : InStep P Eq f f := by
  intro s hs
  cases e : f s with
  | ok a r => exact .ok rfl fun t ht => hs t ((h.out _ _ _ e).subset ht)
  | panic => exact .panic
  | timeout => exact .timeout

theorem bind {R : α → β → Prop} {Q : γ → δ → Prop} {f : CM α} {g : CM β} {k : α → CM γ} {l : β → CM δ}
    (h : InStep P R f g) (hk : ∀ a b, R a b → InStep P Q (k a) (l b)) : InStep P Q (f.bind k) (g.bind l) := by
  intro s hs
  have := h s hs
  unfold CM.bind
  revert this
  generalize f s = x; generalize g s = y
  rintro (⟨h, hs'⟩ | _ | _)
  · exact hk _ _ h _ hs'
  · exact .panic
  · exact .timeout

theorem skip {Q : γ → δ → Prop} {k : Unit → CM γ} {l : Unit → CM δ} (h : InStep P Q (k ()) (l ())) :
    InStep P Q (C.skip.bind k) (C.skip.bind l) := bind (same (f := C.skip)) fun _ _ _ => h

theorem of {Q : γ → δ → Prop} (f : CM α) [CSuf f] {k : α → CM γ} {l : α → CM δ} (h : ∀ a, InStep P Q (k a) (l a)) :
    InStep P Q (f.bind k) (f.bind l) := bind same fun a _ e => e ▸ h a

theorem ifM {Q : γ → δ → Prop} {c : CM Bool} [CSuf c] {p q : CM γ} {p' q' : CM δ} (h : InStep P Q p p') (h' : InStep P Q q q') :
    InStep P Q (C.ifM c p q) (C.ifM c p' q') := of c fun b => by cases b <;> assumption

theorem pure {Q : γ → δ → Prop} {a : γ} {b : δ} (h : Q a b) : InStep P Q (CM.pure a) (CM.pure b) := fun _ hs => .ok h hs

theorem timeout {Q : γ → δ → Prop} : InStep P Q (C.timeout : CM γ) (C.timeout : CM δ) := fun _ _ => .timeout

/-- After `next` the token is one of `P`. -/
theorem next (hE : P EOF) {Q : γ → δ → Prop} {k : Str → CM γ} {l : Str → CM δ} (h : ∀ t, P t → InStep P Q (k t) (l t)) :
    InStep P Q (C.next.bind k) (C.next.bind l) := by
  intro s hs
  refine h (tok s) ?_ _ fun t ht => hs t (nextRest_mem s t ht)
  cases s with
  | nil => exact hE
  | cons t r => exact hs t (by simp)

end InStep

/-- The value of a word that is neither a number nor quoted. -/
def wordVal [CaseMap] (t : Str) : DefaultVal :=
  if upStr t = S "NULL" then .nil
  else if upStr t = S "TRUE" then .bool true
  else if upStr t = S "FALSE" then .bool false
  else .str t

/-- What is needed of relations between type names and between default values. -/
structure Maps [cm : CaseMap] (P : Str → Prop) (N : Str → Str → Prop) (D : DefaultVal → DefaultVal → Prop) : Prop where
  eof : P EOF
  word : ∀ t, P t → N (upStr t) (toUpper t)
  varying : ∀ t v, P t → isKw ["VARYING"] v = true → N (varyingName (upStr t) v) (@varyingName asciiCase (toUpper t) v)
  dflt : ∀ v, D v v
  lit : ∀ t, P t → D (wordVal t) (@wordVal asciiCase t)

section
variable [cm : CaseMap] {P : Str → Prop} {N : Str → Str → Prop} {D : DefaultVal → DefaultVal → Prop} (H : Maps P N D)
include H

theorem step_type : InStep P (fun x y => N x.name y.name ∧ x.digitN = y.digitN ∧ x.digitM = y.digitM)
    convertDateType (@convertDateType asciiCase) := by
  unfold convertDateType
  refine .next H.eof fun t ht => .bind (R := N) ?_ fun a b hab => .of convertTypeDigit fun nm => .pure ⟨hab, rfl, rfl⟩
  intro s hs
  show InStepRes P N ((cond (isKw ["VARYING"] (tok s)) (_ : CM Str) _) s) ((cond (isKw ["VARYING"] (tok s)) (_ : CM Str) _) s)
  cases hk : isKw ["VARYING"] (tok s) with
  | true => exact .ok (H.varying _ _ ht hk) fun t ht => hs t (nextRest_mem s t ht)
  | false => exact .ok (H.word _ ht) hs

theorem step_literal (isNum : Str → Bool) (d : Rdbms) :
    InStep P D (convertLiteralValue isNum d) (@convertLiteralValue asciiCase isNum d) := by
  unfold convertLiteralValue
  refine .next H.eof fun t ht => ?_
  cases isNum t with
  | true => exact .pure (H.dflt _)
  | false =>
    refine .of (headChar t) fun c => ?_
    cases isStringValue d c with
    | true => exact .of (inner t) fun s => .pure (H.dflt _)
    | false => exact .pure (H.lit t ht)

theorem step_default (isNum : Str → Bool) (d : Rdbms) (n : Nat) :
    InStep P D (convertDefaultValue isNum d n) (@convertDefaultValue asciiCase isNum d n) :=
  .ifM (.of (convertExpr n) fun _ => .pure (H.dflt _)) (step_literal H isNum d)

omit [CaseMap] H in
/-- Constraints with the same parts, up to the default value. -/
def ConAs (D : DefaultVal → DefaultVal → Prop) (c c' : Constraint) : Prop := ∃ (v v' : DefaultVal) (c0 : Constraint), D v v' ∧
  c = { c0 with default := v } ∧ c' = { c0 with default := v' }

theorem step_constraintAux (isNum : Str → Bool) (d : Rdbms) (n : Nat) (c c' : Constraint) (h : ConAs D c c') :
    InStep P (ConAs D) (convertConstraintAux isNum d n c) (@convertConstraintAux asciiCase isNum d n c') := by
  induction n generalizing c c' with
  | zero => exact .timeout
  | succ n ih =>
    obtain ⟨v, v', c0, hv, rfl, rfl⟩ := h
    refine .ifM (.pure ⟨v, v', c0, hv, rfl, rfl⟩) ?_
    refine .ifM (.skip (.skip (ih _ _ ⟨v, v', { c0 with isPrimaryKey := true }, hv, rfl, rfl⟩))) ?_
    refine .ifM (.skip (ih _ _ ⟨v, v', { c0 with isAutoincrement := true }, hv, rfl, rfl⟩)) ?_
    refine .ifM (.skip (.skip (ih _ _ ⟨v, v', { c0 with isNotNull := true }, hv, rfl, rfl⟩))) ?_
    refine .ifM (.skip (ih _ _ ⟨v, v', { c0 with isUnique := true }, hv, rfl, rfl⟩)) ?_
    refine .ifM (.skip (.bind (step_default H isNum d n) fun w w' hw => ih _ _ ⟨w, w', c0, hw, rfl, rfl⟩)) ?_
    refine .ifM (.skip (.of (convertExpr n) fun e => ih _ _ ⟨v, v', { c0 with check := e }, hv, rfl, rfl⟩)) ?_
    refine .ifM (.skip (.of (convertName d) fun e => ih _ _ ⟨v, v', { c0 with collate := e }, hv, rfl, rfl⟩)) ?_
    refine .ifM (.of (convertReference d n) fun e => ih _ _ ⟨v, v', { c0 with references := e }, hv, rfl, rfl⟩) ?_
    exact .pure ⟨v, v', c0, hv, rfl, rfl⟩

theorem step_column (isNum : Str → Bool) (d : Rdbms) (n : Nat) :
    InStep P (ColumnAs N D) (convertColumnDefinition isNum d n) (@convertColumnDefinition asciiCase isNum d n) := by
  refine .of (convertName d) fun name => .bind (step_type H) fun a b hab =>
    .bind (R := ConAs D) (.of _ fun cn => step_constraintAux H isNum d n _ _ ⟨.nil, .nil, { name := cn }, H.dflt _, rfl, rfl⟩)
      fun c c' hc => .pure ?_
  obtain ⟨v, v', c0, hv, rfl, rfl⟩ := hc
  exact ⟨rfl, hab.1, hab.2.1, hab.2.2, hv, rfl⟩

omit [CaseMap] H in
theorem Spec.Each.snocAs {R : α → β → Prop} {as : List α} {bs : List β} (h : Each R as bs) {a : α} {b : β} (hab : R a b) :
    Each R (as ++ [a]) (bs ++ [b]) := by
  induction h with
  | nil => exact .cons hab .nil
  | cons h _ ih => exact .cons h ih

theorem step_loop (isNum : Str → Bool) (d : Rdbms) (n : Nat) (cs cs' : List Column) (tc : TableConstraint)
    (h : Each (ColumnAs N D) cs cs') :
    InStep P (fun x y => Each (ColumnAs N D) x.1 y.1 ∧ x.2 = y.2) (tableDefinitionLoop isNum d n cs tc)
      (@tableDefinitionLoop asciiCase isNum d n cs' tc) := by
  induction n generalizing cs cs' tc with
  | zero => exact .timeout
  | succ n ih =>
    refine .ifM (.pure ⟨h, rfl⟩) (.bind (R := fun x y => Each (ColumnAs N D) x.1 y.1 ∧ x.2 = y.2) ?_ ?_)
    · refine .ifM (.of (convertTableConstraint d (n + 1) tc) fun tc' => .pure ⟨h, rfl⟩) ?_
      exact .bind (step_column H isNum d (n + 1)) fun a b hab => .pure ⟨h.snocAs hab, rfl⟩
    · rintro ⟨x1, x2⟩ ⟨y1, y2⟩ ⟨h1, rfl⟩
      exact .ifM (.pure ⟨h1, rfl⟩) (.skip (ih _ _ _ h1))

theorem step_table (isNum : Str → Bool) (d : Rdbms) (n : Nat) :
    InStep P (TableAs N D) (convertTable isNum d n) (@convertTable asciiCase isNum d n) := by
  refine .skip (.skip (.of _ fun ine => .of (convertTableName d) fun names =>
    .bind (R := fun x y => Each (ColumnAs N D) x.1 y.1 ∧ x.2 = y.2) ?_ ?_))
  · exact .skip (.bind (step_loop H isNum d n [] [] {} .nil) fun a b h => .skip (.pure h))
  · rintro ⟨x1, x2⟩ ⟨y1, y2⟩ ⟨h1, rfl⟩
    exact .of _ fun _ => .pure ⟨h1, rfl⟩

theorem step_convert (isNum : Str → Bool) (d : Rdbms) (n : Nat) (ts ts' : List Table) (h : Each (TableAs N D) ts ts') :
    InStep P (Each (TableAs N D)) (convert isNum d n ts) (@convert asciiCase isNum d n ts') := by
  induction n generalizing ts ts' with
  | zero => exact .timeout
  | succ n ih =>
    exact .ifM (.pure h) (.bind (step_table H isNum d (n + 1)) fun a b hab => ih _ _ (h.snocAs hab))

end

/-! ### letters -/

section
variable [cm : CaseMap]

theorem upStr_of_plain {t : Str} (h : ¬ Foreign t) : upStr t = toUpper t :=
  List.map_congr_left fun c hc => CaseMap.up_ascii c (Nat.lt_of_not_le fun hle => h ⟨c, hc, hle⟩)

omit cm in
theorem upC_big {c : Char} (h : 128 ≤ c.toNat) : upC c = c := by
  unfold upC
  rw [if_neg]
  rintro ⟨_, h2⟩
  have : 'z'.toNat = 122 := by decide
  omega

omit cm in
theorem upC_small {c : Char} (h : c.toNat < 128) : (upC c).toNat < 128 := by
  have := (by decide +kernel : ∀ n : Fin 128, (upC (Char.ofNat n)).toNat < 128) ⟨c.toNat, h⟩
  rwa [show Char.ofNat (⟨c.toNat, h⟩ : Fin 128).val = c from Char.ofNat_toNat c] at this

omit cm in
theorem foreign_upper {t : Str} : Foreign (toUpper t) ↔ Foreign t := by
  constructor
  · rintro ⟨c, hc, h⟩
    obtain ⟨b, hb, rfl⟩ := List.mem_map.1 hc
    refine ⟨b, hb, Nat.le_of_not_lt fun hlt => ?_⟩
    have := upC_small hlt
    omega
  · rintro ⟨c, hc, h⟩
    exact ⟨c, List.mem_map.2 ⟨c, hc, upC_big h⟩, h⟩

theorem upStr_upper (t : Str) : upStr (toUpper t) = upStr t := by
  unfold upStr toUpper
  rw [List.map_map]
  refine List.map_congr_left fun c _ => ?_
  show CaseMap.up (upC c) = CaseMap.up c
  by_cases h : c.toNat < 128
  · rw [CaseMap.up_ascii _ h, CaseMap.up_ascii _ (upC_small h)]
    exact congrFun (congrArg _ rfl) _ |>.trans (upC_upC c)
  · rw [upC_big (by omega)]


theorem varying_upStr {v : Str} (h : isKw ["VARYING"] v = true) : upStr v = S "VARYING" ∧ toUpper v = S "VARYING" := by
  have a : ¬ Foreign v := by
    rintro ⟨c, hc, hle⟩
    have := forall_kw (P := fun t => ∀ c ∈ t, c.toNat < 128) (by decide) h c hc
    omega
  have e : toUpper v = S "VARYING" := forall_kw (P := fun t => toUpper t = S "VARYING") (by decide) h
  exact ⟨(upStr_of_plain a).trans e, e⟩

omit cm in
theorem not_foreign {t w : Str} (h : toUpper t = w) (hw : ∀ c ∈ w, c.toNat < 128) : ¬ Foreign t := by
  rw [← foreign_upper, h]
  rintro ⟨c, hc, hle⟩
  have := hw c hc
  omega

/-- Any text: results as specified. -/
theorem maps_any : Maps (fun _ => True) TypeNameAs DefaultAs where
  eof := trivial
  word t _ := by
    by_cases h : Foreign t
    · exact .inr ⟨foreign_upper.2 h, .inl (upStr_upper t).symm⟩
    · exact .inl (upStr_of_plain h)
  varying t v _ hv := by
    obtain ⟨e1, e2⟩ := varying_upStr hv
    unfold varyingName
    rw [e1, show @upStr asciiCase v = S "VARYING" from e2]
    by_cases h : Foreign t
    · have n1 : ¬ toUpper t = S "BIT" := fun e => not_foreign e (by decide) h
      have n2 : ¬ toUpper t = S "CHARACTER" := fun e => not_foreign e (by decide) h
      rw [if_neg n1, if_neg n2]
      obtain ⟨c, hc, hle⟩ := foreign_upper.2 h
      refine .inr ⟨⟨c, by simp [hc], hle⟩, ?_⟩
      by_cases b1 : upStr t = S "BIT"
      · exact .inr ⟨toUpper t, by rw [List.append_assoc]; rfl, .inl ⟨(upStr_upper t).trans b1, by rw [if_pos b1]⟩⟩
      · by_cases b2 : upStr t = S "CHARACTER"
        · exact .inr ⟨toUpper t, by rw [List.append_assoc]; rfl, .inr ⟨(upStr_upper t).trans b2, by rw [if_neg b1, if_pos b2]⟩⟩
        · rw [if_neg b1, if_neg b2]
          refine .inl ?_
          have a1 : upStr (S " ") = S " " := upStr_of_plain (by rintro ⟨c, hc, hle⟩; revert c; decide)
          have a2 : upStr (S "VARYING") = S "VARYING" := upStr_of_plain (by rintro ⟨c, hc, hle⟩; revert c; decide)
          conv => lhs; rw [← upStr_upper t, ← a1, ← a2]
          unfold upStr
          simp only [List.map_append]
    · rw [upStr_of_plain h]; exact .inl rfl
  dflt _ := .inl rfl
  lit t _ := by
    unfold wordVal
    by_cases h : Foreign t
    · have n1 : ¬ @upStr asciiCase t = S "NULL" := fun e => not_foreign e (by decide) h
      have n2 : ¬ @upStr asciiCase t = S "TRUE" := fun e => not_foreign e (by decide) h
      have n3 : ¬ @upStr asciiCase t = S "FALSE" := fun e => not_foreign e (by decide) h
      rw [if_neg n1, if_neg n2, if_neg n3]
      by_cases b1 : upStr t = S "NULL"
      · exact .inr ⟨t, rfl, h, .inl ⟨b1, if_pos b1⟩⟩
      rw [if_neg b1]
      by_cases b2 : upStr t = S "TRUE"
      · exact .inr ⟨t, rfl, h, .inr (.inl ⟨b2, if_pos b2⟩)⟩
      rw [if_neg b2]
      by_cases b3 : upStr t = S "FALSE"
      · exact .inr ⟨t, rfl, h, .inr (.inr ⟨b3, if_pos b3⟩)⟩
      rw [if_neg b3]
      exact .inl rfl
    · refine .inl ?_
      rw [upStr_of_plain h]
      rfl

/-- Text in ASCII: the same results. -/
theorem maps_ascii : Maps (fun t => ¬ Foreign t) Eq Eq where
  eof := by rintro ⟨c, hc, hle⟩; revert c; decide
  word t h := upStr_of_plain h
  varying t v h hv := by
    obtain ⟨e1, e2⟩ := varying_upStr hv
    unfold varyingName
    rw [e1, show @upStr asciiCase v = S "VARYING" from e2, upStr_of_plain h]
  dflt _ := rfl
  lit t h := by
    unfold wordVal
    rw [upStr_of_plain h]
    rfl

/-! ### the parser -/

/-- Outcomes of `Parse` that correspond. -/
inductive OutAs (R : α → β → Prop) : Outcome α → Outcome β → Prop
  | ok (h : R a b) : OutAs R (.ok a) (.ok b)
  | err : OutAs R (.err e) (.err e)
  | panic : OutAs R .panic .panic
  | timeout : OutAs R .timeout .timeout

theorem convertN_as {P : Str → Prop} {N : Str → Str → Prop} {D : DefaultVal → DefaultVal → Prop} (H : Maps P N D)
    (isNum : Str → Bool) (d : Rdbms) (n : Nat) (toks : List Str) (ht : ∀ t ∈ toks, P t) :
    OutAs (Each (TableAs N D)) (convertN isNum d n toks) (@convertN asciiCase isNum d n toks) := by
  have := step_convert H isNum d n [] [] .nil toks ht
  unfold convertN
  revert this
  generalize convert isNum d n [] toks = x
  generalize @convert asciiCase isNum d n [] toks = y
  rintro (⟨h, _⟩ | _ | _)
  · exact .ok h
  · exact .panic
  · exact .timeout

theorem parseN_as (isNum : Str → Bool) (n : Nat) (ddl : List Char) (d : Rdbms) :
    OutAs ResultAs (parseN isNum n ddl d) (@parseN asciiCase isNum n ddl d) := by
  unfold parseN
  cases Lex.lexN d n ddl with
  | err e => exact .ok ⟨.nil, rfl⟩
  | panic => exact .panic
  | timeout => exact .timeout
  | ok toks =>
    show OutAs ResultAs (match validateN isNum d n toks with | _ => _) (match validateN isNum d n toks with | _ => _)
    cases validateN isNum d n toks with
    | err e => exact .ok ⟨.nil, rfl⟩
    | panic => exact .panic
    | timeout => exact .timeout
    | ok out =>
      have := convertN_as maps_any isNum d n out fun _ _ => trivial
      revert this
      show OutAs _ (convertN isNum d n out) (@convertN asciiCase isNum d n out) → OutAs ResultAs (match convertN isNum d n out with | _ => _) (match @convertN asciiCase isNum d n out with | _ => _)
      generalize convertN isNum d n out = x
      generalize @convertN asciiCase isNum d n out = y
      rintro (h | _ | _ | _)
      · exact .ok ⟨h, rfl⟩
      · exact .ok ⟨.nil, rfl⟩
      · exact .panic
      · exact .timeout


theorem forceLoop_as (isNum : Str → Bool) (n : Nat) (ddl : List Char) (ds : List Rdbms) :
    OutAs ResultAs (parseForceLoop isNum n ddl ds) (@parseForceLoop asciiCase isNum n ddl ds) := by
  induction ds with
  | nil => exact .ok ⟨.nil, rfl⟩
  | cons d ds ih =>
    have := parseN_as isNum n ddl d
    unfold parseForceLoop
    revert this
    generalize parseN isNum n ddl d = x
    generalize @parseN asciiCase isNum n ddl d = y
    rintro (h | _ | _ | _)
    · rename_i a b
      obtain ⟨t, e⟩ := a
      obtain ⟨t', e'⟩ := b
      obtain ⟨h1, h2⟩ := h
      cases h2
      cases e with
      | none => exact .ok ⟨h1, rfl⟩
      | some e => exact ih
    · exact .err
    · exact .panic
    · exact .timeout

omit cm in
theorem OutAs.hang {R : α → β → Prop} {x : Outcome α} {y : Outcome β} (h : OutAs R x y) : x = .timeout ↔ y = .timeout := by
  cases h <;> simp

omit cm in
theorem OutAs.right {R : α → β → Prop} {x : Outcome α} {y : Outcome β} (h : OutAs R x y) {a : α} (e : x = .ok a) :
    ∃ b, y = .ok b ∧ R a b := by
  subst e; cases h; exact ⟨_, rfl, ‹_›⟩

omit cm in
theorem OutAs.left {R : α → β → Prop} {x : Outcome α} {y : Outcome β} (h : OutAs R x y) {b : β} (e : y = .ok b) :
    ∃ a, x = .ok a ∧ R a b := by
  subst e; cases h; exact ⟨_, rfl, ‹_›⟩

omit cm in
theorem eachAs_eq {R : α → α → Prop} (hR : ∀ a b, R a b → a = b) {as bs : List α} (h : Each R as bs) : as = bs := by
  induction h with
  | nil => rfl
  | cons h _ ih => rw [hR _ _ h, ih]

omit cm in
theorem columnAs_eq (c c' : Column) (h : ColumnAs Eq Eq c c') : c = c' := by
  obtain ⟨n, ⟨a1, a2, a3⟩, c⟩ := c
  obtain ⟨n', ⟨b1, b2, b3⟩, c'⟩ := c'
  obtain ⟨h1, h2, h3, h4, h5, h6⟩ := h
  cases c; cases c'
  simp only at h1 h2 h3 h4 h5
  simp only [Constraint.mk.injEq] at h6
  simp [h1, h2, h3, h4, h5, h6]

omit cm in
theorem tableAs_eq (t t' : Table) (h : TableAs Eq Eq t t') : t = t' := by
  obtain ⟨h1, h2⟩ := h
  have := eachAs_eq columnAs_eq h1
  cases t; cases t'
  simp only at this
  simp only [Table.mk.injEq] at h2
  simp [this, h2]

/-- Without foreign letters in the words. -/
theorem parse_words {isNum : Str → Bool} (hN : NumOK isNum) {d : Rdbms} {ddl : List Char} {toks : List Str}
    (hl : Lexes d ddl toks) (hw : ∀ t ∈ toks, ¬ Foreign t) (n : Nat) :
    parseN isNum n ddl d = @parseN asciiCase isNum n ddl d := by
  unfold parseN
  cases e : Lex.lexN d n ddl with
  | ok toks' =>
    cases Lexes.unique hl ⟨n, e⟩
    show (match validateN isNum d n toks with | _ => _) = (match validateN isNum d n toks with | _ => _)
    cases hv : validateN isNum d n toks with
    | ok out =>
      have hP : ∀ t ∈ out, ¬ Foreign t := by
        intro t ht
        rcases validateN_mem hN (lexN_good e) hv t ht with ⟨h1, _⟩ | h
        · exact hw t h1
        · rcases h with rfl | rfl | rfl <;> · rintro ⟨c, hc, hle⟩; revert c; decide
      have := convertN_as maps_ascii isNum d n out hP
      show (match convertN isNum d n out with | _ => _) = (match @convertN asciiCase isNum d n out with | _ => _)
      revert this
      generalize convertN isNum d n out = x
      generalize @convertN asciiCase isNum d n out = y
      rintro (h | _ | _ | _)
      · rw [eachAs_eq tableAs_eq h]
      all_goals rfl
    | _ => rfl
  | _ => rfl

end
end DDL
