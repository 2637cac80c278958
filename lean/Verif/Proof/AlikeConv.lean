import Verif.Proof.AlikeSweep
/-
The converter on corresponding tokens gives corresponding tables.
-/

namespace DDL
open Spec

/-- Corresponding outcomes of converter methods. -/
inductive CRel (T : Str → Str → Prop) (R : α → α → Prop) : CRes α → CRes α → Prop
  | ok (hv : R a b) (h : Each T s s') : CRel T R (.ok a s) (.ok b s')
  | panic : CRel T R .panic .panic
  | timeout : CRel T R .timeout .timeout

/-- Two converter methods act alike. -/
def CSim (T : Str → Str → Prop) (R : α → α → Prop) (f g : CM α) : Prop :=
  ∀ s s', Each T s s' → CRel T R (f s) (g s')

theorem nameVal_quoted {d : Rdbms} {c : Char} {r : Str} (h : C.isIdentifier d c = true) :
    nameVal d (c :: r) = content (c :: r) := by
  have : c ∈ identQuotes d := by
    cases d <;> simp [C.isIdentifier, identQuotes, nameQuotes] at h ⊢ <;> exact h
  show (if c ∈ identQuotes d then _ else _) = _
  rw [if_pos this]

theorem nameVal_plain {d : Rdbms} {c : Char} {r : Str} (h : C.isIdentifier d c = false) :
    nameVal d (c :: r) = c :: r := by
  have : ¬ c ∈ identQuotes d := by
    cases d <;> simp [C.isIdentifier, identQuotes, nameQuotes] at h ⊢ <;> exact h
  show (if c ∈ identQuotes d then _ else _) = _
  rw [if_neg this]

theorem content_eq (t : Str) : content t = (t.drop 1).dropLast := by
  cases t <;> rfl

/-- The converter looks at the upper case of a token in these cases. -/
def UpAlike [CaseMap] (T : Str → Str → Prop) : Prop :=
  ∀ k ∈ ["BIT", "CHARACTER", "NULL", "TRUE", "FALSE"], ∀ t t', T t t' → (upStr t = S k ↔ upStr t' = S k)

theorem UpAlike.flip [CaseMap] {T : Str → Str → Prop} (h : UpAlike T) : UpAlike (fun b a => T a b) :=
  fun k hk _ _ ht => (h k hk _ _ ht).symm

theorem upStr_small [CaseMap] {t : Str} (h : ∀ c ∈ t, c.toNat < 128) : upStr t = toUpper t :=
  List.map_congr_left fun c hc => CaseMap.up_ascii c (h c hc)

namespace CSim
variable {d : Rdbms} {isNum : Str → Bool} {T : Str → Str → Prop}

theorem timeout {R : α → α → Prop} : CSim T R C.timeout C.timeout := fun _ _ _ => .timeout

theorem pure {R : α → α → Prop} {a b : α} (h : R a b) : CSim T R (CM.pure a) (CM.pure b) :=
  fun _ _ hs => .ok h hs

theorem bind {R : α → α → Prop} {Q : β → β → Prop} {f g : CM α} {k l : α → CM β} (h : CSim T R f g)
    (hk : ∀ a b, R a b → CSim T Q (k a) (l b)) : CSim T Q (f.bind k) (g.bind l) := by
  intro s s' hs
  have := h s s' hs
  simp only [CM.bind]
  revert this
  generalize f s = x; generalize g s' = y
  intro h
  cases h with
  | ok hv h => exact hk _ _ hv _ _ h
  | panic => exact .panic
  | timeout => exact .timeout

theorem cond {R : α → α → Prop} {b : Bool} {f f' g g' : CM α} (h : CSim T R f f')
    (h' : CSim T R g g') : CSim T R (cond b f g) (cond b f' g') := by
  cases b
  · exact h'
  · exact h

theorem tok_rel (hT : AlikeV d isNum T) {s s' : List Str} (h : Each T s s') :
    T (C.tok s) (C.tok s') := by
  cases h with
  | nil => exact hT.eof
  | cons h _ => exact h

theorem comma (hT : AlikeV d isNum T) {t t' : Str} (h : T t t') : t = S "," ↔ t' = S "," := by
  have := hT.kw "," (by cases d <;> decide +kernel) _ _ h
  have e : ∀ x : Str, isKw [","] x = true ↔ x = S "," :=
    fun x => ⟨isKw_comma, fun h => by subst h; decide +kernel⟩
  rw [← e, ← e, this]

theorem nextRest (hT : AlikeV d isNum T) {s s' : List Str} (h : Each T s s') :
    Each T (C.nextRest s) (C.nextRest s') := by
  induction h with
  | nil => exact .nil
  | @cons t t' s s' h hs ih =>
    unfold C.nextRest
    have h1 := comma hT h
    have h2 := comma hT (tok_rel hT hs)
    by_cases c : t = S "," ∧ C.tok s = S ","
    · rw [if_pos c, if_pos ⟨h1.1 c.1, h2.1 c.2⟩]; exact ih
    · rw [if_neg c, if_neg fun x => c ⟨h1.2 x.1, h2.2 x.2⟩]; exact hs

theorem next (hT : AlikeV d isNum T) : CSim T T C.next C.next :=
  fun _ _ h => .ok (tok_rel hT h) (nextRest hT h)

theorem token (hT : AlikeV d isNum T) : CSim T T C.token C.token :=
  fun _ _ h => .ok (tok_rel hT h) h

theorem skip (hT : AlikeV d isNum T) : CSim T Eq C.skip C.skip :=
  fun _ _ h => .ok rfl (nextRest hT h)

/-- `skip` followed by something. -/
theorem skip_ (hT : AlikeV d isNum T) {R : α → α → Prop} {k l : Unit → CM α}
    (h : CSim T R (k ()) (l ())) : CSim T R (C.skip.bind k) (C.skip.bind l) :=
  bind (skip hT) fun _ _ _ => h

theorem matchToken (hT : AlikeV d isNum T) {ks : List String} (hk : ∀ k ∈ ks, k ∈ grammarWords d) :
    CSim T Eq (C.matchToken ks) (C.matchToken ks) :=
  fun _ _ h => .ok (hT.kws hk (tok_rel hT h)) h

/-- A branch on the next keyword. -/
theorem ifM (hT : AlikeV d isNum T) {R : α → α → Prop} {ks : List String}
    (hk : ∀ k ∈ ks, k ∈ grammarWords d) {f f' g g' : CM α} (h : CSim T R f f')
    (h' : CSim T R g g') : CSim T R (C.ifM (C.matchToken ks) f g) (C.ifM (C.matchToken ks) f' g') :=
  bind (matchToken hT hk) fun a b e => by subst e; exact cond h h'

theorem isOutOfRange {R : α → α → Prop} {f f' g g' : CM α} (h : CSim T R f f')
    (h' : CSim T R g g') : CSim T R (C.ifM C.isOutOfRange f g) (C.ifM C.isOutOfRange f' g') := by
  intro s s' hs
  cases hs with
  | nil => exact h _ _ .nil
  | cons h1 h2 => exact h' _ _ (.cons h1 h2)

theorem headChar (hT : AlikeV d isNum T) {t t' : Str} (h : T t t') :
    CSim T (fun c c' => (∀ q ∈ ['"', '\'', '`'], (c = q ↔ c' = q)) ∧
      (∃ r, t = c :: r) ∧ ∃ r, t' = c' :: r) (C.headChar t) (C.headChar t') := by
  intro s s' hs
  cases t with
  | nil => rw [(hT.nil _ _ h).1 rfl]; exact .panic
  | cons c r =>
    cases t' with
    | nil => cases (hT.nil _ _ h).2 rfl
    | cons c' r' => exact .ok ⟨hT.head _ _ _ _ h, ⟨r, rfl⟩, r', rfl⟩ hs

theorem inner (hT : AlikeV d isNum T) {t t' : Str} (h : T t t')
    (hq : ∃ q ∈ ['"', '\'', '`'], (∃ r, t = q :: r) ∧ ∃ r, t' = q :: r) :
    CSim T (fun x y => x = content t ∧ y = content t') (C.inner t) (C.inner t') := by
  intro s s' hs
  obtain ⟨q, hq, ⟨r, rfl⟩, r', rfl⟩ := hq
  have := hT.short q hq _ _ h
  unfold C.inner
  by_cases e : r = []
  · subst e
    have e' := this.1 rfl
    subst e'
    exact .panic
  · have e' : r' ≠ [] := fun x => e (this.2 x)
    have l1 : ¬ (q :: r).length < 2 := by
      cases r with
      | nil => exact absurd rfl e
      | cons => simp
    have l2 : ¬ (q :: r').length < 2 := by
      cases r' with
      | nil => exact absurd rfl e'
      | cons => simp
    rw [if_neg l1, if_neg l2]
    exact .ok ⟨(content_eq _).symm, (content_eq _).symm⟩ hs

theorem identChar {d : Rdbms} {c : Char} (h : C.isIdentifier d c = true) :
    c ∈ ['"', '\'', '`'] := by
  cases d <;> simp [C.isIdentifier] at h ⊢
  · rcases h with h | h <;> simp [h]
  · simp [h]
  · simp [h]

theorem stringChar {d : Rdbms} {c : Char} (h : C.isStringValue d c = true) :
    c ∈ ['"', '\'', '`'] := by
  cases d <;> simp [C.isStringValue] at h ⊢
  · simp [h]
  · simp [h]
  · rcases h with h | h <;> simp [h]

theorem ident_alike (d : Rdbms) {c c' : Char} (h : ∀ q ∈ ['"', '\'', '`'], (c = q ↔ c' = q)) :
    C.isIdentifier d c = C.isIdentifier d c' := by
  have h1 := h '"' (by simp)
  have h2 := h '`' (by simp)
  rw [Bool.eq_iff_iff]
  cases d <;> simp [C.isIdentifier, h1, h2]

theorem string_alike (d : Rdbms) {c c' : Char} (h : ∀ q ∈ ['"', '\'', '`'], (c = q ↔ c' = q)) :
    C.isStringValue d c = C.isStringValue d c' := by
  have h1 := h '"' (by simp)
  have h2 := h '\'' (by simp)
  rw [Bool.eq_iff_iff]
  cases d <;> simp [C.isStringValue, h1, h2]

theorem weaken {R Q : α → α → Prop} {f g : CM α} (h : CSim T R f g) (hw : ∀ a b, R a b → Q a b) :
    CSim T Q f g := by
  intro s s' hs
  have := h s s' hs
  revert this
  generalize f s = x; generalize g s' = y
  intro h
  cases h with
  | ok hv h => exact .ok (hw _ _ hv) h
  | panic => exact .panic
  | timeout => exact .timeout

theorem convertName (hT : AlikeV d isNum T) :
    CSim T (NameRel d T) (C.convertName d) (C.convertName d) := by
  refine bind (next hT) fun t t' h => bind (headChar hT h) fun c c' hc => ?_
  obtain ⟨hc, ⟨r, rfl⟩, r', rfl⟩ := hc
  cases hi : C.isIdentifier d c with
  | true =>
    have hi' := hi
    rw [ident_alike d hc] at hi'
    rw [hi']
    have e : c' = c := (hc c (identChar hi)).1 rfl
    subst e
    refine weaken (inner hT h ⟨_, identChar hi, ⟨_, rfl⟩, _, rfl⟩) ?_
    rintro a b ⟨rfl, rfl⟩
    exact .inr ⟨_, _, h, (nameVal_quoted hi).symm, (nameVal_quoted hi).symm⟩
  | false =>
    have hi' := hi
    rw [ident_alike d hc] at hi'
    rw [hi']
    exact pure (.inr ⟨_, _, h, (nameVal_plain hi).symm, (nameVal_plain hi').symm⟩)

theorem convertTableName (hT : AlikeV d isNum T) :
    CSim T (fun a b => NameRel d T a.1 b.1 ∧ NameRel d T a.2 b.2) (C.convertTableName d)
      (C.convertTableName d) := by
  refine bind (convertName hT) fun a b h => ifM hT (by cases d <;> decide +kernel)
    (skip_ hT (bind (convertName hT) fun a' b' h' => pure ⟨h, h'⟩)) (pure ⟨.inl ⟨rfl, rfl⟩, h⟩)

theorem convertTypeDigit (hT : AlikeV d isNum T) : CSim T Eq C.convertTypeDigit C.convertTypeDigit := by
  refine ifM hT (by cases d <;> decide +kernel)
    (skip_ hT (bind (next hT) fun t t' h => bind (R := Eq) (ifM hT (by cases d <;> decide +kernel)
      (skip_ hT (bind (next hT) fun u u' h' => pure (by rw [hT.int _ _ h'])))
      (pure rfl)) fun m m' e => ?_)) (pure rfl)
  subst e
  exact skip_ hT (pure (by rw [hT.int _ _ h]))

theorem varying_upper [CaseMap] {v : Str} (h : isKw ["VARYING"] v = true) : upStr v = S "VARYING" := by
  obtain ⟨w, hw, h⟩ := isKw_kw.1 h
  rw [List.mem_singleton] at hw; subst hw
  rcases h with rfl | rfl <;> rw [upStr_small (by decide +kernel)] <;> decide +kernel

theorem varyingName_rel [CaseMap] (hT : AlikeV d isNum T) (hU : UpAlike T) {t t' v v' : Str} (h : T t t') (hv : T v v')
    (hk : isKw ["VARYING"] v = true) :
    TypeNameRel T CaseMap.up (C.varyingName (upStr t) v) (C.varyingName (upStr t') v') := by
  have hk' := hk
  rw [hT.kws (by cases d <;> decide +kernel) hv] at hk'
  unfold C.varyingName
  have h1 := hU "BIT" (by decide) _ _ h
  have h2 := hU "CHARACTER" (by decide) _ _ h
  by_cases e1 : upStr t = S "BIT"
  · rw [if_pos e1, if_pos (h1.1 e1)]; exact .inl ⟨rfl, .inl rfl⟩
  · rw [if_neg e1, if_neg fun x => e1 (h1.2 x)]
    by_cases e2 : upStr t = S "CHARACTER"
    · rw [if_pos e2, if_pos (h2.1 e2)]; exact .inl ⟨rfl, .inr rfl⟩
    · rw [if_neg e2, if_neg fun x => e2 (h2.2 x), varying_upper hk, varying_upper hk']
      refine .inr ⟨t, t', h, .inr ⟨?_, ?_⟩⟩
      · rw [List.append_assoc]; rfl
      · rw [List.append_assoc]; rfl

theorem convertDateType [CaseMap] (hT : AlikeV d isNum T) (hU : UpAlike T) :
    CSim T (TypeRel T CaseMap.up) C.convertDateType C.convertDateType := by
  refine bind (next hT) fun t t' h => bind (R := TypeNameRel T CaseMap.up) ?_ fun n n' hn =>
    bind (convertTypeDigit hT) fun m m' e => ?_
  · intro s s' hs
    have ht := tok_rel hT hs
    have e := hT.kws (ks := ["VARYING"]) (by cases d <;> decide +kernel) ht
    have e' : ∀ (f g : CM Str) (z : List Str), C.ifM (C.matchToken ["VARYING"]) f g z =
        _root_.cond (isKw ["VARYING"] (C.tok z)) (f z) (g z) := by
      intro f g z
      show (_root_.cond _ f g) z = _
      cases isKw ["VARYING"] (C.tok z) <;> rfl
    rw [e', e', ← e]
    cases hk : isKw ["VARYING"] (C.tok s) with
    | true => exact .ok (varyingName_rel hT hU h ht hk) (nextRest hT hs)
    | false => exact .ok (.inr ⟨t, t', h, 
        .inl ⟨rfl, rfl⟩⟩) hs
  · subst e
    exact pure ⟨hn, rfl, rfl⟩

theorem text_nil : TextRel T [] [] := ⟨[], [], .nil, rfl, rfl⟩

theorem text_one {t t' : Str} (h : T t t') : TextRel T t t' :=
  ⟨[t], [t'], .cons h .nil, by simp, by simp⟩

theorem text_append {x y x' y' : Str} (h : TextRel T x y) (h' : TextRel T x' y') :
    TextRel T (x ++ x') (y ++ y') := by
  obtain ⟨ts, ts', h, rfl, rfl⟩ := h
  obtain ⟨us, us', h', rfl, rfl⟩ := h'
  exact ⟨ts ++ us, ts' ++ us', h.append h', by simp, by simp⟩

theorem convertExprAux (hT : AlikeV d isNum T) (n : Nat) :
    CSim T (TextRel T) (C.convertExprAux n) (C.convertExprAux n) := by
  induction n with
  | zero => exact timeout
  | succ n ih =>
    refine ifM hT (by cases d <;> decide +kernel) (pure text_nil)
      (ifM hT (by cases d <;> decide +kernel)
        (bind (next hT) fun a a' ha => bind ih fun b b' hb => bind (next hT) fun c c' hc =>
          bind ih fun e e' he => pure ?_)
        (bind (next hT) fun a a' ha => bind ih fun b b' hb => pure (text_append (text_one ha) hb)))
    exact text_append (text_append (text_append (text_one ha) hb) (text_one hc)) he

theorem convertExpr (hT : AlikeV d isNum T) (n : Nat) :
    CSim T (TextRel T) (C.convertExpr n) (C.convertExpr n) :=
  bind (next hT) fun _ _ ha => bind (convertExprAux hT n) fun _ _ hb => bind (next hT) fun _ _ hc =>
    pure (text_append (text_append (text_one ha) hb) (text_one hc))

theorem convertLiteralValue [CaseMap] (hT : AlikeV d isNum T) (hU : UpAlike T) :
    CSim T (DefaultRel T) (C.convertLiteralValue isNum d) (C.convertLiteralValue isNum d) := by
  refine bind (next hT) fun t t' h => ?_
  rw [hT.num _ _ h]
  refine cond (pure (.num h)) (bind (headChar hT h) fun c c' hc => ?_)
  obtain ⟨hc, ⟨r, rfl⟩, r', rfl⟩ := hc
  cases hi : C.isStringValue d c with
  | true =>
    have hi' := hi
    rw [string_alike d hc] at hi'
    rw [hi']
    have e : c' = c := (hc c (stringChar hi)).1 rfl
    subst e
    refine bind (inner hT h ⟨_, stringChar hi, ⟨_, rfl⟩, _, rfl⟩) ?_
    rintro a b ⟨rfl, rfl⟩
    exact pure (.str h ⟨_, _, rfl, by simpa using stringChar hi⟩)
  | false =>
    have hi' := hi
    rw [string_alike d hc] at hi'
    rw [hi']
    refine pure ?_
    have h1 : upStr (c :: r) = S "NULL" ↔ upStr (c' :: r') = S "NULL" := hU "NULL" (by decide) _ _ h
    have h2 : upStr (c :: r) = S "TRUE" ↔ upStr (c' :: r') = S "TRUE" := hU "TRUE" (by decide) _ _ h
    have h3 : upStr (c :: r) = S "FALSE" ↔ upStr (c' :: r') = S "FALSE" := hU "FALSE" (by decide) _ _ h
    by_cases e1 : upStr (c :: r) = S "NULL"
    · rw [if_pos e1, if_pos (h1.1 e1)]; exact .nil
    rw [if_neg e1, if_neg fun x => e1 (h1.2 x)]
    by_cases e2 : upStr (c :: r) = S "TRUE"
    · rw [if_pos e2, if_pos (h2.1 e2)]; exact .bool _
    rw [if_neg e2, if_neg fun x => e2 (h2.2 x)]
    by_cases e3 : upStr (c :: r) = S "FALSE"
    · rw [if_pos e3, if_pos (h3.1 e3)]; exact .bool _
    rw [if_neg e3, if_neg fun x => e3 (h3.2 x)]
    exact .text (text_one h)

theorem convertDefaultValue [CaseMap] (hT : AlikeV d isNum T) (hU : UpAlike T) (n : Nat) :
    CSim T (DefaultRel T) (C.convertDefaultValue isNum d n) (C.convertDefaultValue isNum d n) :=
  ifM hT (by cases d <;> decide +kernel) (bind (convertExpr hT n) fun _ _ h => pure (.text h))
    (convertLiteralValue hT hU)

theorem columnNamesLoop (hT : AlikeV d isNum T) (n : Nat) {ls ls' : List Str} (h : Each T ls ls') :
    CSim T (Each T) (C.columnNamesLoop n ls) (C.columnNamesLoop n ls') := by
  induction n generalizing ls ls' with
  | zero => exact timeout
  | succ n ih =>
    exact ifM hT (by cases d <;> decide +kernel) (pure h)
      (ifM hT (by cases d <;> decide +kernel) (skip_ hT (ih h))
        (bind (token hT) fun t t' ht => skip_ hT (ih (h.append (.cons ht .nil)))))

theorem convertCommaSeparatedColumnNames (hT : AlikeV d isNum T) (n : Nat) :
    CSim T (Each T) (C.convertCommaSeparatedColumnNames n) (C.convertCommaSeparatedColumnNames n) :=
  skip_ hT (bind (columnNamesLoop hT n .nil) fun _ _ h => skip_ hT (pure h))

theorem convertReference (hT : AlikeV d isNum T) (n : Nat) :
    CSim T (RefRel d T) (C.convertReference d n) (C.convertReference d n) :=
  skip_ hT (bind (convertName hT) fun _ _ h => ifM hT (by cases d <;> decide +kernel)
    (bind (convertCommaSeparatedColumnNames hT n) fun _ _ hc => pure ⟨h, .some hc⟩)
    (pure ⟨h, .none⟩))

theorem convertConstraintAux [CaseMap] (hT : AlikeV d isNum T) (hU : UpAlike T) (n : Nat) {con con' : Constraint}
    (h : ConRel d T con con') : CSim T (ConRel d T) (C.convertConstraintAux isNum d n con)
      (C.convertConstraintAux isNum d n con') := by
  induction n generalizing con con' with
  | zero => exact timeout
  | succ n ih =>
    refine ifM hT (by cases d <;> decide +kernel) (pure h) <|
      ifM hT (by cases d <;> decide +kernel) (skip_ hT (skip_ hT (ih { h with isPrimaryKey := rfl }))) <|
      ifM hT (by cases d <;> decide +kernel) (skip_ hT (ih { h with isAutoincrement := rfl })) <|
      ifM hT (by cases d <;> decide +kernel) (skip_ hT (skip_ hT (ih { h with isNotNull := rfl }))) <|
      ifM hT (by cases d <;> decide +kernel) (skip_ hT (ih { h with isUnique := rfl })) <|
      ifM hT (by cases d <;> decide +kernel)
        (skip_ hT (bind (convertDefaultValue hT hU n) fun _ _ hv => ih { h with default := hv })) <|
      ifM hT (by cases d <;> decide +kernel)
        (skip_ hT (bind (convertExpr hT n) fun _ _ hv => ih { h with check := hv })) <|
      ifM hT (by cases d <;> decide +kernel)
        (skip_ hT (bind (convertName hT) fun _ _ hv => ih { h with collate := hv })) <|
      ifM hT (by cases d <;> decide +kernel)
        (bind (convertReference hT n) fun _ _ hv => ih { h with references := hv }) <|
      pure h

theorem con_new {x y : Str} (h : NameRel d T x y) : ConRel d T { name := x } { name := y } :=
  ⟨h, rfl, rfl, rfl, rfl, .nil, text_nil, .inl ⟨rfl, rfl⟩, ⟨.inl ⟨rfl, rfl⟩, .none⟩⟩

theorem convertConstraint [CaseMap] (hT : AlikeV d isNum T) (hU : UpAlike T) (n : Nat) :
    CSim T (ConRel d T) (C.convertConstraint isNum d n) (C.convertConstraint isNum d n) :=
  bind (R := NameRel d T) (ifM hT (by cases d <;> decide +kernel)
    (skip_ hT (ifM hT (by cases d <;> decide +kernel) (pure (.inl ⟨rfl, rfl⟩)) (convertName hT)))
    (pure (.inl ⟨rfl, rfl⟩))) fun _ _ h => convertConstraintAux hT hU n (con_new h)

theorem convertColumnDefinition [CaseMap] (hT : AlikeV d isNum T) (hU : UpAlike T) (n : Nat) :
    CSim T (ColRel d T CaseMap.up) (C.convertColumnDefinition isNum d n) (C.convertColumnDefinition isNum d n) :=
  bind (convertName hT) fun _ _ h1 => bind (convertDateType hT hU) fun _ _ h2 =>
    bind (convertConstraint hT hU n) fun _ _ h3 => pure ⟨h1, h2, h3⟩

theorem convertTableConstraint (hT : AlikeV d isNum T) (n : Nat) {tc tc' : TableConstraint}
    (h : TableConRel d T tc tc') : CSim T (TableConRel d T) (C.convertTableConstraint d n tc)
      (C.convertTableConstraint d n tc') := by
  refine bind (R := NameRel d T) (ifM hT (by cases d <;> decide +kernel)
    (skip_ hT (ifM hT (by cases d <;> decide +kernel) (pure (.inl ⟨rfl, rfl⟩)) (convertName hT)))
    (pure (.inl ⟨rfl, rfl⟩))) fun x y hn => ?_
  refine ifM hT (by cases d <;> decide +kernel) (skip_ hT (skip_ hT
      (bind (convertCommaSeparatedColumnNames hT n) fun _ _ hc =>
        pure { h with primaryKey := h.primaryKey.append (.cons ⟨hn, hc⟩ .nil) }))) <|
    ifM hT (by cases d <;> decide +kernel) (skip_ hT
      (bind (convertCommaSeparatedColumnNames hT n) fun _ _ hc =>
        pure { h with unique := h.unique.append (.cons ⟨hn, hc⟩ .nil) })) <|
    ifM hT (by cases d <;> decide +kernel) (skip_ hT
      (bind (convertExpr hT n) fun _ _ hc =>
        pure { h with check := h.check.append (.cons ⟨hn, hc⟩ .nil) })) <|
    ifM hT (by cases d <;> decide +kernel) (skip_ hT (skip_ hT
      (bind (convertCommaSeparatedColumnNames hT n) fun _ _ hc =>
        bind (convertReference hT n) fun _ _ hr =>
        pure { h with foreignKey := h.foreignKey.append (.cons ⟨hn, hc, hr⟩ .nil) }))) <|
    pure h

/-- Corresponding contents of a table definition. -/
def DefRel [CaseMap] (d : Rdbms) (T : Str → Str → Prop) (a b : List Column × TableConstraint) : Prop :=
  Each (ColRel d T CaseMap.up) a.1 b.1 ∧ TableConRel d T a.2 b.2

theorem tableDefinitionLoop [CaseMap] (hT : AlikeV d isNum T) (hU : UpAlike T) (n : Nat) {cs cs' : List Column}
    {tc tc' : TableConstraint} (h : Each (ColRel d T CaseMap.up) cs cs') (h' : TableConRel d T tc tc') :
    CSim T (DefRel d T) (C.tableDefinitionLoop isNum d n cs tc)
      (C.tableDefinitionLoop isNum d n cs' tc') := by
  induction n generalizing cs cs' tc tc' with
  | zero => exact timeout
  | succ n ih =>
    exact ifM hT (by cases d <;> decide +kernel) (pure ⟨h, h'⟩)
      (bind (R := DefRel d T) (ifM hT (by cases d <;> decide +kernel)
        (bind (convertTableConstraint hT (n + 1) h') fun _ _ ht => pure ⟨h, ht⟩)
        (bind (convertColumnDefinition hT hU (n + 1)) fun _ _ hc => pure ⟨h.append (.cons hc .nil), h'⟩))
        fun _ _ hd => ifM hT (by cases d <;> decide +kernel) (pure hd) (skip_ hT (ih hd.1 hd.2)))

theorem tableCon_new : TableConRel d T {} {} := ⟨.nil, .nil, .nil, .nil⟩

theorem convertTableDefinition [CaseMap] (hT : AlikeV d isNum T) (hU : UpAlike T) (n : Nat) :
    CSim T (DefRel d T) (C.convertTableDefinition isNum d n) (C.convertTableDefinition isNum d n) :=
  skip_ hT (bind (tableDefinitionLoop hT hU n .nil tableCon_new) fun _ _ h => skip_ hT (pure h))

theorem convertTable [CaseMap] (hT : AlikeV d isNum T) (hU : UpAlike T) (n : Nat) :
    CSim T (TableRel d T CaseMap.up) (C.convertTable isNum d n) (C.convertTable isNum d n) :=
  skip_ hT <| skip_ hT <| bind (R := Eq) (ifM hT (by cases d <;> decide +kernel)
    (skip_ hT (skip_ hT (skip_ hT (pure rfl)))) (pure rfl)) fun _ _ hi =>
  bind (convertTableName hT) fun _ _ hn => bind (convertTableDefinition hT hU n) fun _ _ hd =>
  bind (R := Eq) (ifM hT (by cases d <;> decide +kernel) (skip hT) (pure rfl)) fun _ _ _ =>
  pure ⟨hn.1, hn.2, hi, hd.1, hd.2⟩

theorem convert [CaseMap] (hT : AlikeV d isNum T) (hU : UpAlike T) (n : Nat) {acc acc' : List Table}
    (h : Each (TableRel d T CaseMap.up) acc acc') :
    CSim T (Each (TableRel d T CaseMap.up)) (C.convert isNum d n acc) (C.convert isNum d n acc') := by
  induction n generalizing acc acc' with
  | zero => exact timeout
  | succ n ih =>
    exact isOutOfRange (pure h)
      (bind (convertTable hT hU (n + 1)) fun _ _ ht => ih (h.append (.cons ht .nil)))

end CSim
end DDL
