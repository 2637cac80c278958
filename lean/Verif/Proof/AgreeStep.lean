import Verif.Proof.AgreeCon
/-
Reading the same tokens with two dialects: one constraint of a column.
-/

namespace DDL
open V Spec Conv

variable {isNum : Str → Bool} {d e : Rdbms}

theorem Exact.many {R : α → β → Prop} {ks : List String} {L : Lang α} {M : Lang β} (h : Exact R L M) :
    Exact (Each R) (Many ks L) (Many ks M) := by
  intro ts v r w s h1 h2
  induction h1 generalizing w s with
  | nil hn =>
    cases h2 with
    | nil => exact ⟨rfl, .nil⟩
    | cons hk => exact absurd (at_headIn hk) (notAt_headIn hn)
  | cons hk h1 hs ih =>
    cases h2 with
    | nil hn => exact absurd (at_headIn hk) (notAt_headIn hn)
    | cons hk' h2 hs' =>
      obtain ⟨rfl, hr⟩ := h _ _ _ _ _ h1 h2
      obtain ⟨rfl, hr'⟩ := ih _ _ hs'
      exact ⟨rfl, .cons hr hr'⟩

theorem kw_same {ks ks' : List String} {ts r s : List Str} {u w : Unit} (h : kw ks ts u r) (h' : kw ks' ts w s) : r = s := by
  obtain ⟨t, rfl, _⟩ := kw_def.1 h
  obtain ⟨t', e, _⟩ := kw_def.1 h'
  cases e; rfl

theorem kw_clash {ks ks' : List String} (hk : ∀ t ∈ kwList ks, ¬ Kw ks' t) {ts r s : List Str} {u w : Unit}
    (h : kw ks ts u r) (h' : kw ks' ts w s) : False := by
  obtain ⟨t, rfl, ht⟩ := kw_def.1 h
  obtain ⟨t', e, ht'⟩ := kw_def.1 h'
  cases e; exact kw_disj ht hk ht'

theorem onAction_exact : Exact (fun _ _ => True) onAction onAction := by
  rintro ts v r w s ⟨_, _, h1, h2⟩ ⟨_, _, h1', h2'⟩
  cases kw_same h1 h1'
  refine ⟨?_, trivial⟩
  rcases h2 with ⟨_, _, h3, h4⟩ | h3 | ⟨_, _, h3, h4⟩ <;> rcases h2' with ⟨_, _, h3', h4'⟩ | h3' | ⟨_, _, h3', h4'⟩ <;>
    first
    | exact (kw_clash (by decide) h3 h3').elim
    | (cases kw_same h3 h3'; exact kw_same h4 h4')
    | exact kw_same h3 h3'

/-- One clause that all dialects have. -/
def clause : Lang Unit :=
  (do kw ["ON"]; onAction) <|> (do kw ["MATCH"]; kw ["SIMPLE", "PARTIAL", "FULL"])

theorem clause_exact : Exact (fun _ _ => True) clause clause := by
  rintro ts v r w s (⟨_, _, h1, h2⟩ | ⟨_, _, h1, h2⟩) (⟨_, _, h1', h2'⟩ | ⟨_, _, h1', h2'⟩)
  · cases kw_same h1 h1'; exact onAction_exact _ _ _ _ _ h2 h2'
  · exact (kw_clash (by decide) h1 h1').elim
  · exact (kw_clash (by decide) h1 h1').elim
  · cases kw_same h1 h1'; exact ⟨kw_same h2 h2', trivial⟩

theorem refClauses_exact : Exact (fun _ _ => True) Spec.refClauses Spec.refClauses := by
  rintro ts v r w s ⟨_, _, h1, _, rfl⟩ ⟨_, _, h1', _, rfl⟩
  exact ⟨(clause_exact.many _ _ _ _ _ h1 h1').1, trivial⟩

/-- A clause that only SQLite has comes next. -/
def AtDefer (ts : List Str) : Prop :=
  HeadIn ["DEFERRABLE"] ts ∨ ∃ a b x, ts = a :: b :: x ∧ Kw ["NOT"] a ∧ Kw ["DEFERRABLE"] b

theorem refClauses_sqlite {ts r s : List Str} {u w : Unit} (h : Sqlite.refClauses ts u r) (h' : Spec.refClauses ts w s) :
    r = s ∨ AtDefer s := by
  obtain ⟨vs, _, h1, _, rfl⟩ := h
  obtain ⟨ws, _, h1', _, rfl⟩ := h'
  replace h1' : Many ["ON", "MATCH"] clause ts ws s := h1'
  induction h1 generalizing ws s with
  | nil hn =>
    cases h1' with
    | nil => exact .inl rfl
    | cons hk => exact absurd ((at_headIn hk).mono (by decide)) (notAt_headIn hn)
  | cons hk h1 hs ih =>
    rcases h1 with h1 | h1 | h1
    · cases h1' with
      | nil hn =>
        obtain ⟨_, _, h2, _⟩ := h1
        obtain ⟨t, rfl, ht⟩ := kw_def.1 h2
        exact absurd ⟨t, _, rfl, Kw.mono (by decide) ht⟩ (notAt_headIn hn)
      | cons hk' h2 hs' =>
        obtain ⟨rfl, _⟩ := clause_exact _ _ _ _ _ (.inl h1) h2
        exact ih _ hs'
    · cases h1' with
      | nil hn =>
        obtain ⟨_, _, h2, _⟩ := h1
        obtain ⟨t, rfl, ht⟩ := kw_def.1 h2
        exact absurd ⟨t, _, rfl, Kw.mono (by decide) ht⟩ (notAt_headIn hn)
      | cons hk' h2 hs' =>
        obtain ⟨rfl, _⟩ := clause_exact _ _ _ _ _ (.inr h1) h2
        exact ih _ hs'
    · obtain ⟨b, m, h2, _, _, h3, _⟩ := h1
      obtain ⟨t, rfl, ht⟩ := kw_def.1 h3
      have hx : ∀ {ks : List String} {t : Str} {x : List Str}, Kw ks t → (∀ t ∈ kwList ks, ¬ Kw ["ON", "MATCH"] t) →
          ∀ {s ws}, Many ["ON", "MATCH"] clause (t :: x) ws s → s = t :: x := by
        intro ks t x ht hd s ws hm
        cases hm with
        | nil => rfl
        | cons hk =>
          obtain ⟨t', x', e, ht'⟩ := at_headIn hk
          cases e; exact absurd ht' (kw_disj ht hd)
      rcases optWord_def.1 h2 with ⟨_, t', rfl, ht'⟩ | ⟨_, rfl, _⟩
      · cases hx ht' (by decide) h1'
        exact .inr (.inr ⟨_, _, _, rfl, ht', ht⟩)
      · cases hx ht (by decide) h1'
        exact .inr (.inl ⟨_, _, rfl, ht⟩)

/-- The pairs of dialects. -/
inductive Pair : Rdbms → Rdbms → Prop
  | sp : Pair .sqlite .postgres
  | sm : Pair .sqlite .mysql
  | pm : Pair .postgres .mysql

theorem Pair.left (h : Pair d e) : d ≠ .other := by cases h <;> decide
theorem Pair.right (h : Pair d e) : e ≠ .other := by cases h <;> decide

theorem ck_word {k k' : CK} {a : Str} (h : Kw [k.word] a) (h' : Kw [k'.word] a) : k = k' := by
  cases k <;> cases k' <;> first
    | rfl
    | exact (kw_disj h (by decide) h').elim

theorem collate_quote {t : Str} (h : Kw ["BINARY", "NOCASE", "RTRIM"] t) (d : Rdbms) : nameVal d t = t := by
  have h1 : ∀ t ∈ kwList ["BINARY", "NOCASE", "RTRIM"], ∀ d, nameVal d t = t := by
    intro t ht d
    cases d <;> revert t <;> decide
  exact forall_kw (P := fun t => ∀ d, nameVal d t = t) h1 (isKw_kw.2 h) d

theorem body_exact (hd : d ≠ .other) (he : e ≠ .other) (k : CK) :
    Exact (ConSame isNum d e) (k.body isNum d) (k.body isNum e) := by
  intro ts v r w s h h'
  have he1 : ∀ {v w : ColCon}, v = w → v.dflt = none → v.collation = none → (∀ r, v ≠ .references r) → ConSame isNum d e v w := by
    rintro v w rfl h1 h2 h3
    refine ⟨rfl, rfl, rfl, rfl, ?_, rfl, ?_, ?_, Iff.rfl⟩
    · rw [h1]; rfl
    · rw [h2]; rfl
    · cases v <;> first | rfl | exact absurd rfl (h3 _)
  cases k
  · obtain ⟨_, _, h1, rfl, rfl⟩ := h
    obtain ⟨_, _, h1', rfl, rfl⟩ := h'
    exact ⟨kw_same h1 h1', he1 rfl rfl rfl (by intro r h; cases h)⟩
  · obtain ⟨_, _, h1, rfl, rfl⟩ := h
    obtain ⟨_, _, h1', rfl, rfl⟩ := h'
    exact ⟨kw_same h1 h1', he1 rfl rfl rfl (by intro r h; cases h)⟩
  · obtain ⟨rfl, rfl⟩ := h
    obtain ⟨rfl, rfl⟩ := h'
    exact ⟨rfl, he1 rfl rfl rfl (by intro r h; cases h)⟩
  · obtain ⟨rfl, rfl⟩ := h
    obtain ⟨rfl, rfl⟩ := h'
    exact ⟨rfl, he1 rfl rfl rfl (by intro r h; cases h)⟩
  · obtain ⟨_, _, h1, rfl, rfl⟩ := h
    obtain ⟨_, _, h1', rfl, rfl⟩ := h'
    obtain ⟨rfl, rfl⟩ := parens_exact _ _ _ _ _ h1 h1'
    exact ⟨rfl, he1 rfl rfl rfl (by intro r h; cases h)⟩
  · obtain ⟨_, _, h1, rfl, rfl⟩ := h
    obtain ⟨_, _, h1', rfl, rfl⟩ := h'
    obtain ⟨rfl, hx⟩ := defaultValue_exact hd he _ _ _ _ _ h1 h1'
    exact ⟨rfl, rfl, rfl, rfl, rfl, congrArg some hx, rfl, rfl, rfl, by simp⟩
  · obtain ⟨_, _, ⟨rfl, h1⟩, rfl, rfl⟩ := h
    obtain ⟨_, _, ⟨e1, h1'⟩, rfl, rfl⟩ := h'
    cases e1
    refine ⟨rfl, rfl, rfl, rfl, rfl, rfl, rfl, congrArg some ?_, rfl, by simp⟩
    rcases h1 with h1 | h1
    · rcases h1' with h1' | h1'
      · exact name_same hd he h1 h1'
      · rw [collate_quote h1', collate_quote h1']
    · rw [collate_quote h1, collate_quote h1]

theorem tail_stuck (hp : Pair d e) (k : CK) {m : List Str} :
    (HeadIn (tailKs d k) m → Stuck e m) ∧ (HeadIn (tailKs e k) m → Stuck d m) ∧
    (HeadIn (tailKs d k) m → ¬ HeadIn (tailKs e k) m) := by
  cases hp <;> cases k <;>
    exact ⟨fun h => h.disj (by decide +kernel), fun h => h.disj (by decide +kernel), fun h => h.disj (by decide +kernel)⟩

theorem first_inv {k : CK} {a : Str} {ks : List String} (h : Kw [k.word] a) (hk : ∀ k : CK, ∀ t ∈ kwList ks, ¬ Kw [k.word] t) :
    ¬ Kw ks a := fun h' => kw_disj h' (hk k) h

theorem defer_dead (hd : d ≠ .sqlite) (ho : d ≠ .other) {ts : List Str} (h : AtDefer ts) : Dead isNum d ts := by
  rcases h with h | ⟨a, b, x, rfl, ha, hb⟩
  · apply Stuck.dead
    cases d <;> first | exact absurd rfl hd | exact absurd rfl ho | exact h.disj (by decide +kernel)
  · intro vs r hm hr
    cases hm with
    | nil =>
      obtain ⟨t, x, e, ht⟩ := hr
      cases e
      exact kw_disj ha (by decide) ht
    | cons hk h1 hs =>
      have h2 : ∀ {ks}, (∀ t ∈ kwList ["NOT"], ¬ Kw ks t) → ¬ Kw ks a := fun hk => kw_disj ha hk
      cases inv_of ho h1 with
      | simple k a' x' v0 m h ha' hb' ht =>
        cases h
        have : k = .notNull := ck_word ha' ha
        subst this
        obtain ⟨_, _, h3, _⟩ := hb'
        obtain ⟨t, e, ht⟩ := kw_def.1 h3
        cases e
        exact kw_disj hb (by decide) ht
      | mycheck hd a' x' e m m' b b' h ha' =>
        cases h; exact h2 (by decide) ha'
      | ref rf m h =>
        obtain ⟨_, _, h3, _⟩ := h
        obtain ⟨t, e, ht⟩ := kw_def.1 h3
        cases e; exact h2 (by decide) ht
      | gen a' b' c' x' p m h ha' =>
        cases h; exact h2 (by decide) ha'
      | as_ a' x' p m h ha' => cases h; exact h2 (by decide) ha'
      | ident _ a' x' h ha' => cases h; exact h2 (by decide) ha'
      | only h =>
        obtain ⟨t, x, e, ht⟩ := h
        cases e
        exact h2 (by cases d <;> decide) ht

/-- The words of the shared constraints. -/
def simpleWords : List String := ["PRIMARY", "NOT", "NULL", "UNIQUE", "CHECK", "DEFAULT", "COLLATE"]

theorem simple_head {k : CK} {a : Str} {x : List Str} (h : Kw [k.word] a) : HeadIn simpleWords (a :: x) :=
  ⟨a, x, rfl, Kw.mono (by cases k <;> decide) h⟩

theorem clash {ks ks' : List String} {ts : List Str} (h : HeadIn ks ts) (h' : HeadIn ks' ts)
    (hk : ∀ t ∈ kwList ks, ¬ Kw ks' t) : False := h.disj hk h'

theorem ref_head {ts m : List Str} {rf : Ref} (h : colRef d ts rf m) : HeadIn ["REFERENCES"] ts := by
  obtain ⟨_, _, h3, _⟩ := h
  obtain ⟨t, rfl, ht⟩ := kw_def.1 h3
  exact ⟨t, _, rfl, ht⟩

theorem only_clash (hp : Pair d e) {ts : List Str} (h : HeadIn (onlyKs e) ts) :
    ¬ HeadIn (colConFirstOf d) ts := by
  cases hp <;> exact h.disj (by decide +kernel)

theorem not_only_left (hp : Pair d e) {ts : List Str} : ¬ HeadIn (onlyKs d) ts := by
  rintro ⟨t, x, _, k, hk, _⟩
  cases hp <;> cases hk

theorem gen_step (hp : Pair d e) {m r s : List Str} {v w : ColCon} (h : genTail d m r) (h' : genTail e m s)
    (hv : Silent v) (hw : Silent w) : Step isNum d e v w r s := by
  have hsp : ∀ {k : Str} {r : List Str}, Kw ["STORED", "VIRTUAL"] k →
      ∀ w' m, colConOf isNum .mysql (k :: r) w' m → Silent w' ∧ m = r := by
    intro k r hk w' m h
    have hc : ∀ {ks u m'}, (∀ t ∈ kwList ["STORED", "VIRTUAL"], ¬ Kw ks t) → kw ks (k :: r) u m' → False := by
      intro ks u m' hd h
      obtain ⟨t, e, ht⟩ := kw_def.1 h
      cases e; exact kw_disj hk hd ht
    have hc' : ∀ {ks : List String} {f : Unit → Lang ColCon}, (∀ t ∈ kwList ["STORED", "VIRTUAL"], ¬ Kw ks t) →
        ¬ (Lang.bind (kw ks) f) (k :: r) w' m := by
      rintro ks f hd ⟨_, _, h, _⟩
      exact hc hd h
    rcases h with h | h | h | h | h | h | h | h | h | h | h | h
    · exact (hc' (by decide) h).elim
    · exact (hc' (by decide) h).elim
    · exact (hc' (by decide) h).elim
    · exact (hc' (by decide) h).elim
    · exact (hc' (by decide) h).elim
    · obtain ⟨_, _, ⟨_, _, h, _⟩, _⟩ := h
      exact (hc (by decide) h).elim
    · exact (hc' (by decide) h).elim
    · exact (hc' (by decide) h).elim
    · obtain ⟨_, _, h, _⟩ := h
      exact (clash (ref_head h) ⟨k, r, rfl, hk⟩ (by decide)).elim
    · exact (hc' (by decide) h).elim
    · exact (hc' (by decide) h).elim
    rcases h with h | h | h | h | h | h | h | h | h | h
    · exact (hc' (by decide) h).elim
    · exact (hc' (by decide) h).elim
    · exact (hc' (by decide) h).elim
    · exact (hc' (by decide) h).elim
    · exact (hc' (by decide) h).elim
    · exact (hc' (by decide) h).elim
    · exact (hc' (by decide) h).elim
    · exact (hc' (by decide) h).elim
    · obtain ⟨_, _, h, rfl, rfl⟩ := h
      obtain ⟨t, e, _⟩ := kw_def.1 h
      cases e
      exact ⟨.inr ⟨_, rfl⟩, rfl⟩
    · obtain ⟨_, _, h, rfl, rfl⟩ := h
      obtain ⟨t, e, _⟩ := kw_def.1 h
      cases e
      exact ⟨.inr ⟨_, rfl⟩, rfl⟩
  cases hp
  · obtain ⟨b, h⟩ := h
    obtain ⟨t, rfl, ht⟩ := kw_def.1 h'
    rcases optWord_def.1 h with ⟨_, t', e1, _⟩ | ⟨_, rfl, hn⟩
    · cases e1; exact .same rfl (hv.same hw)
    · exact absurd (Kw.mono (by decide) ht) (hn _ _ rfl)
  · obtain ⟨b, h⟩ := h
    cases h'
    rcases optWord_def.1 h with ⟨_, t', rfl, ht⟩ | ⟨_, rfl, hn⟩
    · exact .split hv hw t' rfl ht (hsp ht)
    · exact .same rfl (hv.same hw)
  · cases h'
    obtain ⟨t, rfl, ht⟩ := kw_def.1 h
    exact .split hv hw t rfl (Kw.mono (by decide) ht) (hsp (Kw.mono (by decide) ht))

theorem not_notNull (hd : d ≠ .other) {ts r : List Str} {v : ColCon} (h : HeadIn ["NOT"] ts) (h1 : colConOf isNum d ts v r) :
    v = .notNull := by
  obtain ⟨a, x, rfl, ha⟩ := h
  have h2 : ∀ {ks}, (∀ t ∈ kwList ["NOT"], ¬ Kw ks t) → ¬ Kw ks a := fun hk => kw_disj ha hk
  cases inv_of hd h1 with
  | simple k a' x' v0 m h ha' hb' ht =>
    cases h
    have : k = .notNull := ck_word ha' ha
    subst this
    rcases ht with ⟨_, rfl⟩ | ⟨_, ht⟩
    · obtain ⟨_, _, h3, rfl, _⟩ := hb'; rfl
    · exact ht rfl
  | mycheck hd a' x' e m m' b b' h ha' => cases h; exact (h2 (by decide) ha').elim
  | ref rf m h => exact (clash (ref_head h) ⟨a, x, rfl, ha⟩ (by decide)).elim
  | gen a' b' c' x' p m h ha' => cases h; exact (h2 (by decide) ha').elim
  | as_ a' x' p m h ha' => cases h; exact (h2 (by decide) ha').elim
  | ident _ a' x' h ha' => cases h; exact (h2 (by decide) ha').elim
  | only h =>
    obtain ⟨t, x, e, ht⟩ := h
    cases e
    exact (h2 (by cases d <;> decide) ht).elim

theorem colCon_first (hd : d ≠ .other) {ts r : List Str} {v : ColCon} (h : colConOf isNum d ts v r) :
    HeadIn (onlyKs d) ts ∨ HeadIn (simpleWords ++ ["REFERENCES", "GENERATED", "AS"]) ts := by
  cases inv_of hd h with
  | simple k a' x' v0 m h ha' => subst h; exact .inr ((simple_head ha').mono (by decide))
  | mycheck hd a' x' e m m' b b' h ha' => subst h; exact .inr ⟨_, _, rfl, Kw.mono (by decide) ha'⟩
  | ref rf m h => exact .inr ((ref_head h).mono (by decide))
  | gen a' b' c' x' p m h ha' => subst h; exact .inr ⟨_, _, rfl, Kw.mono (by decide) ha'⟩
  | as_ a' x' p m h ha' => subst h; exact .inr ⟨_, _, rfl, Kw.mono (by decide) ha'⟩
  | ident _ a' x' h ha' => subst h; exact .inr ⟨_, _, rfl, Kw.mono (by decide) ha'⟩
  | only h => exact .inl h

theorem Pair.not_mysql (h : Pair d e) : d ≠ .mysql := by cases h <;> decide

theorem not_first (hp : Pair d e) {r : List Str} (h : HeadIn ["NOT"] r) : HeadIn (colConFirstOf d) r :=
  h.mono (by cases hp <;> decide)

/-- What two dialects make of the same constraint. -/
theorem con_step (hp : Pair d e) {ts r s : List Str} {v w : ColCon} (h : colConOf isNum d ts v r)
    (h' : colConOf isNum e ts w s) : Step isNum d e v w r s := by
  have hd := hp.left
  have he := hp.right
  have hoc : ¬ HeadIn (onlyKs e) ts := by
    intro ho
    rcases colCon_first hd h with h1 | h1
    · exact not_only_left hp h1
    · cases hp <;> exact clash ho h1 (by decide +kernel)
  cases inv_of hd h with
  | only h1 => exact (not_only_left hp h1).elim
  | mycheck h1 => exact absurd h1 hp.not_mysql
  | simple k a x v0 m h1 ha hb ht =>
    subst h1
    cases inv_of he h' with
    | only h1 => exact (hoc h1).elim
    | ref rf m h2 => exact (clash (ref_head h2) (simple_head ha) (by decide)).elim
    | gen a' b' c' x' p m h ha' => cases h; exact (clash (simple_head ha) ⟨_, [], rfl, ha'⟩ (by decide)).elim
    | as_ a' x' p m h ha' => cases h; exact (clash (simple_head ha) ⟨_, x, rfl, ha'⟩ (by decide)).elim
    | ident _ a' x' h ha' => cases h; exact (clash (simple_head ha) ⟨_, x, rfl, ha'⟩ (by decide)).elim
    | simple k' a' x' w0 m' h1 ha' hb' ht' =>
      cases h1
      cases ck_word ha ha'
      obtain ⟨rfl, hc⟩ := body_exact hd he k _ _ _ _ _ hb hb'
      obtain ⟨t1, t2, t3⟩ := tail_stuck hp k (m := m)
      rcases ht with ⟨rfl, rfl⟩ | ⟨ht, _⟩ <;> rcases ht' with ⟨rfl, rfl⟩ | ⟨ht', _⟩
      · exact .same rfl hc
      · exact .stuckL (t2 ht').dead
      · exact .stuckR (t1 ht).dead
      · exact (t3 ht ht').elim
    | mycheck h2 a' x' p m' m'' b b' h1 ha' hp' hv hn hen =>
      cases h1
      cases ck_word (k' := .check) ha ha'
      obtain ⟨p', _, hb, rfl, rfl⟩ := hb
      obtain ⟨rfl, rfl⟩ := parens_exact _ _ _ _ _ hb hp'
      subst hv
      have hno : ∀ {ks : List String} {m : List Str}, HeadIn ks m → (∀ t ∈ kwList ks, ¬ Kw ["NO"] t) →
          ¬ HeadIn (tailKs d .check) m := by
        intro ks m h hk h'
        refine clash h (h'.mono ?_) hk
        cases hp <;> decide
      rcases optWord_def.1 hn with ⟨_, t, rfl, ht1⟩ | ⟨_, rfl, _⟩
      · rcases ht with ⟨rfl, rfl⟩ | ⟨ht, _⟩
        · exact .check h2 p' rfl ⟨t, _, rfl, ht1⟩ (fun v' m hx => not_notNull hd ⟨t, _, rfl, ht1⟩ hx)
            (not_first hp ⟨t, _, rfl, ht1⟩)
        · exact (hno ⟨t, _, rfl, ht1⟩ (by decide) ht).elim
      · rcases optWord_def.1 hen with ⟨_, t, rfl, ht1⟩ | ⟨_, rfl, _⟩
        · rcases ht with ⟨rfl, rfl⟩ | ⟨ht, _⟩
          · refine .stuckL (Stuck.dead ?_)
            cases hp <;> exact HeadIn.disj ⟨t, _, rfl, ht1⟩ (by decide +kernel)
          · exact (hno ⟨t, _, rfl, ht1⟩ (by decide) ht).elim
        · rcases ht with ⟨rfl, rfl⟩ | ⟨ht, _⟩
          · exact .same rfl ⟨rfl, rfl, rfl, rfl, rfl, rfl, rfl, rfl, by simp⟩
          · exact .stuckR ((tail_stuck hp .check).1 ht).dead
  | ref rf m h1 ht hv =>
    cases inv_of he h' with
    | only h1 => exact (hoc h1).elim
    | simple k' a' x' w0 m' h2 ha' => subst h2; exact (clash (ref_head h1) (simple_head ha') (by decide)).elim
    | mycheck h2 a' x' p m' m'' b b' h3 ha' => subst h3; exact (clash (ref_head h1) ⟨_, _, rfl, ha'⟩ (by decide)).elim
    | gen a' b' c' x' p m h ha' => subst h; exact (clash (ref_head h1) ⟨_, _, rfl, ha'⟩ (by decide)).elim
    | as_ a' x' p m h ha' => subst h; exact (clash (ref_head h1) ⟨_, _, rfl, ha'⟩ (by decide)).elim
    | ident _ a' x' h ha' => subst h; exact (clash (ref_head h1) ⟨_, _, rfl, ha'⟩ (by decide)).elim
    | ref rf' m' h2 ht' hv' =>
      subst hv hv'
      obtain ⟨rfl, hr1, hr2⟩ := colRef_exact hd he _ _ _ _ _ h1 h2
      have hs : ConSame isNum d e (.references rf) (.references rf') := by
        refine ⟨rfl, rfl, rfl, rfl, rfl, rfl, rfl, congrArg some hr1, ?_⟩
        constructor
        · intro h r e; cases e; exact hr2.1 (h _ rfl)
        · intro h r e; cases e; exact hr2.2 (h _ rfl)
      cases hp
      · rcases refClauses_sqlite ht ht' with rfl | h
        · exact .same rfl hs
        · exact .stuckR (defer_dead (by decide) (by decide) h)
      · rcases refClauses_sqlite ht ht' with rfl | h
        · exact .same rfl hs
        · exact .stuckR (defer_dead (by decide) (by decide) h)
      · obtain ⟨rfl, _⟩ := refClauses_exact _ _ _ _ _ ht ht'
        exact .same rfl hs
  | gen a b c x p m h1 ha hb hc hp1 ht hv =>
    subst h1
    cases inv_of he h' with
    | only h1 => exact (hoc h1).elim
    | simple k' a' x' w0 m' h2 ha' => cases h2; exact (clash (simple_head ha') ⟨_, x, rfl, ha⟩ (by decide)).elim
    | mycheck h2 a' x' p m' m'' b b' h3 ha' => cases h3; exact (kw_disj ha (by decide) ha').elim
    | ref rf m h => exact (clash (ref_head h) ⟨_, _, rfl, ha⟩ (by decide)).elim
    | gen a' b' c' x' p' m' h ha' hb' hc' hp2 ht' hw =>
      cases h
      obtain ⟨rfl, rfl⟩ := parens_exact _ _ _ _ _ hp1 hp2
      exact gen_step hp ht ht' hv hw
    | as_ a' x' p m h ha' => cases h; exact (kw_disj ha (by decide) ha').elim
    | ident _ a' x' h ha' hn => cases h; exact (hn _ _ _ _ _ rfl hb hc hp1).elim
  | as_ a x p m h1 ha hp1 ht hv =>
    subst h1
    cases inv_of he h' with
    | only h1 => exact (hoc h1).elim
    | simple k' a' x' w0 m' h2 ha' => cases h2; exact (clash (simple_head ha') ⟨_, x, rfl, ha⟩ (by decide)).elim
    | mycheck h2 a' x' p m' m'' b b' h3 ha' => cases h3; exact (kw_disj ha (by decide) ha').elim
    | ref rf m h => exact (clash (ref_head h) ⟨_, _, rfl, ha⟩ (by decide)).elim
    | gen a' b' c' x' p' m' h ha' => cases h; exact (kw_disj ha (by decide) ha').elim
    | as_ a' x' p' m' h ha' hp2 ht' hw =>
      cases h
      obtain ⟨rfl, rfl⟩ := parens_exact _ _ _ _ _ hp1 hp2
      exact gen_step hp ht ht' hv hw
    | ident _ a' x' h ha' => cases h; exact (kw_disj ha (by decide) ha').elim
  | ident hd' a x h1 ha hn =>
    subst h1
    cases inv_of he h' with
    | only h1 => exact (hoc h1).elim
    | simple k' a' x' w0 m' h2 ha' => cases h2; exact (clash (simple_head ha') ⟨_, x, rfl, ha⟩ (by decide)).elim
    | mycheck h2 a' x' p m' m'' b b' h3 ha' => cases h3; exact (kw_disj ha (by decide) ha').elim
    | ref rf m h => exact (clash (ref_head h) ⟨_, _, rfl, ha⟩ (by decide)).elim
    | gen a' b' c' x' p' m' h ha' hb' hc' hp2 => cases h; exact (hn _ _ _ _ _ rfl hb' hc' hp2).elim
    | as_ a' x' p' m' h ha' => cases h; exact (kw_disj ha (by decide) ha').elim
    | ident h2 => subst h2; subst hd'; cases hp

/-- The constraints of a column that two dialects accept say the same. -/
theorem colCons_same (hp : Pair d e) {ts r s : List Str} {vs ws : List ColCon}
    (h1 : Many (colConFirstOf d) (colConOf isNum d) ts vs r)
    (h2 : Many (colConFirstOf e) (colConOf isNum e) ts ws s) (hr : AtEnd r) (hs : AtEnd s) (hn : e = .mysql → NoCheckNot vs) :
    r = s ∧ ConsSame isNum d e vs ws :=
  cons_same (by intro d; cases d <;> decide +kernel) (fun _ _ _ _ _ h h' => con_step hp h h') h1 h2 hr hs hn

end DDL
