import Verif.Proof.Print
/-
Printed column constraints, types and table constraints, in each dialect.
-/

namespace DDL
open V Spec

/-- Token of a collation. -/
def collTok (d : Rdbms) (n : Str) : Str := if d = .mysql then nameTok d n else n

/-- The constraints a description stands for; `e` are the tokens of the check. -/
def consOf (d : Rdbms) (c : Constraint) (e : List Str) : List ColCon :=
  opt c.isPrimaryKey (.primaryKey (d != .mysql && c.isAutoincrement)) ++
  (opt (d == .mysql && c.isAutoincrement) .autoIncrement ++
  (opt c.isNotNull .notNull ++
  (opt c.isUnique .unique ++
  (opt (c.default != .nil) (.default (.lit (dfltTok c.default))) ++
  (opt (c.collate != []) (.collate (collTok d c.collate)) ++
  (opt (c.check != []) (.check e) ++
  (opt (c.references != {}) (.references (refOf d c.references)) ++ [])))))))

theorem any_opt {α : Type} (b : Bool) (v : α) (f : α → Bool) : (opt b v).any f = (b && f v) := by
  cases b <;> simp [opt]

theorem find_opt {α β : Type} (b : Bool) (v : α) (f : α → Option β) :
    (opt b v).findSome? f = if b then f v else none := by
  cases b <;> simp [opt]

/-- What the constraints denote. -/
theorem constraintVal_consOf {isNum : Str → Bool} (hN : NumOK isNum) {d : Rdbms} (hd : d ≠ .other)
    {c : Constraint} (h : ConstraintOK isNum d c) {e : List Str} (he : c.check ≠ [] → exprText e = c.check) :
    constraintVal isNum d (conNameOf d c.name) (consOf d c e) = c := by
  obtain ⟨_, hdf, hco, _, _, _, hau⟩ := h
  obtain ⟨n, pk, un, nn, ai, df, ck, co, rf⟩ := c
  have e1 : (if (df != .nil) = true then some (Dflt.lit (dfltTok df)) else none : Option Dflt).map
      (dfltVal isNum d) = if df = .nil then none else some df := by
    by_cases h0 : df = .nil
    · simp [h0]
    · have := (dfltTok_ok hN hd hdf h0).2.1
      simp [h0, dfltVal, this]
  have e2 : (if (co != []) = true then some (collTok d co) else none : Option Str).map (nameVal d) =
      if co = [] then none else some co := by
    by_cases h0 : co = []
    · simp [h0]
    · have : nameVal d (collTok d co) = co := by
        unfold collTok
        rcases hco with h' | h'
        · exact absurd h' h0
        · cases d with
          | mysql => simp [nameVal_nameTok]
          | postgres => exact h'.elim
          | other => exact (hd rfl).elim
          | sqlite =>
            exact forall_kw (P := fun x => nameVal .sqlite x = x) (ks := ["BINARY", "NOCASE", "RTRIM"]) (by decide)
              (isKw_kw.2 h')
      simp [h0, this]
  have e3 : (if (ck != []) = true then some e else none : Option (List Str)).map exprText =
      if ck = [] then none else some ck := by
    by_cases h0 : ck = []
    · simp [h0]
    · have he : exprText e = ck := he h0
      simp [h0, he]
  have e4 : (if (rf != {}) = true then some (refOf d rf) else none : Option Ref).map (refVal d) =
      if rf = {} then none else some rf := by
    by_cases h0 : rf = {}
    · simp [h0]
    · simp [h0, refVal_refOf hd]
  have e5 : (pk && (d != .mysql && ai) || (d == .mysql && ai)) = ai := by
    have hau : ai = true → d = .mysql ∨ d = .sqlite ∧ pk = true := hau
    cases ai with
    | false => simp
    | true =>
      rcases hau rfl with rfl | ⟨rfl, rfl⟩
      · cases pk <;> rfl
      · rfl
  unfold constraintVal consOf
  simp only [List.any_append, any_opt, List.findSome?_append, find_opt, List.any_nil,
    List.findSome?_nil, conNameVal_conNameOf hd]
  simp only [ColCon.isPrimaryKey, ColCon.isUnique, ColCon.isNotNull, ColCon.isAutoincrement,
    ColCon.dflt, ColCon.checked, ColCon.collation, ColCon.reference, Bool.and_false, Bool.and_true,
    Bool.or_false, Bool.false_or, ite_self, Option.or_none, Option.none_or]
  rw [e1, e2, e3, e4, e5]
  congr 1
  · by_cases h0 : df = .nil <;> simp [h0]
  · by_cases h0 : ck = [] <;> simp [h0]
  · by_cases h0 : co = [] <;> simp [h0]
  · by_cases h0 : rf = {} <;> simp [h0]

theorem kinds_consOf (d : Rdbms) (c : Constraint) (e : List Str) :
    ((consOf d c e).map ColCon.kind).Nodup := by
  have hs : ∀ (b : Bool) (v : ColCon) (s : String) {a : List ColCon} {l : List String},
      v.kind = s → (a.map ColCon.kind).Sublist l →
      ((opt b v ++ a).map ColCon.kind).Sublist (s :: l) := by
    rintro b v s a l rfl h
    cases b
    · exact h.cons _
    · exact h.cons_cons _
  have : ((consOf d c e).map ColCon.kind).Sublist ["PRIMARY", "AUTO_INCREMENT", "NULL", "UNIQUE",
      "DEFAULT", "COLLATE", "CHECK", "REFERENCES"] := by
    unfold consOf
    exact hs _ _ _ rfl (hs _ _ _ rfl (hs _ _ _ rfl (hs _ _ _ rfl (hs _ _ _ rfl (hs _ _ _ rfl
      (hs _ _ _ rfl (hs _ _ _ rfl .slnil)))))))
  exact List.Nodup.sublist this (by decide)

/-- The constraints are tidy. -/
theorem tidy_consOf {d : Rdbms} {c : Constraint} {e : List Str} (he : Spaced e) {x : ColCon}
    (h : x ∈ consOf d c e) : x.Tidy := by
  have key : ∀ {b : Bool} {v : ColCon}, x ∈ opt b v → v.Tidy → x.Tidy := by
    intro b v hx hv
    cases b with
    | false => cases hx
    | true => rw [List.mem_singleton.1 hx]; exact hv
  unfold consOf at h
  simp only [List.mem_append] at h
  rcases h with h | h | h | h | h | h | h | h | h
  · exact key h trivial
  · exact key h trivial
  · exact key h trivial
  · exact key h trivial
  · exact key h trivial
  · exact key h trivial
  · exact key h he
  · exact key h trivial
  · cases h

/-- References are not schema-qualified. -/
theorem plain_consOf {d : Rdbms} {c : Constraint} {e : List Str} {r : Ref}
    (h : ColCon.references r ∈ consOf d c e) : r.Plain := by
  have hm : ∀ {b : Bool} {v : ColCon} {a : List ColCon}, ColCon.references r ∈ opt b v ++ a →
      v = .references r ∨ .references r ∈ a := by
    intro b v a h
    rcases List.mem_append.1 h with h | h
    · cases b with
      | false => cases h
      | true => exact .inl (List.mem_singleton.1 h).symm
    · exact .inr h
  unfold consOf at h
  rcases hm h with h | h
  · cases h
  rcases hm h with h | h
  · cases h
  rcases hm h with h | h
  · cases h
  rcases hm h with h | h
  · cases h
  rcases hm h with h | h
  · cases h
  rcases hm h with h | h
  · cases h
  rcases hm h with h | h
  · cases h
  rcases hm h with h | h
  · cases h; rfl
  · cases h

/-- Constraint names are quoted, hence never AUTOINCREMENT. -/
theorem conNameOf_ok {d : Rdbms} {n m : Str} (h : conNameOf d n = .named m) :
    ¬ Kw ["AUTOINCREMENT", "AUTO_INCREMENT"] m := by
  unfold conNameOf at h
  split at h
  · cases h
  · cases h; exact not_kw_nameTok (by decide)

/-! ### SQLite -/

theorem kwS {ks : List String} {t : Str} {r : List Str} (h : Kw ks t) : kw ks (t :: r) () r := kw_intro h

theorem sqlite_conflict {r : List Str} (h : notAt ["ON"] r () r) : Spec.Sqlite.conflict r () r :=
  ⟨none, r, optKw_none h, rfl, rfl⟩

theorem many_unit {ks : List String} {L : Lang Unit} {r : List Str} (h : notAt ks r () r) :
    (do let _ ← Many ks L; return () : Lang Unit) r () r := ⟨[], r, .nil h, rfl, rfl⟩

theorem sqlite_primaryKey {isNum : Str → Bool} (a : Bool) :
    CPh .sqlite T7 (Spec.Sqlite.colCon isNum) (S "PRIMARY KEY " ++ textIf a (S "AUTOINCREMENT "))
      (.primaryKey a) (S "PRIMARY") := by
  cases a with
  | false =>
    refine ⟨[S "KEY"], .fixed [S "PRIMARY", S "KEY"] (by decide) (by decide), fun r hr => .inl ?_⟩
    exact ⟨(), _, kwS (by decide), (), _, kwS (by decide), false, r, optWord_none (hr.notAt (by decide)),
      (), r, sqlite_conflict (hr.notAt (by decide)), false, r, optWord_none (hr.notAt (by decide)), rfl, rfl⟩
  | true =>
    refine ⟨[S "KEY", S "AUTOINCREMENT"], .fixed [S "PRIMARY", S "KEY", S "AUTOINCREMENT"] (by decide)
      (by decide), fun r hr => .inl ?_⟩
    exact ⟨(), _, kwS (by decide), (), _, kwS (by decide), false, _, optWord_none (notAt_cons (by decide)),
      (), _, sqlite_conflict (notAt_cons (by decide)), true, r, optWord_some (by decide), rfl, rfl⟩

theorem sqlite_cons {isNum : Str → Bool} (hN : NumOK isNum) {c : Constraint}
    (h : ConstraintOK isNum .sqlite c) {e : List Str} (he : c.check ≠ [] → Txt .sqlite (piece c.check) e ∧ ∀ r, parens (e ++ r) e r) :
    ∃ s, constraintText .sqlite c = conNameText .sqlite c.name ++ s ∧
      MPh .sqlite Spec.Sqlite.colConFirst (Spec.Sqlite.colCon isNum) T8 s (consOf .sqlite c e) := by
  obtain ⟨_, hdf, hco, _, hr1, hr2, hau⟩ := h
  have m0 : MPh .sqlite Spec.Sqlite.colConFirst (Spec.Sqlite.colCon isNum) T0 [] [] :=
    .nil (by decide)
  have m1 := MPh.opt (b := c.references != {}) (k := S "REFERENCES") (v := .references (refOf .sqlite c.references))
    (s := referenceText .sqlite c.references) (fun _ => by
      obtain ⟨ts, h1, h2⟩ := colRef_ph hr1 hr2
      refine ⟨ts, h1, fun r hr => .inr (.inr (.inr (.inr (.inr (.inr (.inl ?_))))))⟩
      exact ⟨_, r, h2 r hr, (), r, many_unit (hr.notAt (by decide)), rfl, rfl⟩) m0 (by decide)
  have m2 := MPh.opt (b := c.check != []) (k := S "CHECK") (v := .check e)
    (s := S "CHECK " ++ piece c.check) (fun hb => by
      obtain ⟨h1, h2⟩ := he (by simpa using hb)
      refine ⟨e, Txt.append (.fixed [S "CHECK"] (by decide) (by decide)) h1,
        fun r _ => .inr (.inr (.inr (.inl ?_)))⟩
      exact ⟨(), _, kwS (by decide), e, r, h2 r, rfl, rfl⟩) m1 (by decide)
  have m3 := MPh.opt (b := c.collate != []) (k := S "COLLATE") (v := .collate (collTok .sqlite c.collate))
    (s := S "COLLATE " ++ piece c.collate) (fun hb => by
      have hc : Kw ["BINARY", "NOCASE", "RTRIM"] c.collate := by
        rcases hco with h | h
        · rw [h] at hb; cases hb
        · exact h
      refine ⟨[c.collate], Txt.append (.fixed [S "COLLATE"] (by decide) (by decide))
          (.word (isWord_alnum ?_ ?_)), fun r _ => .inr (.inr (.inr (.inr (.inr (.inl ?_)))))⟩
      · rintro e; rw [e] at hb; cases hb
      · exact forall_kw (P := fun w => ∀ c ∈ w, c.isAlphanum = true ∨ c = '_')
          (ks := ["BINARY", "NOCASE", "RTRIM"]) (by decide) (isKw_kw.2 hc)
      · exact ⟨(), _, kwS (by decide), c.collate, r, ⟨rfl, hc⟩, rfl, rfl⟩) m2 (by decide)
  have m4 := MPh.opt (b := c.default != .nil) (k := S "DEFAULT") (v := .default (.lit (dfltTok c.default)))
    (s := S "DEFAULT " ++ piece (dfltTok c.default)) (fun hb => by
      have hv : c.default ≠ .nil := by simpa using hb
      obtain ⟨_, _, h3, h4⟩ := dfltTok_ok hN (d := .sqlite) (by decide) hdf hv
      refine ⟨_, default_txt hN (by decide) hdf hv, fun r _ => .inr (.inr (.inr (.inr (.inl ?_))))⟩
      exact ⟨(), _, kwS (by decide), _, _, defaultValue_lit h3 h4, rfl, rfl⟩) m3 (by decide)
  have m5 := MPh.opt (b := c.isUnique) (k := S "UNIQUE") (v := .unique) (s := S "UNIQUE ") (fun _ => by
      refine ⟨[], .fixed [S "UNIQUE"] (by decide) (by decide), fun r hr => .inr (.inr (.inl ?_))⟩
      exact ⟨(), _, kwS (by decide), (), r, sqlite_conflict (hr.notAt (by decide)), rfl, rfl⟩) m4 (by decide)
  have m6 := MPh.opt (b := c.isNotNull) (k := S "NOT") (v := .notNull) (s := S "NOT NULL ") (fun _ => by
      refine ⟨[S "NULL"], .fixed [S "NOT", S "NULL"] (by decide) (by decide), fun r hr => .inr (.inl ?_)⟩
      exact ⟨(), _, kwS (by decide), (), _, kwS (by decide), (), r, sqlite_conflict (hr.notAt (by decide)), rfl, rfl⟩)
      m5 (by decide)
  have m7 := m6.skip (S "AUTO_INCREMENT")
  have m8 := MPh.opt (b := c.isPrimaryKey) (fun _ => sqlite_primaryKey c.isAutoincrement) m7 (by decide)
  refine ⟨_, ?_, m8⟩
  have e1 : textIf c.isPrimaryKey (S "PRIMARY KEY " ++ textIf c.isAutoincrement (S "AUTOINCREMENT ")) =
      textIf c.isPrimaryKey (S "PRIMARY KEY ") ++ textIf c.isAutoincrement (S "AUTOINCREMENT ") := by
    cases ha : c.isAutoincrement with
    | false => simp only [textIf, Bool.false_eq_true, if_false, List.append_nil]
    | true =>
      rcases hau ha with h | ⟨_, h⟩
      · cases h
      · rw [h]; rfl
  have e2 : collateText .sqlite c.collate = textIf (c.collate != []) (S "COLLATE " ++ piece c.collate) := rfl
  unfold constraintText
  rw [e1, e2, defaultText_eq, if_neg (by decide)]
  simp only [List.append_assoc, List.append_nil]

/-! ### PostgreSQL -/

theorem postgres_indexParams {r : List Str} (h : notAt ["INCLUDE"] r () r) (h' : notAt ["WITH"] r () r)
    (h'' : notAt ["USING"] r () r) : Spec.Postgres.indexParams r () r :=
  ⟨none, r, optKw_none h, none, r, optKw_none h', none, r, optKw_none h'', rfl, rfl⟩

theorem postgres_cons {isNum : Str → Bool} (hN : NumOK isNum) {c : Constraint}
    (h : ConstraintOK isNum .postgres c) {e : List Str} (he : c.check ≠ [] → Txt .postgres (piece c.check) e ∧ ∀ r, parens (e ++ r) e r) :
    ∃ s, constraintText .postgres c = conNameText .postgres c.name ++ s ∧
      MPh .postgres Spec.Postgres.colConFirst (Spec.Postgres.colCon isNum) T8 s (consOf .postgres c e) := by
  obtain ⟨_, hdf, hco, _, hr1, hr2, hau⟩ := h
  have hcn : c.collate = [] := by
    rcases hco with h | h
    · exact h
    · exact h.elim
  have hai : c.isAutoincrement = false := by
    cases ha : c.isAutoincrement with
    | false => rfl
    | true => rcases hau ha with h | ⟨h, _⟩ <;> cases h
  have m0 : MPh .postgres Spec.Postgres.colConFirst (Spec.Postgres.colCon isNum) T0 [] [] :=
    .nil (by decide)
  have m1 := MPh.opt (b := c.references != {}) (k := S "REFERENCES") (v := .references (refOf .postgres c.references))
    (s := referenceText .postgres c.references) (fun _ => by
      obtain ⟨ts, h1, h2⟩ := colRef_ph hr1 hr2
      refine ⟨ts, h1, fun r hr => .inr (.inr (.inr (.inr (.inr (.inr (.inl ?_))))))⟩
      exact ⟨_, r, h2 r hr, (), r, many_unit (hr.notAt (by decide)), rfl, rfl⟩) m0 (by decide)
  have m2 := MPh.opt (b := c.check != []) (k := S "CHECK") (v := .check e)
    (s := S "CHECK " ++ piece c.check) (fun hb => by
      obtain ⟨h1, h2⟩ := he (by simpa using hb)
      refine ⟨e, Txt.append (.fixed [S "CHECK"] (by decide) (by decide)) h1,
        fun r hr => .inr (.inr (.inr (.inr (.inl ?_))))⟩
      exact ⟨e, r, ⟨(), _, kwS (by decide), e, r, h2 r, none, r, optKw_none (hr.notAt (by decide)), rfl, rfl⟩,
        rfl, rfl⟩) m1 (by decide)
  have m3 := m2.skip (S "COLLATE")
  have m4 := MPh.opt (b := c.default != .nil) (k := S "DEFAULT") (v := .default (.lit (dfltTok c.default)))
    (s := S "DEFAULT " ++ piece (dfltTok c.default)) (fun hb => by
      have hv : c.default ≠ .nil := by simpa using hb
      obtain ⟨_, _, h3, h4⟩ := dfltTok_ok hN (d := .postgres) (by decide) hdf hv
      refine ⟨_, default_txt hN (by decide) hdf hv, fun r _ => .inr (.inr (.inr (.inr (.inr (.inl ?_)))))⟩
      exact ⟨(), _, kwS (by decide), _, _, defaultValue_lit h3 h4, rfl, rfl⟩) m3 (by decide)
  have m5 := MPh.opt (b := c.isUnique) (k := S "UNIQUE") (v := .unique) (s := S "UNIQUE ") (fun _ => by
      refine ⟨[], .fixed [S "UNIQUE"] (by decide) (by decide), fun r hr => .inr (.inr (.inr (.inl ?_)))⟩
      exact ⟨(), _, kwS (by decide), (), r, postgres_indexParams (hr.notAt (by decide)) (hr.notAt (by decide))
        (hr.notAt (by decide)), rfl, rfl⟩) m4 (by decide)
  have m6 := MPh.opt (b := c.isNotNull) (k := S "NOT") (v := .notNull) (s := S "NOT NULL ") (fun _ => by
      refine ⟨[S "NULL"], .fixed [S "NOT", S "NULL"] (by decide) (by decide), fun r hr => .inr (.inl ?_)⟩
      exact ⟨(), _, kwS (by decide), (), _, kwS (by decide), rfl, rfl⟩)
      m5 (by decide)
  have m7 := m6.skip (S "AUTO_INCREMENT")
  have m8 := MPh.opt (b := c.isPrimaryKey) (k := S "PRIMARY") (v := .primaryKey false) (s := S "PRIMARY KEY ") (fun _ => by
      refine ⟨[S "KEY"], .fixed [S "PRIMARY", S "KEY"] (by decide) (by decide), fun r hr => .inl ?_⟩
      exact ⟨(), _, kwS (by decide), (), _, kwS (by decide), (), r, postgres_indexParams (hr.notAt (by decide)) (hr.notAt (by decide))
        (hr.notAt (by decide)), rfl, rfl⟩) m7 (by decide)
  have e0 : consOf .postgres c e = opt c.isPrimaryKey (.primaryKey false) ++ (opt c.isNotNull .notNull ++
      (opt c.isUnique .unique ++ (opt (c.default != .nil) (.default (.lit (dfltTok c.default))) ++
      (opt (c.check != []) (.check e) ++
      (opt (c.references != {}) (.references (refOf .postgres c.references)) ++ []))))) := by
    unfold consOf
    rw [hai, hcn]
    rfl
  refine ⟨_, ?_, e0 ▸ m8⟩
  have e2 : collateText .postgres c.collate = [] := by rw [hcn]; rfl
  unfold constraintText
  rw [e2, defaultText_eq, hai]
  simp only [List.append_assoc, List.append_nil, textIf, Bool.false_eq_true, if_false]

/-! ### MySQL -/

theorem mysql_check {e r : List Str} (h2 : parens (e ++ r) e r) (h : notAt ["NOT"] r () r)
    (h' : notAt ["ENFORCED"] r () r) : Spec.Mysql.check (S "CHECK" :: (e ++ r)) e r :=
  ⟨(), _, kwS (by decide), e, r, h2, false, r, optWord_none h, false, r, optWord_none h', rfl, rfl⟩

theorem mysql_cons {isNum : Str → Bool} (hN : NumOK isNum) {c : Constraint}
    (h : ConstraintOK isNum .mysql c) {e : List Str} (he : c.check ≠ [] → Txt .mysql (piece c.check) e ∧ ∀ r, parens (e ++ r) e r) :
    ∃ s, constraintText .mysql c = conNameText .mysql c.name ++ s ∧
      MPh .mysql Spec.Mysql.colConFirst (Spec.Mysql.colCon isNum) T8 s (consOf .mysql c e) := by
  obtain ⟨_, hdf, hco, _, hr1, hr2, hau⟩ := h
  have m0 : MPh .mysql Spec.Mysql.colConFirst (Spec.Mysql.colCon isNum) T0 [] [] :=
    .nil (by decide)
  have m1 := MPh.opt (b := c.references != {}) (k := S "REFERENCES") (v := .references (refOf .mysql c.references))
    (s := referenceText .mysql c.references) (fun _ => by
      obtain ⟨ts, h1, h2⟩ := colRef_ph hr1 hr2
      refine ⟨ts, h1, fun r hr => .inr (.inr (.inr (.inr (.inr (.inr (.inr (.inr (.inl ?_))))))))⟩
      exact ⟨_, r, h2 r hr, (), r, many_unit (hr.notAt (by decide)), rfl, rfl⟩) m0 (by decide)
  have m2 := MPh.opt (b := c.check != []) (k := S "CHECK") (v := .check e)
    (s := S "CHECK " ++ piece c.check) (fun hb => by
      obtain ⟨h1, h2⟩ := he (by simpa using hb)
      refine ⟨e, Txt.append (.fixed [S "CHECK"] (by decide) (by decide)) h1,
        fun r hr => .inr (.inr (.inr (.inr (.inr (.inl ?_)))))⟩
      exact ⟨e, r, mysql_check (h2 r) (hr.notAt (by decide)) (hr.notAt (by decide)), rfl, rfl⟩) m1 (by decide)
  have m3 := MPh.opt (b := c.collate != []) (k := S "COLLATE") (v := .collate (collTok .mysql c.collate))
    (s := S "COLLATE " ++ nameText .mysql c.collate) (fun hb => by
      have hc : Quotable c.collate := by
        rcases hco with h | h
        · rw [h] at hb; cases hb
        · exact h
      refine ⟨[nameTok .mysql c.collate], Txt.append (.fixed [S "COLLATE"] (by decide) (by decide))
          (.name hc), fun r _ => .inr (.inr (.inr (.inr (.inr (.inr (.inr (.inl ?_)))))))⟩
      exact ⟨(), _, kwS (by decide), _, r, name_intro (name_nameTok .mysql c.collate), rfl, rfl⟩) m2 (by decide)
  have m4 := MPh.opt (b := c.default != .nil) (k := S "DEFAULT") (v := .default (.lit (dfltTok c.default)))
    (s := S "DEFAULT " ++ piece (dfltTok c.default)) (fun hb => by
      have hv : c.default ≠ .nil := by simpa using hb
      obtain ⟨_, _, h3, h4⟩ := dfltTok_ok hN (d := .mysql) (by decide) hdf hv
      refine ⟨_, default_txt hN (by decide) hdf hv,
        fun r hr => .inr (.inr (.inr (.inr (.inr (.inr (.inl ?_))))))⟩
      exact ⟨(), _, kwS (by decide), .inr ⟨(), _, notAt_cons h4, _, r, ⟨rfl, h3⟩, none, r,
        optKw_none (hr.notAt (by decide)), rfl, rfl⟩⟩) m3 (by decide)
  have m5 := MPh.opt (b := c.isUnique) (k := S "UNIQUE") (v := .unique) (s := S "UNIQUE ") (fun _ => by
      refine ⟨[], .fixed [S "UNIQUE"] (by decide) (by decide),
        fun r hr => .inr (.inr (.inr (.inr (.inl ?_))))⟩
      exact ⟨(), _, kwS (by decide), false, r, optWord_none (hr.notAt (by decide)), rfl, rfl⟩) m4 (by decide)
  have m6 := MPh.opt (b := c.isNotNull) (k := S "NOT") (v := .notNull) (s := S "NOT NULL ") (fun _ => by
      refine ⟨[S "NULL"], .fixed [S "NOT", S "NULL"] (by decide) (by decide), fun r hr => .inr (.inr (.inl ?_))⟩
      exact ⟨(), _, kwS (by decide), (), _, kwS (by decide), rfl, rfl⟩)
      m5 (by decide)
  have m7 := MPh.opt (b := c.isAutoincrement) (k := S "AUTO_INCREMENT") (v := .autoIncrement) (s := S "AUTO_INCREMENT ")
    (fun _ => by
      refine ⟨[], .fixed [S "AUTO_INCREMENT"] (by decide) (by decide), fun r hr => .inr (.inr (.inr (.inr (.inr
        (.inr (.inr (.inr (.inr (.inr (.inr (.inr (.inr (.inr (.inr (.inr (.inl ?_))))))))))))))))⟩
      exact ⟨(), _, kwS (by decide), rfl, rfl⟩) m6 (by decide)
  have m8 := MPh.opt (b := c.isPrimaryKey) (k := S "PRIMARY") (v := .primaryKey false) (s := S "PRIMARY KEY ") (fun _ => by
      refine ⟨[S "KEY"], .fixed [S "PRIMARY", S "KEY"] (by decide) (by decide), fun r hr => .inr (.inl ?_)⟩
      exact ⟨(), _, kwS (by decide), (), _, kwS (by decide), rfl, rfl⟩) m7 (by decide)
  refine ⟨_, ?_, m8⟩
  have e2 : collateText .mysql c.collate = textIf (c.collate != []) (S "COLLATE " ++ nameText .mysql c.collate) := rfl
  unfold constraintText
  rw [e2, defaultText_eq, if_pos rfl]
  simp only [List.append_assoc, List.append_nil]

end DDL
