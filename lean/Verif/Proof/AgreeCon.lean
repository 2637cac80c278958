import Verif.Proof.Agree
/-
Reading the same tokens with two dialects: the constraints of a column.
-/

namespace DDL
open V Spec Conv

variable {isNum : Str → Bool} {d e : Rdbms}

/-! ### What may follow -/

/-- The next token is one of `ks`. -/
def HeadIn (ks : List String) (ts : List Str) : Prop := ∃ t x, ts = t :: x ∧ Kw ks t

/-- The keywords that may follow a part of a column. -/
def follow (d : Rdbms) : List String := "CONSTRAINT" :: colConFirstOf d ++ [",", ")"]

/-- A column cannot go on or end here. -/
def Stuck (d : Rdbms) (ts : List Str) : Prop := ¬ HeadIn (follow d) ts

/-- A list of constraints cannot go on here such that a column ends. -/
def Dead (isNum : Str → Bool) (d : Rdbms) (ts : List Str) : Prop :=
  ∀ vs r, Many (colConFirstOf d) (colConOf isNum d) ts vs r → ¬ HeadIn [",", ")"] r

/-- The end of an entry. -/
def AtEnd (ts : List Str) : Prop := HeadIn [",", ")"] ts

theorem HeadIn.mono {ks ks' : List String} {ts : List Str} (h : HeadIn ks ts) (hk : ∀ k ∈ ks, k ∈ ks') : HeadIn ks' ts := by
  obtain ⟨t, x, rfl, ht⟩ := h; exact ⟨t, x, rfl, Kw.mono hk ht⟩

theorem HeadIn.disj {ks ks' : List String} {ts : List Str} (h : HeadIn ks ts) (hk : ∀ t ∈ kwList ks, ¬ Kw ks' t) :
    ¬ HeadIn ks' ts := by
  obtain ⟨t, x, rfl, ht⟩ := h
  rintro ⟨t', x', e, ht'⟩
  cases e
  exact kw_disj ht hk ht'

theorem AtEnd.not_stuck {ts : List Str} (h : AtEnd ts) : ¬ Stuck d ts := fun hs =>
  hs (h.mono (by intro k hk; simp only [follow, List.mem_append]; exact .inr hk))

theorem first_follow {ts : List Str} (h : HeadIn (colConFirstOf d) ts) : ¬ Stuck d ts := fun hs =>
  hs (h.mono (by intro k hk; simp only [follow, List.cons_append, List.mem_cons, List.mem_append]; exact .inr (.inl hk)))

theorem at_headIn {ks : List String} {ts r : List Str} {u : Unit} (h : at_ ks ts u r) : HeadIn ks ts := by
  obtain ⟨_, t, x, rfl, ht⟩ := h; exact ⟨t, x, rfl, ht⟩

theorem notAt_headIn {ks : List String} {ts r : List Str} {u : Unit} (h : notAt ks ts u r) : ¬ HeadIn ks ts := by
  rintro ⟨t, x, rfl, ht⟩; exact h.2 _ _ rfl ht

/-! ### Constraints that say the same -/

/-- The two constraints say the same. -/
structure ConSame (isNum : Str → Bool) (d e : Rdbms) (v w : ColCon) : Prop where
  pk : v.isPrimaryKey = w.isPrimaryKey
  uq : v.isUnique = w.isUnique
  nn : v.isNotNull = w.isNotNull
  ai : v.isAutoincrement = w.isAutoincrement
  df : v.dflt.map (dfltVal isNum d) = w.dflt.map (dfltVal isNum e)
  ck : v.checked = w.checked
  co : v.collation.map (nameVal d) = w.collation.map (nameVal e)
  rf : v.reference.map (refVal d) = w.reference.map (refVal e)
  pl : (∀ r, v = .references r → r.Plain) ↔ (∀ r, w = .references r → r.Plain)

/-- A constraint that is not reported. -/
def Silent (v : ColCon) : Prop := v = .null ∨ ∃ k, v = .other k

theorem Silent.same {v w : ColCon} (hv : Silent v) (hw : Silent w) : ConSame isNum d e v w := by
  rcases hv with rfl | ⟨k, rfl⟩ <;> rcases hw with rfl | ⟨k', rfl⟩ <;>
    exact ⟨rfl, rfl, rfl, rfl, rfl, rfl, rfl, rfl, by simp⟩

/-- The constraints of two columns say the same. -/
structure ConsSame (isNum : Str → Bool) (d e : Rdbms) (vs ws : List ColCon) : Prop where
  pk : vs.any ColCon.isPrimaryKey = ws.any ColCon.isPrimaryKey
  uq : vs.any ColCon.isUnique = ws.any ColCon.isUnique
  nn : vs.any ColCon.isNotNull = ws.any ColCon.isNotNull
  ai : vs.any ColCon.isAutoincrement = ws.any ColCon.isAutoincrement
  df : (vs.findSome? ColCon.dflt).map (dfltVal isNum d) = (ws.findSome? ColCon.dflt).map (dfltVal isNum e)
  ck : vs.findSome? ColCon.checked = ws.findSome? ColCon.checked
  co : (vs.findSome? ColCon.collation).map (nameVal d) = (ws.findSome? ColCon.collation).map (nameVal e)
  rf : (vs.findSome? ColCon.reference).map (refVal d) = (ws.findSome? ColCon.reference).map (refVal e)
  pl : (∀ r, .references r ∈ vs → r.Plain) ↔ (∀ r, .references r ∈ ws → r.Plain)

theorem ConsSame.nil : ConsSame isNum d e [] [] := ⟨rfl, rfl, rfl, rfl, rfl, rfl, rfl, rfl, by simp⟩

theorem findSome_map {f : α → Option β} {g : α → Option β} {F G : β → γ} {v w : α} {vs ws : List α}
    (h : (f v).map F = (g w).map G) (hs : (vs.findSome? f).map F = (ws.findSome? g).map G) :
    ((v :: vs).findSome? f).map F = ((w :: ws).findSome? g).map G := by
  rw [List.findSome?_cons, List.findSome?_cons]
  cases hf : f v <;> cases hg : g w <;> rw [hf, hg] at h
  · exact hs
  · cases h
  · cases h
  · exact h

theorem ConsSame.cons {v w : ColCon} {vs ws : List ColCon} (h : ConSame isNum d e v w) (hs : ConsSame isNum d e vs ws) :
    ConsSame isNum d e (v :: vs) (w :: ws) := by
  refine ⟨?_, ?_, ?_, ?_, findSome_map h.df hs.df, ?_, findSome_map h.co hs.co, findSome_map h.rf hs.rf, ?_⟩
  · rw [List.any_cons, List.any_cons, h.pk, hs.pk]
  · rw [List.any_cons, List.any_cons, h.uq, hs.uq]
  · rw [List.any_cons, List.any_cons, h.nn, hs.nn]
  · rw [List.any_cons, List.any_cons, h.ai, hs.ai]
  · rw [List.findSome?_cons, List.findSome?_cons, h.ck, hs.ck]
  · have e1 : ∀ (v : ColCon) (vs : List ColCon), (∀ r, ColCon.references r ∈ v :: vs → r.Plain) ↔
        (∀ r, v = .references r → r.Plain) ∧ (∀ r, ColCon.references r ∈ vs → r.Plain) := by
      intro v vs
      simp only [List.mem_cons]
      constructor
      · intro h; exact ⟨fun r hr => h r (.inl hr.symm), fun r hr => h r (.inr hr)⟩
      · rintro ⟨h1, h2⟩ r (hr | hr)
        · exact h1 r hr.symm
        · exact h2 r hr
    rw [e1, e1, h.pl, hs.pl]

theorem ConsSame.skip {w : ColCon} {vs ws : List ColCon} (h : Silent w) (hs : ConsSame isNum d e vs ws) :
    ConsSame isNum d e vs (w :: ws) := by
  rcases h with rfl | ⟨k, rfl⟩ <;>
  exact ⟨hs.pk, hs.uq, hs.nn, hs.ai, hs.df, hs.ck, hs.co, hs.rf, by rw [hs.pl]; simp⟩

/-! ### Many constraints -/

/-- The ways in which two dialects can read a constraint. -/
inductive Step (isNum : Str → Bool) (d e : Rdbms) (v w : ColCon) (r s : List Str) : Prop
  | same (h : r = s) (h' : ConSame isNum d e v w)
  | stuckL (h : Dead isNum d r)
  | stuckR (h : Dead isNum e s)
  /-- the second dialect reads STORED as a constraint of its own -/
  | split (hv : Silent v) (hw : Silent w) (k : Str) (h : s = k :: r) (hk : Kw ["STORED", "VIRTUAL"] k)
      (he : ∀ w' m, colConOf isNum e s w' m → Silent w' ∧ m = r)
  /-- the second dialect reads NOT as a part of CHECK -/
  | check (hm : e = .mysql) (x : List Str) (hv : v = .check x) (h : HeadIn ["NOT"] r)
      (hd : ∀ v' m, colConOf isNum d r v' m → v' = .notNull)
      (hf : HeadIn (colConFirstOf d) r)

/-- In no place a CHECK is directly followed by NOT NULL. -/
def NoCheckNot (cs : List ColCon) : Prop := ∀ a x b, cs ≠ a ++ ColCon.check x :: ColCon.notNull :: b

theorem NoCheckNot.tail {v : ColCon} {vs : List ColCon} (h : NoCheckNot (v :: vs)) : NoCheckNot vs := by
  intro a x b hab
  exact h (v :: a) x b (by rw [hab]; rfl)

theorem Stuck.dead {ts : List Str} (hs : Stuck d ts) : Dead isNum d ts := by
  intro vs r h he
  cases h with
  | nil => exact AtEnd.not_stuck he hs
  | cons hk => exact first_follow (at_headIn hk) hs

theorem cons_same (hend : ∀ d, ∀ t ∈ kwList [",", ")"], ¬ Kw (colConFirstOf d) t)
    (hcol : ∀ ts v r w s, colConOf isNum d ts v r → colConOf isNum e ts w s → Step isNum d e v w r s)
    {ts r s : List Str} {vs ws : List ColCon} (h1 : Many (colConFirstOf d) (colConOf isNum d) ts vs r)
    (h2 : Many (colConFirstOf e) (colConOf isNum e) ts ws s) (hr : AtEnd r) (hs : AtEnd s) (hn : e = .mysql → NoCheckNot vs) :
    r = s ∧ ConsSame isNum d e vs ws := by
  induction h1 generalizing ws s with
  | nil h =>
    cases h2 with
    | nil => exact ⟨rfl, .nil⟩
    | cons hk => exact absurd (at_headIn hk) (hr.disj (hend e))
  | cons hk h hs1 ih =>
    cases h2 with
    | nil => exact absurd (at_headIn hk) (hs.disj (hend d))
    | cons hk' h' hs2 =>
      cases hcol _ _ _ _ _ h h' with
      | same e1 e2 =>
        subst e1
        obtain ⟨rfl, h3⟩ := ih hs2 hr hs fun h => (hn h).tail
        exact ⟨rfl, .cons e2 h3⟩
      | stuckL e1 => exact absurd hr (e1 _ _ hs1)
      | stuckR e1 => exact absurd hs (e1 _ _ hs2)
      | split hv hw k e1 hk1 he =>
        cases hs2 with
        | nil =>
          subst e1
          obtain ⟨t, x, e2, ht⟩ := hs
          cases e2
          exact absurd ht (kw_disj hk1 (by decide))
        | cons hk2 h2 hs3 =>
          obtain ⟨h4, rfl⟩ := he _ _ h2
          obtain ⟨rfl, h3⟩ := ih hs3 hr hs fun h => (hn h).tail
          exact ⟨rfl, .cons (hv.same hw) (.skip h4 h3)⟩
      | check hm x hv _ hd hf =>
        cases hs1 with
        | nil hnn => exact absurd hf (notAt_headIn hnn)
        | cons _ h3 hs3 =>
          cases hd _ _ h3
          subst hv
          exact absurd rfl (hn hm [] x _)

/-! ### The constraints -/

/-- The constraints that the dialects share. -/
inductive CK | pk | notNull | null | unique | check | dflt | collate

/-- First word. -/
def CK.word : CK → String
  | .pk => "PRIMARY"
  | .notNull => "NOT"
  | .null => "NULL"
  | .unique => "UNIQUE"
  | .check => "CHECK"
  | .dflt => "DEFAULT"
  | .collate => "COLLATE"

/-- The part after the first word that the dialects share. -/
def CK.body (isNum : Str → Bool) (d : Rdbms) : CK → Lang ColCon
  | .pk => do kw ["KEY"]; return .primaryKey false
  | .notNull => do kw ["NULL"]; return .notNull
  | .null => return .null
  | .unique => return .unique
  | .check => do let e ← parens; return .check e
  | .dflt => do let v ← defaultValue isNum d; return .default v
  | .collate => do let c ← tok (fun t => Name d t ∨ Kw ["BINARY", "NOCASE", "RTRIM"] t); return .collate c

/-- First words of the part that the dialects do not share. -/
def tailKs : Rdbms → CK → List String
  | .sqlite, .pk => ["ASC", "DESC", "ON", "AUTOINCREMENT"]
  | .sqlite, .notNull => ["ON"]
  | .sqlite, .unique => ["ON"]
  | .postgres, .pk => ["INCLUDE", "WITH", "USING"]
  | .postgres, .unique => ["INCLUDE", "WITH", "USING"]
  | .postgres, .check => ["NO"]
  | .mysql, .unique => ["KEY"]
  | .mysql, .dflt => ["ON"]
  | _, _ => []

/-- First words of constraints that only one dialect has. -/
def onlyKs : Rdbms → List String
  | .mysql => ["KEY", "COMMENT", "COLUMN_FORMAT", "ENGINE_ATTRIBUTE", "SECONDARY_ENGINE_ATTRIBUTE", "STORAGE",
     "VISIBLE", "INVISIBLE", "VIRTUAL", "STORED", "AUTO_INCREMENT"]
  | _ => []

/-- The clauses after a reference. -/
def refTail : Rdbms → Lang Unit
  | .sqlite => Sqlite.refClauses
  | _ => Spec.refClauses

/-- What follows a generated column. -/
def genTail : Rdbms → List Str → List Str → Prop
  | .sqlite => fun m r => ∃ b, optWord ["STORED", "VIRTUAL"] m b r
  | .postgres => fun m r => kw ["STORED"] m () r
  | _ => fun m r => r = m

/-- The forms of a constraint. -/
inductive Inv (isNum : Str → Bool) (d : Rdbms) (ts : List Str) (v : ColCon) (r : List Str) : Prop
  | simple (k : CK) (a : Str) (x : List Str) (v0 : ColCon) (m : List Str) (h : ts = a :: x) (ha : Kw [k.word] a)
      (hb : k.body isNum d x v0 m)
      (ht : (r = m ∧ v = v0) ∨ (HeadIn (tailKs d k) m ∧ (k = .notNull → v = .notNull)))
  | mycheck (hd : d = .mysql) (a : Str) (x e m m' : List Str) (b b' : Bool) (h : ts = a :: x) (ha : Kw ["CHECK"] a)
      (hp : parens x e m) (hv : v = .check e) (hn : optWord ["NOT"] m b m') (he : optWord ["ENFORCED"] m' b' r)
  | ref (rf : Ref) (m : List Str) (h : colRef d ts rf m) (ht : refTail d m () r) (hv : v = .references rf)
  | gen (a b c : Str) (x p m : List Str) (h : ts = a :: b :: c :: x) (ha : Kw ["GENERATED"] a) (hb : Kw ["ALWAYS"] b)
      (hc : Kw ["AS"] c) (hp : parens x p m) (ht : genTail d m r) (hv : Silent v)
  | as_ (a : Str) (x p m : List Str) (h : ts = a :: x) (ha : Kw ["AS"] a) (hp : parens x p m) (ht : genTail d m r)
      (hv : Silent v) (hd : d ≠ .postgres)
  | ident (hd : d = .postgres) (a : Str) (x : List Str) (h : ts = a :: x) (ha : Kw ["GENERATED"] a)
      (hn : ∀ b c y p m, x = b :: c :: y → Kw ["ALWAYS"] b → Kw ["AS"] c → parens y p m → False)
  | only (h : HeadIn (onlyKs d) ts)

theorem conflict_tail {m r : List Str} {u : Unit} (h : Sqlite.conflict m u r) : r = m ∨ HeadIn ["ON"] m := by
  obtain ⟨_, _, h, _, rfl⟩ := h
  rcases optKw_def.1 h with ⟨t, x, v, rfl, ht, _⟩ | ⟨_, rfl, _⟩
  · exact .inr ⟨t, x, rfl, ht⟩
  · exact .inl rfl

theorem indexParams_tail {m r : List Str} {u : Unit} (h : Postgres.indexParams m u r) :
    r = m ∨ HeadIn ["INCLUDE", "WITH", "USING"] m := by
  obtain ⟨_, _, h1, _, _, h2, _, _, h3, _, rfl⟩ := h
  rcases optKw_def.1 h1 with ⟨t, x, v, rfl, ht, _⟩ | ⟨_, rfl, _⟩
  · exact .inr ⟨t, x, rfl, Kw.mono (by decide) ht⟩
  rcases optKw_def.1 h2 with ⟨t, x, v, rfl, ht, _⟩ | ⟨_, rfl, _⟩
  · exact .inr ⟨t, x, rfl, Kw.mono (by decide) ht⟩
  rcases optKw_def.1 h3 with ⟨t, x, v, rfl, ht, _⟩ | ⟨_, rfl, _⟩
  · exact .inr ⟨t, x, rfl, Kw.mono (by decide) ht⟩
  · exact .inl rfl

theorem inv_sqlite {ts r : List Str} {v : ColCon} (h : Sqlite.colCon isNum ts v r) : Inv isNum .sqlite ts v r := by
  rcases h with h | h | h | h | h | h | h | h | h
  · obtain ⟨_, _, h1, _, _, h2, _, _, h3, _, _, h4, b, _, h5, rfl, rfl⟩ := h
    obtain ⟨t, rfl, ht⟩ := kw_def.1 h1
    refine .simple .pk t _ (.primaryKey false) _ rfl ht ⟨_, _, h2, rfl, rfl⟩ ?_
    rcases optWord_def.1 h3 with ⟨_, t, rfl, ht⟩ | ⟨_, rfl, _⟩
    · exact .inr ⟨⟨t, _, rfl, Kw.mono (by decide) ht⟩, by intro h; cases h⟩
    rcases conflict_tail h4 with rfl | h4
    · rcases optWord_def.1 h5 with ⟨_, t, rfl, ht⟩ | ⟨rfl, rfl, _⟩
      · exact .inr ⟨⟨t, _, rfl, Kw.mono (by decide) ht⟩, by intro h; cases h⟩
      · exact .inl ⟨rfl, rfl⟩
    · exact .inr ⟨h4.mono (by decide), by intro h; cases h⟩
  · obtain ⟨_, _, h1, _, _, h2, _, _, h3, rfl, rfl⟩ := h
    obtain ⟨t, rfl, ht⟩ := kw_def.1 h1
    refine .simple .notNull t _ .notNull _ rfl ht ⟨_, _, h2, rfl, rfl⟩ ?_
    rcases conflict_tail h3 with rfl | h4
    · exact .inl ⟨rfl, rfl⟩
    · exact .inr ⟨h4, fun _ => rfl⟩
  · obtain ⟨_, _, h1, _, _, h3, rfl, rfl⟩ := h
    obtain ⟨t, rfl, ht⟩ := kw_def.1 h1
    refine .simple .unique t _ .unique _ rfl ht ⟨rfl, rfl⟩ ?_
    rcases conflict_tail h3 with rfl | h4
    · exact .inl ⟨rfl, rfl⟩
    · exact .inr ⟨h4, by intro h; cases h⟩
  · obtain ⟨_, _, h1, e, _, h3, rfl, rfl⟩ := h
    obtain ⟨t, rfl, ht⟩ := kw_def.1 h1
    exact .simple .check t _ (.check e) _ rfl ht ⟨_, _, h3, rfl, rfl⟩ (.inl ⟨rfl, rfl⟩)
  · obtain ⟨_, _, h1, e, _, h3, rfl, rfl⟩ := h
    obtain ⟨t, rfl, ht⟩ := kw_def.1 h1
    exact .simple .dflt t _ (.default e) _ rfl ht ⟨_, _, h3, rfl, rfl⟩ (.inl ⟨rfl, rfl⟩)
  · obtain ⟨_, _, h1, e, _, ⟨rfl, h3⟩, rfl, rfl⟩ := h
    obtain ⟨t, rfl, ht⟩ := kw_def.1 h1
    exact .simple .collate t _ (.collate e) _ rfl ht ⟨_, _, ⟨rfl, .inr h3⟩, rfl, rfl⟩ (.inl ⟨rfl, rfl⟩)
  · obtain ⟨rf, _, h1, _, _, h3, rfl, rfl⟩ := h
    exact .ref rf _ h1 h3 rfl
  · obtain ⟨_, _, h1, _, _, h2, _, _, h3, p, _, h4, b, _, h5, rfl, rfl⟩ := h
    obtain ⟨t, rfl, ht⟩ := kw_def.1 h1
    obtain ⟨t', rfl, ht'⟩ := kw_def.1 h2
    obtain ⟨t'', rfl, ht''⟩ := kw_def.1 h3
    exact .gen t t' t'' _ p _ rfl ht ht' ht'' h4 ⟨b, h5⟩ (.inr ⟨_, rfl⟩)
  · obtain ⟨_, _, h1, p, _, h4, b, _, h5, rfl, rfl⟩ := h
    obtain ⟨t, rfl, ht⟩ := kw_def.1 h1
    exact .as_ t _ p _ rfl ht h4 ⟨b, h5⟩ (.inr ⟨_, rfl⟩) (by decide)

theorem parens_head {ts e r : List Str} (h : parens ts e r) : ∃ x, ts = ['('] :: x := by
  obtain ⟨e, _, rfl, rfl⟩ := h
  exact ⟨_, rfl⟩

theorem inv_postgres {ts r : List Str} {v : ColCon} (h : Postgres.colCon isNum ts v r) : Inv isNum .postgres ts v r := by
  rcases h with h | h | h | h | h | h | h | h
  · obtain ⟨_, _, h1, _, _, h2, _, _, h3, rfl, rfl⟩ := h
    obtain ⟨t, rfl, ht⟩ := kw_def.1 h1
    refine .simple .pk t _ (.primaryKey false) _ rfl ht ⟨_, _, h2, rfl, rfl⟩ ?_
    rcases indexParams_tail h3 with rfl | h4
    · exact .inl ⟨rfl, rfl⟩
    · exact .inr ⟨h4, by intro h; cases h⟩
  · obtain ⟨_, _, h1, _, _, h2, rfl, rfl⟩ := h
    obtain ⟨t, rfl, ht⟩ := kw_def.1 h1
    exact .simple .notNull t _ .notNull _ rfl ht ⟨_, _, h2, rfl, rfl⟩ (.inl ⟨rfl, rfl⟩)
  · obtain ⟨_, _, h1, rfl, rfl⟩ := h
    obtain ⟨t, rfl, ht⟩ := kw_def.1 h1
    exact .simple .null t _ .null _ rfl ht ⟨rfl, rfl⟩ (.inl ⟨rfl, rfl⟩)
  · obtain ⟨_, _, h1, _, _, h3, rfl, rfl⟩ := h
    obtain ⟨t, rfl, ht⟩ := kw_def.1 h1
    refine .simple .unique t _ .unique _ rfl ht ⟨rfl, rfl⟩ ?_
    rcases indexParams_tail h3 with rfl | h4
    · exact .inl ⟨rfl, rfl⟩
    · exact .inr ⟨h4, by intro h; cases h⟩
  · obtain ⟨e, _, ⟨_, _, h1, e', _, h3, _, _, h4, rfl, rfl⟩, rfl, rfl⟩ := h
    obtain ⟨t, rfl, ht⟩ := kw_def.1 h1
    refine .simple .check t _ (.check e) _ rfl ht ⟨_, _, h3, rfl, rfl⟩ ?_
    rcases optKw_def.1 h4 with ⟨t, x, v, rfl, ht, _⟩ | ⟨_, rfl, _⟩
    · exact .inr ⟨⟨t, x, rfl, ht⟩, by intro h; cases h⟩
    · exact .inl ⟨rfl, rfl⟩
  · obtain ⟨_, _, h1, e, _, h3, rfl, rfl⟩ := h
    obtain ⟨t, rfl, ht⟩ := kw_def.1 h1
    exact .simple .dflt t _ (.default e) _ rfl ht ⟨_, _, h3, rfl, rfl⟩ (.inl ⟨rfl, rfl⟩)
  · obtain ⟨rf, _, h1, _, _, h3, rfl, rfl⟩ := h
    exact .ref rf _ h1 h3 rfl
  · obtain ⟨_, _, h1, _, _, h2, rfl, rfl⟩ := h
    obtain ⟨t, rfl, ht⟩ := kw_def.1 h1
    rcases h2 with h2 | h2 | h2
    · obtain ⟨_, _, h3, _, _, h4, h5⟩ := h2
      obtain ⟨t', rfl, ht'⟩ := kw_def.1 h3
      obtain ⟨t'', rfl, ht''⟩ := kw_def.1 h4
      rcases h5 with ⟨_, _, h6, _⟩ | ⟨p, _, h6, h7⟩
      · obtain ⟨t3, rfl, ht3⟩ := kw_def.1 h6
        refine .ident rfl t _ rfl ht ?_
        rintro b c y p m e _ _ hp
        cases e
        obtain ⟨x, e⟩ := parens_head hp
        cases e
        revert ht3; decide
      · exact .gen t t' t'' _ p _ rfl ht ht' ht'' h6 h7 (.inr ⟨_, rfl⟩)
    · obtain ⟨_, _, h3, _⟩ := h2
      obtain ⟨t', rfl, ht'⟩ := kw_def.1 h3
      refine .ident rfl t _ rfl ht ?_
      rintro b c y p m e hb _ _
      cases e
      exact kw_disj ht' (by decide) hb
    · obtain ⟨_, _, h3, _⟩ := h2
      obtain ⟨t', rfl, ht'⟩ := kw_def.1 h3
      refine .ident rfl t _ rfl ht ?_
      rintro b c y p m e hb _ _
      cases e
      exact kw_disj ht' (by decide) hb

theorem inv_mysql {ts r : List Str} {v : ColCon} (h : Mysql.colCon isNum ts v r) : Inv isNum .mysql ts v r := by
  rcases h with h | h | h | h | h | h | h | h | h | h | h | h
  · obtain ⟨_, _, h1, _⟩ := h
    obtain ⟨t, rfl, ht⟩ := kw_def.1 h1
    exact .only ⟨t, _, rfl, Kw.mono (by decide) ht⟩
  · obtain ⟨_, _, h1, _, _, h2, rfl, rfl⟩ := h
    obtain ⟨t, rfl, ht⟩ := kw_def.1 h1
    exact .simple .pk t _ (.primaryKey false) _ rfl ht ⟨_, _, h2, rfl, rfl⟩ (.inl ⟨rfl, rfl⟩)
  · obtain ⟨_, _, h1, _, _, h2, rfl, rfl⟩ := h
    obtain ⟨t, rfl, ht⟩ := kw_def.1 h1
    exact .simple .notNull t _ .notNull _ rfl ht ⟨_, _, h2, rfl, rfl⟩ (.inl ⟨rfl, rfl⟩)
  · obtain ⟨_, _, h1, rfl, rfl⟩ := h
    obtain ⟨t, rfl, ht⟩ := kw_def.1 h1
    exact .simple .null t _ .null _ rfl ht ⟨rfl, rfl⟩ (.inl ⟨rfl, rfl⟩)
  · obtain ⟨_, _, h1, _, _, h3, rfl, rfl⟩ := h
    obtain ⟨t, rfl, ht⟩ := kw_def.1 h1
    refine .simple .unique t _ .unique _ rfl ht ⟨rfl, rfl⟩ ?_
    rcases optWord_def.1 h3 with ⟨_, t, rfl, ht⟩ | ⟨_, rfl, _⟩
    · exact .inr ⟨⟨t, _, rfl, ht⟩, by intro h; cases h⟩
    · exact .inl ⟨rfl, rfl⟩
  · obtain ⟨e, _, ⟨_, _, h1, e', _, h3, _, _, h4, _, _, h5, rfl, rfl⟩, rfl, rfl⟩ := h
    obtain ⟨t, rfl, ht⟩ := kw_def.1 h1
    exact .mycheck rfl t _ e _ _ _ _ rfl ht h3 rfl h4 h5
  · obtain ⟨_, _, h1, h2⟩ := h
    obtain ⟨t, rfl, ht⟩ := kw_def.1 h1
    rcases h2 with ⟨_, _, h2, p, _, h3, rfl, rfl⟩ | ⟨_, _, h2, l, _, h3, _, _, h4, rfl, rfl⟩
    · exact .simple .dflt t _ (.default (.expr p)) _ rfl ht ⟨_, _, .inl ⟨_, _, h2, _, _, h3, rfl, rfl⟩, rfl, rfl⟩
        (.inl ⟨rfl, rfl⟩)
    · refine .simple .dflt t _ (.default (.lit l)) _ rfl ht ⟨_, _, .inr ⟨_, _, h2, _, _, h3, rfl, rfl⟩, rfl, rfl⟩ ?_
      rcases optKw_def.1 h4 with ⟨t, x, v, rfl, ht, _⟩ | ⟨_, rfl, _⟩
      · exact .inr ⟨⟨t, x, rfl, ht⟩, by intro h; cases h⟩
      · exact .inl ⟨rfl, rfl⟩
  · obtain ⟨_, _, h1, e, _, ⟨rfl, h3⟩, rfl, rfl⟩ := h
    obtain ⟨t, rfl, ht⟩ := kw_def.1 h1
    exact .simple .collate t _ (.collate e) _ rfl ht ⟨_, _, ⟨rfl, .inl h3⟩, rfl, rfl⟩ (.inl ⟨rfl, rfl⟩)
  · obtain ⟨rf, _, h1, _, _, h3, rfl, rfl⟩ := h
    exact .ref rf _ h1 h3 rfl
  · obtain ⟨_, _, h1, _, _, h2, _, _, h3, p, _, h4, rfl, rfl⟩ := h
    obtain ⟨t, rfl, ht⟩ := kw_def.1 h1
    obtain ⟨t', rfl, ht'⟩ := kw_def.1 h2
    obtain ⟨t'', rfl, ht''⟩ := kw_def.1 h3
    exact .gen t t' t'' _ p _ rfl ht ht' ht'' h4 rfl (.inr ⟨_, rfl⟩)
  · obtain ⟨_, _, h1, p, _, h4, rfl, rfl⟩ := h
    obtain ⟨t, rfl, ht⟩ := kw_def.1 h1
    exact .as_ t _ p _ rfl ht h4 rfl (.inr ⟨_, rfl⟩) (by decide)
  · rcases h with h | h | h | h | h | h | h | h | h | h <;>
    · obtain ⟨_, _, h1, _⟩ := h
      obtain ⟨t, rfl, ht⟩ := kw_def.1 h1
      exact .only ⟨t, _, rfl, Kw.mono (by decide) ht⟩

theorem inv_of (hd : d ≠ .other) {ts r : List Str} {v : ColCon} (h : colConOf isNum d ts v r) : Inv isNum d ts v r := by
  cases d
  · exact inv_sqlite h
  · exact inv_postgres h
  · exact inv_mysql h
  · exact absurd rfl hd

end DDL
