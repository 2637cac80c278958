import Verif.Proof.AgreeItem
import Verif.Proof.LexBare
/-
Reading the same text with two dialects: table options, statements, scripts, tokens.
-/

namespace DDL
open V Spec Conv

variable {isNum : Str → Bool} {d e : Rdbms}

/-! ### The entries of a table -/

theorem comma_end {ts r : List Str} {u : Unit} (h : kw [","] ts u r) : AtEnd ts := by
  obtain ⟨t, rfl, ht⟩ := kw_def.1 h
  exact ⟨t, _, rfl, Kw.mono (by decide) ht⟩

theorem close_end {ts r : List Str} {u : Unit} (h : kw [")"] ts u r) : AtEnd ts := by
  obtain ⟨t, rfl, ht⟩ := kw_def.1 h
  exact ⟨t, _, rfl, Kw.mono (by decide) ht⟩

theorem items_same (hp : Pair d e) {ts r s r' s' : List Str} {is js : List Item} {u w : Unit}
    (h1 : Sep (itemOf isNum d) ts is r) (h2 : Sep (itemOf isNum e) ts js s) (hr : kw [")"] r u r') (hs : kw [")"] s w s')
    (hok : e = .mysql → ∀ i ∈ is, ItemOk i) : r' = s' ∧ Each (ItemSame isNum d e) is js := by
  induction h1 generalizing js s with
  | one h hn =>
    have hi := fun h => hok h _ (List.mem_cons_self ..)
    cases h2 with
    | one h2 hn' =>
      obtain ⟨rfl, hj⟩ := item_same hp h h2 (close_end hr) (close_end hs) hi
      exact ⟨kw_same hr hs, .cons hj .nil⟩
    | cons h2 hc =>
      obtain ⟨rfl, _⟩ := item_same hp h h2 (close_end hr) (comma_end hc) hi
      exact (kw_clash (by decide) hr hc).elim
  | cons h hc h1 ih =>
    have hi := fun h => hok h _ (List.mem_cons_self ..)
    cases h2 with
    | one h2 hn' =>
      obtain ⟨rfl, _⟩ := item_same hp h h2 (comma_end hc) (close_end hs) hi
      exact (kw_clash (by decide) hs hc).elim
    | cons h2 hc' h3 =>
      obtain ⟨rfl, hj⟩ := item_same hp h h2 (comma_end hc) (comma_end hc') hi
      cases kw_same hc hc'
      obtain ⟨h4, h5⟩ := ih h3 hr hs fun h i hi => hok h i (List.mem_cons_of_mem _ hi)
      exact ⟨h4, .cons hj h5⟩

/-- Columns and constraints of two tables. -/
theorem items_vals {is js : List Item} (h : Each (ItemSame isNum d e) is js) :
    is.filterMap (Item.column? isNum d) = js.filterMap (Item.column? isNum e) ∧
    is.filterMap (Item.primaryKey? d) = js.filterMap (Item.primaryKey? e) ∧
    is.filterMap (Item.unique? d) = js.filterMap (Item.unique? e) ∧
    is.filterMap (Item.check? d) = js.filterMap (Item.check? e) ∧
    is.filterMap (Item.foreignKey? d) = js.filterMap (Item.foreignKey? e) ∧
    ((∀ i ∈ is, i.Faithful) ↔ ∀ j ∈ js, j.Faithful) := by
  induction h with
  | nil => exact ⟨rfl, rfl, rfl, rfl, rfl, by simp⟩
  | cons h _ ih =>
    obtain ⟨h1, h2, h3, h4, h5, h6⟩ := ih
    refine ⟨?_, ?_, ?_, ?_, ?_, ?_⟩
    · rw [List.filterMap_cons, List.filterMap_cons, h.co, h1]
    · rw [List.filterMap_cons, List.filterMap_cons, h.pk, h2]
    · rw [List.filterMap_cons, List.filterMap_cons, h.uq, h3]
    · rw [List.filterMap_cons, List.filterMap_cons, h.ck, h4]
    · rw [List.filterMap_cons, List.filterMap_cons, h.fk, h5]
    · rw [List.forall_mem_cons, List.forall_mem_cons, h.fa, h6]

/-! ### Options -/

/-- The table options. -/
def optionsOf (isNum : Str → Bool) : Rdbms → Lang Unit
  | .postgres => Options Postgres.option
  | .mysql => Options (Mysql.option isNum)
  | _ => Sqlite.options

theorem pg_option_first {ts r : List Str} {u : Unit} (h : Postgres.option ts u r) :
    HeadIn ["WITH", "INHERITS", "PARTITION", "USING"] ts ∨ Head2 ["WITHOUT"] ["OIDS"] ts ∨
      ∃ a n, ts = a :: n :: r ∧ Kw ["TABLESPACE"] a := by
  rcases h with h | h | h | h | h | h
  · obtain ⟨_, _, h, _⟩ := h
    obtain ⟨t, rfl, ht⟩ := kw_def.1 h
    exact .inl ⟨t, _, rfl, Kw.mono (by decide) ht⟩
  · obtain ⟨_, _, h, h'⟩ := h
    obtain ⟨t, rfl, ht⟩ := kw_def.1 h
    obtain ⟨t', rfl, ht'⟩ := kw_def.1 h'
    exact .inr (.inl ⟨t, t', _, rfl, ht, ht'⟩)
  · obtain ⟨_, _, h, n, _, ⟨rfl, _⟩, _, rfl⟩ := h
    obtain ⟨t, rfl, ht⟩ := kw_def.1 h
    exact .inr (.inr ⟨t, n, rfl, ht⟩)
  · obtain ⟨_, _, h, _⟩ := h
    obtain ⟨t, rfl, ht⟩ := kw_def.1 h
    exact .inl ⟨t, _, rfl, Kw.mono (by decide) ht⟩
  · obtain ⟨_, _, h, _⟩ := h
    obtain ⟨t, rfl, ht⟩ := kw_def.1 h
    exact .inl ⟨t, _, rfl, Kw.mono (by decide) ht⟩
  · obtain ⟨_, _, h, _⟩ := h
    obtain ⟨t, rfl, ht⟩ := kw_def.1 h
    exact .inl ⟨t, _, rfl, Kw.mono (by decide) ht⟩

/-- First words of the options of MySQL other than TABLESPACE. -/
def myOptionFirst : List String :=
  ["AUTOEXTEND_SIZE", "AUTO_INCREMENT", "AVG_ROW_LENGTH", "KEY_BLOCK_SIZE", "MAX_ROWS", "MIN_ROWS", "STATS_SAMPLE_PAGES",
   "COMMENT", "ENGINE_ATTRIBUTE", "PASSWORD", "SECONDARY_ENGINE_ATTRIBUTE", "CONNECTION", "COMPRESSION", "ENCRYPTION",
   "CHARACTER", "COLLATE", "ENGINE", "CHECKSUM", "DELAY_KEY_WRITE", "PACK_KEYS", "STATS_AUTO_RECALC", "STATS_PERSISTENT",
   "DATA", "INDEX", "DEFAULT", "UNION", "INSERT_METHOD", "ROW_FORMAT"]

theorem my_option_first {ts r : List Str} {u : Unit} (h : Mysql.option isNum ts u r) :
    HeadIn myOptionFirst ts ∨ ∃ a n m, ts = a :: n :: m ∧ Kw ["TABLESPACE"] a ∧ (r = m ∨ HeadIn ["STORAGE"] m) := by
  have hb : ∀ {ks : List String} {f : Unit → Lang Unit}, (∀ k ∈ ks, k ∈ myOptionFirst) →
      (Lang.bind (kw ks) f) ts u r → HeadIn myOptionFirst ts := by
    rintro ks f hk ⟨_, _, h, _⟩
    obtain ⟨t, rfl, ht⟩ := kw_def.1 h
    exact ⟨t, _, rfl, Kw.mono hk ht⟩
  rcases h with h | h | h | h | h | h | h | h | h | h | h
  · exact .inl (hb (by decide) h)
  · exact .inl (hb (by decide) h)
  · obtain ⟨_, _, h, _⟩ := h
    rcases h with ⟨_, _, h, _⟩ | h
    · obtain ⟨t, rfl, ht⟩ := kw_def.1 h
      exact .inl ⟨t, _, rfl, Kw.mono (by decide) ht⟩
    · obtain ⟨t, rfl, ht⟩ := kw_def.1 h
      exact .inl ⟨t, _, rfl, Kw.mono (by decide) ht⟩
  · exact .inl (hb (by decide) h)
  · exact .inl (hb (by decide) h)
  · exact .inl (hb (by decide) h)
  · obtain ⟨_, _, h, n, _, ⟨rfl, _⟩, _, _, h', _, rfl⟩ := h
    obtain ⟨t, rfl, ht⟩ := kw_def.1 h
    refine .inr ⟨t, n, _, rfl, ht, ?_⟩
    rcases optKw_def.1 h' with ⟨t, y, v, rfl, ht, _⟩ | ⟨_, rfl, _⟩
    · exact .inr ⟨t, y, rfl, ht⟩
    · exact .inl rfl
  · exact .inl (hb (by decide) h)
  · exact .inl (hb (by decide) h)
  · exact .inl (hb (by decide) h)
  · exact .inl (hb (by decide) h)

/-- Options that start with the word of another dialect. -/
theorem options_head {L : Lang Unit} {ts r : List Str} {u : Unit} (h : Options L ts u r) :
    r = ts ∨ ∃ b mid mid', optWord [","] ts b mid ∧ L mid () mid' := by
  cases h with
  | stop h => exact .inl rfl
  | more _ hc h => exact .inr ⟨_, _, _, hc, h⟩

theorem sqlite_options {m r r' : List Str} {u w : Unit} (h : Sqlite.options m u r) (hr : kw [";"] r w r') :
    HeadIn [";"] m ∨ Head2 ["WITHOUT"] ["ROWID"] m ∨ HeadIn ["STRICT"] m := by
  rcases h with h | h | h
  · obtain ⟨_, _, h, _, _, h', _⟩ := h
    obtain ⟨t, rfl, ht⟩ := kw_def.1 h
    obtain ⟨t', rfl, ht'⟩ := kw_def.1 h'
    exact .inr (.inl ⟨t, t', _, rfl, ht, ht'⟩)
  · obtain ⟨_, _, h, _⟩ := h
    obtain ⟨t, rfl, ht⟩ := kw_def.1 h
    exact .inr (.inr ⟨t, _, rfl, ht⟩)
  · obtain ⟨rfl, _⟩ := h
    obtain ⟨t, rfl, ht⟩ := kw_def.1 hr
    exact .inl ⟨t, _, rfl, ht⟩

theorem sqlite_options_end {m r : List Str} {u : Unit} (h : Sqlite.options m u r) (hm : HeadIn [";"] m) : r = m := by
  rcases h with h | h | h
  · obtain ⟨_, _, h, _⟩ := h
    obtain ⟨t, rfl, ht⟩ := kw_def.1 h
    exact (clash hm ⟨t, _, rfl, ht⟩ (by decide)).elim
  · obtain ⟨_, _, h, _⟩ := h
    obtain ⟨t, rfl, ht⟩ := kw_def.1 h
    exact (clash hm ⟨t, _, rfl, ht⟩ (by decide)).elim
  · exact h.1

theorem options_end {L : Lang Unit} {m r : List Str} {u : Unit} (h : Options L m u r) (hm : HeadIn [";"] m) : r = m := by
  cases h with
  | stop h => rfl
  | more hn => exact absurd hm (notAt_headIn hn)

theorem options_other {L : Lang Unit} {m r r' : List Str} {u w : Unit} (h : Options L m u r) (hr : kw [";"] r w r')
    (hm : HeadIn ["WITHOUT", "STRICT"] m) (hL : ∀ x, ¬ L m () x) : False := by
  rcases options_head h with rfl | ⟨b, mid, mid', h1, h2⟩
  · obtain ⟨t, rfl, ht⟩ := kw_def.1 hr
    exact clash hm ⟨t, _, rfl, ht⟩ (by decide)
  · rcases optWord_def.1 h1 with ⟨_, t, rfl, ht⟩ | ⟨_, rfl, _⟩
    · exact clash hm ⟨t, _, rfl, ht⟩ (by decide)
    · exact hL _ h2

theorem my_option_no {m x : List Str} (hm : HeadIn ["WITHOUT", "STRICT"] m) : ¬ Mysql.option isNum m () x := by
  intro h
  rcases my_option_first h with h | ⟨a, n, y, rfl, ha, _⟩
  · exact clash hm h (by decide)
  · exact clash hm ⟨a, _, rfl, ha⟩ (by decide)

theorem pg_option_no {m x : List Str} (hm : Head2 ["WITHOUT"] ["ROWID"] m ∨ HeadIn ["STRICT"] m) : ¬ Postgres.option m () x := by
  intro h
  have h1 : HeadIn ["WITHOUT", "STRICT"] m := by
    rcases hm with ⟨a, b, y, rfl, ha, _⟩ | h
    · exact ⟨a, _, rfl, Kw.mono (by decide) ha⟩
    · exact h.mono (by decide)
  rcases pg_option_first h with h | ⟨a, b, y, rfl, ha, hb⟩ | ⟨a, n, rfl, ha⟩
  · exact clash h1 h (by decide)
  · rcases hm with ⟨_, _, _, e1, _, hb'⟩ | h
    · cases e1; exact kw_disj hb (by decide) hb'
    · exact clash h ⟨a, _, rfl, ha⟩ (by decide)
  · exact clash h1 ⟨a, _, rfl, ha⟩ (by decide)

theorem head2_head {ks ks' : List String} {m : List Str} (h : Head2 ks ks' m) : HeadIn ks m := by
  obtain ⟨a, b, x, rfl, ha, _⟩ := h
  exact ⟨a, _, rfl, ha⟩

theorem options_pm {ts r s r' s' : List Str} {u w a b : Unit} (h1 : Options Postgres.option ts a r)
    (h2 : Options (Mysql.option isNum) ts b s) (hr : kw [";"] r u r') (hs : kw [";"] s w s') : r' = s' := by
  induction h1 generalizing s with
  | stop h =>
    obtain ⟨t, rfl, ht⟩ := kw_def.1 hr
    cases options_end h2 ⟨t, _, rfl, ht⟩
    exact kw_same hr hs
  | more hn hc h h3 ih =>
    cases h2 with
    | stop h' =>
      obtain ⟨t, rfl, ht⟩ := kw_def.1 hs
      exact absurd ⟨t, _, rfl, ht⟩ (notAt_headIn hn)
    | more hn' hc' h' h3' =>
      have e1 : ∀ {ts r s : List Str} {b b' : Bool}, optWord [","] ts b r → optWord [","] ts b' s → r = s := by
        intro ts r s b b' h h'
        rcases optWord_def.1 h with ⟨_, t, rfl, ht⟩ | ⟨_, rfl, hn⟩ <;> rcases optWord_def.1 h' with ⟨_, t', e2, ht'⟩ | ⟨_, rfl, hn'⟩
        · cases e2; rfl
        · exact absurd ht (hn' _ _ rfl)
        · exact absurd ht' (hn _ _ e2)
        · rfl
      cases e1 hc hc'
      rcases my_option_first h' with h5 | ⟨a, n, m, rfl, ha, h5⟩
      · rcases pg_option_first h with h4 | h4 | ⟨a, n, rfl, ha⟩
        · exact (clash h4 h5 (by decide)).elim
        · exact (clash (head2_head h4) h5 (by decide)).elim
        · exact (clash ⟨a, _, rfl, ha⟩ h5 (by decide)).elim
      · rcases pg_option_first h with h4 | h4 | ⟨a', n', e2, _⟩
        · exact (clash h4 ⟨a, _, rfl, ha⟩ (by decide)).elim
        · exact (clash (head2_head h4) ⟨a, _, rfl, ha⟩ (by decide)).elim
        · cases e2
          rcases h5 with rfl | h5
          · exact ih h3' hr hs
          · exfalso
            rcases options_head h3 with rfl | ⟨b, mid, mid', h6, h7⟩
            · obtain ⟨t, rfl, ht⟩ := kw_def.1 hr
              exact clash h5 ⟨t, _, rfl, ht⟩ (by decide)
            · rcases optWord_def.1 h6 with ⟨_, t, rfl, ht⟩ | ⟨_, rfl, _⟩
              · exact clash h5 ⟨t, _, rfl, ht⟩ (by decide)
              · rcases pg_option_first h7 with h4 | h4 | ⟨a', n', rfl, ha'⟩
                · exact clash h5 h4 (by decide)
                · exact clash h5 (head2_head h4) (by decide)
                · exact clash h5 ⟨a', _, rfl, ha'⟩ (by decide)

theorem options_same (hp : Pair d e) {m r s r' s' : List Str} {u w a b : Unit} (h1 : optionsOf isNum d m a r)
    (h2 : optionsOf isNum e m b s) (hr : kw [";"] r u r') (hs : kw [";"] s w s') : r' = s' := by
  cases hp with
  | sp =>
    rcases sqlite_options h1 hr with h | h
    · cases sqlite_options_end h1 h
      cases options_end h2 h
      exact kw_same hr hs
    · refine (options_other h2 hs ?_ fun x => pg_option_no h).elim
      rcases h with h | h
      · exact (head2_head h).mono (by decide)
      · exact h.mono (by decide)
  | sm =>
    rcases sqlite_options h1 hr with h | h
    · cases sqlite_options_end h1 h
      cases options_end h2 h
      exact kw_same hr hs
    · have h3 : HeadIn ["WITHOUT", "STRICT"] m := by
        rcases h with h | h
        · exact (head2_head h).mono (by decide)
        · exact h.mono (by decide)
      exact (options_other h2 hs h3 fun x => my_option_no h3).elim
  | pm => exact options_pm h1 h2 hr hs

/-! ### Statements -/

theorem first_end {a a' : List Str} {e e' : Str} {r r' : List Str} (h : a ++ e :: r = a' ++ e' :: r')
    (ha : ∀ t ∈ a, ¬ Kw ["END"] t) (ha' : ∀ t ∈ a', ¬ Kw ["END"] t) (he : Kw ["END"] e) (he' : Kw ["END"] e') : r = r' := by
  induction a generalizing a' with
  | nil =>
    cases a' with
    | nil => cases h; rfl
    | cons t a' => cases h; exact absurd he (ha' _ (List.mem_cons_self ..))
  | cons t a ih =>
    cases a' with
    | nil => cases h; exact absurd he' (ha _ (List.mem_cons_self ..))
    | cons t' a' =>
      have := (List.cons.inj h).2
      exact ih this (fun t ht => ha t (List.mem_cons_of_mem _ ht)) fun t ht => ha' t (List.mem_cons_of_mem _ ht)

theorem body_same {ts r s : List Str} {u w : Unit} (h : Body ts u r) (h' : Body ts w s) : r = s := by
  induction h generalizing s with
  | stop h =>
    obtain ⟨t, rfl, ht⟩ := kw_def.1 h
    generalize hq : t :: _ = q at h'
    cases h' with
    | stop h' => subst hq; exact kw_same h h'
    | plain hn _ _ => cases hq; exact absurd ht hn
    | block hb _ _ _ => cases hq; exact (kw_disj ht (by decide) hb).elim
  | plain hn hb h ih =>
    rename_i t ts rest
    generalize hq : t :: ts = q at h'
    cases h' with
    | stop h' =>
      obtain ⟨t', rfl, ht'⟩ := kw_def.1 h'
      cases hq; exact absurd ht' hn
    | plain _ _ h' => cases hq; exact ih h'
    | block hb' _ _ _ => cases hq; exact absurd hb' hb
  | block hb hs he h ih =>
    rename_i b inner en ts rest
    generalize hq : b :: inner ++ en :: ts = q at h'
    cases h' with
    | stop h' =>
      obtain ⟨t', rfl, ht'⟩ := kw_def.1 h'
      cases hq; exact (kw_disj hb (by decide) ht').elim
    | plain _ hb' h' => cases hq; exact absurd hb hb'
    | block hb' hs' he' h' =>
      have hq : b :: (inner ++ en :: ts) = _ := hq
      obtain ⟨rfl, e1⟩ := List.cons.inj hq
      cases first_end e1 hs hs' he he'
      exact ih h'

/-- Kinds of skipped statements. -/
def otherKindsOf : Rdbms → List String
  | .postgres => Spec.Postgres.otherKinds
  | .mysql => Spec.Mysql.otherKinds
  | _ => Spec.Sqlite.otherKinds

/-- What follows CREATE. -/
def afterCreate (isNum : Str → Bool) (d : Rdbms) : Lang Stmt :=
  createTable d (itemOf isNum d) (optionsOf isNum d) <|> other (otherKindsOf d)

/-- The two statements say the same. -/
inductive StmtSame (isNum : Str → Bool) (d e : Rdbms) : Stmt → Stmt → Prop
  | other : StmtSame isNum d e .other .other
  | table (a b : TableAst) (h : tableVal isNum d a = tableVal isNum e b) (hf : a.Faithful ↔ b.Faithful) :
      StmtSame isNum d e (.table a) (.table b)

/-- The columns of a statement are such that no CHECK is directly followed by NOT NULL. -/
def StmtOk (s : Stmt) : Prop := ∀ t, s = .table t → ∀ i ∈ t.items, ItemOk i

theorem ifNotExists_exact : Exact (fun v w => v = w) ifNotExists ifNotExists := by
  rintro ts v r w s ⟨a, _, h, rfl, rfl⟩ ⟨b, _, h', rfl, rfl⟩
  have : Exact (fun _ _ => True) (do kw ["NOT"]; kw ["EXISTS"]) (do kw ["NOT"]; kw ["EXISTS"]) := by
    rintro ts v r w s ⟨_, _, h, h1⟩ ⟨_, _, h', h1'⟩
    cases kw_same h h'
    exact ⟨kw_same h1 h1', trivial⟩
  obtain ⟨rfl, hx⟩ := this.optKw _ _ _ _ _ h h'
  rcases hx with ⟨rfl, rfl⟩ | ⟨x, y, rfl, rfl, _⟩ <;> exact ⟨rfl, rfl⟩

theorem afterCreate_same (hp : Pair d e) {ts r s : List Str} {a b : Stmt} (h : afterCreate isNum d ts a r)
    (h' : afterCreate isNum e ts b s) (hok : e = .mysql → StmtOk a) : r = s ∧ StmtSame isNum d e a b := by
  rcases h with ⟨_, _, h1, ine, _, h2, q, _, h3, _, _, h4, is, _, h5, _, _, h6, _, _, h7, _, _, h8, rfl, rfl⟩ |
      ⟨_, _, h1, _, _, h2, rfl, rfl⟩ <;>
    rcases h' with ⟨_, _, h1', ine', _, h2', q', _, h3', _, _, h4', js, _, h5', _, _, h6', _, _, h7', _, _, h8', rfl, rfl⟩ |
      ⟨_, _, h1', _, _, h2', rfl, rfl⟩
  · cases kw_same h1 h1'
    obtain ⟨rfl, rfl⟩ := ifNotExists_exact _ _ _ _ _ h2 h2'
    obtain ⟨rfl, rfl, hq1, hq2⟩ := qname_exact hp.left hp.right _ _ _ _ _ h3 h3'
    cases kw_same h4 h4'
    obtain ⟨rfl, hi⟩ := items_same hp h5 h5' h6 h6' (fun h => hok h _ rfl)
    cases options_same hp h7 h7' h8 h8'
    obtain ⟨v1, v2, v3, v4, v5, v6⟩ := items_vals hi
    refine ⟨rfl, .table _ _ ?_ ?_⟩
    · simp only [tableVal, hq1, hq2, v1, v2, v3, v4, v5]
    · unfold TableAst.Faithful
      rw [v6]
      have hx : ∀ {i is j js}, Each (ItemSame isNum d e) (i :: is) (j :: js) →
          (∀ n, i ≠ .exclude n) ∧ (∀ n, j ≠ .exclude n) := by
        intro i is j js h
        cases h with | cons h _ => exact h.ex
      refine and_congr Iff.rfl ⟨fun _ i is e1 => ?_, fun _ i is e1 => ?_⟩
      · cases hi with
        | nil => cases e1
        | cons h _ => cases e1; exact h.ex.2 _ rfl
      · cases hi with
        | nil => cases e1
        | cons h _ => cases e1; exact h.ex.1 _ rfl
  · exact (kw_clash (by cases e <;> decide) h1 h1').elim
  · exact (kw_clash (by cases d <;> decide) h1' h1).elim
  · cases kw_same h1 h1'
    exact ⟨body_same h2 h2', .other⟩

theorem temp_no (d : Rdbms) (hd : d ≠ .other) {t : Str} {x r : List Str} {s : Stmt} (ht : Kw ["TEMP", "TEMPORARY"] t) :
    ¬ afterCreate isNum d (t :: x) s r := by
  intro h
  have hc : ∀ {ks u r}, (∀ t ∈ kwList ["TEMP", "TEMPORARY"], ¬ Kw ks t) → ¬ kw ks (t :: x) u r := by
    intro ks u r hk h
    obtain ⟨t', e1, ht'⟩ := kw_def.1 h
    cases e1; exact kw_disj ht hk ht'
  rcases h with ⟨_, _, h1, _⟩ | ⟨_, _, h1, _⟩
  · exact hc (by decide) h1
  · exact hc (by cases d <;> decide) h1

theorem stmt_same (hp : Pair d e) {ts r s : List Str} {a b : Stmt} (h : stmtOf isNum d ts a r) (h' : stmtOf isNum e ts b s)
    (hok : e = .mysql → StmtOk a) : r = s ∧ StmtSame isNum d e a b := by
  have he : ∃ x t, ts = t :: x ∧ afterCreate isNum e x b s := by
    cases hp with
    | sp =>
      obtain ⟨_, _, h1, h2⟩ := h'
      obtain ⟨t, rfl, _⟩ := kw_def.1 h1
      exact ⟨_, t, rfl, h2⟩
    | sm =>
      obtain ⟨_, _, h1, h2⟩ := h'
      obtain ⟨t, rfl, _⟩ := kw_def.1 h1
      exact ⟨_, t, rfl, h2⟩
    | pm =>
      obtain ⟨_, _, h1, h2⟩ := h'
      obtain ⟨t, rfl, _⟩ := kw_def.1 h1
      exact ⟨_, t, rfl, h2⟩
  obtain ⟨x, t, rfl, he⟩ := he
  have hd : afterCreate isNum d x a r := by
    have hs : stmtOf isNum .sqlite (t :: x) a r → (afterCreate isNum .sqlite x a r ∨ HeadIn ["TEMP", "TEMPORARY"] x) := by
      rintro ⟨_, _, h1, _, _, h2, h3⟩
      obtain ⟨t', e1, _⟩ := kw_def.1 h1
      cases e1
      rcases optWord_def.1 h2 with ⟨_, t', rfl, ht'⟩ | ⟨_, rfl, _⟩
      · exact .inr ⟨t', _, rfl, ht'⟩
      · exact .inl h3
    cases hp with
    | sp =>
      rcases hs h with h | ⟨t', y, rfl, ht'⟩
      · exact h
      · exact absurd he (temp_no _ (by decide) ht')
    | sm =>
      rcases hs h with h | ⟨t', y, rfl, ht'⟩
      · exact h
      · exact absurd he (temp_no _ (by decide) ht')
    | pm =>
      obtain ⟨_, _, h1, h2⟩ := h
      obtain ⟨t', e1, _⟩ := kw_def.1 h1
      cases e1
      exact h2
  exact afterCreate_same hp hd he hok

/-- What two dialects make of the same script. -/
theorem script_same (hp : Pair d e) {ts : List Str} {ss ss' : List Stmt} (h : script isNum d ts ss) (h' : script isNum e ts ss')
    (hok : e = .mysql → ∀ s ∈ ss, StmtOk s) : Each (StmtSame isNum d e) ss ss' := by
  unfold script at h h'
  induction h generalizing ss' with
  | nil =>
    cases h' with
    | nil => exact .nil
    | cons h' _ =>
      exfalso
      cases hp <;>
      · obtain ⟨_, _, h1, _⟩ := h'
        obtain ⟨t, e1, _⟩ := kw_def.1 h1
        cases e1
  | cons h hs ih =>
    cases h' with
    | nil =>
      exfalso
      cases hp <;>
      · obtain ⟨_, _, h1, _⟩ := h
        obtain ⟨t, e1, _⟩ := kw_def.1 h1
        cases e1
    | cons h' hs' =>
      obtain ⟨rfl, h1⟩ := stmt_same hp h h' (fun h => hok h _ (List.mem_cons_self ..))
      exact .cons h1 (ih hs' fun h s hs => hok h s (List.mem_cons_of_mem _ hs))

theorem tables_same {ss ss' : List Stmt} (h : Each (StmtSame isNum d e) ss ss') :
    tablesVal isNum d ss = tablesVal isNum e ss' ∧ (Faithful ss ↔ Faithful ss') := by
  unfold Faithful tablesVal
  induction h with
  | nil => exact ⟨rfl, by simp⟩
  | cons h _ ih =>
    obtain ⟨h1, h2⟩ := ih
    cases h with
    | other =>
      refine ⟨h1, ?_⟩
      simp only [List.mem_cons, reduceCtorEq, false_or]
      exact h2
    | table a b hv hf =>
      refine ⟨?_, ?_⟩
      · rw [List.filterMap_cons, List.filterMap_cons]
        simp only [hv, h1]
      · have : ∀ (a : TableAst) (ss : List Stmt), (∀ t, Stmt.table t ∈ Stmt.table a :: ss → t.Faithful) ↔
            a.Faithful ∧ ∀ t, Stmt.table t ∈ ss → t.Faithful := by
          intro a ss
          constructor
          · intro h; exact ⟨h a (List.mem_cons_self ..), fun t ht => h t (List.mem_cons_of_mem _ ht)⟩
          · rintro ⟨h1, h2⟩ t ht
            rcases List.mem_cons.1 ht with e1 | ht
            · cases e1; exact h1
            · exact h2 t ht
        rw [this, this, hf, h2]

/-! ### Tokens -/

namespace Lex

theorem step2_same {d e : Rdbms} {t : Str} {c : Char} (hc : c ≠ '#' ∨ (d ≠ .mysql ∧ e ≠ .mysql)) {m m' : Mode} {o o' : List Str}
    (h : step2 d t c = .go m o) (h' : step2 e t c = .go m' o') : m = m' ∧ o = o' := by
  unfold step2 at h h'
  by_cases h1 : c = '"'
  · simp only [h1, if_true] at h h'; rw [h] at h'; cases h'; exact ⟨rfl, rfl⟩
  simp only [if_neg h1] at h h'
  by_cases h2 : c = '\''
  · simp only [h2, if_true] at h h'; rw [h] at h'; cases h'; exact ⟨rfl, rfl⟩
  simp only [if_neg h2] at h h'
  by_cases h3 : c = '`'
  · simp only [h3, if_true] at h h'
    by_cases hd : d = .postgres
    · rw [if_pos hd] at h; cases h
    · by_cases he : e = .postgres
      · rw [if_pos he] at h'; cases h'
      · rw [if_neg hd] at h; rw [if_neg he, h] at h'; cases h'; exact ⟨rfl, rfl⟩
  simp only [if_neg h3] at h h'
  by_cases h4 : c = '#'
  · simp only [h4, if_true] at h h'
    rcases hc with hc | ⟨hd, he⟩
    · exact absurd h4 hc
    · rw [if_neg hd] at h; rw [if_neg he, h] at h'; cases h'; exact ⟨rfl, rfl⟩
  simp only [if_neg h4] at h h'
  rw [h] at h'; cases h'; exact ⟨rfl, rfl⟩

theorem flush_mem {t : Str} (h : t ≠ []) : t ∈ flush t := by
  unfold flush; rw [if_neg h]; exact List.mem_cons_self ..

/-- A word being read is a token or is read further. -/
theorem step2_pend {d : Rdbms} {t : Str} {c : Char} {m : Mode} {o : List Str} (h : step2 d t c = .go m o) (ht : t ≠ []) :
    t ∈ o ∨ t <+: pend m := by
  unfold step2 at h
  split at h
  · cases h; exact .inl (flush_mem ht)
  split at h
  · cases h; exact .inl (flush_mem ht)
  split at h
  · split at h <;> cases h
    exact .inl (flush_mem ht)
  split at h
  · split at h <;> cases h
    · exact .inl (flush_mem ht)
    · exact .inr (List.prefix_append ..)
  split at h
  · cases h; exact .inl (flush_mem ht)
  split at h
  · cases h; exact .inl (List.mem_append_left _ (flush_mem ht))
  split at h
  · cases h; exact .inl (List.mem_append_left _ (flush_mem ht))
  split at h <;> cases h
  exact .inr (List.prefix_append ..)

theorem step_pend {d : Rdbms} {n : Mode} {c : Char} {m : Mode} {o : List Str} (h : step d n c = .go m o) (ht : pend n ≠ []) :
    (∃ t ∈ o, pend n <+: t) ∨ pend n <+: pend m := by
  have hx : ∀ {x : Str}, pend n <+: x → step2 d x c = .go m o → (∃ t ∈ o, pend n <+: t) ∨ pend n <+: pend m := by
    intro x hp h
    have hx : x ≠ [] := by rintro rfl; exact ht (List.prefix_nil.1 hp)
    rcases step2_pend h hx with h | h
    · exact .inl ⟨x, h, hp⟩
    · exact .inr (hp.trans h)
  cases n with
  | top t =>
    simp only [step] at h
    split at h
    · cases h; exact .inr (List.prefix_refl _)
    split at h
    · cases h; exact .inr (List.prefix_refl _)
    split at h
    · cases h; exact .inr (List.prefix_refl _)
    exact hx (List.prefix_refl _) h
  | p2 t => exact hx (List.prefix_refl _) h
  | hyphen t =>
    simp only [step] at h
    split at h
    · cases h; exact .inl ⟨t, flush_mem ht, List.prefix_refl _⟩
    exact hx (List.prefix_append ..) h
  | slash t =>
    simp only [step] at h
    split at h
    · cases h; exact .inl ⟨t, flush_mem ht, List.prefix_refl _⟩
    exact hx (List.prefix_append ..) h
  | star t =>
    simp only [step] at h
    split at h
    · cases h
    exact hx (List.prefix_append ..) h
  | _ => exact absurd rfl ht

theorem scan_mem {d : Rdbms} {cs : List Char} {m : Mode} {l : Nat} {r T : List Str} (h : scan d m cs l r = .ok T) {t : Str}
    (ht : t ∈ r) : t ∈ T := by
  induction cs generalizing m l r with
  | nil =>
    unfold scan at h
    split at h
    · cases h; exact List.mem_append_left _ ht
    · cases h
  | cons c cs ih =>
    unfold scan at h
    split at h
    · exact ih h (List.mem_append_left _ ht)
    · cases h

theorem scan_pend {d : Rdbms} {cs : List Char} {m : Mode} {l : Nat} {r T : List Str} {p : Str} (h : scan d m cs l r = .ok T)
    (hp : p ≠ []) (hm : p <+: pend m) : ∃ t ∈ T, p <+: t := by
  induction cs generalizing m l r with
  | nil =>
    unfold scan at h
    have hx : ∀ {x : Str}, p <+: x → ∃ t ∈ flush x, p <+: t := by
      intro x hx
      have : x ≠ [] := by rintro rfl; exact hp (List.prefix_nil.1 hx)
      exact ⟨x, flush_mem this, hx⟩
    have hy : ∀ o, final m = some o → ∃ t ∈ o, p <+: t := by
      intro o ho
      cases m with
      | top t => cases ho; exact hx hm
      | p2 t => cases ho; exact hx hm
      | hyphen t => cases ho; exact hx (hm.trans (List.prefix_append ..))
      | slash t => cases ho; exact hx (hm.trans (List.prefix_append ..))
      | star t => cases ho; exact hx (hm.trans (List.prefix_append ..))
      | _ => exact absurd (List.prefix_nil.1 hm) hp
    split at h
    · cases h
      obtain ⟨t, h1, h2⟩ := hy _ (by assumption)
      exact ⟨t, List.mem_append_right _ h1, h2⟩
    · cases h
  | cons c cs ih =>
    unfold scan at h
    split at h
    · have hn : pend m ≠ [] := by intro e1; rw [e1] at hm; exact hp (List.prefix_nil.1 hm)
      rcases step_pend (by assumption) hn with ⟨t, h1, h2⟩ | h1
      · exact ⟨t, scan_mem h (List.mem_append_right _ h1), hm.trans h2⟩
      · exact ih h (hm.trans h1)
    · cases h

theorem Bare.prefix {p t : Str} (h : Bare p) (hp : p ≠ []) (ht : p <+: t) : Bare t := by
  obtain ⟨x, rfl⟩ := ht
  intro a y e1
  cases p with
  | nil => exact absurd rfl hp
  | cons b p => cases e1; exact h _ _ rfl

/-- No `#` outside quotes. -/
def NoSharp (T : List Str) : Prop := ∀ t ∈ T, Bare t → '#' ∉ t

/-- Both readers go the same way. -/
theorem step_same {d e : Rdbms} {n : Mode} {c : Char} {m m' : Mode} {o o' : List Str} (h : step d n c = .go m o)
    (h' : step e n c = .go m' o') (ht : Bare (pend n)) (hd : d ≠ .mysql)
    (hc : e ≠ .mysql ∨ ¬ ∃ p, '#' ∈ p ∧ Bare p ∧ p <+: pend m) : m = m' ∧ o = o' := by
  have hx : ∀ {x : Str}, Bare x → step2 d x c = .go m o → step2 e x c = .go m' o' → m = m' ∧ o = o' := by
    intro x hb h h'
    refine step2_same ?_ h h'
    by_cases h1 : c = '#'
    · right
      refine ⟨hd, ?_⟩
      rcases hc with hc | hc
      · exact hc
      · exfalso
        subst h1
        unfold step2 at h
        simp only [show ¬ ('#' = '"') from by decide, show ¬ ('#' = '\'') from by decide, show ¬ ('#' = '`') from by decide,
          if_false, if_true, if_neg hd] at h
        cases h
        exact hc ⟨_, by simp, hb.append (by decide), List.prefix_refl _⟩
    · exact .inl h1
  have hy : Step.go m o = Step.go m' o' → m = m' ∧ o = o' := by intro h; cases h; exact ⟨rfl, rfl⟩
  cases n with
  | top t =>
    simp only [step] at h h'
    split at h
    · rw [if_pos (by assumption), h] at h'; exact hy h'
    rw [if_neg (by assumption)] at h'
    split at h
    · rw [if_pos (by assumption), h] at h'; exact hy h'
    rw [if_neg (by assumption)] at h'
    split at h
    · rw [if_pos (by assumption), h] at h'; exact hy h'
    rw [if_neg (by assumption)] at h'
    exact hx ht h h'
  | p2 t => exact hx ht h h'
  | hyphen t =>
    simp only [step] at h h'
    split at h
    · rw [if_pos (by assumption), h] at h'; exact hy h'
    rw [if_neg (by assumption)] at h'
    exact hx (ht.append (by decide)) h h'
  | slash t =>
    simp only [step] at h h'
    split at h
    · rw [if_pos (by assumption), h] at h'; exact hy h'
    rw [if_neg (by assumption)] at h'
    exact hx (ht.append (by decide)) h h'
  | star t =>
    simp only [step] at h h'
    split at h
    · cases h
    rw [if_neg (by assumption)] at h'
    exact hx (ht.append (by decide)) h h'
  | _ => exact hy (h.symm.trans h')

theorem scan_same {d e : Rdbms} {cs : List Char} {m : Mode} {l : Nat} {r T U : List Str} (h : scan d m cs l r = .ok T)
    (h' : scan e m cs l r = .ok U) (ht : Bare (pend m)) (hd : d ≠ .mysql) (hc : e ≠ .mysql ∨ NoSharp T) : T = U := by
  induction cs generalizing m l r with
  | nil =>
    unfold scan at h h'
    rw [h] at h'; cases h'; rfl
  | cons c cs ih =>
    unfold scan at h h'
    split at h <;> split at h'
    · rename_i m1 o1 h1 _ m2 o2 h2
      have hs : e ≠ .mysql ∨ ¬ ∃ p, '#' ∈ p ∧ Bare p ∧ p <+: pend m1 := by
        rcases hc with hc | hc
        · exact .inl hc
        · right
          rintro ⟨p, h3, h4, h5⟩
          have hn : p ≠ [] := by rintro rfl; cases h3
          obtain ⟨t, h6, h7⟩ := scan_pend h hn h5
          exact hc t h6 (h4.prefix hn h7) (h7.subset h3)
      obtain ⟨rfl, rfl⟩ := step_same h1 h2 ht hd hs
      exact ih h h' (step_bare h1 ht)
    · cases h'
    · cases h
    · cases h

end Lex

theorem lexes_same {d e : Rdbms} {ddl : List Char} {T U : List Str} (h : Lexes d ddl T) (h' : Lexes e ddl U) (hd : d ≠ .mysql)
    (hc : e ≠ .mysql ∨ Lex.NoSharp T) : T = U := by
  obtain ⟨n, h⟩ := h
  obtain ⟨k, h'⟩ := h'
  have h1 : Lex.scan d (.top []) ddl 1 [] = .ok T := by
    rcases Lex.lexN_scan d n ddl with e1 | e1
    · rw [e1] at h; cases h
    · rw [← e1]; exact h
  have h2 : Lex.scan e (.top []) ddl 1 [] = .ok U := by
    rcases Lex.lexN_scan e k ddl with e1 | e1
    · rw [e1] at h'; cases h'
    · rw [← e1]; exact h'
  exact Lex.scan_same h1 h2 (fun _ _ h => by cases h) hd hc

end DDL
