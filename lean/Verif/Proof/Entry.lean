import Verif.Proof.FlatItem
import Verif.Spec.Entry
/-
C56: entries of a table definition next to each other.
-/

namespace DDL
open Spec Conv

/-! ### What may follow an entry -/

theorem fol_such {L : Lang β} {P : β → Prop} {F : List String} (hL : Fol L F) : Fol (L.such P) F where
  fol := by
    rintro ts v r ⟨h, hp⟩
    obtain ⟨p, h1, h2⟩ := hL.fol h; exact ⟨p, h1, fun r' hr => ⟨h2 r' hr, hp⟩⟩

theorem fol_colCons {ks : List String} {L : Lang ColCon} {F : List String} (hL : Fol L F) (hc : Cons L) :
    Fol (colCons ks L) (ks ++ F) := fol_such (fol_many hc)

/-- A lookahead in front of a phrase that is not empty. -/
theorem fol_front {ks : List String} {L : Lang β} {F : List String} (hL : Fol L F) (hc : Cons L) :
    Fol (at_ ks >>= fun _ => L) F where
  fol := by
    rintro ts w r ⟨_, _, ⟨rfl, t, x, e, ht⟩, h⟩
    have hlen := (hc _ _ _ h).2
    obtain ⟨p, rfl, h2⟩ := hL.fol h
    refine ⟨p, rfl, fun r' hr => ⟨(), _, ⟨rfl, ?_⟩, h2 r' hr⟩⟩
    cases p with
    | nil => simp at hlen
    | cons a p => cases e; exact ⟨_, _, rfl, ht⟩

set_option synthInstance.maxSize 8000
set_option synthInstance.maxHeartbeats 800000
set_option maxHeartbeats 800000

/-- No comma, no parenthesis. -/
abbrev NoEnd (F : List String) : Prop := ∀ t ∈ kwList F, ¬ Kw [",", ")"] t

/-- A phrase in front of one that is not empty. -/
theorem fol_before {L : Lang α} {f : α → Lang β} {F : List String} [hL : Loc L] (hf : ∀ a, Fol (f a) F)
    (hc : ∀ a, Cons (f a)) : Fol (L >>= f) F where
  fol := by
    rintro ts w r ⟨v, m, h1, h2⟩
    have hlen := (hc v _ _ _ h2).2
    obtain ⟨p, rfl, h3⟩ := hL.loc h1
    obtain ⟨q, rfl, h4⟩ := (hf v).fol h2
    refine ⟨p ++ q, by simp, fun r' hr => ⟨v, q ++ r', ?_, h4 r' hr⟩⟩
    have := h3 (q ++ r') (by
      cases q with
      | nil => simp at hlen
      | cons => rfl)
    simpa using this

theorem Cons.before {L : Lang α} {f : α → Lang β} (h : Suff L) (hf : ∀ v, Cons (f v)) : Cons (L >>= f) := by
  rintro ts w r ⟨v, m, h1, h2⟩
  have h3 := h _ _ _ h1
  have h4 := hf _ _ _ _ h2
  exact ⟨h4.1.trans h3, Nat.lt_of_lt_of_le h4.2 h3.length_le⟩

theorem fol_or {L M : Lang β} {F : List String} (hL : Fol L F) (hM : Fol M F) : Fol (L <|> M) F :=
  Fol.mono (folAlt L M F F) (by simp)

namespace Spec.Sqlite
abbrev conF : List String := ["ASC", "DESC", "ON", "AUTOINCREMENT", "(", ".", "MATCH", "NOT", "DEFERRABLE", "INITIALLY", "STORED", "VIRTUAL"]
abbrev itemF : List String := "CONSTRAINT" :: colConFirst ++ conF
instance (isNum : Str → Bool) : Fol (colCon isNum) conF := Fol.mono (by unfold colCon; infer_instance) (by decide)
theorem fol_column (isNum : Str → Bool) : Fol (column isNum) itemF := by
  have := fol_colCons (ks := colConFirst) (inferInstance : Fol (colCon isNum) conF) (SqliteImpl.cons_colCon isNum)
  exact Fol.mono (by unfold column; infer_instance) (by decide)
theorem fol_tableCon (n : ConName) : Fol (tableCon n) itemF :=
  Fol.mono (by unfold tableCon foreignKey; infer_instance) (by decide)
theorem cons_tableCon (n : ConName) : Cons (tableCon n) := by
  have := Suff.nameList .sqlite; have := SqliteImpl.suff_conflict; have := Suff.refClauses
  refine .alt (.kw_bind ?_) (.alt (.kw_bind ?_) (.alt (.kw_bind ?_) (.bind (.kw_bind ?_) fun _ => ?_))) <;> suff
theorem fol_item (isNum : Str → Bool) : Fol (item isNum) itemF := by
  have h1 := fol_column isNum
  have h2 : Fol (conName .sqlite >>= tableCon) itemF := fol_before fol_tableCon cons_tableCon
  have h3 := fol_front (ks := ["CONSTRAINT", "PRIMARY", "UNIQUE", "CHECK", "FOREIGN"]) h2 (.before (Suff.conName _) cons_tableCon)
  exact fol_or h3 h1
end Spec.Sqlite

namespace Spec.Postgres
abbrev conF : List String := ["INCLUDE", "WITH", "USING", "NO", "(", ".", "ON", "MATCH", "WHERE", "VARYING", "WITHOUT"]
abbrev itemF : List String := "CONSTRAINT" :: colConFirst ++ conF
instance (isNum : Str → Bool) : Fol (colCon isNum) conF := Fol.mono (by unfold colCon; infer_instance) (by decide)
theorem fol_column (isNum : Str → Bool) : Fol (column isNum) itemF := by
  have := fol_colCons (ks := colConFirst) (inferInstance : Fol (colCon isNum) conF) (PostgresImpl.cons_colCon isNum)
  exact Fol.mono (by unfold column; infer_instance) (by decide)
theorem fol_tableCon (n : ConName) : Fol (tableCon n) itemF :=
  Fol.mono (by unfold tableCon foreignKey; infer_instance) (by decide)
theorem cons_tableCon (n : ConName) : Cons (tableCon n) := by
  have := Suff.nameList .postgres; have := PostgresImpl.suff_indexParams; have := Suff.refClauses
  refine .alt (.kw_bind ?_) (.alt (.kw_bind ?_) (.alt (.bind (.kw_bind ?_) fun _ => ?_)
    (.alt (.bind (.kw_bind ?_) fun _ => ?_) (.kw_bind ?_)))) <;> suff
theorem fol_item (isNum : Str → Bool) : Fol (item isNum) itemF := by
  have h1 := fol_column isNum
  have h2 : Fol (conName .postgres >>= tableCon) itemF := fol_before fol_tableCon cons_tableCon
  have h3 := fol_front (ks := ["CONSTRAINT", "PRIMARY", "UNIQUE", "CHECK", "FOREIGN", "EXCLUDE"]) h2
    (.before (Suff.conName _) cons_tableCon)
  exact fol_or h3 h1
end Spec.Postgres

namespace Spec.Mysql
abbrev conF : List String := ["KEY", "NOT", "ENFORCED", "(", "ON", ".", "MATCH", "WITH", "WITHOUT", "ASC", "DESC", "USING"]
abbrev itemF : List String := "CONSTRAINT" :: colConFirst ++ conF ++ indexOptionFirst
instance (isNum : Str → Bool) : Fol (colCon isNum) conF := Fol.mono (by unfold colCon; infer_instance) (by decide)

theorem fol_conCol {f : ConName → Lang β} {G : List String} (hf : ∀ a, Fol (f a) G)
    (hne : ∀ ts v, f .anonymous ts v ts → ¬ at_ ["CHECK"] ts () ts) : Fol (conName ["CHECK"] >>= f) ("CONSTRAINT" :: G) where
  fol := by
    rintro ts w r ⟨v, m, h1, h2⟩
    obtain ⟨p, rfl, h3⟩ := conName_after (d := .mysql) h1
    have h5 : v = .anonymous → at_ ["CHECK"] m () m := by
      rintro rfl; exact anonymous_at (d := .mysql) h1
    obtain ⟨q, rfl, h4⟩ := (hf v).fol h2
    refine ⟨p ++ q, by simp, fun r' hr => ⟨v, q ++ r', ?_, h4 r' (hr.mono (by simp +contextual))⟩⟩
    rw [List.append_assoc]
    refine h3 _ ((hr.mono (by simp)).append _) ?_
    rintro rfl
    obtain ⟨_, t, x, e, ht⟩ := h5 rfl
    cases q with
    | nil => exact (hne _ _ h2 (h5 rfl)).elim
    | cons a q => cases e; exact ⟨rfl, _, _, rfl, ht⟩

theorem fol_column (isNum : Str → Bool) : Fol (column isNum) itemF := by
  have hc := MysqlImpl.cons_colCon isNum
  have h1 := fol_colCons (ks := colConFirst) (inferInstance : Fol (colCon isNum) conF) hc
  have h2 : ∀ n t, Fol (do
      let cn ← conName ["CHECK"]
      let cs ← colCons colConFirst (colCon isNum)
      return Item.column ⟨n, t, cn, cs⟩) ("CONSTRAINT" :: (colConFirst ++ conF)) := by
    intro n t
    refine fol_conCol (fun a => Fol.mono (F := (colConFirst ++ conF) ++ []) inferInstance (by simp)) ?_
    rintro ts v ⟨cs, m, ⟨h, _⟩, _, rfl⟩ ⟨_, t, x, e, ht⟩
    cases h with
    | nil h => exact h.2 _ _ e (Kw.mono (by decide) ht)
    | cons _ h hs =>
      have h6 := (hc _ _ _ h).2
      have h7 := (Suff.many hc.suff _ _ _ hs).length_le
      omega
  exact Fol.mono (by unfold column; infer_instance) (by decide)

instance : Fol indexType ["USING"] := Fol.mono (by unfold indexType; infer_instance) (by decide)
instance : LocE keyList := by unfold keyList; infer_instance

theorem fol_indexOptions (isNum : Str → Bool) : Fol (indexOptions isNum) indexOptionFirst := by
  have hc : Cons ((do kw ["KEY_BLOCK_SIZE"]; let _ ← optWord ["="]; let _ ← literal isNum .mysql; return ()) <|>
     (do kw ["USING"]; kw ["BTREE", "HASH"]) <|>
     (do kw ["WITH"]; kw ["PARSER"]; let _ ← name .mysql; return ()) <|>
     (do kw ["COMMENT"]; let _ ← string .mysql; return ()) <|>
     (do kw ["VISIBLE", "INVISIBLE"]) <|>
     (do kw ["ENGINE_ATTRIBUTE", "SECONDARY_ENGINE_ATTRIBUTE"]; let _ ← optWord ["="]
         let _ ← string .mysql; return ()) : Lang Unit) := by
    refine .alt (.kw_bind ?_) (.alt (.kw_bind ?_) (.alt (.kw_bind ?_) (.alt (.kw_bind ?_) (.alt (.kw _) (.kw_bind ?_))))) <;> suff
  have : LocE (do let _ ← optWord ["="]; let _ ← literal isNum .mysql; return () : Lang Unit) := inferInstance
  have : LocE (do let _ ← optWord ["="]; let _ ← string .mysql; return () : Lang Unit) := inferInstance
  have := fol_many (ks := indexOptionFirst) hc
  exact Fol.mono (by unfold indexOptions; infer_instance) (by decide)

theorem cons_keyList : Cons keyList := by
  have := MysqlImpl.suff_keyList
  unfold keyList keyPart
  refine .kw_bind ?_
  suff

/-- The end of a key definition. -/
theorem fol_keys (isNum : Str → Bool) (g : List KeyPart → Item) :
    Fol (do let cs ← keyList; indexOptions isNum; return g cs) indexOptionFirst ∧
    Cons (do let cs ← keyList; indexOptions isNum; return g cs) := by
  have := fol_indexOptions isNum
  exact ⟨Fol.mono inferInstance (by decide), cons_keyList.bind fun _ => (MysqlImpl.suff_indexOptions isNum).bind fun _ => .pure _⟩

theorem fol_typed (isNum : Str → Bool) (g : List KeyPart → Item) :
    Fol (do indexType; let cs ← keyList; indexOptions isNum; return g cs) indexOptionFirst ∧
    Cons (do indexType; let cs ← keyList; indexOptions isNum; return g cs) :=
  ⟨fol_before (fun _ => (fol_keys isNum g).1) fun _ => (fol_keys isNum g).2,
   .before MysqlImpl.suff_indexType fun _ => (fol_keys isNum g).2⟩

theorem fol_named (isNum : Str → Bool) (ks : List String) (g : List KeyPart → Item) :
    Fol (do let _ ← nameUnless ks; indexType; let cs ← keyList; indexOptions isNum; return g cs) indexOptionFirst ∧
    Cons (do let _ ← nameUnless ks; indexType; let cs ← keyList; indexOptions isNum; return g cs) :=
  ⟨fol_before (fun _ => (fol_typed isNum g).1) fun _ => (fol_typed isNum g).2,
   .before (MysqlImpl.suff_nameUnless _) fun _ => (fol_typed isNum g).2⟩

theorem fol_tableCon (isNum : Str → Bool) (n : ConName) : Fol (tableCon isNum n) itemF ∧ Cons (tableCon isNum n) := by
  have s1 := Suff.nameList .mysql; have s2 := MysqlImpl.suff_indexOptions isNum; have s3 := Suff.refClauses
  have s4 := MysqlImpl.suff_check; have s5 := MysqlImpl.suff_keyList; have s6 := MysqlImpl.suff_indexType
  have s7 := MysqlImpl.suff_nameUnless ["("]; have s8 := MysqlImpl.suff_nameUnless ["USING", "("]; have s9 := Suff.qname .mysql
  constructor
  · have b1 : Fol (do kw ["PRIMARY"]; kw ["KEY"]; indexType; let cs ← keyList; indexOptions isNum
                      return Item.primaryKey n cs) itemF := by
      have := (fol_typed isNum (.primaryKey n)).1
      exact Fol.mono inferInstance (by decide)
    have b2 : Fol (do kw ["UNIQUE"]; let _ ← optWord ["INDEX", "KEY"]; let _ ← nameUnless ["("]; indexType
                      let cs ← keyList
                      indexOptions isNum
                      return Item.unique n cs) itemF := by
      have h := fol_named isNum ["("] (.unique n)
      have := fol_before (L := optWord ["INDEX", "KEY"]) (fun _ => h.1) fun _ => h.2
      exact Fol.mono inferInstance (by decide)
    have b3 : Fol (do kw ["FOREIGN"]; kw ["KEY"]; let _ ← nameUnless ["("]
                      let cs ← nameList .mysql
                      kw ["REFERENCES"]
                      let t ← qname .mysql
                      let rs ← keyList
                      refClauses
                      return Item.foreignKey n cs ⟨t, some rs⟩) itemF := by
      have h1 : ∀ cs, Fol (do
          let t ← qname .mysql
          let rs ← keyList
          refClauses
          return Item.foreignKey n cs ⟨t, some rs⟩) ["ON", "MATCH"] := fun cs =>
        fol_before (fun t => Fol.mono inferInstance (by decide)) fun t => cons_keyList.bind fun _ => s3.bind fun _ => .pure _
      have h2 : Fol (do
          let _ ← nameUnless ["("]
          let cs ← nameList .mysql
          kw ["REFERENCES"]
          let t ← qname .mysql
          let rs ← keyList
          refClauses
          return Item.foreignKey n cs ⟨t, some rs⟩) ["ON", "MATCH"] :=
        fol_before (fun _ => Fol.mono inferInstance (by decide)) fun _ => by
          unfold nameList
          refine .bind (.kw_bind ?_) fun _ => ?_ <;> suff
      exact Fol.mono inferInstance (by decide)
    have b4 : Fol (do let e ← check; return Item.check n e) itemF := Fol.mono inferInstance (by decide)
    have b5 : Fol (do kw ["INDEX", "KEY"]; let _ ← nameUnless ["USING", "("]; indexType
                      let _ ← keyList
                      indexOptions isNum
                      return Item.index n) itemF := by
      have h := (fol_named isNum ["USING", "("] (fun _ => .index n)).1
      exact Fol.mono inferInstance (by decide)
    have b6 : Fol (do kw ["FULLTEXT", "SPATIAL"]; let _ ← optWord ["INDEX", "KEY"]; let i ← nameUnless ["("]
                      let _ ← keyList
                      indexOptions isNum
                      return Item.fulltext n i) itemF := by
      have h1 : ∀ _ : Bool, Fol (do
          let i ← nameUnless ["("]
          let _ ← keyList
          indexOptions isNum
          return Item.fulltext n i) indexOptionFirst := fun _ =>
        fol_before (fun i => (fol_keys isNum fun _ => .fulltext n i).1) fun i => (fol_keys isNum fun _ => .fulltext n i).2
      have h2 := fol_before (L := optWord ["INDEX", "KEY"]) h1
        fun _ => .before s7 fun i => (fol_keys isNum fun _ => .fulltext n i).2
      exact Fol.mono inferInstance (by decide)
    exact fol_or b1 (fol_or b2 (fol_or b3 (fol_or b4 (fol_or b5 b6))))
  · refine .alt (.kw_bind ?_) (.alt (.kw_bind ?_) (.alt (.kw_bind ?_) (.alt (.bind (.kw_bind ?_) fun _ => ?_)
      (.alt (.kw_bind ?_) (.kw_bind ?_))))) <;> suff
theorem fol_item (isNum : Str → Bool) : Fol (item isNum) itemF := by
  have h1 := fol_column isNum
  have h2 : Fol (conName ["PRIMARY", "UNIQUE", "FOREIGN", "CHECK"] >>= tableCon isNum) itemF :=
    fol_before (fun n => (fol_tableCon isNum n).1) (fun n => (fol_tableCon isNum n).2)
  have h3 := fol_front (ks := ["CONSTRAINT", "PRIMARY", "UNIQUE", "FOREIGN", "INDEX", "KEY", "FULLTEXT", "SPATIAL",
           "CHECK"]) h2 (.before (MysqlImpl.suff_conName _) fun n => (fol_tableCon isNum n).2)
  exact fol_or h3 h1
end Spec.Mysql

/-- An entry that is read before a comma is read before a closing parenthesis, and vice versa. -/
theorem item_end {isNum : Str → Bool} {d : Rdbms} {p r r' x : List Str} {t : Str} {v : Item}
    (h : itemOf isNum d (p ++ r) v r) (e : r' = t :: x) (ht : Kw [",", ")"] t) : itemOf isNum d (p ++ r') v r' := by
  have key : ∀ {L : Lang Item} {F : List String}, Fol L F → (∀ t ∈ kwList [",", ")"], ¬ Kw F t) → L (p ++ r) v r →
      L (p ++ r') v r' := fun hL hF h => fol_at (hL := hL) h (same_of e ht hF)
  cases d with
  | sqlite => exact key (Spec.Sqlite.fol_item isNum) (by decide) h
  | postgres => exact key (Spec.Postgres.fol_item isNum) (by decide) h
  | mysql => exact key (Spec.Mysql.fol_item isNum) (by decide) h
  | other => exact key (Spec.Sqlite.fol_item isNum) (by decide) h

/-! ### Lists of entries -/

/-- `L, L, ..., L` up to a closing parenthesis, with the tokens. -/
inductive Rows (L : Lang β) : List Str → List β → Prop
  | one (h : ∀ r' t x, r' = t :: x → Kw [",", ")"] t → L (p ++ r') v r') (hp : Flat p) : Rows L p [v]
  | cons (h : ∀ r' t x, r' = t :: x → Kw [",", ")"] t → L (p ++ r') v r') (hp : Flat p) (hs : Rows L q vs) :
      Rows L (p ++ [','] :: q) (v :: vs)

theorem Rows.bal {L : Lang β} {p : List Str} {vs : List β} (h : Rows L p vs) : Bal p := by
  induction h with
  | one _ hp => exact hp.bal
  | cons _ hp _ ih => exact bal_append hp.bal (.plain _ _ (by decide) (by decide) ih)

theorem Rows.append {L : Lang β} {p q : List Str} {vs ws : List β} (h : Rows L p vs) (h' : Rows L q ws) :
    Rows L (p ++ [','] :: q) (vs ++ ws) := by
  induction h with
  | one h hp => exact .cons h hp h'
  | cons h hp _ ih => rw [List.append_assoc]; exact .cons h hp ih

theorem rows_of_sep {isNum : Str → Bool} (hN : NumOK isNum) {d : Rdbms} {ts r : List Str} {vs : List Item}
    (h : Sep (itemOf isNum d) ts vs r) : ∃ p, ts = p ++ r ∧ Rows (itemOf isNum d) p vs := by
  induction h with
  | one h _ =>
    obtain ⟨p, rfl, hp⟩ := flt_item hN d _ _ _ h
    exact ⟨p, rfl, .one (fun r' t x e ht => item_end h e ht) hp⟩
  | cons h hc _ ih =>
    obtain ⟨q, rfl, hq⟩ := ih
    cases comma hc
    obtain ⟨p, rfl, hp⟩ := flt_item hN d _ _ _ h
    exact ⟨p ++ [','] :: q, by simp, .cons (fun r' t x e ht => item_end h e ht) hp hq⟩

theorem sep_of_rows {L : Lang β} {p x : List Str} {vs : List β} (h : Rows L p vs) : Sep L (p ++ [')'] :: x) vs ([')'] :: x) := by
  induction h with
  | one h _ => exact .one (h _ _ _ rfl (by decide)) (notAt_cons (by decide))
  | @cons p v q vs h _ _ ih =>
    rw [List.append_assoc]
    exact .cons (h _ _ _ rfl (by decide)) (kw_intro (by decide)) ih

/-- A comma between balanced tokens separates entries. -/
theorem rows_split {L : Lang β} {p X Y : List Str} {vs : List β} (h : Rows L p vs) (hX : Bal X) (e : p = X ++ [','] :: Y) :
    ∃ is js, vs = is ++ js ∧ Rows L X is ∧ Rows L Y js := by
  induction h generalizing X with
  | one _ hp => exact (flat_no_comma hp hX e).elim
  | @cons p v q vs h hp hs ih =>
    rcases flat_split hp hX e with ⟨rfl, rfl⟩ | ⟨X', rfl, hX', e⟩
    · exact ⟨[v], vs, rfl, .one h hp, hs⟩
    · obtain ⟨is, js, rfl, h1, h2⟩ := ih hX' e
      exact ⟨v :: is, js, rfl, .cons h hp h1, h2⟩

/-- A script with a table definition of balanced tokens. -/
theorem table_rows {isNum : Str → Bool} (hN : NumOK isNum) {d : Rdbms} {before head X z : List Str} {s0 ss : List Stmt}
    {v : Bool × QName} (hb : script isNum d before s0) (hh : tableHead d head v []) (hX : Bal X)
    (hg : ∀ t ∈ before ++ (head ++ (X ++ [')'] :: z)), Good t) :
    script isNum d (before ++ (head ++ (X ++ [')'] :: z))) ss ↔
      ∃ is se u r, ss = s0 ++ .table ⟨v.1, v.2, is⟩ :: se ∧ Rows (itemOf isNum d) X is ∧
        tableEnd isNum d ([')'] :: z) u r ∧ script isNum d r se := by
  obtain ⟨p, hp, e, h6⟩ := LocE.locE hh
  have e : head = p := by simpa using e
  subst e
  have hh := h6 (X ++ [')'] :: z)
  constructor
  · intro hs
    obtain ⟨sc, rfl, hs2⟩ := script_split hN hb hg hs
    have hgs : ∀ y ∈ head ++ (X ++ [')'] :: z), Good y := fun y hy => hg y (List.mem_append_right _ hy)
    clear hs
    unfold script at hs2
    generalize eS : head ++ (X ++ [')'] :: z) = start at *
    cases hs2 with
    | nil => exact absurd (List.append_eq_nil_iff.1 eS).1 hp
    | @cons _ s r se h hrest =>
      obtain ⟨is, m, u, rfl, hsep, hend⟩ := table_inv hgs hh h
      obtain ⟨q, e, hr⟩ := rows_of_sep hN hsep
      obtain ⟨_, m', h1, h2⟩ := hend
      cases rparen h1
      obtain ⟨rfl, rfl⟩ := bal_unique hX hr.bal e
      exact ⟨is, se, u, r, rfl, hr, ⟨_, _, h1, h2⟩, hrest⟩
  · rintro ⟨is, se, u, r, rfl, hr, hend, hrest⟩
    exact Script.append hb (.cons (table_intro hh (sep_of_rows hr) hend) hrest)

theorem table_sum {isNum : Str → Bool} {d : Rdbms} {v : Bool × QName} {is js : List Item} :
    tableVal isNum d ⟨v.1, v.2, is ++ js⟩ = joined (tableVal isNum d ⟨v.1, v.2, is⟩) (tableVal isNum d ⟨v.1, v.2, js⟩) := by
  simp [tableVal, joined]

theorem tables_at {isNum : Str → Bool} {d : Rdbms} {s0 se : List Stmt} {t : TableAst} :
    tablesVal isNum d (s0 ++ .table t :: se) = tablesVal isNum d s0 ++ tableVal isNum d t :: tablesVal isNum d se := by
  simp [tablesVal]

/-! ### Entries in another order -/

/-- The rows of each part. -/
inductive Parts (L : Lang β) : List (List Str) → List β → Prop
  | nil : Parts L [] []
  | cons (h : Rows L X is) (hs : Parts L Xs js) : Parts L (X :: Xs) (is ++ js)

theorem Parts.perm {L : Lang β} {Xs Ys : List (List Str)} (h : Xs.Perm Ys) {is : List β} (hp : Parts L Xs is) :
    ∃ js, is.Perm js ∧ Parts L Ys js := by
  induction h generalizing is with
  | nil => exact ⟨_, .refl _, hp⟩
  | cons X _ ih =>
    cases hp with
    | cons h hs =>
      obtain ⟨js, e, hj⟩ := ih hs
      exact ⟨_, e.append_left _, .cons h hj⟩
  | swap X Y Zs =>
    cases hp with
    | @cons _ i _ _ h hs =>
      cases hs with
      | @cons _ j _ k h' hs =>
        refine ⟨_, ?_, .cons h' (.cons h hs)⟩
        rw [← List.append_assoc, ← List.append_assoc]
        exact (List.perm_append_comm (l₁ := i) (l₂ := j)).append_right k
  | trans _ _ ih1 ih2 =>
    obtain ⟨js, e, hj⟩ := ih1 hp
    obtain ⟨ks, e', hk⟩ := ih2 hj
    exact ⟨ks, e.trans e', hk⟩

theorem commas_bal {Xs : List (List Str)} (h : ∀ X ∈ Xs, Bal X) : Bal (commas Xs) := by
  induction Xs with
  | nil => exact .nil
  | cons X Xs ih =>
    cases Xs with
    | nil => exact h X (by simp)
    | cons Y Xs =>
      exact bal_append (h X (by simp)) (.plain _ _ (by decide) (by decide) (ih fun Z hZ => h Z (by simp_all)))

theorem rows_commas {L : Lang β} {Xs : List (List Str)} (hne : Xs ≠ []) (hb : ∀ X ∈ Xs, Bal X) {is : List β} :
    Rows L (commas Xs) is ↔ Parts L Xs is := by
  induction Xs generalizing is with
  | nil => exact (hne rfl).elim
  | cons X Xs ih =>
    cases Xs with
    | nil =>
      constructor
      · intro h
        have := Parts.cons (L := L) (X := X) h .nil
        simpa using this
      · intro h
        cases h with
        | cons h hs => cases hs; rw [List.append_nil]; exact h
    | cons Y Xs =>
      have ih := fun is => ih (is := is) (by simp) (fun Z hZ => hb Z (by simp_all))
      constructor
      · intro h
        obtain ⟨is, js, rfl, h1, h2⟩ := rows_split (X := X) (Y := commas (Y :: Xs)) h (hb X (by simp)) rfl
        exact .cons h1 ((ih _).1 h2)
      · intro h
        cases h with
        | cons h hs => exact h.append ((ih _).2 hs)

theorem table_shuffled {isNum : Str → Bool} {d : Rdbms} {v : Bool × QName} {is js : List Item} (h : is.Perm js) :
    Shuffled (tableVal isNum d ⟨v.1, v.2, is⟩) (tableVal isNum d ⟨v.1, v.2, js⟩) :=
  ⟨h.filterMap _, h.filterMap _, h.filterMap _, h.filterMap _, h.filterMap _⟩

end DDL
