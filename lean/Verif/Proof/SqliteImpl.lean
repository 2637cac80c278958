import Verif.Proof.Emit
import Verif.Model.Sqlite
/-
The SQLite validator implements the SQLite grammar.
-/

namespace DDL
open V Spec

/-- Closes goals `NotFirst ks L`, `First P L` where `L` starts with fixed keywords. -/
macro "notfirst" : tactic => `(tactic| repeat' (first
  | apply NotFirst.alt
  | exact NotFirst.kw (by decide)
  | exact NotFirst.kw' (by decide)
  | exact NotFirst.tokKw (by decide)
  | exact NotFirst.at (by decide)
  | exact NotFirst.notAt (by decide) (by decide)
  | (apply NotFirst.bind; first
      | unfold Spec.colRef | unfold Spec.foreignKey | unfold Spec.Postgres.check
      | unfold Spec.Mysql.check)))

macro "first_" : tactic => `(tactic| repeat' (first
  | apply First.alt
  | exact First.kw (by decide)
  | exact First.kw' (by decide)
  | exact First.tokKw (by decide)
  | exact First.at (by decide)
  | (apply First.bind; first
      | unfold Spec.colRef | unfold Spec.foreignKey | unfold Spec.Postgres.check
      | unfold Spec.Mysql.check)))

/-- Closes goals `Val P L` where `L` ends in `return`. -/
macro "val" : tactic => `(tactic| repeat' (first
  | (with_reducible apply Val.bind; intro _)
  | with_reducible apply Val.alt
  | exact Val.pure rfl))

theorem ifM_bind (c : Prog Bool) (t e : Prog α) (k : α → Prog β) :
    (ifM c t e >>= k) = ifM c (t >>= k) (e >>= k) := by
  simp only [ifM, Prog.bind_eq, Prog.bind_assoc]
  congr 1; funext b; cases b <;> rfl

theorem itemE_of {isNum : Str → Bool} {d : Rdbms} {i : Item} {n : ConName} {on oi : List Str}
    (hn : conNameE d n on) (h : Item.conName i = n ∧ tableConE d i oi) :
    itemE isNum d i (on ++ oi) := by
  obtain ⟨h1, h2⟩ := h
  subst h1
  cases i with
  | column c => exact h2.elim
  | _ => exact ⟨on, oi, hn, h2, rfl⟩

/-- `validateName; validateColumnType; [CONSTRAINT name]; constraints` -/
theorem column_impl {isNum : Str → Bool} {n : Nat} {d : Rdbms} {ty cn cc : Prog Unit}
    {T : Lang TypeAst} {N : Lang ConName} {C : Lang (List ColCon)}
    (hT : Impls n ty T typeE) (hN : Impls n cn N (conNameE d))
    (hC : Impls n cc C (manyE (colConE isNum d))) :
    Impls n (do
      validateName d true
      ty
      (do cn
          cc))
      (do
        let n ← name d
        let t ← T
        let cn ← N
        let cs ← C
        return Item.column ⟨n, t, cn, cs⟩) (itemE isNum d) := by
  refine (name_impl n d true).bind fun nm o ⟨h1, h2, h3⟩ => ?_
  subst h3
  refine hT.bind fun t ot ht => ?_
  refine hN.bind fun c on hn => ?_
  refine hC.last fun cs oc hc => .ret ?_
  exact ⟨ot, on, oc, ⟨h1, h2⟩, ht, hn, hc, by simp⟩

namespace SqliteImpl

theorem conflict_impl (n : Nat) : Impls n Sqlite.validateConflictClause Spec.Sqlite.conflict nilE :=
  Impls.lastN (Impls.optKwF (by decide) (Impls.kwF (Impls.kwLast n _)))

theorem refClauses_impl (n : Nat) :
    Impls n (Sqlite.validateConstraintReferencesAux n) Spec.Sqlite.refClauses nilE := by
  refine Impls.lastN (f := fun _ => ()) ?_
  induction n with
  | zero => intro ts hts; exact absurd hts.1 (by omega)
  | succ n ih =>
    intro ts hts
    have h3 : First (fun t => isKw ["NOT", "DEFERRABLE"] t = true)
        (do let _ ← optWord ["NOT"]
            kw ["DEFERRABLE"]
            let _ ← optKw ["INITIALLY"] (kw ["DEFERRED", "IMMEDIATE"])
            return () : Lang Unit) := by
      rintro ts v r ⟨b, m, (⟨_, _, ⟨t, m', ⟨rfl, ht⟩, _⟩, _⟩ | ⟨_, m', h, rfl, rfl⟩), h2⟩
      · exact ⟨t, _, rfl, forall_kw (P := fun t => isKw ["NOT", "DEFERRABLE"] t = true)
          (by decide) (isKw_kw.2 ht)⟩
      · obtain ⟨rfl, _⟩ := h
        exact First.kw (P := fun t => isKw ["NOT", "DEFERRABLE"] t = true) (by decide) _ _ _ h2
    refine Impl.loop (by decide) (.alt (.kw (by decide)) (.alt (.kw (by decide))
      (h3.weaken fun t ht => forall_kw (P := fun t => isKw _ t = true) (by decide) ht)))
      fun M hM => ?_
    rw [← hM] at ih
    clear hM
    have ih' : ∀ a, Impls n (Sqlite.validateConstraintReferencesAux n)
        (M >>= fun as => (pure (a :: as) : Lang (List Unit))) nilE :=
      fun a => Impls.lastN ih
    rw [Sqlite.validateConstraintReferencesAux]
    simp only [onAction, Lang.alt_bind, Lang.bind_assoc, Lang.alt_assoc, Lang.kw_bind ["ON"],
      Lang.kw_bind ["MATCH"], Lang.pure_bind]
    have h3' : First (fun t => isKw ["NOT", "DEFERRABLE"] t = true) (do
          let _ ← optWord ["NOT"]
          kw ["DEFERRABLE"]
          let _ ← optKw ["INITIALLY"] (kw ["DEFERRED", "IMMEDIATE"])
          let as ← M
          pure (() :: as)) := by
      have := First.bind (f := fun a => M >>= fun as => (pure (a :: as) : Lang (List Unit))) h3
      simpa only [Lang.bind_assoc, Lang.pure_bind] using this
    refine Impl.altNext (by decide) (.alt (.tokKw (by decide)) (.alt (First.not
      (h3'.weaken fun t ht => forall_kw (P := fun t => isKw ["ON"] t = false) (by decide) ht))
        (.notAt (by decide) (by decide))))
      hts.2 (fun t r e _ _ => ?_) (fun hk => ?_)
    · subst e
      refine Impls.bindF (n := n) (p := ifM (matchTokenNext false ["DELETE", "UPDATE"]) (.ret ()) syntaxError)
        (L := kw ["DELETE", "UPDATE"]) ?_ (fun _ => ?_) r hts.tail
      · have e : (kw ["DELETE", "UPDATE"] : Lang Unit) =
            (kw ["DELETE", "UPDATE"] >>= fun _ => (pure () : Lang Unit)) := by
          funext ts v r; exact (propext (Lang.bind_pure _ ts v r)).symm
        rw [e]
        exact Impls.altNextLastK (by decide) (Impls.ret rfl)
      · have := onAction_impl (f := fun a => M >>= fun as => (pure (a :: as) : Lang (List Unit)))
          (ih' ())
        simpa only [Lang.alt_bind, Lang.bind_assoc, keep_false, List.nil_append] using this
    · refine Impl.altNext (by decide) (.alt (First.not
        (h3'.weaken fun t ht => forall_kw (P := fun t => isKw ["MATCH"] t = false) (by decide) ht))
        (.notAt (by decide) (by decide)))
        hts.2 (fun t r e _ _ => ?_) (fun hk' => ?_)
      · subst e
        exact Impls.kwF (ih' ()) r hts.tail
      · refine Impl.alt h3' (.notAt (by decide) (by decide)) (fun hk3 => ?_) (fun hk3 => ?_)
        · refine Impl.bind (E1 := fun b o => nilE b o) (Impls.optWordF (by decide) ts hts) ?_
          intro b o rest ho hb hs
          cases ho
          by_cases hr : isKw ["DEFERRABLE"] (hd rest) = true
          · cases rest with
            | nil => exact absurd hr (by decide)
            | cons t r =>
              refine Impl.bind (E1 := fun _ o => o = []) (Impls.kwLast (n + 1) _ _
                (hts.suffix hs)) ?_
              intro _ o r₁ ho hk hs'
              subst ho
              obtain ⟨_, _, ⟨h, _⟩, _, rfl⟩ := hk
              cases h
              exact Impls.bindF (L := optKw ["INITIALLY"] (kw ["DEFERRED", "IMMEDIATE"]))
                (Impls.optKwF (by decide) (Impls.kwLast n _)) (fun _ => ih' ())
                r (hts.suffix hs).tail
          · unfold Impl
            have : runA (validateToken false ["DEFERRABLE"]) rest = .fail rest := by
              cases rest with
              | nil => rfl
              | cons t r => exact runA_tokF (by simpa using hr)
            rw [runA_seq, this]
            rintro v r ⟨_, _, ⟨t, _, ⟨rfl, ht⟩, _⟩, _⟩
            exact hr (isKw_kw.2 ht)
        · exact .notAt (by decide) (isKw_append hk (isKw_append hk' hk3)) rfl

theorem check_impl (n : Nat) {f : List Str → β} {E : β → List Str → Prop}
    (hE : ∀ e o, checkE e o → E (f e) o) :
    Impls n (Sqlite.validateConstraintCheck n)
      (do kw ["CHECK"]; let e ← parens; return f e) E := by
  refine Impls.kwT fun t ht => ?_
  refine (parens_implT n).last fun e o ⟨h1, h2⟩ => .ret (hE _ _ ⟨t, ht, h1, ?_⟩)
  simp [h2]

theorem default_impl {isNum : Str → Bool} (hN : NumOK isNum) (n : Nat) :
    Impls n (Sqlite.validateConstraintDefault isNum n)
      (do kw ["DEFAULT"]; let v ← defaultValue isNum .sqlite; return ColCon.default v)
      (colConE isNum .sqlite) := by
  refine Impls.kwT fun t ht => ?_
  refine (defaultValue_impl hN n .sqlite).last fun v o h => .ret ⟨t, o, ht, h, by simp⟩

theorem primaryKey_impl (isNum : Str → Bool) (n : Nat) :
    Impls n Sqlite.validateConstraintPrimaryKey
      (do kw ["PRIMARY"]; kw ["KEY"]; let _ ← optWord ["ASC", "DESC"]; Spec.Sqlite.conflict
          let a ← optWord ["AUTOINCREMENT"]
          return ColCon.primaryKey a) (colConE isNum .sqlite) := by
  refine Impls.kwT fun p hp => ?_
  refine Impls.kwT fun k hk => ?_
  refine Impls.bindF (Impls.optWordF (by decide)) fun _ => ?_
  refine Impls.bindF (conflict_impl n) fun _ => ?_
  refine (Impls.optWord (E := autoE) (by decide) (fun t ht => ⟨t, ht, rfl⟩) rfl).last
    fun a o ha => .ret ?_
  exact ⟨p, k, o, hp, hk, ha, by simp⟩

theorem notNull_impl (isNum : Str → Bool) (n : Nat) :
    Impls n Sqlite.validateConstraintNotNull
      (do kw ["NOT"]; kw ["NULL"]; Spec.Sqlite.conflict; return ColCon.notNull)
      (colConE isNum .sqlite) :=
  Impls.kwT fun a ha => Impls.kwT fun b hb =>
    Impls.lastF (conflict_impl n) ⟨a, b, ha, hb, rfl⟩

theorem unique_impl (isNum : Str → Bool) (n : Nat) :
    Impls n Sqlite.validateConstraintUnique
      (do kw ["UNIQUE"]; Spec.Sqlite.conflict; return ColCon.unique) (colConE isNum .sqlite) :=
  Impls.kwT fun a ha => Impls.lastF (conflict_impl n) ⟨a, ha, rfl⟩

theorem collate_impl (isNum : Str → Bool) (n : Nat) :
    Impls n Sqlite.validateConstraintCollate
      (do kw ["COLLATE"]; let c ← tok (Kw ["BINARY", "NOCASE", "RTRIM"]); return ColCon.collate c)
      (colConE isNum .sqlite) :=
  Impls.kwT fun a ha => (Impls.tokKw n true _).last fun c o ⟨h1, h2, h3⟩ => .ret (by
    subst h3
    exact ⟨a, ha, h2, forall_kw (P := fun t => t ≠ S ",") (by decide) (isKw_kw.2 h1), rfl⟩)

theorem generated_impl (isNum : Str → Bool) (n : Nat) :
    Impls n (Sqlite.validateConstraintGenerated n)
      ((do kw ["GENERATED"]; kw ["ALWAYS"]; kw ["AS"]; let _ ← parens
           let _ ← optWord ["STORED", "VIRTUAL"]
           return ColCon.other "GENERATED") <|>
       (do kw ["AS"]; let _ ← parens; let _ ← optWord ["STORED", "VIRTUAL"]
           return ColCon.other "AS")) (colConE isNum .sqlite) := by
  unfold Sqlite.validateConstraintGenerated
  rw [ifM_bind]
  refine Impls.altNextK (by decide) (by notfirst) (Impls.kwF (Impls.kwF ?_)) (Impls.kwF ?_)
  all_goals exact (parens_implF n).bindF fun _ => Impls.lastF (Impls.optWordF (by decide)) rfl

theorem colCon_impl {isNum : Str → Bool} (hN : NumOK isNum) (n : Nat) :
    Impls n (Sqlite.validateColumnConstraint isNum n) (Spec.Sqlite.colCon isNum)
      (colConE isNum .sqlite) := by
  unfold Sqlite.validateColumnConstraint Spec.Sqlite.colCon
  refine Impls.alt (by first_) (by notfirst) (primaryKey_impl isNum n) ?_
  refine Impls.alt (by first_) (by notfirst) (notNull_impl isNum n) ?_
  refine Impls.alt (by first_) (by notfirst) (unique_impl isNum n) ?_
  refine Impls.alt (by first_) (by notfirst) (check_impl n fun e o h => h) ?_
  refine Impls.alt (by first_) (by notfirst) (default_impl hN n) ?_
  refine Impls.alt (by first_) (by notfirst) (collate_impl isNum n) ?_
  refine Impls.alt (by first_) (by notfirst)
    (colRef_impl (refClauses_impl n) fun r o h => h) ?_
  exact Impls.altLast (by first_) (generated_impl isNum n)

theorem suff_refClauses : Suff Spec.Sqlite.refClauses := by
  have := Suff.onAction
  unfold Spec.Sqlite.refClauses; suff

theorem suff_conflict : Suff Spec.Sqlite.conflict := by
  unfold Spec.Sqlite.conflict; suff

theorem cons_colCon (isNum : Str → Bool) : Cons (Spec.Sqlite.colCon isNum) := by
  have := Suff.qname .sqlite
  have := suff_refClauses
  have := suff_conflict
  have := Suff.defaultValue isNum .sqlite
  unfold Spec.Sqlite.colCon Spec.colRef
  simp only [Lang.bind_assoc]
  repeat' apply Cons.alt
  all_goals (apply Cons.kw_bind; suff)

/-- Kinds of column constraints. -/
def kinds : List String :=
  ["PRIMARY", "NULL", "UNIQUE", "CHECK", "DEFAULT", "COLLATE", "REFERENCES", "GENERATED", "AS"]

/-- The word under which the validator remembers a kind. -/
def code (k : String) : Str := if k = "NULL" then S "NOT" else S k

theorem keyIs_colCon (isNum : Str → Bool) :
    KeyIs toUpper code kinds (Spec.Sqlite.colCon isNum) := by
  unfold Spec.Sqlite.colCon
  refine .alt (.leaf "PRIMARY" (by decide) (by first_) (by val)) ?_
  refine .alt (.leaf "NULL" (by decide) (by first_) (by val)) ?_
  refine .alt (.leaf "UNIQUE" (by decide) (by first_) (by val)) ?_
  refine .alt (.leaf "CHECK" (by decide) (by first_) (by val)) ?_
  refine .alt (.leaf "DEFAULT" (by decide) (by first_) (by val)) ?_
  refine .alt (.leaf "COLLATE" (by decide) (by first_) (by val)) ?_
  refine .alt (.leaf "REFERENCES" (by decide) (by first_) (by val)) ?_
  refine .alt (.leaf "GENERATED" (by decide) (by first_) (by val)) ?_
  exact .leaf "AS" (by decide) (by first_) (by val)

theorem colCons_impl {isNum : Str → Bool} (hN : NumOK isNum) (n : Nat) :
    Impls n (columnConstraintsAux Sqlite.columnConstraintKinds toUpper
        (Sqlite.validateColumnConstraint isNum) n [])
      (colCons Spec.Sqlite.colConFirst (Spec.Sqlite.colCon isNum))
      (manyE (colConE isNum .sqlite)) := by
  have := DDL.colCons_impl (kindWords := Spec.Sqlite.colConFirst) (by decide) (colCon_impl hN)
    (cons_colCon isNum) (keyIs_colCon isNum) (by decide) n [] (by simp)
  simp only [List.map_nil, List.not_mem_nil, not_false_eq_true, implies_true, and_true] at this
  exact this

theorem type_impl (n : Nat) :
    Impls n Sqlite.validateColumnType
      (do let t ← tok (Kw ["TEXT", "NUMERIC", "INTEGER", "REAL", "NONE"])
          return (⟨t, false, none⟩ : TypeAst)) typeE :=
  (Impls.tokKw n true _).last fun t o ⟨h1, h2, h3⟩ => .ret (by
    subst h3
    exact ⟨[], [], forall_kw (P := TypeWord) (by decide) (isKw_kw.2 h1), rfl, rfl, rfl⟩)

theorem column_impl {isNum : Str → Bool} (hN : NumOK isNum) (n : Nat) :
    Impls n (do
      validateName .sqlite true
      Sqlite.validateColumnType
      Sqlite.validateColumnConstraints isNum n) (Spec.Sqlite.column isNum)
      (itemE isNum .sqlite) := by
  have := DDL.column_impl (type_impl n) (conName_impl n .sqlite) (colCons_impl hN n)
  simp only [Lang.bind_assoc, Lang.pure_bind] at this
  exact this

theorem tableCon_impl (n : Nat) (c : ConName) :
    Impls n (ifM (matchToken ["PRIMARY"]) (Sqlite.validateTableConstraintPrimaryKey n) <|
      ifM (matchToken ["UNIQUE"]) (Sqlite.validateTableConstraintUnique n) <|
      ifM (matchToken ["CHECK"]) (Sqlite.validateConstraintCheck n) <|
      ifM (matchToken ["FOREIGN"]) (Sqlite.validateTableConstraintForeignKey n)
      syntaxError) (Spec.Sqlite.tableCon c)
      (fun i o => Item.conName i = c ∧ tableConE .sqlite i o) := by
  unfold Spec.Sqlite.tableCon
  refine Impls.alt (by first_) (by notfirst) ?_ ?_
  · refine Impls.kwT fun p hp => Impls.kwT fun k hk => ?_
    exact nameList_impl n .sqlite fun cs oc h =>
      Impls.lastF (conflict_impl n) ⟨rfl, p, k, oc, hp, hk, h, by simp⟩
  refine Impls.alt (by first_) (by notfirst) ?_ ?_
  · refine Impls.kwT fun p hp => ?_
    exact nameList_impl n .sqlite fun cs oc h =>
      Impls.lastF (conflict_impl n) ⟨rfl, p, oc, hp, h, by simp⟩
  refine Impls.alt (by first_) (by notfirst) (check_impl n fun e o h => ⟨rfl, h⟩) ?_
  exact Impls.altLast (by first_) (foreignKey_impl (refClauses_impl n) fun _ _ _ h => ⟨rfl, h⟩)

end SqliteImpl

/-- Words that are not names. -/
theorem not_name {d : Rdbms} {ks : List String}
    (h : ∀ t ∈ kwList ks, isIdentifier d (t.headD ' ') = false ∧ plainName d t = false)
    {t : Str} (ht : Name d t) : isKw ks t = false := by
  cases hk : isKw ks t with
  | false => rfl
  | true =>
    obtain ⟨h1, h2⟩ := forall_kw h hk
    rcases ht with ⟨c, r, rfl, hc⟩ | ht
    · rw [List.headD_cons, (isIdentifier_iff d c).2 hc] at h1; cases h1
    · rw [(plainName_iff d t).2 ht] at h2; cases h2

/-- Table constraint or column. -/
theorem item_impl {isNum : Str → Bool} {n : Nat} {d : Rdbms} {ks : List String}
    {cn tc col : Prog Unit} {N : Lang ConName} {T : ConName → Lang Item} {C : Lang Item}
    (heof : isKw ks EOF = false) (hks : NotFirst ks C)
    (hN : Impls n cn N (conNameE d))
    (hT : ∀ c, Impls n tc (T c) (fun i o => Item.conName i = c ∧ tableConE d i o))
    (hC : Impls n col C (itemE isNum d)) :
    Impls n (ifM (matchToken ks) (cn >>= fun _ => tc) col)
      ((do at_ ks; let n ← N; T n) <|> C) (itemE isNum d) := by
  intro ts hts
  refine Impl.alt (.at fun t ht => isKw_mem.2 ht) hks (fun hk => ?_) (fun _ => hC ts hts)
  refine Impl.congr (L' := N >>= T) (fun v r => ?_) ?_
  · constructor
    · rintro ⟨_, _, h, h'⟩
      obtain ⟨rfl, _⟩ := (at_iff heof).1 h
      exact h'
    · exact fun h => ⟨(), ts, (at_iff heof).2 ⟨rfl, hk⟩, h⟩
  · refine Impls.bind hN (fun c on hn => ?_) ts hts
    exact (hT c).conseq fun i o h => itemE_of hn h

namespace SqliteImpl

theorem item_impl {isNum : Str → Bool} (hN : NumOK isNum) (n : Nat) :
    Impls n (Sqlite.validateColumnDefinition isNum n) (Spec.Sqlite.item isNum)
      (itemE isNum .sqlite) :=
  DDL.item_impl (by decide)
    (.tok fun t ht => not_name (by decide) ht) (conName_impl n .sqlite) (tableCon_impl n)
    (column_impl hN n)

theorem items_impl {isNum : Str → Bool} (hN : NumOK isNum) (n : Nat) :
    Impls n (Sqlite.validateColumnDefinitions isNum n) (Sep (Spec.Sqlite.item isNum))
      (sepE (itemE isNum .sqlite)) :=
  sep_impl (fun _ => rfl) (item_impl hN) n

theorem options_impl (n : Nat) :
    Impls n Sqlite.validateTableOptions Spec.Sqlite.options nilE := by
  intro ts hts
  by_cases he : ts = []
  · subst he
    unfold Impl
    rw [Sqlite.validateTableOptions, runA_oob, if_pos List.isEmpty_nil]
    refine ⟨(), .inr (.inr notAt_nil), rfl, ?_⟩
    rintro v r (⟨_, _, ⟨_, _, ⟨h, _⟩, _⟩, _⟩ | ⟨_, _, ⟨_, _, ⟨h, _⟩, _⟩, _⟩ | ⟨h, _⟩)
    · cases h
    · cases h
    · exact ⟨rfl, h⟩
  · have hemp : ts.isEmpty = false := by cases ts with
      | nil => exact absurd rfl he
      | cons => rfl
    unfold Impl
    rw [Sqlite.validateTableOptions, runA_oob, hemp, if_neg (by simp)]
    unfold Spec.Sqlite.options
    have e : (notAt ["WITHOUT", "STRICT"] : Lang Unit) =
        (notAt ["WITHOUT", "STRICT"] >>= fun _ => (pure () : Lang Unit)) := by
      funext ts v r; exact (propext (Lang.bind_pure _ ts v r)).symm
    rw [e, Lang.kw_bind ["WITHOUT"], Lang.kw_bind ["STRICT"]]
    refine Impl.altNext (E := nilE) (by decide) (by notfirst) hts.2 (fun t r e _ _ => ?_)
      (fun hk => Impl.altNext (by decide) (by notfirst) hts.2 (fun t r e _ _ => ?_)
        (fun hk' => .notAt (by decide) (isKw_append hk hk') rfl))
    · refine Impls.kwF ?_ r (hts.suffix ⟨[t], e.symm⟩)
      exact Impls.lastF (Impls.optKwF (by decide) (Impls.kwLast n _)) rfl
    · refine Impls.lastF (L := optKw [","] (do kw ["WITHOUT"]; kw ["ROWID"]))
        (E := nilE) (v := ()) ?_ rfl r (hts.suffix ⟨[t], e.symm⟩)
      exact Impls.optKwF (by decide) (Impls.kwF (Impls.kwLast n _))

theorem createTable_impl {isNum : Str → Bool} (hN : NumOK isNum) (n : Nat) :
    Impls n (Sqlite.validateCreateTable isNum n)
      (createTable .sqlite (Spec.Sqlite.item isNum) Spec.Sqlite.options)
      (stmtE .sqlite (itemE isNum .sqlite)) :=
  DDL.createTable_impl (items_impl hN n) (options_impl n)

theorem stmt_impl {isNum : Str → Bool} (hN : NumOK isNum) (n : Nat) :
    Impls n (Sqlite.validateDdl isNum n) (Spec.Sqlite.stmt isNum)
      (stmtE .sqlite (itemE isNum .sqlite)) := by
  refine Impls.kwF (Impls.bindF (Impls.optWordF (by decide)) fun _ => ?_)
  exact Impls.alt (by unfold createTable; first_) (by unfold other; notfirst)
    (createTable_impl hN n) (other_impl rfl)

theorem suff_item (isNum : Str → Bool) : Suff (Spec.Sqlite.item isNum) := by
  have := Suff.nameList .sqlite
  have := suff_refClauses
  have := suff_conflict
  have := Suff.conName .sqlite
  have := (cons_colCon isNum).suff
  unfold Spec.Sqlite.item Spec.Sqlite.column colCons
  suff

theorem cons_stmt (isNum : Str → Bool) : Cons (Spec.Sqlite.stmt isNum) := by
  refine Cons.kw_bind (Suff.bind (Suff.optWord _) fun _ => ?_)
  refine Suff.alt (Suff.createTable (suff_item isNum) ?_) (Suff.other _)
  unfold Spec.Sqlite.options; suff

/-- The SQLite validator implements the SQLite grammar. -/
theorem script_impl {isNum : Str → Bool} (hN : NumOK isNum) (n : Nat) :
    Impls n (Sqlite.validate isNum n) (scriptL (Spec.Sqlite.stmt isNum))
      (scriptE isNum .sqlite) :=
  DDL.script_impl (fun _ => rfl) (stmt_impl hN) (cons_stmt isNum) n

end SqliteImpl
end DDL
