import Verif.Proof.SqliteImpl
import Verif.Model.Postgres
/-
The PostgreSQL validator implements the PostgreSQL grammar.
-/

namespace DDL
open V Spec

/-- The last type alternative: a word of `all` that is none of the words `ks` tested before. -/
theorem type_word {n : Nat} {all ks : List String}
    (hall : ∀ t ∈ kwList all, TypeWord t) {ts : List Str} (hts : Ok n ts)
    (hk : isKw ks (hd ts) = false) :
    Impl (validateToken true all)
      (do let n ← tok fun t => Kw all t ∧ ¬ Kw ks t
          return (⟨n, false, none⟩ : TypeAst)) typeE ts := by
  refine Impl.congr (L' := do let n ← tok (Kw all); return (⟨n, false, none⟩ : TypeAst))
    (fun v r => ?_) ?_
  · constructor
    · rintro ⟨t, m, ⟨h1, h2, h3⟩, h4⟩
      exact ⟨t, m, ⟨h1, h2⟩, h4⟩
    · rintro ⟨t, m, ⟨h1, h2⟩, h4⟩
      subst h1
      exact ⟨t, m, ⟨rfl, h2, isKw_not.1 hk⟩, h4⟩
  · refine (Impls.tokKw n true all ts hts).last fun t o _ ⟨h1, h2, h3⟩ _ => .ret ?_
    subst h3
    exact ⟨[], [], forall_kw hall (isKw_kw.2 h1), rfl, rfl, rfl⟩

/-- A type word with digits. -/
theorem typeE_of {n : Str} {g : Option (Nat × Option Nat)} {o : List Str} {ks : List String}
    (hn : isKw ks n = true) (hks : ∀ t ∈ kwList ks, TypeWord t) (hg : digitsE g o) :
    typeE ⟨n, false, g⟩ (n :: o) :=
  ⟨[], o, forall_kw hks hn, rfl, hg, rfl⟩

theorem zone_impl (n : Nat) :
    Impls n (ifM (matchTokenNext false ["WITH", "WITHOUT"])
      (do validateToken false ["TIME"]
          validateToken false ["ZONE"])
      (.ret ())) (do
        let _ ← optKw ["WITH", "WITHOUT"] (do kw ["TIME"]; kw ["ZONE"])
        return () : Lang Unit) nilE :=
  Impls.lastN (Impls.optKwF (by decide) (Impls.kwF (Impls.kwLast n _)))

namespace PostgresImpl

theorem type_impl (n : Nat) : Impls n Postgres.validateColumnType Spec.Postgres.type typeE := by
  intro ts hts
  unfold Postgres.validateColumnType Spec.Postgres.type
  have special : ∀ {ks : List String}, (∀ t ∈ kwList ks, isKw Spec.Postgres.specialTypes t = true) →
      NotFirst ks (do
        let n ← tok fun t => Kw dataTypePostgres t ∧ ¬ Kw Spec.Postgres.specialTypes t
        return (⟨n, false, none⟩ : TypeAst) : Lang TypeAst) := by
    intro ks h
    refine NotFirst.tok fun t ht => ?_
    cases hk : isKw ks t with
    | false => rfl
    | true => exact absurd (isKw_kw.1 (forall_kw h hk)) ht.2
  refine Impl.altNext (by decide) ?_ hts.2 (fun t r e ht _ => ?_) (fun hk1 => ?_)
  · notfirst; exact special (by decide)
  · refine Impls.bind (E1 := fun v o => if v then ∃ t, isKw ["VARYING"] t = true ∧ o = [t] else o = [])
      (Impls.optWord (by decide) (fun t ht => ⟨t, ht, rfl⟩) rfl) (fun v ov hv => ?_) r
      (hts.suffix ⟨[t], e.symm⟩)
    refine (digitN_impl n).last fun g og hg => .ret ?_
    refine ⟨ov, og, forall_kw (P := TypeWord) (by decide) ht, ?_, hg, by simp⟩
    cases v with
    | false => exact hv
    | true => exact ⟨ht, hv⟩
  refine Impl.altNext (by decide) ?_ hts.2 (fun t r e ht _ => ?_) (fun hk2 => ?_)
  · notfirst; exact special (by decide)
  · refine Impls.last (digitN_impl n) (fun g og hg => .ret ?_) r (hts.suffix ⟨[t], e.symm⟩)
    simpa using typeE_of ht (by decide) hg
  refine Impl.altNext (by decide) ?_ hts.2 (fun t r e ht _ => ?_) (fun hk3 => ?_)
  · notfirst; exact special (by decide)
  · refine Impls.last (digitPS_impl n) (fun g og hg => .ret ?_) r (hts.suffix ⟨[t], e.symm⟩)
    simpa using typeE_of ht (by decide) hg
  refine Impl.altNext (by decide) ?_ hts.2 (fun t r e ht _ => ?_) (fun hk4 => ?_)
  · notfirst; exact special (by decide)
  · refine Impls.lastF (Impls.kwLast n _) ?_ r (hts.suffix ⟨[t], e.symm⟩)
    exact typeE_of ht (by decide) rfl
  refine Impl.altNext (by decide) ?_ hts.2 (fun t r e ht _ => ?_) (fun hk5 => ?_)
  · notfirst; exact special (by decide)
  · refine Impls.bind (digitN_impl n) (fun g og hg => ?_) r (hts.suffix ⟨[t], e.symm⟩)
    refine Impls.lastF (zone_impl n) ?_
    simpa using typeE_of ht (by decide) hg
  exact type_word (by decide +kernel) hts
    (isKw_append hk1 (isKw_append hk2 (isKw_append hk3 (isKw_append hk4 hk5))))

theorem indexParams_impl (n : Nat) :
    Impls n (Postgres.validateIndexParameters n) Spec.Postgres.indexParams nilE := by
  refine Impls.bindF (Impls.optKwF (by decide) (nameList_implF n .postgres)) fun _ => ?_
  refine Impls.bindF (Impls.optKwF (by decide) (parens_implF n)) fun _ => ?_
  refine Impls.lastN (f := fun _ => ()) (Impls.optKwF (by decide) ?_)
  exact Impls.kwF (Impls.kwF (name_implF n .postgres))

theorem optParens_impl (n : Nat) :
    Impls n (Postgres.optBrackets n) Spec.Postgres.optParens nilE := by
  unfold Postgres.optBrackets Spec.Postgres.optParens
  have e : (notAt ["("] : Lang Unit) =
      (notAt ["("] >>= fun _ => (pure () : Lang Unit)) := by
    funext ts v r; exact (propext (Lang.bind_pure _ ts v r)).symm
  rw [e]
  intro ts hts
  refine Impl.opt (by decide) (by first_) (fun hk => ?_) (fun _ => .ret rfl)
  refine Impl.congr (L' := do let _ ← parens; return ()) (fun v r => ?_)
    (Impls.lastN (f := fun _ => ()) (parens_implF n) ts hts)
  constructor
  · rintro ⟨_, _, h, h'⟩
    obtain ⟨rfl, _⟩ := (at_iff (by decide)).1 h
    exact h'
  · exact fun h => ⟨(), ts, (at_iff (by decide)).2 ⟨rfl, hk⟩, h⟩

theorem check_impl (n : Nat) {f : List Str → β} {E : β → List Str → Prop}
    (hE : ∀ e o, checkE e o → E (f e) o) :
    Impls n (Postgres.validateConstraintCheck n)
      (do let e ← Spec.Postgres.check; return f e) E := by
  unfold Spec.Postgres.check
  simp only [Lang.bind_assoc, Lang.pure_bind]
  refine Impls.kwT fun t ht => ?_
  refine (parens_implT n).bind fun e o ⟨h1, h2⟩ => ?_
  refine Impls.lastF (Impls.optKwF (by decide) (Impls.kwLast n _)) (hE _ _ ⟨t, ht, h1, ?_⟩)
  simp [h2]

theorem generated_impl (n : Nat) :
    Impls n (ifM (matchTokenNext false ["ALWAYS"])
      (do validateToken false ["AS"]
          ifM (matchTokenNext false ["IDENTITY"]) (Postgres.optBrackets n) <|
            ifM (matchToken ["("])
              (do validateBrackets n false
                  validateToken false ["STORED"])
              syntaxError) <|
      ifM (matchTokenNext false ["BY"])
        (do validateToken false ["DEFAULT"]
            validateToken false ["AS"]
            validateToken false ["IDENTITY"]
            Postgres.optBrackets n) <|
      ifM (matchTokenNext false ["AS"])
        (do validateToken false ["IDENTITY"]
            Postgres.optBrackets n)
      syntaxError) Spec.Postgres.generated nilE := by
  unfold Spec.Postgres.generated
  refine Impls.altNextK (by decide) (by notfirst) (Impls.kwF ?_) ?_
  · refine Impls.altNextK (by decide) ?_ (optParens_impl n) ?_
    · exact First.not (first_parens (by decide)).bind
    · exact Impls.altLast (first_parens (by decide)).bind
        ((parens_implF n).bindF fun _ => Impls.kwLast n _)
  refine Impls.altNextK (by decide) (by notfirst)
    (Impls.kwF (Impls.kwF (Impls.kwF (optParens_impl n)))) ?_
  exact Impls.altNextLastK (by decide) (Impls.kwF (optParens_impl n))

theorem default_impl {isNum : Str → Bool} (hN : NumOK isNum) (n : Nat) :
    Impls n (Postgres.validateConstraintDefault isNum n)
      (do kw ["DEFAULT"]; let v ← defaultValue isNum .postgres; return ColCon.default v)
      (colConE isNum .postgres) := by
  refine Impls.kwT fun t ht => ?_
  refine (defaultValue_impl hN n .postgres).last fun v o h => .ret ⟨t, o, ht, h, by simp⟩

/-- GENERATED and AS: the latter is always rejected. -/
theorem generatedCon_impl (isNum : Str → Bool) (n : Nat) :
    Impls n (ifM (matchToken ["GENERATED", "AS"]) (Postgres.validateConstraintGenerated n)
        syntaxError)
      (do kw ["GENERATED"]; Spec.Postgres.generated; return ColCon.other "GENERATED")
      (colConE isNum .postgres) :=
  Impls.altLast (by first_) (Impls.kwF (Impls.lastF (generated_impl n) rfl))

theorem colCon_impl {isNum : Str → Bool} (hN : NumOK isNum) (n : Nat) :
    Impls n (Postgres.validateColumnConstraint isNum n) (Spec.Postgres.colCon isNum)
      (colConE isNum .postgres) := by
  unfold Postgres.validateColumnConstraint Spec.Postgres.colCon
  refine Impls.alt (by first_) (by notfirst) ?_ ?_
  · exact Impls.kwT fun p hp => Impls.kwT fun k hk =>
      Impls.lastF (indexParams_impl n) ⟨p, k, [], hp, hk, rfl, rfl⟩
  refine Impls.alt (by first_) (by notfirst) ?_ ?_
  · refine Impls.kwT fun a ha => (Impls.kw n true _).last fun _ o ⟨b, hb, ho⟩ => .ret ?_
    subst ho
    exact ⟨a, b, ha, hb, rfl⟩
  refine Impls.alt (by first_) (by notfirst) (Impls.lastF (Impls.kwLast n _) rfl) ?_
  refine Impls.alt (by first_) (by notfirst) ?_ ?_
  · exact Impls.kwT fun a ha => Impls.lastF (indexParams_impl n) ⟨a, ha, rfl⟩
  refine Impls.alt (by first_) (by notfirst) (check_impl n fun e o h => h) ?_
  refine Impls.alt (by first_) (by notfirst) (default_impl hN n) ?_
  refine Impls.alt (by first_) (by notfirst)
    (colRef_impl (refClauses_impl n) fun r o h => h) ?_
  exact generatedCon_impl isNum n

theorem suff_indexParams : Suff Spec.Postgres.indexParams := by
  have := Suff.nameList .postgres
  unfold Spec.Postgres.indexParams; suff

theorem suff_generated : Suff Spec.Postgres.generated := by
  unfold Spec.Postgres.generated Spec.Postgres.optParens; suff

theorem suff_check : Suff Spec.Postgres.check := by
  unfold Spec.Postgres.check; suff

theorem suff_type : Suff Spec.Postgres.type := by
  have := Suff.digitN
  have := Suff.digitPS
  unfold Spec.Postgres.type Spec.Postgres.zone; suff

theorem cons_colCon (isNum : Str → Bool) : Cons (Spec.Postgres.colCon isNum) := by
  have := Suff.qname .postgres
  have := Suff.refClauses
  have := suff_indexParams
  have := suff_generated
  have := Suff.defaultValue isNum .postgres
  unfold Spec.Postgres.colCon Spec.colRef Spec.Postgres.check
  simp only [Lang.bind_assoc]
  repeat' apply Cons.alt
  all_goals (apply Cons.kw_bind; suff)

/-- Kinds of column constraints. -/
def kinds : List String :=
  ["PRIMARY", "NULL", "UNIQUE", "CHECK", "DEFAULT", "REFERENCES", "GENERATED"]

theorem keyIs_colCon (isNum : Str → Bool) :
    KeyIs Postgres.constraintKey S kinds (Spec.Postgres.colCon isNum) := by
  unfold Spec.Postgres.colCon
  refine .alt (.leaf "PRIMARY" (by decide) (by first_) (by val)) ?_
  refine .alt (.leaf "NULL" (by decide) (by first_) (by val)) ?_
  refine .alt (.leaf "NULL" (by decide) (by first_) (by val)) ?_
  refine .alt (.leaf "UNIQUE" (by decide) (by first_) (by val)) ?_
  refine .alt (.leaf "CHECK" (by decide) (by first_) (by val)) ?_
  refine .alt (.leaf "DEFAULT" (by decide) (by first_) (by val)) ?_
  refine .alt (.leaf "REFERENCES" (by decide) (by first_) (by val)) ?_
  exact .leaf "GENERATED" (by decide) (by first_) (by val)

theorem colCons_impl {isNum : Str → Bool} (hN : NumOK isNum) (n : Nat) :
    Impls n (columnConstraintsAux Postgres.columnConstraintKinds Postgres.constraintKey
        (Postgres.validateColumnConstraint isNum) n [])
      (colCons Spec.Postgres.colConFirst (Spec.Postgres.colCon isNum))
      (manyE (colConE isNum .postgres)) := by
  have := DDL.colCons_impl (kindWords := Spec.Postgres.colConFirst) (by decide) (colCon_impl hN)
    (cons_colCon isNum) (keyIs_colCon isNum) (by decide) n [] (by simp)
  simp only [List.map_nil, List.not_mem_nil, not_false_eq_true, implies_true, and_true] at this
  exact this

theorem column_impl {isNum : Str → Bool} (hN : NumOK isNum) (n : Nat) :
    Impls n (do
      validateName .postgres true
      Postgres.validateColumnType
      Postgres.validateColumnConstraints isNum n) (Spec.Postgres.column isNum)
      (itemE isNum .postgres) :=
  DDL.column_impl (type_impl n) (conName_impl n .postgres) (colCons_impl hN n)

theorem tableCon_impl (n : Nat) (c : ConName) :
    Impls n (ifM (matchToken ["PRIMARY"]) (Postgres.validateTableConstraintPrimaryKey n) <|
      ifM (matchToken ["UNIQUE"]) (Postgres.validateTableConstraintUnique n) <|
      ifM (matchToken ["CHECK"]) (Postgres.validateConstraintCheck n) <|
      ifM (matchToken ["FOREIGN"]) (Postgres.validateTableConstraintForeignKey n) <|
      ifM (matchToken ["EXCLUDE"]) (Postgres.validateTableConstraintExclude n)
      syntaxError) (Spec.Postgres.tableCon c)
      (fun i o => Item.conName i = c ∧ tableConE .postgres i o) := by
  unfold Spec.Postgres.tableCon
  refine Impls.alt (by first_) (by notfirst) ?_ ?_
  · refine Impls.kwT fun p hp => Impls.kwT fun k hk => ?_
    exact nameList_impl n .postgres fun cs oc h =>
      Impls.lastF (indexParams_impl n) ⟨rfl, p, k, oc, hp, hk, h, by simp⟩
  refine Impls.alt (by first_) (by notfirst) ?_ ?_
  · refine Impls.kwT fun p hp => ?_
    exact nameList_impl n .postgres fun cs oc h =>
      Impls.lastF (indexParams_impl n) ⟨rfl, p, oc, hp, h, by simp⟩
  refine Impls.alt (by first_) (by notfirst) (check_impl n fun e o h => ⟨rfl, h⟩) ?_
  refine Impls.alt (by first_) (by notfirst)
    (foreignKey_impl (refClauses_impl n) fun _ _ _ h => ⟨rfl, h⟩) ?_
  refine Impls.altLast (by first_) ?_
  refine Impls.kwF ?_
  refine Impls.bindF (Impls.optKwF (by decide) (name_implF n .postgres)) fun _ => ?_
  refine (parens_implF n).bindF fun _ => ?_
  refine (indexParams_impl n).bindF fun _ => ?_
  exact Impls.lastF (Impls.optKwF (by decide) (parens_implF n)) ⟨rfl, rfl⟩

theorem item_impl {isNum : Str → Bool} (hN : NumOK isNum) (n : Nat) :
    Impls n (Postgres.validateColumnDefinition isNum n) (Spec.Postgres.item isNum)
      (itemE isNum .postgres) :=
  DDL.item_impl (by decide)
    (.tok fun t ht => not_name (by decide +kernel) ht) (conName_impl n .postgres) (tableCon_impl n)
    (column_impl hN n)

theorem items_impl {isNum : Str → Bool} (hN : NumOK isNum) (n : Nat) :
    Impls n (Postgres.validateColumnDefinitions isNum n) (Sep (Spec.Postgres.item isNum))
      (sepE (itemE isNum .postgres)) :=
  sep_impl (fun _ => rfl) (item_impl hN) n

theorem option_impl (n : Nat) :
    Impls n (Postgres.validateTableOption n) Spec.Postgres.option nilE := by
  unfold Postgres.validateTableOption Spec.Postgres.option
  refine Impls.alt (by first_) (by notfirst)
    (Impls.kwF (Impls.lastN (f := fun _ => ()) (parens_implF n))) ?_
  refine Impls.alt (by first_) (by notfirst) (Impls.kwF (Impls.kwLast n _)) ?_
  refine Impls.alt (by first_) (by notfirst)
    (Impls.kwF (Impls.lastN (f := fun _ => ()) (name_implF n _))) ?_
  refine Impls.alt (by first_) (by notfirst)
    (Impls.kwF (Impls.lastN (f := fun _ => ()) (parens_implF n))) ?_
  refine Impls.alt (by first_) (by notfirst)
    (Impls.kwF (Impls.kwF (Impls.kwF (Impls.lastN (f := fun _ => ()) (parens_implF n))))) ?_
  exact Impls.altLast (by first_) (Impls.kwF (Impls.lastN (f := fun _ => ()) (name_implF n _)))

theorem cons_option : Cons Spec.Postgres.option := by
  unfold Spec.Postgres.option
  repeat' apply Cons.alt
  all_goals (apply Cons.kw_bind; suff)

theorem options_impl (n : Nat) :
    Impls n (Postgres.validateTableOptions n) (Options Spec.Postgres.option) nilE :=
  DDL.options_impl (fun _ => rfl) option_impl cons_option n

theorem createTable_impl {isNum : Str → Bool} (hN : NumOK isNum) (n : Nat) :
    Impls n (Postgres.validateCreateTable isNum n)
      (createTable .postgres (Spec.Postgres.item isNum) (Options Spec.Postgres.option))
      (stmtE .postgres (itemE isNum .postgres)) :=
  DDL.createTable_impl (items_impl hN n) (options_impl n)

theorem otherKinds_impl (n : Nat) {E : Stmt → List Str → Prop} (h : E .other []) :
    Impls n (validateCreateOther Postgres.otherKinds n) (other Spec.Postgres.otherKinds) E := by
  have e : ∀ t, Kw Postgres.otherKinds t ↔ Kw Spec.Postgres.otherKinds t := by
    intro t
    rw [← isKw_kw, ← isKw_kw]
    exact ⟨fun ht => forall_kw (P := fun t => isKw _ t = true) (by decide) ht,
      fun ht => forall_kw (P := fun t => isKw _ t = true) (by decide) ht⟩
  have e' : other Spec.Postgres.otherKinds = other Postgres.otherKinds := by
    unfold other kw
    rw [show Kw Spec.Postgres.otherKinds = Kw Postgres.otherKinds from
      funext fun t => propext (e t).symm]
  rw [e']
  exact other_impl h

theorem stmt_impl {isNum : Str → Bool} (hN : NumOK isNum) (n : Nat) :
    Impls n (Postgres.validateDdl isNum n) (Spec.Postgres.stmt isNum)
      (stmtE .postgres (itemE isNum .postgres)) := by
  refine Impls.kwF ?_
  exact Impls.alt (by unfold createTable; first_) (by unfold other; notfirst)
    (createTable_impl hN n) (otherKinds_impl n rfl)

theorem suff_item (isNum : Str → Bool) : Suff (Spec.Postgres.item isNum) := by
  have := Suff.nameList .postgres
  have := Suff.refClauses
  have := suff_indexParams
  have := Suff.conName .postgres
  have := suff_type
  have := suff_check
  have := (cons_colCon isNum).suff
  unfold Spec.Postgres.item Spec.Postgres.column colCons
  suff

theorem cons_stmt (isNum : Str → Bool) : Cons (Spec.Postgres.stmt isNum) := by
  refine Cons.kw_bind ?_
  exact Suff.alt (Suff.createTable (suff_item isNum) (Suff.options cons_option.suff))
    (Suff.other _)

/-- The PostgreSQL validator implements the PostgreSQL grammar. -/
theorem script_impl {isNum : Str → Bool} (hN : NumOK isNum) (n : Nat) :
    Impls n (Postgres.validate isNum n) (scriptL (Spec.Postgres.stmt isNum))
      (scriptE isNum .postgres) :=
  DDL.script_impl (fun _ => rfl) (stmt_impl hN) (cons_stmt isNum) n

end PostgresImpl
end DDL
