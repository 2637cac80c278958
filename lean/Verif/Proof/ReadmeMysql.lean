import Verif.Proof.ReadmeCommon
/-
README grammar: MySQL.
-/

namespace DDL.Readme.Mysql
open V Takes
open Spec (Lang Kw ColCon Item Ref ConName tok at_ notAt)

variable {isNum : Str → Bool} {l : Level}

theorem check_takes (hN : NumOK isNum) :
    Takes isNum .mysql (w "CHECK" ⬝ .parens) Spec.Mysql.check ["NOT", "ENFORCED"] T :=
  weaken (bind hN kw fun _ _ => bindEps parens fun _ _ => epsBind hN optWordNo fun _ _ =>
    map optWordNo fun _ _ => trivial) (by decide)

theorem enforced_takes (hN : NumOK isNum) :
    Takes isNum .mysql (w "CHECK" ⬝ .parens ⬝ .opt (w "NOT") ⬝ w "ENFORCED") Spec.Mysql.check [] T :=
  weaken (bind hN kw fun _ _ => bind hN parens fun _ _ => bind hN optWord fun _ _ =>
    map optWordYes fun _ _ => trivial) (by decide)

theorem default_takes' (hN : NumOK isNum) {P : ColCon → Prop} (hP : ∀ v, P (.default v)) :
    Takes isNum .mysql (w "DEFAULT" ⬝ default_)
      (do Spec.kw ["DEFAULT"]
          (do at_ ["("]; let e ← Spec.parens; return ColCon.default (.expr e)) <|>
          (do notAt ["("]; let t ← Spec.literal isNum .mysql
              let _ ← Spec.optKw ["ON"] (do
                Spec.kw ["UPDATE"]; Spec.kw ["CURRENT_TIME", "CURRENT_DATE", "CURRENT_TIMESTAMP"])
              return .default (.lit t))) ["ON"] P :=
  weaken (bind hN kw fun _ _ => alt (inl (atKw (map parens fun _ _ => hP _)))
    (inr (notKw hN (bindEps literal fun _ _ => map optKwNo fun _ _ => hP _)))) (by decide)

theorem ref_takes (hN : NumOK isNum) {f : String} {p : Bnf} :
    Takes isNum .mysql (w "REFERENCES" ⬝ .name ⬝ w "(" ⬝ .name ⬝ w ")" ⬝ refClauses)
      (do let r ← Spec.colRef .mysql; Spec.refClauses; return ColCon.references r)
      ["ON", "MATCH", "(", "."] (Good ⟨f, "REFERENCES", p⟩) := by
  have h : Takes isNum .mysql
      ((w "REFERENCES" ⬝ .name ⬝ .opt (w "(" ⬝ .name ⬝ w ")")) ⬝ refClauses)
      (do let r ← Spec.colRef .mysql; Spec.refClauses; return ColCon.references r)
      ["ON", "MATCH", "(", "."] (Good ⟨f, "REFERENCES", p⟩) :=
    bind hN (colRef_takes hN) fun v hv =>
      map (Readme.refClauses_takes hN) fun _ _ => ⟨rfl, by rintro _ ⟨⟩; exact hv⟩
  exact h.congr fun _ _ ⟨_, h1, _, h2, _, h3, _, h4, _, h5, h6⟩ =>
    ⟨_, ⟨_, h1, _, h2, .inr ⟨_, h3, _, h4, h5⟩⟩, h6⟩

/-- Words that must not follow a column constraint. -/
def follow : String → List String
  | "UNIQUE" => ["KEY"]
  | "CHECK" => ["NOT", "ENFORCED"]
  | "DEFAULT" => ["ON"]
  | "REFERENCES" => ["ON", "MATCH", "(", "."]
  | _ => []

set_option maxRecDepth 4000 in
theorem con_takes (hN : NumOK isNum) :
    ∀ c ∈ colCons, Takes isNum .mysql c.phrase (Spec.Mysql.colCon isNum) (follow c.form) (Good c) := by
  intro c hc
  have hg : ∀ {f k p} {v : ColCon}, v.kind = k → (∀ r, v ≠ .references r) → Good ⟨f, k, p⟩ v :=
    fun h h' => ⟨h, fun r e => absurd e (h' r)⟩
  simp only [colCons, List.mem_cons, List.not_mem_nil, or_false] at hc
  rcases hc with rfl | rfl | rfl | rfl | rfl | rfl | rfl | rfl | rfl | rfl | rfl | rfl | rfl | rfl | rfl | rfl | rfl | rfl | rfl | rfl | rfl | rfl | rfl
  · exact weaken (inr (inl (bind hN kw fun _ _ => map kw fun _ _ => hg rfl nofun))) (by decide)
  · exact weaken (inl (map kw fun _ _ => hg rfl nofun)) (by decide)
  · exact weaken (inr (inr (inr (inr (inl (bindEps kw fun _ _ => map optWordNo fun _ _ => hg rfl nofun)))))) (by decide)
  · exact weaken (inr (inr (inr (inr (inl (bind hN kw fun _ _ => map optWordYes fun _ _ => hg rfl nofun)))))) (by decide)
  · exact weaken (inr (inr (inr (inr (inr (inr (inr (inr (inr (inr (inr (inr (inr (inr (inr (inr (inl (map kw fun _ _ => hg rfl nofun)))))))))))))))))) (by decide)
  · exact weaken (inr (inr (inl (bind hN kw fun _ _ => map kw fun _ _ => hg rfl nofun)))) (by decide)
  · exact weaken (inr (inr (inr (inl (map kw fun _ _ => hg rfl nofun))))) (by decide)
  · exact weaken (inr (inr (inr (inr (inr (inr (inl (default_takes' hN fun _ => hg rfl nofun)))))))) (by decide)
  · exact weaken (inr (inr (inr (inr (inr (inr (inr (inr (inr (inr (inr (inr (inr (inr (inr (inr (inr (inl (map kw fun _ _ => hg rfl nofun))))))))))))))))))) (by decide)
  · exact weaken (inr (inr (inr (inr (inr (inr (inr (inr (inr (inr (inr (inr (inr (inr (inr (inr (inr (inr (inl (map kw fun _ _ => hg rfl nofun)))))))))))))))))))) (by decide)
  · exact weaken (inr (inr (inr (inr (inr (inr (inr (inr (inr (inr (inr (inl (bind hN kw fun _ _ => map string fun _ _ => hg rfl nofun))))))))))))) (by decide)
  · exact weaken (inr (inr (inr (inr (inr (inr (inr (inl (bind hN kw fun _ _ => map name fun _ _ => hg rfl nofun))))))))) (by decide)
  · exact weaken (inr (inr (inr (inr (inr (inr (inr (inr (inr (inr (inr (inr (inl (bind hN kw fun _ _ => map kw fun _ _ => hg rfl nofun)))))))))))))) (by decide)
  · exact weaken (inr (inr (inr (inr (inr (inr (inr (inr (inr (inr (inr (inr (inr (inl (bind hN kw fun _ _ => bind hN optWord fun _ _ => map string fun _ _ => hg rfl nofun))))))))))))))) (by decide)
  · exact weaken (inr (inr (inr (inr (inr (inr (inr (inr (inr (inr (inr (inr (inr (inr (inl (bind hN kw fun _ _ => bind hN optWord fun _ _ => map string fun _ _ => hg rfl nofun)))))))))))))))) (by decide)
  · exact weaken (inr (inr (inr (inr (inr (inr (inr (inr (inr (inr (inr (inr (inr (inr (inr (inl (bind hN kw fun _ _ => map kw fun _ _ => hg rfl nofun))))))))))))))))) (by decide)
  · exact weaken (inr (inr (inr (inr (inr (inr (inr (inr (inr (inl (bind hN kw fun _ _ => bind hN kw fun _ _ => bind hN kw fun _ _ => map parens fun _ _ => hg rfl nofun))))))))))) (by decide)
  · exact weaken (inr (inr (inr (inr (inr (inr (inr (inr (inr (inr (inl (bind hN kw fun _ _ => map parens fun _ _ => hg rfl nofun)))))))))))) (by decide)
  · exact weaken (inr (inr (inr (inr (inr (inr (inr (inr (inr (inr (inr (inr (inr (inr (inr (inr (inr (inr (inr (inl (map kw fun _ _ => hg rfl nofun))))))))))))))))))))) (by decide)
  · exact weaken (inr (inr (inr (inr (inr (inr (inr (inr (inr (inr (inr (inr (inr (inr (inr (inr (inr (inr (inr (inr (map kw fun _ _ => hg rfl nofun))))))))))))))))))))) (by decide)
  · exact weaken (inr (inr (inr (inr (inr (inl (map (check_takes hN) fun _ _ => hg rfl nofun))))))) (by decide)
  · exact weaken (inr (inr (inr (inr (inr (inl (map (enforced_takes hN) fun _ _ => hg rfl nofun))))))) (by decide)
  · exact weaken (inr (inr (inr (inr (inr (inr (inr (inr (inl (ref_takes hN)))))))))) (by decide)

theorem conFacts (hN : NumOK isNum) : ConFacts isNum l .mysql follow where
  takes := con_takes hN
  first := by cases l <;> decide
  next := by cases l <;> decide +kernel
  last := by cases l <;> decide

theorem type_takes (hN : NumOK isNum) :
    Takes isNum .mysql type (Spec.typeLang .mysql) ["(", "WITH", "WITHOUT"] T := by
  have hz : Takes isNum .mysql zone Spec.Mysql.zone ["WITH", "WITHOUT"] T :=
    map (optKw (P := T) (bind hN kw fun _ _ => kw)) fun _ _ => trivial
  have hw : Takes isNum .mysql
      (.kw (Spec.dataTypeMysql.filter
        (· ∉ Spec.Mysql.typesN ++ Spec.Mysql.typesPS ++ Spec.Mysql.typesTime)))
      (tok fun t => Kw Spec.dataTypeMysql t ∧
        ¬ Kw (Spec.Mysql.typesN ++ Spec.Mysql.typesPS ++ Spec.Mysql.typesTime) t) [] T := by
    rintro ts rest ⟨t, rfl, ht⟩ _
    refine ⟨t, trivial, rfl, Kw.mono (fun k hk => (List.mem_filter.1 hk).1) ht, kw_disj ht ?_⟩
    decide +kernel
  exact weaken (alt (inl (bind hN word fun _ _ => map (digitN_takes hN) fun _ _ => trivial))
    (alt (inr (inl (bind hN word fun _ _ => map (digitPS_takes hN) fun _ _ => trivial)))
    (alt (inr (inr (inl (bind hN word fun _ _ => bind hN (digitN_takes hN) fun _ _ => map hz fun _ _ => trivial))))
    (inr (inr (inr (map hw fun _ _ => trivial)))))))
    (by decide +kernel)

theorem keyParts_takes (hN : NumOK isNum) : Takes isNum .mysql keyParts Spec.Mysql.keyList [] T :=
  weaken (bind hN kw fun _ _ => bind hN (list (P := T) (bind hN (P := T) (alt
      (inl (atKw (map parens fun _ _ => trivial)))
      (inr (bind hN name fun _ _ => map (digitN_takes hN) fun _ _ => trivial)))
    fun _ _ => map optWord fun _ _ => trivial)) fun _ _ => map kw fun _ _ => trivial) (by decide)

theorem indexType_takes : Takes isNum .mysql (.opt using_) Spec.Mysql.indexType ["USING"] T :=
  weaken (map (optKw kw) fun _ _ => trivial) (by decide)

theorem indexTypeNo : Takes isNum .mysql .eps Spec.Mysql.indexType ["USING"] T := map optKwNo fun _ _ => trivial

theorem indexOptions_takes (hN : NumOK isNum) :
    Takes isNum .mysql indexOptions (Spec.Mysql.indexOptions isNum) Spec.Mysql.indexOptionFirst T :=
  weaken (map (many (P := T) hN (alt (inl (bind hN kw fun _ _ => bind hN optWord fun _ _ => map literal fun _ _ => trivial))
    (alt (inr (inl (bind hN kw fun _ _ => kw)))
    (alt (inr (inr (inl (bind hN kw fun _ _ => bind hN kw fun _ _ => map name fun _ _ => trivial))))
    (alt (inr (inr (inr (inl (bind hN kw fun _ _ => map string fun _ _ => trivial)))))
    (alt (inr (inr (inr (inr (inl (kw))))))
    (inr (inr (inr (inr (inr (bind hN kw fun _ _ => bind hN optWord fun _ _ => map string fun _ _ => trivial)))))))))))) fun _ _ => trivial) (by decide)

/-- `[CONSTRAINT [symbol]]` before one of the words. -/
theorem symbolBind (hN : NumOK isNum) {ks : List String} {r : Bnf} {M : ConName → Lang β} {K : List String}
    {Q : β → Prop} (h : ∀ n, Takes isNum .mysql r (M n) K Q) (hw : within r ks = true := by decide)
    (hn : clear .mysql .name ks = true := by decide +kernel)
    (hc : clear .mysql (.kw ks) ["CONSTRAINT"] = true := by decide) :
    Takes isNum .mysql (symbol ⬝ r) (Spec.Mysql.conName ks >>= M) K Q := by
  rintro ts rest ⟨mid, h1, h2⟩ hr
  have ha := within_at hw h2
  have : ∃ n, Spec.Mysql.conName ks ts n mid := by
    rcases h1 with rfl | ⟨_, ⟨t', rfl, ht'⟩, rfl | ⟨t2, rfl, ht2⟩⟩
    · obtain ⟨_, t, u, rfl, hk⟩ := ha
      have : notAt ["CONSTRAINT"] (t :: u) () (t :: u) :=
        Begins.notAt hN (r := .kw ks) (((Bnf.kw ks).head ⟨t, rfl, hk⟩).resolve_left (by rintro ⟨⟨⟩, _⟩)) hc
      exact ⟨_, none, _, optKw_none this, rfl, rfl⟩
    · exact ⟨.anonymous, some none, _, optKw_some ht' (.inl ⟨(), _, ha, rfl, rfl⟩), rfl, rfl⟩
    · have : notAt ks (t2 :: mid) () (t2 :: mid) :=
        Begins.notAt hN (r := .name) ((Bnf.name.head ⟨t2, rfl, ht2⟩).resolve_left (by rintro ⟨⟨⟩, _⟩)) hn
      exact ⟨.named t2, some (some t2), _, optKw_some ht' (.inr ⟨(), _, this, _, _, name_intro ht2, rfl, rfl⟩),
        rfl, rfl⟩
  obtain ⟨n, hs⟩ := this
  obtain ⟨v, hv, hM⟩ := h n mid rest h2 hr
  exact ⟨v, hv, n, mid, hs, hM⟩

theorem noSymbol {ks : List String} : Takes isNum .mysql .eps (Spec.Mysql.conName ks) ["CONSTRAINT"] T := by
  rintro ts rest rfl hn
  exact ⟨_, trivial, none, _, optKw_none hn, rfl, rfl⟩

theorem indexName (hN : NumOK isNum) {ks : List String} (hn : clear .mysql .name ks = true := by decide +kernel) :
    Takes isNum .mysql .name (Spec.Mysql.nameUnless ks) [] T :=
  inr (notKw hN (map name fun _ _ => trivial) hn)

/-- `[index_name]` before one of the words. -/
theorem indexNameBind (hN : NumOK isNum) {ks : List String} {r : Bnf} {M : Option Str → Lang β} {K : List String}
    {Q : β → Prop} (h : ∀ n, Takes isNum .mysql r (M n) K Q) (hw : within r ks = true := by decide)
    (hn : clear .mysql .name ks = true := by decide +kernel) :
    Takes isNum .mysql (.opt .name ⬝ r) (Spec.Mysql.nameUnless ks >>= M) K Q := by
  rintro ts rest ⟨mid, h1, h2⟩ hr
  have ha := within_at hw h2
  have : ∃ n, Spec.Mysql.nameUnless ks ts n mid := by
    rcases h1 with rfl | h1
    · exact ⟨_, .inl ⟨(), _, ha, rfl, rfl⟩⟩
    · obtain ⟨n, _, h⟩ := indexName hN hn ts mid h1 notAt_nil
      exact ⟨n, h⟩
  obtain ⟨n, hs⟩ := this
  obtain ⟨v, hv, hM⟩ := h n mid rest h2 hr
  exact ⟨v, hv, n, mid, hs, hM⟩

/-- Words that must not follow a table constraint. -/
def tableFollow : List String := ["NOT", "ENFORCED", "ON", "MATCH"] ++ Spec.Mysql.indexOptionFirst

theorem tableCon_takes (hN : NumOK isNum) (hl : l ≠ .readme) :
    Takes isNum .mysql (tableCon l) (Spec.Mysql.item isNum) tableFollow (GoodItem l) := by
  have hg : ∀ {i : Item}, (i.Faithful ∧ i ≠ .exclude .absent) → GoodItem l i := fun h _ => h
  have most' : ∀ {r : Bnf}, (l ≠ .returned → Takes isNum .mysql r (Spec.Mysql.item isNum) tableFollow (GoodItem l)) →
      Takes isNum .mysql (most l r) (Spec.Mysql.item isNum) tableFollow (GoodItem l) := by
    intro r h
    unfold most
    by_cases hr : l = .returned
    · rw [if_pos hr]; exact no.mono (by simp) (fun _ h => h)
    · rw [if_neg hr]; exact h hr
  have tail : ∀ {f : List Spec.KeyPart → Item}, (∀ cs, GoodItem l (f cs)) →
      Takes isNum .mysql (keyParts ⬝ indexOptions)
        (do let cs ← Spec.Mysql.keyList; Spec.Mysql.indexOptions isNum; return f cs) Spec.Mysql.indexOptionFirst
        (GoodItem l) := fun hf =>
    weaken (bind hN (keyParts_takes hN) fun _ _ => map (indexOptions_takes hN) fun _ _ => hf _) (by decide)
  have h1 : l ≠ .returned → Takes isNum .mysql
      (.kw ["INDEX", "KEY"] ⬝ .opt .name ⬝ .opt using_ ⬝ keyParts ⬝ indexOptions) (Spec.Mysql.item isNum)
      tableFollow (GoodItem l) := fun hr =>
    weaken (inl (atKw (epsBind hN noSymbol fun n _ => inr (inr (inr (inr (inl (bind hN kw fun _ _ =>
      indexNameBind hN fun _ => bind hN indexType_takes fun _ _ => tail fun _ h => absurd h hr)))))))) (by decide)
  have h2 : l ≠ .returned → Takes isNum .mysql
      (.kw ["FULLTEXT", "SPATIAL"] ⬝ .opt (.kw ["INDEX", "KEY"]) ⬝ .opt .name ⬝ keyParts ⬝ indexOptions)
      (Spec.Mysql.item isNum) tableFollow (GoodItem l) := fun hr =>
    weaken (inl (atKw (epsBind hN noSymbol fun n _ => inr (inr (inr (inr (inr (bind hN kw fun _ _ =>
      bind hN optWord fun _ _ => indexNameBind hN fun _ => tail fun _ h => absurd h hr)))))))) (by decide)
  have h3 : Takes isNum .mysql (symbol ⬝ w "PRIMARY" ⬝ w "KEY" ⬝ .opt using_ ⬝ keyParts ⬝ indexOptions)
      (Spec.Mysql.item isNum) tableFollow (GoodItem l) :=
    weaken (inl (atKw (symbolBind hN fun n => inl (bind hN kw fun _ _ => bind hN kw fun _ _ =>
      bind hN indexType_takes fun _ _ => tail fun _ => hg ⟨trivial, nofun⟩)))) (by decide)
  have h4 : Takes isNum .mysql (symbol ⬝ w "UNIQUE" ⬝ .opt (.kw ["INDEX", "KEY"]) ⬝
      (.opt (.name ⬝ .opt using_) ∣∣ only l using_) ⬝ keyParts ⬝ indexOptions)
      (Spec.Mysql.item isNum) tableFollow (GoodItem l) := by
    have h : Takes isNum .mysql (symbol ⬝ w "UNIQUE" ⬝ .opt (.kw ["INDEX", "KEY"]) ⬝
        ((keyParts ⬝ indexOptions) ∣∣ (.name ⬝ .opt using_ ⬝ keyParts ⬝ indexOptions)))
        (Spec.Mysql.item isNum) tableFollow (GoodItem l) :=
      weaken (inl (atKw (symbolBind hN fun n => inr (inl (bind hN kw fun _ _ => bind hN optWord fun _ _ =>
        alt ((indexNameBind hN fun _ => epsBind hN indexTypeNo fun _ _ => tail (f := .unique n) fun _ => hg ⟨trivial, nofun⟩).congr
            fun _ _ h => ⟨_, .inl rfl, h⟩)
          (bind hN (indexName hN) fun _ _ => bind hN indexType_takes fun _ _ =>
            tail (f := .unique n) fun _ => hg ⟨trivial, nofun⟩)))))) (by decide)
    refine h.congr ?_
    rintro ts rest ⟨_, ha, _, hb, _, hc, _, (rfl | ⟨_, hd, he⟩) | ho, hf⟩
    · exact ⟨_, ha, _, hb, _, hc, .inl hf⟩
    · exact ⟨_, ha, _, hb, _, hc, .inr ⟨_, hd, _, he, hf⟩⟩
    · unfold only at ho; rw [if_neg hl] at ho; exact ho.elim
  have h5 : Takes isNum .mysql (symbol ⬝ w "CHECK" ⬝ .parens ⬝ .opt (only l (w "NO" ⬝ w "INHERIT")))
      (Spec.Mysql.item isNum) tableFollow (GoodItem l) := by
    have h : Takes isNum .mysql (symbol ⬝ w "CHECK" ⬝ .parens) (Spec.Mysql.item isNum) tableFollow (GoodItem l) :=
      weaken (inl (atKw (symbolBind hN fun n => inr (inr (inr (inl (map (check_takes hN) fun _ _ =>
        hg ⟨trivial, nofun⟩))))))) (by decide)
    refine h.congr ?_
    rintro ts rest ⟨_, ha, _, hb, _, hc, rfl | ho⟩
    · exact ⟨_, ha, _, hb, hc⟩
    · unfold only at ho; rw [if_neg hl] at ho; exact ho.elim
  have h6 : Takes isNum .mysql (symbol ⬝ w "FOREIGN" ⬝ w "KEY" ⬝ .opt .name ⬝ columns ⬝ w "REFERENCES" ⬝ .name ⬝
      keyParts ⬝ refClauses) (Spec.Mysql.item isNum) tableFollow (GoodItem l) :=
    weaken (inl (atKw (symbolBind hN fun n => inr (inr (inl (bind hN kw fun _ _ => bind hN kw fun _ _ =>
      indexNameBind hN fun _ => bind hN (columns_takes hN) fun _ _ => bind hN kw fun _ _ =>
      bind hN qname_takes fun _ hq => bind hN (keyParts_takes hN) fun _ _ =>
      map (Readme.refClauses_takes hN) fun _ _ => hg ⟨hq, nofun⟩)))))) (by decide)
  exact weaken (alt (most' h1) (alt (most' h2) (alt h3 (alt h4 (alt h5 h6))))) (by decide)

theorem options_takes (hN : NumOK isNum) {ts rest : List Str}
    (h : options.Derives isNum .mysql ts (S ";" :: rest)) :
    Spec.Options (Spec.Mysql.option isNum) ts () (S ";" :: rest) := by
  have chr : ∀ (_ : NumOK isNum), Takes isNum .mysql
      (.opt (w "DEFAULT") ⬝ w "CHARACTER" ⬝ w "SET" ⬝ eq ⬝ .name) (Spec.Mysql.option isNum) [] T := by
    intro _
    have h : Takes isNum .mysql (((w "CHARACTER" ⬝ w "SET") ⬝ eq ⬝ .name) ∣∣
        (w "DEFAULT" ⬝ (w "CHARACTER" ⬝ w "SET") ⬝ eq ⬝ .name)) (Spec.Mysql.option isNum) [] T :=
      weaken (alt (inr (inr (inl (bind hN (P := T) (inl (bind hN kw fun _ _ => kw)) fun _ _ => bind hN optWord fun _ _ => map name fun _ _ => trivial))))
        (inr (inr (inr (inr (inr (inr (inr (inl (bind hN kw fun _ _ => bind hN (P := T) (inl (bind hN kw fun _ _ => kw)) fun _ _ => bind hN optWord fun _ _ => map name fun _ _ => trivial)))))))))) (by decide)
    refine h.congr ?_
    rintro ts rest ⟨_, rfl | h1, _, h2, _, h3, h4⟩
    · exact .inl ⟨_, ⟨_, h2, h3⟩, h4⟩
    · exact .inr ⟨_, h1, _, ⟨_, h2, h3⟩, h4⟩
  have coll : ∀ (_ : NumOK isNum), Takes isNum .mysql
      (.opt (w "DEFAULT") ⬝ w "COLLATE" ⬝ eq ⬝ .name) (Spec.Mysql.option isNum) [] T := by
    intro _
    have h : Takes isNum .mysql ((w "COLLATE" ⬝ eq ⬝ .name) ∣∣ (w "DEFAULT" ⬝ w "COLLATE" ⬝ eq ⬝ .name))
        (Spec.Mysql.option isNum) [] T :=
      weaken (alt (inr (inr (inl (bind hN (inr kw) fun _ _ => bind hN optWord fun _ _ => map name fun _ _ => trivial))))
        (inr (inr (inr (inr (inr (inr (inr (inl (bind hN kw fun _ _ => bind hN (inr kw) fun _ _ => bind hN optWord fun _ _ => map name fun _ _ => trivial)))))))))) (by decide)
    refine h.congr ?_
    rintro ts rest ⟨_, rfl | h1, h2⟩
    · exact .inl h2
    · exact .inr ⟨_, h1, h2⟩
  exact options_of (K := ["STORAGE"]) hN (weaken (alt (inl (bind hN kw fun _ _ => bind hN optWord fun _ _ => map literal fun _ _ => trivial))
    (alt (chr hN)
    (alt (coll hN)
    (alt (inr (inr (inr (inl (bind hN kw fun _ _ => bind hN optWord fun _ _ => kw)))))
    (alt (inr (inl (bind hN kw fun _ _ => bind hN optWord fun _ _ => map string fun _ _ => trivial)))
    (alt (inr (inr (inr (inr (inr (inl (bind hN kw fun _ _ => bind hN kw fun _ _ => bind hN optWord fun _ _ => map stringLit fun _ _ => trivial)))))))
    (alt (inr (inr (inl (bind hN (inr kw) fun _ _ => bind hN optWord fun _ _ => map name fun _ _ => trivial))))
    (alt (inr (inr (inr (inr (inr (inr (inr (inr (inr (inl (bind hN kw fun _ _ => bind hN optWord fun _ _ => kw)))))))))))
    (alt (inr (inr (inr (inr (inl (bind hN kw fun _ _ => bind hN optWord fun _ _ => kw))))))
    (alt (inr (inr (inr (inr (inr (inr (inr (inr (inr (inr (bind hN kw fun _ _ => bind hN optWord fun _ _ => kw)))))))))))
    (alt (inr (inr (inr (inr (inr (inr (inl (bind hN kw fun _ _ => bind hN name fun _ _ => map (optKw kw) fun _ _ => trivial))))))))
    (inr (inr (inr (inr (inr (inr (inr (inr (inl (bind hN kw fun _ _ => bind hN optWord fun _ _ => bind hN kw fun _ _ => bind hN (list qname_takes) fun _ _ => kw)))))))))))))))))))))
    (by decide)) (by decide) (by decide) (by decide) h

end DDL.Readme.Mysql
