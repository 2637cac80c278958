import Verif.Proof.ReadmeCommon
/-
README grammar: PostgreSQL.
-/

namespace DDL.Readme.Postgres
open V Takes
open Spec (Lang Kw ColCon Item Ref ConName tok)

variable {isNum : Str → Bool} {l : Level}

theorem indexParams_takes (hN : NumOK isNum) :
    Takes isNum .postgres indexParams Spec.Postgres.indexParams ["INCLUDE", "WITH", "USING"] T :=
  weaken (bind hN (optKw (columns_takes hN)) fun _ _ => bind hN (optKw parens) fun _ _ =>
    map (optKw (P := T) (bind hN kw fun _ _ => bind hN kw fun _ _ => name)) fun _ _ => trivial) (by decide)

theorem optParens_takes : Takes isNum .postgres (.opt .parens) Spec.Postgres.optParens ["("] T := by
  rintro ts rest (rfl | h) hn
  · exact ⟨(), trivial, .inr hn⟩
  · exact weaken (inl (atKw (map parens fun _ _ => trivial))) (by decide) ts rest h hn

theorem check_takes (hN : NumOK isNum) :
    Takes isNum .postgres (w "CHECK" ⬝ .parens ⬝ .opt (w "NO" ⬝ w "INHERIT")) Spec.Postgres.check ["NO"] T :=
  weaken (bind hN kw fun _ _ => bind hN parens fun _ _ => map (optKw kw) fun _ _ => trivial) (by decide)

theorem identity_takes (hN : NumOK isNum) :
    Takes isNum .postgres ((w "ALWAYS" ∣∣ (w "BY" ⬝ w "DEFAULT")) ⬝ w "AS" ⬝ w "IDENTITY" ⬝ .opt .parens)
      Spec.Postgres.generated ["("] T := by
  have h : Takes isNum .postgres
      ((w "ALWAYS" ⬝ w "AS" ⬝ w "IDENTITY" ⬝ .opt .parens) ∣∣
       (w "BY" ⬝ w "DEFAULT" ⬝ w "AS" ⬝ w "IDENTITY" ⬝ .opt .parens)) Spec.Postgres.generated ["("] T :=
    weaken (alt
      (inl (bind hN kw fun _ _ => bind hN kw fun _ _ => inl (bind hN kw fun _ _ => optParens_takes)))
      (inr (inl (bind hN kw fun _ _ => bind hN kw fun _ _ => bind hN kw fun _ _ => bind hN kw fun _ _ =>
        optParens_takes)))) (by decide)
  refine h.congr ?_
  rintro ts rest ⟨_, h1 | ⟨_, h1, h1'⟩, h2⟩
  · exact .inl ⟨_, h1, h2⟩
  · exact .inr ⟨_, h1, _, h1', h2⟩

/-- Words that must not follow a column constraint. -/
def follow : String → List String
  | "PRIMARY KEY" => ["INCLUDE", "WITH", "USING"]
  | "UNIQUE" => ["INCLUDE", "WITH", "USING"]
  | "CHECK" => ["NO"]
  | "IDENTITY" => ["("]
  | "REFERENCES" => ["ON", "MATCH", "(", "."]
  | _ => []

theorem con_takes (hN : NumOK isNum) (hl : l ≠ .readme) :
    ∀ c ∈ colCons l, Takes isNum .postgres c.phrase (Spec.Postgres.colCon isNum) (follow c.form) (Good c) := by
  intro c hc
  have hg : ∀ {f k p} {v : ColCon}, v.kind = k → (∀ r, v ≠ .references r) → Good ⟨f, k, p⟩ v :=
    fun h h' => ⟨h, fun r e => absurd e (h' r)⟩
  simp only [colCons, List.mem_cons, List.not_mem_nil, or_false] at hc
  rcases hc with rfl | rfl | rfl | rfl | rfl | rfl | rfl | rfl | rfl | rfl
  · exact weaken (inl (bind hN kw fun _ _ => bind hN kw fun _ _ =>
      map (indexParams_takes hN) fun _ _ => hg rfl nofun)) (by decide)
  · exact weaken (inr (inr (inr (inl (bind hN kw fun _ _ =>
      map (indexParams_takes hN) fun _ _ => hg rfl nofun))))) (by decide)
  · exact weaken (inr (inl (bind hN kw fun _ _ => map kw fun _ _ => hg rfl nofun))) (by decide)
  · exact weaken (inr (inr (inl (map kw fun _ _ => hg rfl nofun)))) (by decide)
  · exact weaken (inr (inr (inr (inr (inl (map (check_takes hN) fun _ _ => hg rfl nofun)))))) (by decide)
  · exact weaken (inr (inr (inr (inr (inr (inl (bind hN kw fun _ _ =>
      map (default_takes hN) fun _ _ => hg rfl nofun))))))) (by decide)
  · exact weaken (inr (inr (inr (inr (inr (inr (inr (bind hN kw fun _ _ =>
      map (P := T) (inl (bind hN kw fun _ _ => bind hN kw fun _ _ => inr (bind hN parens fun _ _ => kw)))
        fun _ _ => hg rfl nofun)))))))) (by decide)
  · exact weaken (inr (inr (inr (inr (inr (inr (inr (bind hN kw fun _ _ =>
      map (identity_takes hN) fun _ _ => hg rfl nofun)))))))) (by decide)
  · exact Takes.only hl
  · exact weaken (inr (inr (inr (inr (inr (inr (inl (assoc3 (bind hN (colRef_takes hN) fun v hv =>
      map (refClauses_takes hN) fun _ _ => ⟨rfl, by rintro _ ⟨⟩; exact hv⟩)))))))))
      (by decide)

theorem conFacts (hN : NumOK isNum) (hl : l ≠ .readme) : ConFacts isNum l .postgres follow where
  takes := con_takes hN hl
  first := by cases l <;> decide
  next := by revert hl; cases l <;> decide +kernel
  last := by cases l <;> decide

theorem type_takes (hN : NumOK isNum) :
    Takes isNum .postgres type (Spec.typeLang .postgres) ["(", "VARYING", "WITH", "WITHOUT"] T := by
  have hz : Takes isNum .postgres zone Spec.Postgres.zone ["WITH", "WITHOUT"] T :=
    map (optKw (P := T) (bind hN kw fun _ _ => kw)) fun _ _ => trivial
  have hw : Takes isNum .postgres
      (.kw (Spec.dataTypePostgres.filter (· ∉ Spec.Postgres.specialTypes)))
      (tok fun t => Kw Spec.dataTypePostgres t ∧ ¬ Kw Spec.Postgres.specialTypes t) [] T := by
    rintro ts rest ⟨t, rfl, ht⟩ _
    refine ⟨t, trivial, rfl, Kw.mono (by simp +contextual) ht, kw_disj ht ?_⟩
    decide +kernel
  exact weaken (alt (inl (bind hN word fun _ _ => bind hN optWord fun _ _ =>
      map (digitN_takes hN) fun _ _ => trivial))
    (alt (inr (inl (bind hN word fun _ _ => map (digitN_takes hN) fun _ _ => trivial)))
    (alt (inr (inr (inl (bind hN word fun _ _ => map (digitPS_takes hN) fun _ _ => trivial))))
    (alt (inr (inr (inr (inl (bind hN word fun _ _ => map kw fun _ _ => trivial)))))
    (alt (inr (inr (inr (inr (inl (bind hN word fun _ _ => bind hN (digitN_takes hN) fun _ _ =>
      map hz fun _ _ => trivial))))))
    (inr (inr (inr (inr (inr (map hw fun _ _ => trivial)))))))))))
    (by decide +kernel)

theorem exclude_takes (hN : NumOK isNum) (n : ConName) :
    Takes isNum .postgres
      (w "EXCLUDE" ⬝ .opt (w "USING" ⬝ .name) ⬝ .parens ⬝ indexParams ⬝ .opt (w "WHERE" ⬝ .parens))
      (Spec.Postgres.tableCon n) ["INCLUDE", "WITH", "USING", "WHERE"] (fun i => i = .exclude n) :=
  weaken (inr (inr (inr (inr (bind hN kw fun _ _ => bind hN (optKw name) fun _ _ => bind hN parens fun _ _ =>
    bind hN (indexParams_takes hN) fun _ _ => map (optKw parens) fun _ _ => rfl))))) (by decide)

theorem tableCon_takes (hN : NumOK isNum) :
    Takes isNum .postgres (tableCon l) (Spec.Postgres.item isNum)
      ["INCLUDE", "WITH", "USING", "WHERE", "NO", "ON", "MATCH", "(", "."] (GoodItem l) := by
  have hg : ∀ {i : Item}, (i.Faithful ∧ i ≠ .exclude .absent) → GoodItem l i := fun h _ => h
  have h1 : Takes isNum .postgres .eps (Spec.conName .postgres) ["CONSTRAINT"] T := by
    rintro ts rest rfl hn
    exact ⟨_, trivial, none, _, optKw_none hn, rfl, rfl⟩
  have h2 : Takes isNum .postgres (w "CONSTRAINT" ⬝ .name) (Spec.conName .postgres) [] (fun n => n ≠ .absent) := by
    rintro ts rest ⟨_, ⟨t', rfl, ht'⟩, t2, rfl, ht2⟩ hn
    exact ⟨.named t2, nofun, some t2, _, optKw_some ht' (name_intro ht2), rfl, rfl⟩
  have h3 : Takes isNum .postgres (most l (w "EXCLUDE" ⬝ .opt (w "USING" ⬝ .name) ⬝ .parens ⬝ indexParams ⬝
      .opt (w "WHERE" ⬝ .parens))) (Spec.Postgres.item isNum)
      ["INCLUDE", "WITH", "USING", "WHERE"] (GoodItem l) := by
    unfold most
    by_cases hl : l = .returned
    · rw [if_pos hl]; exact weaken no (by decide)
    · rw [if_neg hl]
      have : Takes isNum .postgres (.eps ⬝ w "EXCLUDE" ⬝ .opt (w "USING" ⬝ .name) ⬝ .parens ⬝ indexParams ⬝
          .opt (w "WHERE" ⬝ .parens)) (Spec.Postgres.item isNum)
          ["INCLUDE", "WITH", "USING", "WHERE"] (GoodItem l) :=
        inl (atKw (bind hN h1 fun n _ => (exclude_takes hN n).mono (fun _ h => h)
          fun _ _ h => absurd h hl))
      exact this.congr fun _ _ h => ⟨_, rfl, h⟩
  have h4 : Takes isNum .postgres (w "CONSTRAINT" ⬝ .name ⬝ w "EXCLUDE" ⬝ .opt (w "USING" ⬝ .name) ⬝ .parens ⬝
      indexParams ⬝ .opt (w "WHERE" ⬝ .parens)) (Spec.Postgres.item isNum)
      ["INCLUDE", "WITH", "USING", "WHERE"] (GoodItem l) :=
    inl (atKw (assoc (bind hN h2 fun n hn => (exclude_takes hN n).mono (fun _ h => h)
      (by rintro _ rfl; exact hg ⟨trivial, fun e => hn (by cases e; rfl)⟩))))
  have h : ∀ n, Takes isNum .postgres
      ((w "PRIMARY" ⬝ w "KEY" ⬝ columns ⬝ indexParams) ∣∣ (w "UNIQUE" ⬝ columns ⬝ indexParams) ∣∣
       (w "CHECK" ⬝ .parens ⬝ .opt (w "NO" ⬝ w "INHERIT")) ∣∣
       (w "FOREIGN" ⬝ w "KEY" ⬝ columns ⬝ w "REFERENCES" ⬝ .name ⬝ .opt columns ⬝ refClauses))
      (Spec.Postgres.tableCon n) ["INCLUDE", "WITH", "USING", "NO", "ON", "MATCH", "(", "."] (GoodItem l) := fun n =>
    weaken (alt (inl (bind hN kw fun _ _ => bind hN kw fun _ _ => bind hN (columns_takes hN) fun _ _ =>
        map (indexParams_takes hN) fun _ _ => hg ⟨trivial, nofun⟩))
      (alt (inr (inl (bind hN kw fun _ _ => bind hN (columns_takes hN) fun _ _ =>
        map (indexParams_takes hN) fun _ _ => hg ⟨trivial, nofun⟩)))
      (alt (inr (inr (inl (map (check_takes hN) fun _ _ => hg ⟨trivial, nofun⟩))))
      (inr (inr (inr (inl (assoc6 (bind hN (foreignKey_takes hN n) fun v hv =>
      map (refClauses_takes hN) fun _ _ => by
        obtain ⟨cs, r, rfl, hr⟩ := hv; exact hg ⟨hr, nofun⟩)))))))))
      (by decide)
  exact weaken (alt h3 (alt h4 (inl (atKw (bind hN conName_takes (fun n _ => h n)))))) (by decide)

theorem options_takes (hN : NumOK isNum) {ts rest : List Str}
    (h : options.Derives isNum .postgres ts (S ";" :: rest)) :
    Spec.Options Spec.Postgres.option ts () (S ";" :: rest) :=
  options_of (K := []) hN (weaken (alt (inl (bind hN kw fun _ _ => map parens fun _ _ => trivial))
    (alt (inr (inl (bind hN kw fun _ _ => kw)))
    (alt (inr (inr (inl (bind hN kw fun _ _ => map name fun _ _ => trivial))))
    (alt (inr (inr (inr (inl (bind hN kw fun _ _ => map parens fun _ _ => trivial)))))
    (alt (inr (inr (inr (inr (inl (bind hN kw fun _ _ => bind hN kw fun _ _ => bind hN kw fun _ _ =>
      map parens fun _ _ => trivial))))))
    (inr (inr (inr (inr (inr (bind hN kw fun _ _ => map name fun _ _ => trivial)))))))))))
    (by decide)) (by decide) (by decide) (by decide) h

end DDL.Readme.Postgres
