import Verif.Proof.ReadmeCommon
/-
README grammar: SQLite.
-/

namespace DDL.Readme.Sqlite
open V Takes
open Spec (Lang Kw ColCon Item Ref ConName)

variable {isNum : Str → Bool} {l : Level}

theorem conflict_takes (hN : NumOK isNum) : Takes isNum .sqlite conflict Spec.Sqlite.conflict ["ON"] T :=
  map (optKw (P := T) (bind hN kw fun _ _ => kw)) (fun _ _ => trivial)

theorem refClauses_takes (hN : NumOK isNum) (hl : l ≠ .readme) :
    Takes isNum .sqlite (refClauses l) Spec.Sqlite.refClauses
      ["ON", "MATCH", "NOT", "DEFERRABLE", "INITIALLY"] T := by
  have h : Takes isNum .sqlite
      (w "MATCH" ⬝ (.kw ["SIMPLE", "PARTIAL", "FULL"] ∣∣ only l .name))
      (do Spec.kw ["MATCH"]; Spec.kw ["SIMPLE", "PARTIAL", "FULL"]) [] T :=
    weaken (bind hN kw (fun _ _ => alt kw (Takes.only hl)) (by revert hl; cases l <;> decide))
      (by cases l <;> decide)
  cases l with
  | readme => exact absurd rfl hl
  | accepted =>
    exact map (many (P := T) hN (alt (inl (onClause_takes hN)) (alt (inr (inl h)) (inr (inr
      (bind hN optWord fun _ _ => bind hN kw fun _ _ => map (optKw kw) fun _ _ => trivial))))))
      (fun _ _ => trivial)
  | returned =>
    exact map (many (P := T) hN (alt (inl (onClause_takes hN)) (alt (inr (inl h)) (inr (inr
      (bind hN optWord fun _ _ => bind hN kw fun _ _ => map (optKw kw) fun _ _ => trivial))))))
      (fun _ _ => trivial)

/-- Words that must not follow a column constraint. -/
def follow : String → List String
  | "PRIMARY KEY" => ["AUTOINCREMENT", "ON", "ASC", "DESC"]
  | "UNIQUE" => ["ON"]
  | "NOT NULL" => ["ON"]
  | "GENERATED" => ["STORED", "VIRTUAL"]
  | "AS" => ["STORED", "VIRTUAL"]
  | "REFERENCES" => ["ON", "MATCH", "NOT", "DEFERRABLE", "INITIALLY", "(", "."]
  | _ => []

theorem con_takes (hN : NumOK isNum) (hl : l ≠ .readme) :
    ∀ c ∈ colCons l, Takes isNum .sqlite c.phrase (Spec.Sqlite.colCon isNum) (follow c.form) (Good c) := by
  intro c hc
  have hg : ∀ {f k p} {v : ColCon}, v.kind = k → (∀ r, v ≠ .references r) → Good ⟨f, k, p⟩ v :=
    fun h h' => ⟨h, fun r e => absurd e (h' r)⟩
  simp only [colCons, List.mem_cons, List.not_mem_nil, or_false] at hc
  rcases hc with rfl | rfl | rfl | rfl | rfl | rfl | rfl | rfl | rfl
  · exact weaken (inl (bind hN kw fun _ _ => bind hN kw fun _ _ => bind hN optWord fun _ _ =>
      bind hN (conflict_takes hN) fun _ _ => map optWord fun _ _ => hg rfl nofun)) (by decide)
  · exact weaken (inr (inr (inl (bind hN kw fun _ _ => map (conflict_takes hN) fun _ _ => hg rfl nofun))))
      (by decide)
  · exact weaken (inr (inl (bind hN kw fun _ _ => bind hN kw fun _ _ =>
      map (conflict_takes hN) fun _ _ => hg rfl nofun))) (by decide)
  · exact weaken (inr (inr (inr (inl (bind hN kw fun _ _ => map parens fun _ _ => hg rfl nofun))))) (by decide)
  · exact weaken (inr (inr (inr (inr (inl (bind hN kw fun _ _ =>
      map (default_takes hN) fun _ _ => hg rfl nofun)))))) (by decide)
  · exact weaken (inr (inr (inr (inr (inr (inl (bind hN kw fun _ _ =>
      map word fun _ _ => hg rfl nofun))))))) (by decide)
  · exact weaken (inr (inr (inr (inr (inr (inr (inr (inl (bind hN kw fun _ _ => bind hN kw fun _ _ =>
      bind hN kw fun _ _ => bind hN parens fun _ _ => map optWord fun _ _ => hg rfl nofun))))))))) (by decide)
  · exact weaken (inr (inr (inr (inr (inr (inr (inr (inr (bind hN kw fun _ _ =>
      bind hN parens fun _ _ => map optWord fun _ _ => hg rfl nofun))))))))) (by decide)
  · exact weaken (inr (inr (inr (inr (inr (inr (inl (assoc3 (bind hN (colRef_takes hN) (fun v hv =>
      map (refClauses_takes hN hl) fun _ _ => ⟨rfl, by rintro _ ⟨⟩; exact hv⟩)
      (by revert hl; cases l <;> decide)))))))))) (by cases l <;> decide)

theorem conFacts (hN : NumOK isNum) (hl : l ≠ .readme) : ConFacts isNum l .sqlite follow where
  takes := con_takes hN hl
  first := by cases l <;> decide
  next := by revert hl; cases l <;> decide +kernel
  last := by cases l <;> decide

theorem type_takes : Takes isNum .sqlite type (Spec.typeLang .sqlite) [] T := map word fun _ _ => trivial

theorem tableCon_takes (hN : NumOK isNum) (hl : l ≠ .readme) :
    Takes isNum .sqlite (tableCon l) (Spec.Sqlite.item isNum)
      ["ON", "MATCH", "NOT", "DEFERRABLE", "INITIALLY", "(", "."] (GoodItem l) := by
  have hg : ∀ {i : Item}, (i.Faithful ∧ i ≠ .exclude .absent) → GoodItem l i := fun h _ => h
  have h4 : ∀ n, Takes isNum .sqlite (w "FOREIGN" ⬝ w "KEY" ⬝ columns ⬝ w "REFERENCES" ⬝ .name ⬝ .opt columns ⬝
      refClauses l) (Spec.Sqlite.tableCon n)
      ["ON", "MATCH", "NOT", "DEFERRABLE", "INITIALLY", "(", "."] (GoodItem l) := fun n =>
    weaken (inr (inr (inr (assoc6 (bind hN (foreignKey_takes hN n) (fun v hv =>
      map (refClauses_takes hN hl) fun _ _ => by
        obtain ⟨cs, r, rfl, hr⟩ := hv; exact hg ⟨hr, nofun⟩)
      (by revert hl; cases l <;> decide)))))) (by cases l <;> decide)
  have h : ∀ n, Takes isNum .sqlite
      ((w "PRIMARY" ⬝ w "KEY" ⬝ columns ⬝ conflict) ∣∣ (w "UNIQUE" ⬝ columns ⬝ conflict) ∣∣
       (w "CHECK" ⬝ .parens) ∣∣
       (w "FOREIGN" ⬝ w "KEY" ⬝ columns ⬝ w "REFERENCES" ⬝ .name ⬝ .opt columns ⬝ refClauses l))
      (Spec.Sqlite.tableCon n) ["ON", "MATCH", "NOT", "DEFERRABLE", "INITIALLY", "(", "."] (GoodItem l) := fun n =>
    weaken (alt (inl (bind hN kw fun _ _ => bind hN kw fun _ _ => bind hN (columns_takes hN) fun _ _ =>
        map (conflict_takes hN) fun _ _ => hg ⟨trivial, nofun⟩))
      (alt (inr (inl (bind hN kw fun _ _ => bind hN (columns_takes hN) fun _ _ =>
        map (conflict_takes hN) fun _ _ => hg ⟨trivial, nofun⟩)))
      (alt (inr (inr (inl (bind hN kw fun _ _ => map parens fun _ _ => hg ⟨trivial, nofun⟩)))) (h4 n))))
      (by decide)
  exact weaken (inl (atKw (bind hN conName_takes (fun n _ => h n) (by cases l <;> decide))
    (by cases l <;> decide))) (by cases l <;> decide)

theorem options_takes (hl : l ≠ .readme) :
    Takes isNum .sqlite (options l) Spec.Sqlite.options [",", "WITHOUT", "STRICT"] T := by
  have h1 : Takes isNum .sqlite (w "WITHOUT" ⬝ w "ROWID") Spec.Sqlite.options [","] T := by
    rintro ts rest ⟨_, ⟨t, rfl, ht⟩, ⟨t', rfl, ht'⟩⟩ hn
    exact ⟨(), trivial, .inl ⟨(), _, kw_intro ht, (), _, kw_intro ht', none, _, optKw_none hn, rfl, rfl⟩⟩
  have h2 : Takes isNum .sqlite (w "STRICT") Spec.Sqlite.options [","] T := by
    rintro ts rest ⟨t, rfl, ht⟩ hn
    exact ⟨(), trivial, .inr (.inl ⟨(), _, kw_intro ht, none, _, optKw_none hn, rfl, rfl⟩)⟩
  rintro ts rest (rfl | h) hn
  · exact ⟨(), trivial, .inr (.inr (notAt_mono hn (by simp)))⟩
  · exact weaken (alt h1 (alt h2 (Takes.only hl))) (by decide) ts rest h hn

end DDL.Readme.Sqlite
