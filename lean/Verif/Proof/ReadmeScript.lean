import Verif.Proof.ReadmeSqlite
import Verif.Proof.ReadmePostgres
import Verif.Proof.ReadmeMysql
/-
README grammar: columns, statements, scripts.
-/

namespace DDL.Readme
open V Takes
open Spec (Lang Kw Name Many Sep at_ notAt ColCon Item Ref ConName ColAst Stmt TypeAst)

variable {isNum : Str → Bool} {l : Level} {d : Rdbms}

theorem at_notAt (hN : NumOK isNum) {ks K : List String} {ts : List Str} (h : at_ ks ts () ts)
    (hc : clear d (.kw ks) K = true) : notAt K ts () ts := by
  obtain ⟨_, t, u, rfl, hk⟩ := h
  exact Begins.notAt (d := d) hN (r := .kw ks) (((Bnf.kw ks).head ⟨t, rfl, hk⟩).resolve_left (by rintro ⟨⟨⟩, _⟩)) hc

theorem at_mono {ks ks' : List String} {ts : List Str} (h : at_ ks ts () ts) (hk : ∀ k ∈ ks, k ∈ ks') :
    at_ ks' ts () ts := by
  obtain ⟨_, t, u, rfl, h⟩ := h
  exact ⟨rfl, t, u, rfl, Kw.mono hk h⟩

/-- What is known of a dialect. -/
structure Facts (isNum : Str → Bool) (l : Level) (d : Rdbms) : Prop where
  con : ∃ follow, ConFacts isNum l d follow
  type : ∃ K, Takes isNum d (type d) (Spec.typeLang d) K T ∧
    clear d (.kw (Spec.colConFirstOf d ++ ["CONSTRAINT", ",", ")"])) K = true
  table : ∃ K, Takes isNum d (tableCon l d) (Spec.itemOf isNum d) K (GoodItem l) ∧
    clear d (.kw [",", ")"]) K = true

theorem facts (hN : NumOK isNum) (hd : d ≠ .other) (hl : l ≠ .readme) : Facts isNum l d := by
  cases d with
  | sqlite =>
    exact ⟨⟨_, Sqlite.conFacts hN hl⟩, ⟨_, Sqlite.type_takes, by decide⟩,
      ⟨_, Sqlite.tableCon_takes hN hl, by decide⟩⟩
  | postgres =>
    exact ⟨⟨_, Postgres.conFacts hN hl⟩, ⟨_, Postgres.type_takes hN, by decide⟩,
      ⟨_, Postgres.tableCon_takes hN, by decide⟩⟩
  | mysql =>
    exact ⟨⟨_, Mysql.conFacts hN⟩, ⟨_, Mysql.type_takes hN, by decide⟩,
      ⟨_, Mysql.tableCon_takes hN hl, by decide⟩⟩
  | other => exact absurd rfl hd

theorem cons_takes (hN : NumOK isNum) {follow : String → List String} (hF : ConFacts isNum l d follow)
    {cs : List (Bool × Con)} {ts rest : List Str} (h : Cons isNum l d cs ts rest)
    (hb : ∀ c ∈ cs, c.1 = false) (hk : (cs.map (·.2.kind)).Nodup) (hc : NoClash d (cs.map (·.2)))
    (hr : at_ [",", ")"] rest () rest) :
    ∃ vs : List ColCon, Many (Spec.colConFirstOf d) (Spec.colConOf isNum d) ts vs rest ∧
      vs.map ColCon.kind = cs.map (·.2.kind) ∧ ∀ r, ColCon.references r ∈ vs → r.Plain := by
  induction h with
  | nil => exact ⟨[], .nil (at_notAt (d := d) hN hr (by cases d <;> decide)), rfl, by simp⟩
  | @cons c b mid mid' cs rest ts hm hlab hp hs ih =>
    cases hb (b, c) (by simp)
    obtain rfl : ts = mid := hlab
    simp only [List.map_cons, List.nodup_cons] at hk
    have hc' : NoClash d (cs.map (·.2)) := by
      cases cs with
      | nil => trivial
      | cons x xs => exact hc.2
    obtain ⟨vs, hvs, hkind, hpl⟩ := ih (fun x hx => hb x (by simp [hx])) hk.2 hc' hr
    have hnext : notAt (follow c.form) mid' () mid' := by
      cases hs with
      | nil => exact at_notAt hN hr (hF.last c hm)
      | @cons c' b' mid2 mid3 cs' _ _ hm' hlab' hp' hs' =>
        cases hb (b', c') (by simp)
        obtain rfl : mid' = mid2 := hlab'
        have hne : c.kind ≠ c'.kind := fun e => hk.1 (by simp [e])
        have hcl : clear d c'.phrase (follow c.form) = true := hF.next c hm c' hm' hne hc.1
        rcases c'.phrase.head hp' with ⟨he, _⟩ | hbg
        · have := hF.first c' hm'
          unfold within at this; rw [he] at this; cases this
        · exact hbg.notAt hN hcl
    obtain ⟨v, ⟨hv, hv'⟩, hL⟩ := hF.takes c hm _ _ hp hnext
    refine ⟨v :: vs, .cons (within_at (hF.first c hm) hp) hL hvs, by simp [hv, hkind], ?_⟩
    intro r hr
    rcases List.mem_cons.1 hr with rfl | hr
    · exact hv' r rfl
    · exact hpl r hr

theorem conName_derives {ts rest : List Str} (h : (conName l).Derives isNum d ts rest) :
    ∃ t, ts = t :: rest ∧ Name d t ∧ (l = .returned → ¬ Kw ["AUTOINCREMENT", "AUTO_INCREMENT"] t) := by
  unfold conName at h
  by_cases hl : l = .returned
  · rw [if_pos hl] at h
    obtain ⟨t, rfl, h1, h2⟩ := h
    exact ⟨t, rfl, h1, fun _ => h2⟩
  · rw [if_neg hl] at h
    obtain ⟨t, rfl, h1⟩ := h
    exact ⟨t, rfl, h1, fun h => absurd h hl⟩

/-- The name in front of the constraints. -/
def GoodName (l : Level) (n : ConName) : Prop :=
  l = .returned → ∀ t, n = .named t → ¬ Kw ["AUTOINCREMENT", "AUTO_INCREMENT"] t

theorem absent_takes (hd : d ≠ .other) {ts : List Str} (h : notAt ["CONSTRAINT"] ts () ts) :
    Spec.conNameLang d ts .absent ts := by
  cases d with
  | other => exact absurd rfl hd
  | _ => exact ⟨none, _, optKw_none h, rfl, rfl⟩

theorem label_takes (hN : NumOK isNum) (hd : d ≠ .other) {c : Con} (hm : c ∈ colCons l d)
    {ts mid mid' : List Str} (h : (label l c d).Derives isNum d ts mid)
    (hp : c.phrase.Derives isNum d mid mid') :
    ∃ n, Spec.conNameLang d ts n mid ∧ GoodName l n ∧ at_ ["CONSTRAINT"] ts () ts := by
  have key : ∀ {ts}, (w "CONSTRAINT" ⬝ conName l).Derives isNum d ts mid →
      ∃ n, Spec.conName d ts n mid ∧ GoodName l n ∧ at_ ["CONSTRAINT"] ts () ts := by
    rintro ts ⟨_, ⟨t, rfl, ht⟩, h⟩
    obtain ⟨t2, rfl, h1, h2⟩ := conName_derives h
    exact ⟨.named t2, ⟨some t2, _, optKw_some ht (name_intro h1), rfl, rfl⟩,
      fun hl _ e => by cases e; exact h2 hl, rfl, _, _, rfl, ht⟩
  cases d with
  | other => exact absurd rfl hd
  | sqlite => exact key h
  | postgres => exact key h
  | mysql =>
    unfold label at h
    by_cases hk : c.kind = "CHECK"
    · simp only [if_pos hk] at h
      have hw : within c.phrase ["CHECK"] = true := by
        have : ∀ c ∈ Mysql.colCons, c.kind = "CHECK" → within c.phrase ["CHECK"] = true := by decide +kernel
        exact this c hm hk
      have ha := within_at hw hp
      obtain ⟨_, ⟨t, rfl, ht⟩, rfl | h⟩ := h
      · exact ⟨.anonymous, ⟨some none, _, optKw_some ht (.inl ⟨(), _, ha, rfl, rfl⟩), rfl, rfl⟩,
          (fun _ _ e => by cases e), rfl, _, _, rfl, ht⟩
      · obtain ⟨t2, rfl, h1, h2⟩ := conName_derives h
        have hn : notAt ["CHECK"] (t2 :: mid) () (t2 :: mid) :=
          notAt_cons (First.avoids_not (m := .name) (d := .mysql) hN (by decide +kernel) h1)
        exact ⟨.named t2, ⟨some (some t2), _, optKw_some ht (.inr ⟨(), _, hn, _, _, name_intro h1, rfl, rfl⟩),
          rfl, rfl⟩, fun hl _ e => by cases e; exact h2 hl, rfl, _, _, rfl, ht⟩
    · simp only [if_neg hk] at h
      exact h.elim

theorem item_column (hd : d ≠ .other) {n : Str} {ts mid body rest : List Str} {τ : TypeAst} {cn : ConName}
    {cs : List ColCon} (h1 : Name d n) (h2 : Spec.typeLang d ts τ mid) (h3 : Spec.conNameLang d mid cn body)
    (h4 : Spec.colCons (Spec.colConFirstOf d) (Spec.colConOf isNum d) body cs rest) :
    Spec.itemOf isNum d (n :: ts) (.column ⟨n, τ, cn, cs⟩) rest := by
  cases d with
  | other => exact absurd rfl hd
  | sqlite =>
    obtain ⟨t, m, ht, rfl, rfl⟩ := h2
    exact .inr ⟨_, _, name_intro h1, _, _, ht, _, _, h3, _, _, h4, rfl, rfl⟩
  | postgres => exact .inr ⟨_, _, name_intro h1, _, _, h2, _, _, h3, _, _, h4, rfl, rfl⟩
  | mysql => exact .inr ⟨_, _, name_intro h1, _, _, h2, _, _, h3, _, _, h4, rfl, rfl⟩

theorem column_takes (hN : NumOK isNum) (hd : d ≠ .other) (hl : l ≠ .readme) {ts rest : List Str}
    (h : column isNum l d ts rest) (hr : at_ [",", ")"] rest () rest) :
    ∃ i, Spec.itemOf isNum d ts i rest ∧ GoodItem l i := by
  obtain ⟨mid, cs, ⟨ts, ⟨n, rfl, hn⟩, ht⟩, hc, hs⟩ := h
  obtain ⟨hb, hk, hcl⟩ := hs hl
  obtain ⟨⟨follow, hF⟩, ⟨KT, hT, hTc⟩, _⟩ := facts hN hd hl
  have mkT : at_ (Spec.colConFirstOf d ++ ["CONSTRAINT", ",", ")"]) mid () mid →
      ∃ τ, Spec.typeLang d ts τ mid := fun ha => by
    obtain ⟨τ, _, h⟩ := hT _ _ ht (at_notAt hN ha hTc)
    exact ⟨τ, h⟩
  have fin : ∀ {cn : ConName} {body : List Str} {cs' : List (Bool × Con)},
      at_ (Spec.colConFirstOf d ++ ["CONSTRAINT", ",", ")"]) mid () mid → Spec.conNameLang d mid cn body →
      GoodName l cn → Cons isNum l d cs' body rest → (∀ c ∈ cs', c.1 = false) →
      (cs'.map (·.2.kind)).Nodup → NoClash d (cs'.map (·.2)) →
      ∃ i, Spec.itemOf isNum d (n :: ts) i rest ∧ GoodItem l i := by
    intro cn body cs' ha hcn hg hcs hb' hk' hcl'
    obtain ⟨τ, hτ⟩ := mkT ha
    obtain ⟨vs, hvs, hkind, hpl⟩ := cons_takes hN hF hcs hb' hk' hcl' hr
    refine ⟨_, item_column hd hn hτ hcn ⟨hvs, ?_⟩, fun hret => ⟨⟨hpl, hg hret⟩, nofun⟩⟩
    change (vs.map ColCon.kind).Nodup
    rw [hkind]; exact hk'
  cases hc with
  | nil =>
    exact fin (at_mono hr (by simp +contextual)) (absent_takes hd (at_notAt (d := d) hN hr (by cases d <;> decide)))
      (fun _ _ e => by cases e) .nil (by simp) (by simp) trivial
  | @cons c b mid2 mid3 cs _ _ hm hlab hp hs' =>
    have hfirst := within_at (hF.first c hm) hp
    have hb' : ∀ x ∈ ((false, c) :: cs), x.1 = false := by
      intro x hx
      rcases List.mem_cons.1 hx with rfl | hx
      · rfl
      · exact hb x hx
    cases b with
    | false =>
      obtain rfl : mid = mid2 := hlab
      exact fin (at_mono hfirst (by simp +contextual))
        (absent_takes hd (at_notAt (d := d) hN hfirst (by cases d <;> decide)))
        (fun _ _ e => by cases e) (.cons (b := false) hm rfl hp hs') hb' hk hcl
    | true =>
      obtain ⟨cn, h1, h2, h3⟩ := label_takes hN hd hm hlab hp
      exact fin (at_mono h3 (by simp)) h1 h2 (.cons (b := false) hm rfl hp hs') hb' hk hcl

theorem entry_takes (hN : NumOK isNum) (hd : d ≠ .other) (hl : l ≠ .readme) {ts rest : List Str}
    (h : entry isNum l d ts rest) (hr : at_ [",", ")"] rest () rest) :
    ∃ i, Spec.itemOf isNum d ts i rest ∧ GoodItem l i := by
  rcases h with h | h
  · exact column_takes hN hd hl h hr
  · obtain ⟨_, _, ⟨K, hT, hc⟩⟩ := facts hN hd hl
    obtain ⟨i, hg, hi⟩ := hT ts rest h (at_notAt hN hr hc)
    exact ⟨i, hi, hg⟩

theorem entries_takes (hN : NumOK isNum) (hd : d ≠ .other) (hl : l ≠ .readme) {ts rest : List Str}
    (h : Commas (entry isNum l d) ts rest) (hr : at_ [")"] rest () rest) :
    ∃ is, Sep (Spec.itemOf isNum d) ts is rest ∧ ∀ i ∈ is, GoodItem l i := by
  induction h with
  | one h =>
    obtain ⟨i, hi, hg⟩ := entry_takes hN hd hl h (at_mono hr (by simp))
    exact ⟨[i], .one hi (at_notAt (d := d) hN hr (by cases d <;> decide)), by simpa using hg⟩
  | cons h _ ih =>
    obtain ⟨is, his, hg'⟩ := ih hr
    obtain ⟨i, hi, hg⟩ := entry_takes hN hd hl h ⟨rfl, _, _, rfl, isKw_kw.1 (by decide)⟩
    exact ⟨i :: is, .cons hi (kw_intro (isKw_kw.1 (by decide))) his, by simpa using ⟨hg, hg'⟩⟩

/-- The table options. -/
def optionsOf (isNum : Str → Bool) : Rdbms → Lang Unit
  | .postgres => Spec.Options Spec.Postgres.option
  | .mysql => Spec.Options (Spec.Mysql.option isNum)
  | _ => Spec.Sqlite.options

theorem semicolon_eq {t : Str} (h : Kw [";"] t) : t = S ";" := by
  obtain ⟨k, hk, h⟩ := h
  cases List.mem_singleton.1 hk
  rcases h with rfl | rfl <;> decide

theorem ending_takes (hN : NumOK isNum) (hd : d ≠ .other) (hl : l ≠ .readme) {ts rest : List Str}
    (h : (ending l d).Derives isNum d ts rest) :
    ∃ mid, optionsOf isNum d ts () mid ∧ Spec.kw [";"] mid () rest := by
  cases d with
  | other => exact absurd rfl hd
  | sqlite =>
    obtain ⟨mid, h1, ⟨t, rfl, ht⟩ | h2⟩ := h
    · obtain ⟨_, _, ho⟩ := Sqlite.options_takes hl _ _ h1 (notAt_cons (kw_disj ht (by decide)))
      exact ⟨_, ho, kw_intro ht⟩
    · unfold only at h2; rw [if_neg hl] at h2; exact h2.elim
  | postgres =>
    obtain ⟨mid, h1, t, rfl, ht⟩ := h
    cases semicolon_eq ht
    exact ⟨_, Postgres.options_takes hN h1, kw_intro ht⟩
  | mysql =>
    obtain ⟨mid, h1, t, rfl, ht⟩ := h
    cases semicolon_eq ht
    exact ⟨_, Mysql.options_takes hN h1, kw_intro ht⟩

theorem tableName_takes (hN : NumOK isNum) (hl : l ≠ .readme) {ts rest : List Str}
    (h : (tableName l d).Derives isNum d ts rest) :
    table.Derives isNum d ts rest ∧ notAt ["IF"] ts () ts := by
  have key : clear d table ["IF"] = true → table.Derives isNum d ts rest →
      table.Derives isNum d ts rest ∧ notAt ["IF"] ts () ts := by
    intro hc h
    refine ⟨h, ?_⟩
    rcases table.head h with ⟨he, _⟩ | hb
    · cases he
    · exact hb.notAt hN hc
  cases d with
  | postgres =>
    simp only [tableName, if_neg hl] at h
    obtain ⟨mid, ⟨t, rfl, h1, h2⟩, h3⟩ := h
    exact ⟨⟨_, ⟨t, rfl, h1⟩, h3⟩, notAt_cons h2⟩
  | _ => exact key (by decide +kernel) h

theorem statement_takes (hN : NumOK isNum) (hd : d ≠ .other) (hl : l ≠ .readme) {ts rest : List Str}
    (h : statement isNum l d ts rest) :
    ∃ t, Spec.stmtOf isNum d ts (.table t) rest ∧ (l = .returned → t.Faithful) := by
  obtain ⟨a, b, h1, h2, h3⟩ := h
  obtain ⟨_, ⟨t1, rfl, ht1⟩, m0, ⟨t2, rfl, ht2⟩, m1, h4, m2, h5, t3, rfl, ht3⟩ := h1
  obtain ⟨_, ⟨t4, rfl, ht4⟩, h6⟩ := h3
  obtain ⟨is, his, hg⟩ := entries_takes hN hd hl h2 ⟨rfl, _, _, rfl, ht4⟩
  obtain ⟨m3, ho, hsc⟩ := ending_takes hN hd hl h6
  obtain ⟨h5, hif⟩ := tableName_takes hN hl h5
  obtain ⟨q, _, hq⟩ := table_takes m1 (t3 :: a) h5 (notAt_cons (kw_disj ht3 (by decide)))
  have hi : ∃ b, Spec.ifNotExists m0 b m1 := by
    rcases h4 with rfl | ⟨_, ⟨s1, rfl, hs1⟩, _, ⟨s2, rfl, hs2⟩, s3, rfl, hs3⟩
    · refine ⟨_, none, _, optKw_none ?_, rfl, rfl⟩
      exact hif
    · exact ⟨_, some (), _, optKw_some hs1 ⟨(), _, kw_intro hs2, kw_intro hs3⟩, rfl, rfl⟩
  obtain ⟨ine, hine⟩ := hi
  have hct : Spec.createTable d (Spec.itemOf isNum d) (optionsOf isNum d) (t2 :: m0)
      (.table ⟨ine, q, is⟩) rest :=
    ⟨_, _, kw_intro ht2, _, _, hine, _, _, hq, _, _, kw_intro ht3, _, _, his, _, _, kw_intro ht4, _, _, ho, _, _, hsc, rfl, rfl⟩
  refine ⟨⟨ine, q, is⟩, ?_, fun hr => ⟨fun i hi => (hg i hi hr).1, ?_⟩⟩
  · cases d with
    | other => exact absurd rfl hd
    | sqlite => exact ⟨_, _, kw_intro ht1, false, _, optWord_none (notAt_cons (kw_disj ht2 (by decide))), .inl hct⟩
    | postgres => exact ⟨_, _, kw_intro ht1, .inl hct⟩
    | mysql => exact ⟨_, _, kw_intro ht1, .inl hct⟩
  · rintro i js e
    have e : is = _ := e
    exact (hg (.exclude .absent) (by rw [e]; simp) hr).2 rfl

theorem script_takes (hN : NumOK isNum) (hd : d ≠ .other) (hl : l ≠ .readme) {n : Nat} {ts : List Str}
    (h : script isNum l d n ts) :
    ∃ ss, Spec.script isNum d ts ss ∧ (l = .returned → Spec.Faithful ss) ∧
      (Spec.tablesVal isNum d ss).length = n := by
  induction h with
  | nil => exact ⟨[], .nil, fun _ _ h => by simp at h, rfl⟩
  | cons h _ ih =>
    obtain ⟨ss, h1, h2, h3⟩ := ih
    obtain ⟨t, ht, hf⟩ := statement_takes hN hd hl h
    refine ⟨.table t :: ss, .cons ht h1, fun hr u hu => ?_, by simpa [Spec.tablesVal] using h3⟩
    rcases List.mem_cons.1 hu with e | hu
    · cases e; exact hf hr
    · exact h2 hr u hu

end DDL.Readme
