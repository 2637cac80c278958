import Verif.Proof.PrintItem
/-
Printed statements and scripts.
-/

namespace DDL
open V Spec

/-- A group of entries of one kind. -/
theorem group {isNum : Str → Bool} {d : Rdbms} {X : Type} {text : X → List Char} {xs : List X}
    {c : X → Option Column} {p : X → Option PrimaryKey} {u : X → Option Unique}
    {k : X → Option Check} {f : X → Option ForeignKey}
    (h : ∀ x ∈ xs, ∃ i, Ph d T0 (itemOf isNum d) (text x) i ∧ Den isNum d i (c x) (p x) (u x) (k x) (f x)) :
    ∃ is, All2 (Ph d T0 (itemOf isNum d)) (xs.map text) is ∧
      is.filterMap (Item.column? isNum d) = xs.filterMap c ∧
      is.filterMap (Item.primaryKey? d) = xs.filterMap p ∧
      is.filterMap (Item.unique? d) = xs.filterMap u ∧
      is.filterMap (Item.check? d) = xs.filterMap k ∧
      is.filterMap (Item.foreignKey? d) = xs.filterMap f ∧
      ∀ i ∈ is, i.Faithful ∧ (∀ n, i ≠ .exclude n) ∧ i.Tidy d ∧ i.Reported := by
  induction xs with
  | nil => exact ⟨[], .nil, rfl, rfl, rfl, rfl, rfl, by simp⟩
  | cons x xs ih =>
    obtain ⟨is, h1, h2, h3, h4, h5, h6, h7⟩ := ih fun x hx => h x (by simp [hx])
    obtain ⟨i, g1, g2⟩ := h x (by simp)
    refine ⟨i :: is, .cons g1 h1, ?_, ?_, ?_, ?_, ?_, ?_⟩
    · rw [List.filterMap_cons, List.filterMap_cons, g2.col, h2]
    · rw [List.filterMap_cons, List.filterMap_cons, g2.pk, h3]
    · rw [List.filterMap_cons, List.filterMap_cons, g2.un, h4]
    · rw [List.filterMap_cons, List.filterMap_cons, g2.ck, h5]
    · rw [List.filterMap_cons, List.filterMap_cons, g2.fk, h6]
    · intro j hj
      rcases List.mem_cons.1 hj with rfl | hj
      · exact ⟨g2.ok, g2.ne, g2.tidy, g2.rep⟩
      · exact h7 j hj

theorem All2.append {R : α → β → Prop} {a a' : List α} {b b' : List β} (h : All2 R a b)
    (h' : All2 R a' b') : All2 R (a ++ a') (b ++ b') := by
  induction h with
  | nil => exact h'
  | cons h _ ih => exact .cons h ih

theorem filterMap_nothing {X Y : Type} (xs : List X) : xs.filterMap (fun _ => (none : Option Y)) = [] := by
  induction xs with
  | nil => rfl
  | cons x xs ih => rw [List.filterMap_cons, ih]

theorem filterMap_self {X : Type} (xs : List X) : xs.filterMap (fun x => some x) = xs := by
  induction xs with
  | nil => rfl
  | cons x xs ih => rw [List.filterMap_cons, ih]

/-- All entries of a table. -/
theorem items_ok {isNum : Str → Bool} (hN : NumOK isNum) {d : Rdbms} (hd : d ≠ .other) {t : Table}
    (h : TableOK isNum d t) :
    ∃ is, All2 (Ph d T0 (itemOf isNum d)) (itemTexts d t) is ∧
      is.filterMap (Item.column? isNum d) = t.columns ∧
      is.filterMap (Item.primaryKey? d) = t.constraints.primaryKey ∧
      is.filterMap (Item.unique? d) = t.constraints.unique ∧
      is.filterMap (Item.check? d) = t.constraints.check ∧
      is.filterMap (Item.foreignKey? d) = t.constraints.foreignKey ∧
      ∀ i ∈ is, i.Faithful ∧ (∀ n, i ≠ .exclude n) ∧ i.Tidy d ∧ i.Reported := by
  obtain ⟨i1, a1, a2, a3, a4, a5, a6, a7⟩ := group (isNum := isNum) (d := d) (text := columnText d)
    (c := some) (p := fun _ => none) (u := fun _ => none) (k := fun _ => none) (f := fun _ => none)
    (xs := t.columns) fun x hx => column_item hN hd (h.columns x hx)
  obtain ⟨i2, b1, b2, b3, b4, b5, b6, b7⟩ := group (isNum := isNum) (d := d) (text := primaryKeyText d)
    (c := fun _ => none) (p := some) (u := fun _ => none) (k := fun _ => none) (f := fun _ => none)
    (xs := t.constraints.primaryKey) fun x hx => primaryKey_item hd (h.primaryKey x hx).1 (h.primaryKey x hx).2
  obtain ⟨i3, c1, c2, c3, c4, c5, c6, c7⟩ := group (isNum := isNum) (d := d) (text := uniqueText d)
    (c := fun _ => none) (p := fun _ => none) (u := some) (k := fun _ => none) (f := fun _ => none)
    (xs := t.constraints.unique) fun x hx => unique_item hd (h.unique x hx).1 (h.unique x hx).2
  obtain ⟨i4, d1, d2, d3, d4, d5, d6, d7⟩ := group (isNum := isNum) (d := d) (text := checkText d)
    (c := fun _ => none) (p := fun _ => none) (u := fun _ => none) (k := some) (f := fun _ => none)
    (xs := t.constraints.check) fun x hx => check_item hd (h.check x hx).1 (h.check x hx).2
  obtain ⟨i5, e1, e2, e3, e4, e5, e6, e7⟩ := group (isNum := isNum) (d := d) (text := foreignKeyText d)
    (c := fun _ => none) (p := fun _ => none) (u := fun _ => none) (k := fun _ => none) (f := some)
    (xs := t.constraints.foreignKey) fun x hx => foreignKey_item hd (h.foreignKey x hx).1
      (h.foreignKey x hx).2.1 (h.foreignKey x hx).2.2.1 (h.foreignKey x hx).2.2.2
  refine ⟨i1 ++ i2 ++ i3 ++ i4 ++ i5, (((a1.append b1).append c1).append d1).append e1, ?_, ?_, ?_, ?_, ?_, ?_⟩
  · simp only [List.filterMap_append, a2, b2, c2, d2, e2, filterMap_nothing, List.append_nil]
    exact filterMap_self _
  · simp only [List.filterMap_append, a3, b3, c3, d3, e3, filterMap_nothing, List.append_nil, List.nil_append]
    exact filterMap_self _
  · simp only [List.filterMap_append, a4, b4, c4, d4, e4, filterMap_nothing, List.append_nil, List.nil_append]
    exact filterMap_self _
  · simp only [List.filterMap_append, a5, b5, c5, d5, e5, filterMap_nothing, List.append_nil, List.nil_append]
    exact filterMap_self _
  · simp only [List.filterMap_append, a6, b6, c6, d6, e6, filterMap_nothing, List.append_nil, List.nil_append]
    exact filterMap_self _
  · intro i hi
    simp only [List.mem_append] at hi
    rcases hi with (((hi | hi) | hi) | hi) | hi
    · exact a7 i hi
    · exact b7 i hi
    · exact c7 i hi
    · exact d7 i hi
    · exact e7 i hi

/-- Entries with commas between them. -/
theorem sep_items {d : Rdbms} {L : Lang Item} {ss : List (List Char)} {is : List Item}
    (h : All2 (Ph d T0 L) ss is) (h0 : ss ≠ []) :
    ∃ ts, Txt d (sepText ss) ts ∧ ∀ r, Sep L (ts ++ S ")" :: r) is (S ")" :: r) := by
  induction h with
  | nil => exact (h0 rfl).elim
  | @cons s i ss is h hs ih =>
    obtain ⟨ts, g1, g2⟩ := h
    cases hs with
    | nil => exact ⟨ts, g1, fun r => .one (g2 _ (.cons (by simp [T0]))) (notAt_cons (by decide))⟩
    | @cons s' i' ss is h' hs =>
      obtain ⟨ts', k1, k2⟩ := ih (by simp)
      refine ⟨ts ++ [S ","] ++ ts', (g1.append Txt.comma).append k1, fun r => ?_⟩
      rw [List.append_assoc, List.append_assoc]
      exact .cons (g2 _ (.cons (by simp [T0]))) (kwS (by decide)) (k2 r)

/-- `[schema.]name` -/
def qnameOf (d : Rdbms) (t : Table) : QName :=
  ⟨if t.schema = [] then none else some (nameTok d t.schema), nameTok d t.name⟩

theorem qname_ph {d : Rdbms} {t : Table} (hs : Quotable t.schema) (hn : Quotable t.name) :
    ∃ ts, Txt d (textIf (t.schema != []) (nameText d t.schema ++ S ". ") ++ nameText d t.name) ts ∧
      (∃ n ts', ts = nameTok d n :: ts') ∧
      ∀ r, qname d (ts ++ S "(" :: r) (qnameOf d t) (S "(" :: r) := by
  unfold qnameOf
  by_cases h0 : t.schema = []
  · rw [if_pos h0, h0]
    exact ⟨[nameTok d t.name], .name hn, ⟨_, _, rfl⟩, fun r => qname_tok (notAt_cons (by decide))⟩
  · rw [if_neg h0]
    have : (t.schema != []) = true := by simpa using h0
    rw [this]
    have hdot : Txt d (S ". ") [S "."] := .fixed _ (by decide) (by decide)
    refine ⟨[nameTok d t.schema] ++ [S "."] ++ [nameTok d t.name], ((Txt.name hs).append hdot).append (.name hn),
      ⟨_, _, rfl⟩, fun r => ?_⟩
    exact ⟨_, _, name_intro (name_nameTok d t.schema), some (nameTok d t.name), _,
      optKw_some (by decide) (name_intro (name_nameTok d t.name)), rfl, rfl⟩

theorem ine_ph {d : Rdbms} (b : Bool) :
    ∃ ts, Txt d (textIf b (S "IF NOT EXISTS ")) ts ∧ ∀ n r, ifNotExists (ts ++ nameTok d n :: r) b (nameTok d n :: r) := by
  cases b with
  | false =>
    exact ⟨[], .nil, fun n r => ⟨none, _, optKw_none (notAt_cons (not_kw_nameTok (by decide))), rfl, rfl⟩⟩
  | true =>
    exact ⟨[S "IF", S "NOT", S "EXISTS"], .fixed _ (by decide) (by decide), fun n r => ⟨some (), _,
      optKw_some (by decide) ⟨(), _, kwS (by decide), kwS (by decide)⟩, rfl, rfl⟩⟩

/-- A statement. -/
theorem stmt_ok {isNum : Str → Bool} (hN : NumOK isNum) {d : Rdbms} (hd : d ≠ .other) {t : Table}
    (h : TableOK isNum d t) :
    ∃ ts a, Txt d (tableText d t) ts ∧ (∀ r, stmtOf isNum d (ts ++ r) (.table a) r) ∧
      tableVal isNum d a = t ∧ a.Faithful ∧ a.Tidy d := by
  obtain ⟨is, h1, h2, h3, h4, h5, h6, h7⟩ := items_ok hN hd h
  obtain ⟨ts1, a1, a2⟩ := ine_ph (d := d) t.ifNotExists
  obtain ⟨ts2, b1, ⟨n, ts2', rfl⟩, b2⟩ := qname_ph (d := d) h.schema h.name
  obtain ⟨ts3, c1, c2⟩ := sep_items h1 h.nonempty
  refine ⟨[S "CREATE", S "TABLE"] ++ ts1 ++ (nameTok d n :: ts2') ++ [S "("] ++ ts3 ++ [S ")", S ";"],
    ⟨t.ifNotExists, qnameOf d t, is⟩, ?_, fun r => ?_, ?_, ⟨?_, ?_⟩, ⟨?_, ?_⟩⟩
  · have e1 : Txt d (S "CREATE TABLE ") [S "CREATE", S "TABLE"] := .fixed _ (by decide) (by decide)
    have e2 : Txt d (S ") ; ") [S ")", S ";"] := .fixed _ (by decide) (by decide)
    refine Txt.eq (((((e1.append a1).append b1).append Txt.lpar).append c1).append e2) ?_ rfl
    unfold tableText
    simp only [List.append_assoc]
  · have e : [S "CREATE", S "TABLE"] ++ ts1 ++ (nameTok d n :: ts2') ++ [S "("] ++ ts3 ++ [S ")", S ";"] ++ r =
        S "CREATE" :: S "TABLE" :: (ts1 ++ (nameTok d n :: (ts2' ++ S "(" :: (ts3 ++ S ")" :: S ";" :: r)))) := by
      simp only [List.append_assoc, List.cons_append, List.nil_append]
    rw [e]
    have key : ∀ o : Lang Unit, (∀ r, o (S ";" :: r) () (S ";" :: r)) →
        createTable d (itemOf isNum d) o
          (S "TABLE" :: (ts1 ++ (nameTok d n :: (ts2' ++ S "(" :: (ts3 ++ S ")" :: S ";" :: r)))))
          (.table ⟨t.ifNotExists, qnameOf d t, is⟩) r := by
      intro o ho
      exact ⟨(), _, kwS (by decide), _, _, a2 n _, _, _, b2 _, (), _, kwS (by decide), _, _, c2 _, (), _,
        kwS (by decide), (), _, ho _, (), _, kwS (by decide), rfl, rfl⟩
    cases d with
    | other => exact (hd rfl).elim
    | sqlite =>
      refine ⟨(), _, kwS (by decide), false, _, optWord_none (notAt_cons (by decide)), .inl (key _ fun r => ?_)⟩
      exact .inr (.inr (notAt_cons (by decide)))
    | postgres =>
      refine ⟨(), _, kwS (by decide), .inl (key _ fun r => ?_)⟩
      exact .stop (.inl ⟨rfl, _, _, rfl, by decide⟩)
    | mysql =>
      refine ⟨(), _, kwS (by decide), .inl (key _ fun r => ?_)⟩
      exact .stop (.inl ⟨rfl, _, _, rfl, by decide⟩)
  · have e1 : ((if t.schema = [] then none else some (nameTok d t.schema) : Option Str).map (nameVal d)).getD [] =
        t.schema := by
      split
      · rename_i h0; rw [h0]; rfl
      · exact nameVal_nameTok hd _
    unfold tableVal qnameOf
    simp only [h2, h3, h4, h5, h6, nameVal_nameTok hd, e1]
  · exact fun i hi => (h7 i hi).1
  · intro i is' e
    have e : is = Item.exclude .absent :: i :: is' := e
    exact (h7 (.exclude .absent) (by rw [e]; simp)).2.1 _ rfl
  · exact fun i hi => (h7 i hi).2.2.1
  · have hne : is ≠ [] := by
      intro e
      rw [e] at h1
      have := h.nonempty
      generalize itemTexts d t = X at h1 this
      cases h1
      exact this rfl
    cases is with
    | nil => exact absurd rfl hne
    | cons i is => exact ⟨i, by simp, (h7 i (by simp)).2.2.2⟩

/-- A script. -/
theorem script_ok {isNum : Str → Bool} (hN : NumOK isNum) {d : Rdbms} (hd : d ≠ .other) {tabs : List Table}
    (h : ∀ t ∈ tabs, TableOK isNum d t) :
    ∃ ts ss, Txt d (scriptText d tabs) ts ∧ script isNum d ts ss ∧ tablesVal isNum d ss = tabs ∧ Faithful ss ∧
      ∀ t, .table t ∈ ss → t.Tidy d := by
  induction tabs with
  | nil => exact ⟨[], [], .nil, .nil, rfl, (fun t ht => by cases ht), fun t ht => by cases ht⟩
  | cons t tabs ih =>
    obtain ⟨ts, ss, h1, h2, h3, h4, h5⟩ := ih fun t ht => h t (by simp [ht])
    obtain ⟨ts', a, g1, g2, g3, g4, g5⟩ := stmt_ok hN hd (h t (by simp))
    refine ⟨ts' ++ ts, .table a :: ss, g1.append h1, .cons (g2 ts) h2, ?_, ?_, ?_⟩
    · unfold tablesVal at h3 ⊢
      rw [List.filterMap_cons, h3]
      exact congrArg (· :: tabs) g3
    · intro b hb
      rcases List.mem_cons.1 hb with hb | hb
      · cases hb; exact g4
      · exact h4 b hb
    · intro b hb
      rcases List.mem_cons.1 hb with hb | hb
      · cases hb; exact g5
      · exact h5 b hb

/-- What is printed is what is returned. -/
theorem returns_printed [CaseMap] {isNum : Str → Bool} (hN : NumOK isNum) {d : Rdbms} (hd : d ≠ .other) {tabs : List Table}
    (h : ∀ t ∈ tabs, TableOK isNum d t) : Returns isNum (scriptText d tabs) d (tabs, none) := by
  obtain ⟨ts, ss, h1, h2, rfl, h4, _⟩ := script_ok hN hd h
  refine returns_of_script hN h1.lexes ?_ h4
  rw [strip_id h1.no_nl]
  exact h2

end DDL
