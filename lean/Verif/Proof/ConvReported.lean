import Verif.Proof.ParseFacts
import Verif.Spec.Reported
/-
The converter on scripts in which column constraints may be named AUTOINCREMENT; as in Proof/Conv.lean.
-/

namespace DDL
open Spec

namespace Conv

theorem conStep_auto {isNum : Str → Bool} {d : Rdbms} (cs : List ColCon) (con : Constraint) :
    cs.foldl (conStep isNum d) { con with isAutoincrement := true } =
      { cs.foldl (conStep isNum d) con with isAutoincrement := true } := by
  induction cs generalizing con with
  | nil => rfl
  | cons c cs ih =>
    rw [List.foldl_cons, List.foldl_cons, ← ih]
    congr 1
    cases c <;> first | rfl | (unfold conStep; simp)

theorem column_rep [CaseMap] {isNum : Str → Bool} (hN : NumOK isNum) {d d' : Rdbms} (hd : Known d')
    {c : ColAst} {o rest : List Str} (h : colE isNum d' c o) (hok : ColOk c)
    (hf : ∀ r, ColCon.references r ∈ c.cons → r.Plain)
    (hr : Stop rest) {n : Nat} (hn : o.length < n) :
    C.convertColumnDefinition isNum d n (o ++ rest) = .ok (columnRep isNum d c) rest := by
  by_cases hm : c.conName.Misread
  · unfold columnRep
    rw [if_pos hm]
    obtain ⟨m, hcn, hm⟩ := hm
    obtain ⟨ot, on, oc, h1, h2, h3, ⟨os, h4, rfl⟩, rfl⟩ := h
    rw [hcn] at h3
    obtain ⟨k, hk, hnm, rfl⟩ := h3
    have hm' : isKw ["AUTOINCREMENT", "AUTO_INCREMENT"] m = true := isKw_kw.2 hm
    have hh2 : ConHead ([k, m] ++ (os.flatten ++ rest)) := ⟨_, _, rfl, kw_head hk (by decide)⟩
    simp only [List.cons_append, List.append_assoc, List.length_cons, List.length_append, List.nil_append] at hn hh2 ⊢
    unfold C.convertColumnDefinition C.convertConstraint
    rw [bind_ok (convertName_name h1), bind_ok (type_ok h2 hh2)]
    obtain ⟨n, rfl⟩ : ∃ j, n = j + 1 := ⟨n - 1, by omega⟩
    have hcon : (((C.ifM (C.matchToken ["CONSTRAINT"])
          (C.skip.bind fun _ =>
            C.ifM (C.matchToken C.notConstraintName) (CM.pure []) (C.convertName d))
          (CM.pure [])).bind fun name => C.convertConstraintAux isNum d (n + 1) { name := name }))
          (k :: m :: (os.flatten ++ rest)) =
        .ok { constraintVal isNum d .absent c.cons with isAutoincrement := true } rest := by
      rw [bind_ok (a := []) (s' := m :: (os.flatten ++ rest))]
      · rw [C.convertConstraintAux, ifF (kwF hm' (by decide)), ifF (kwF hm' (by decide)), ifT hm',
          bind_ok (skip_kw hm' (by decide)), constraintAux_ok hN h4 hf hr _ n (by omega), conStep_auto]
        have e := foldl_constraintVal (isNum := isNum) (d := d) .absent hok.1
        have e0 : conNameVal d .absent = [] := rfl
        rw [e0] at e
        rw [e]
      · rw [ifT hk, bind_ok (skip_kw hk (by decide)), ifT (kwT hm' (by decide))]
        rfl
    rw [bind_ok hcon]
    unfold columnVal constraintVal
    rfl
  · unfold columnRep
    rw [if_neg hm]
    exact column_ok hN hd h hok ⟨hf, fun n e hk => hm ⟨n, e, hk⟩⟩ hr hn

/-- What an entry adds to the columns and constraints of the table. -/
def addItemR (isNum : Str → Bool) (d : Rdbms) (ct : List Column × TableConstraint) (i : Item) :
    List Column × TableConstraint :=
  (ct.1 ++ (i.columnRep? isNum d).toList,
   { primaryKey := ct.2.primaryKey ++ (i.primaryKey? d).toList
     unique := ct.2.unique ++ (i.unique? d).toList
     check := ct.2.check ++ (i.check? d).toList
     foreignKey := ct.2.foreignKey ++ (i.foreignKey? d).toList })

/-- A table constraint after its name. -/
theorem tableConBody_rep {d d' : Rdbms} {i : Item} {oi rest : List Str} (h : tableConE d' i oi)
    (hf : i.Placed) (hr : Stop rest) (tc : TableConstraint) (n : Nat) (hn : oi.length < n) :
    (C.ifM (C.matchToken ["PRIMARY"])
      (C.skip.bind fun _ => C.skip.bind fun _ =>
        (C.convertCommaSeparatedColumnNames n).bind fun cs =>
        CM.pure { tc with primaryKey := tc.primaryKey ++ [⟨conNameVal d (Item.conName i), cs⟩] }) <|
    C.ifM (C.matchToken ["UNIQUE"])
      (C.skip.bind fun _ =>
        (C.convertCommaSeparatedColumnNames n).bind fun cs =>
        CM.pure { tc with unique := tc.unique ++ [⟨conNameVal d (Item.conName i), cs⟩] }) <|
    C.ifM (C.matchToken ["CHECK"])
      (C.skip.bind fun _ =>
        (C.convertExpr n).bind fun e =>
        CM.pure { tc with check := tc.check ++ [⟨conNameVal d (Item.conName i), e⟩] }) <|
    C.ifM (C.matchToken ["FOREIGN"])
      (C.skip.bind fun _ => C.skip.bind fun _ =>
        (C.convertCommaSeparatedColumnNames n).bind fun cs =>
        (C.convertReference d n).bind fun r =>
        CM.pure { tc with foreignKey := tc.foreignKey ++ [⟨conNameVal d (Item.conName i), cs, r⟩] })
    (CM.pure tc)) (oi ++ rest) = .ok (addItemR isNum d (cols, tc) i).2 rest := by
  cases i with
  | column c => exact h.elim
  | primaryKey m ks =>
    obtain ⟨p, k, oc, h1, h2, h3, rfl⟩ := h
    simp only [List.cons_append, List.length_cons] at hn ⊢
    rw [ifT h1, bind_ok (skip_kw h1 (by decide)), bind_ok (skip_kw h2 (by decide)),
      bind_ok (keyList_ok h3 rest (by omega))]
    simp [CM.pure, addItemR, Item.primaryKey?, Item.unique?, Item.check?, Item.foreignKey?,
      Item.conName]
  | unique m ks =>
    obtain ⟨p, oc, h1, h3, rfl⟩ := h
    simp only [List.cons_append, List.length_cons] at hn ⊢
    rw [ifF (kwF h1 (by decide)), ifT h1, bind_ok (skip_kw h1 (by decide)),
      bind_ok (keyList_ok h3 rest (by omega))]
    simp [CM.pure, addItemR, Item.primaryKey?, Item.unique?, Item.check?, Item.foreignKey?,
      Item.conName]
  | check m e =>
    obtain ⟨p, h1, h3, rfl⟩ := h
    simp only [List.cons_append, List.length_cons] at hn ⊢
    rw [ifF (kwF h1 (by decide)), ifF (kwF h1 (by decide)), ifT h1,
      bind_ok (skip_kw h1 (by decide)), bind_ok (expr_ok h3 rest (by omega))]
    simp [CM.pure, addItemR, Item.primaryKey?, Item.unique?, Item.check?, Item.foreignKey?,
      Item.conName]
  | foreignKey m ks r =>
    obtain ⟨p, k, oc, or, h1, h2, h3, h4, rfl⟩ := h
    simp only [List.cons_append, List.length_cons, List.append_assoc, List.length_append] at hn ⊢
    rw [ifF (kwF h1 (by decide)), ifF (kwF h1 (by decide)), ifF (kwF h1 (by decide)), ifT h1,
      bind_ok (skip_kw h1 (by decide)), bind_ok (skip_kw h2 (by decide)),
      bind_ok (keyList_ok h3 _ (by omega)),
      bind_ok (reference_ok h4 hf (ConHead.not (ks := ["("]) hr.head (by decide)) (by omega))]
    simp [CM.pure, addItemR, Item.primaryKey?, Item.unique?, Item.check?, Item.foreignKey?,
      Item.conName]
  | exclude m =>
    cases h
    obtain ⟨t, r, rfl, ht⟩ := hr
    have h1 : ∀ ks, (isKw ks (S ",") = false ∧ isKw ks [')'] = false ∧ isKw ks (S ".") = false) →
        isKw ks t = false := by
      intro ks h; rcases ht with rfl | rfl | rfl
      · exact h.1
      · exact h.2.1
      · exact h.2.2
    rw [List.nil_append, ifF (h1 _ (by decide)), ifF (h1 _ (by decide)),
      ifF (h1 _ (by decide)), ifF (h1 _ (by decide))]
    simp [CM.pure, addItemR, Item.primaryKey?, Item.unique?, Item.check?, Item.foreignKey?]
  | index m => exact hf.elim
  | fulltext m j => exact hf.elim

theorem tableConE_headR {d : Rdbms} {i : Item} {o : List Str} (h : tableConE d i o)
    (hf : i.Placed) :
    (o = [] ∧ ∃ n, i = .exclude n) ∨
      ∃ t r, o = t :: r ∧ isKw ["PRIMARY", "UNIQUE", "CHECK", "FOREIGN"] t = true := by
  cases i with
  | column c => exact h.elim
  | primaryKey m ks => obtain ⟨p, k, oc, h1, h2, h3, rfl⟩ := h; exact .inr ⟨_, _, rfl, kwT h1 (by decide)⟩
  | unique m ks => obtain ⟨p, oc, h1, h3, rfl⟩ := h; exact .inr ⟨_, _, rfl, kwT h1 (by decide)⟩
  | check m e => obtain ⟨p, h1, h3, rfl⟩ := h; exact .inr ⟨_, _, rfl, kwT h1 (by decide)⟩
  | foreignKey m ks r =>
    obtain ⟨p, k, oc, or, h1, h2, h3, h4, rfl⟩ := h; exact .inr ⟨_, _, rfl, kwT h1 (by decide)⟩
  | exclude m => exact .inl ⟨h, _, rfl⟩
  | index m => exact hf.elim
  | fulltext m j => exact hf.elim

/-- A table constraint. -/
theorem tableCon_rep [CaseMap] {isNum : Str → Bool} {d d' : Rdbms} (hd : Known d') {i : Item}
    {on oi rest : List Str} (hc : conNameE d' (Item.conName i) on) (h : tableConE d' i oi)
    (hok : ItemOk i) (hf : i.Placed) (hr : Stop rest) (ct : List Column × TableConstraint)
    (n : Nat) (hn : (on ++ oi).length < n) (hne : on ++ oi ≠ []) :
    oneItem isNum d n ct (on ++ (oi ++ rest)) = .ok (addItemR isNum d ct i) rest := by
  have hcol : (addItemR isNum d ct i) = (ct.1, (addItemR isNum d ct i).2) := by
    cases i with
    | column c => exact h.elim
    | _ => simp [addItemR, Item.columnRep?]
  rw [List.length_append] at hn
  have body := fun tc (hn : oi.length < n) =>
    tableConBody_rep (d := d) (isNum := isNum) (cols := ct.1) h hf hr tc n hn
  have key : C.convertTableConstraint d n ct.2 (on ++ (oi ++ rest)) =
      .ok (addItemR isNum d ct i).2 rest := by
    unfold C.convertTableConstraint
    cases hcn : Item.conName i with
    | absent =>
      rw [hcn] at hc
      cases hc
      rw [List.nil_append, bind_ok (a := []) (s' := oi ++ rest)]
      · have := body ct.2 (by omega); rw [hcn] at this; exact this
      · rcases tableConE_headR h hf with ⟨rfl, _⟩ | ⟨t, r, rfl, ht⟩
        · exact absurd rfl hne
        · exact ifF (kwF ht (by decide))
    | anonymous =>
      rw [hcn] at hc
      obtain ⟨k, hk, rfl⟩ := hc
      simp only [List.cons_append, List.nil_append, List.length_cons] at hn ⊢
      rw [bind_ok (a := []) (s' := oi ++ rest)]
      · have := body ct.2 (by omega); rw [hcn] at this; exact this
      · rw [ifT hk, bind_ok (skip_kw hk (by decide))]
        rcases tableConE_headR h hf with ⟨rfl, m, rfl⟩ | ⟨t, r, rfl, ht⟩
        · exact absurd hcn hok
        · exact ifT ht
    | named m =>
      rw [hcn] at hc
      obtain ⟨k, hk, hm, rfl⟩ := hc
      simp only [List.cons_append, List.nil_append, List.length_cons] at hn ⊢
      rw [bind_ok (a := nameVal d m) (s' := oi ++ rest)]
      · have := body ct.2 (by omega); rw [hcn] at this; exact this
      · rw [ifT hk, bind_ok (skip_kw hk (by decide)),
          ifF (isKw_sub (reserved_name hd hm) (by decide)), convertName_name hm]
  unfold oneItem
  rw [show ∀ p q : CM (List Column × TableConstraint),
      C.ifM (C.matchToken ["CONSTRAINT", "PRIMARY", "UNIQUE", "CHECK", "FOREIGN"]) p q
        (on ++ (oi ++ rest)) = p (on ++ (oi ++ rest)) from ?_, bind_ok key, hcol]
  · rfl
  · intro p q
    cases hcn : Item.conName i with
    | absent =>
      rw [hcn] at hc
      cases hc
      rcases tableConE_headR h hf with ⟨rfl, m, rfl⟩ | ⟨t, r, rfl, ht⟩
      · exact absurd rfl hne
      · exact ifT (kwT ht (by decide))
    | anonymous =>
      rw [hcn] at hc; obtain ⟨k, hk, rfl⟩ := hc; exact ifT (kwT hk (by decide))
    | named m =>
      rw [hcn] at hc; obtain ⟨k, hk, hm, rfl⟩ := hc; exact ifT (kwT hk (by decide))

/-- An entry that keeps any tokens. -/
theorem item_rep [CaseMap] {isNum : Str → Bool} (hN : NumOK isNum) {d d' : Rdbms} (hd : Known d')
    {i : Item} {o rest : List Str} (h : itemE isNum d' i o) (hok : ItemOk i) (hf : i.Placed)
    (hr : Stop rest) (ct : List Column × TableConstraint) (n : Nat) (hn : o.length < n)
    (hne : o ≠ []) : oneItem isNum d n ct (o ++ rest) = .ok (addItemR isNum d ct i) rest := by
  cases i with
  | column c =>
    have hc := column_rep (d := d) hN hd h hok hf hr hn
    obtain ⟨ot, on, oc, h1, h2, h3, h4, rfl⟩ := h
    unfold oneItem
    rw [List.cons_append] at hc ⊢
    rw [ifF (isKw_sub (reserved_name hd h1) (by decide)), bind_ok hc]
    simp [CM.pure, addItemR, Item.columnRep?, Item.primaryKey?, Item.unique?, Item.check?,
      Item.foreignKey?]
  | _ =>
    obtain ⟨on, oi, h1, h2, rfl⟩ := h
    rw [List.append_assoc]
    exact tableCon_rep hd h1 h2 hok hf hr ct n hn hne

/-- An entry keeps nothing only if it is an unnamed EXCLUDE; else its first token is neither a
comma nor a closing parenthesis. -/
theorem itemE_headR {isNum : Str → Bool} {d : Rdbms} {i : Item} {o : List Str}
    (h : itemE isNum d i o) (hok : ItemOk i) (hf : i.Placed) :
    (o = [] ∧ i = .exclude .absent) ∨
      ∃ t r, o = t :: r ∧ t ≠ S "," ∧ isKw [")"] t = false := by
  cases i with
  | column c =>
    obtain ⟨ot, on, oc, h1, h2, h3, h4, rfl⟩ := h
    exact .inr ⟨_, _, rfl, (nameTok_facts h1).1, (nameTok_facts h1).2.1⟩
  | _ =>
    obtain ⟨on, oi, h1, h2, rfl⟩ := h
    rename_i m
    rcases tableConE_headR h2 hf with ⟨rfl, m', hm⟩ | ⟨t, r, rfl, ht⟩
    all_goals
      revert h1
      generalize hcn : Item.conName _ = cn
      intro h1
      cases cn with
      | absent =>
        cases h1
        first
        | exact .inr ⟨_, _, rfl, kw_plain ht (by decide), kwF ht (by decide)⟩
        | (cases hm; done)
        | (cases hm; cases hcn; exact .inl ⟨rfl, rfl⟩)
      | anonymous =>
        obtain ⟨k, hk, rfl⟩ := h1
        exact .inr ⟨_, _, rfl, kw_plain hk (by decide), kwF hk (by decide)⟩
      | named m =>
        obtain ⟨k, hk, _, rfl⟩ := h1
        exact .inr ⟨_, _, rfl, kw_plain hk (by decide), kwF hk (by decide)⟩

/-- The entries after the first. -/
theorem after_rep [CaseMap] {isNum : Str → Bool} (hN : NumOK isNum) {d d' : Rdbms} (hd : Known d')
    {is : List Item} {os : List (List Str)} (h : All2 (itemE isNum d') is os)
    (hok : ∀ i ∈ is, ItemOk i) (hf : ∀ i ∈ is, i.Placed) (r : List Str)
    (ct : List Column × TableConstraint) (n : Nat) (hn : (itemTail os).length < n + 1) :
    afterItem isNum d n ct (itemTail os ++ [')'] :: r) =
      .ok (is.foldl (addItemR isNum d) ct) ([')'] :: r) := by
  induction h generalizing ct n with
  | nil => rw [itemTail, List.nil_append, afterItem, ifT (isKw_rpar.2 rfl)]; rfl
  | @cons i o is os h hs ih =>
    have ih := ih (fun i hi => hok i (by simp [hi])) (fun i hi => hf i (by simp [hi]))
    have hi := hok i (by simp)
    have hfi := hf i (by simp)
    rw [itemTail, List.length_cons, List.length_append] at hn
    obtain ⟨n, rfl⟩ : ∃ m, n = m + 1 := ⟨n - 1, by omega⟩
    rcases itemE_headR h hi hfi with ⟨rfl, rfl⟩ | ⟨t, r', rfl, ht1, ht2⟩
    · have hadd : addItemR isNum d ct (.exclude .absent) = ct := by
        simp [addItemR, Item.columnRep?, Item.primaryKey?, Item.unique?, Item.check?, Item.foreignKey?]
      rw [List.foldl_cons, hadd]
      cases hs with
      | nil =>
        simp only [itemTail, List.nil_append, List.cons_append]
        have hsk : C.skip (S "," :: [')'] :: r) = .ok () ([')'] :: r) := rfl
        rw [afterItem, ifF (by decide), bind_ok hsk, loop_eq,
          ifT (isKw_rpar.2 rfl)]
        rfl
      | @cons i' o' is os h' hs =>
        rw [← ih ct (n + 1) (by simp at hn; omega)]
        simp only [itemTail, List.nil_append, List.cons_append]
        rw [afterItem, ifF (by decide), ifF (by decide)]
        simp only [CM.bind, C.skip]
        rw [C.nextRest, if_pos ⟨rfl, rfl⟩]
    · have hit := item_rep (d := d) hN hd h hi hfi (stop_tail os r) ct (n + 1) (by omega) (by simp)
      rw [itemTail, List.cons_append, List.append_assoc, afterItem, ifF (by decide)]
      have hs : C.skip (S "," :: (t :: r' ++ (itemTail os ++ [')'] :: r))) =
          .ok () (t :: r' ++ (itemTail os ++ [')'] :: r)) := by
        simp [C.skip, C.nextRest, C.tok, ht1]
      rw [bind_ok hs, loop_eq]
      rw [List.cons_append] at hit ⊢
      rw [ifF ht2, bind_ok hit, List.foldl_cons]
      exact ih _ n (by simp at hn; omega)

theorem foldl_addItemR {isNum : Str → Bool} {d : Rdbms} (is : List Item)
    (ct : List Column × TableConstraint) :
    is.foldl (addItemR isNum d) ct =
      (ct.1 ++ is.filterMap (Item.columnRep? isNum d),
       { primaryKey := ct.2.primaryKey ++ is.filterMap (Item.primaryKey? d)
         unique := ct.2.unique ++ is.filterMap (Item.unique? d)
         check := ct.2.check ++ is.filterMap (Item.check? d)
         foreignKey := ct.2.foreignKey ++ is.filterMap (Item.foreignKey? d) }) := by
  induction is generalizing ct with
  | nil => simp
  | cons i is ih =>
    have fm : ∀ {γ : Type} (f : Item → Option γ),
        (i :: is).filterMap f = (f i).toList ++ is.filterMap f := by
      intro γ f; rw [List.filterMap_cons]; cases f i <;> rfl
    rw [List.foldl_cons, ih]
    simp only [fm, addItemR, List.append_assoc]

/-- A table definition. -/
theorem definition_rep [CaseMap] {isNum : Str → Bool} (hN : NumOK isNum) {d d' : Rdbms} (hd : Known d')
    {is : List Item} {o : List Str} (h : sepE (itemE isNum d') is o)
    (hok : ∀ i ∈ is, ItemOk i) (hf : ∀ i ∈ is, i.Placed)
    (hx : ∀ i is', is = Item.exclude .absent :: i :: is' → False) (r : List Str)
    (n : Nat) (hn : o.length < n) :
    C.convertTableDefinition isNum d n (['('] :: (o ++ [')'] :: r)) =
      .ok (is.foldl (addItemR isNum d) ([], {})) r := by
  obtain ⟨hne, os, hs, rfl⟩ := h
  unfold C.convertTableDefinition
  rw [bind_ok (skip_cons lpar_ne)]
  have key : C.tableDefinitionLoop isNum d n [] {} (joinComma os ++ [')'] :: r) =
      .ok (is.foldl (addItemR isNum d) ([], {})) ([')'] :: r) := by
    cases hs with
    | nil => exact absurd rfl hne
    | @cons i o is os h hs =>
      obtain ⟨n, rfl⟩ : ∃ m, n = m + 1 := ⟨n - 1, by omega⟩
      have hi := hok i (by simp)
      have hfi := hf i (by simp)
      rw [joinComma_tail] at hn ⊢
      rw [List.length_append] at hn
      rw [List.append_assoc]
      have le := loop_eq isNum d n ([], {})
      simp only at le
      rw [le]
      rcases itemE_headR h hi hfi with ⟨rfl, rfl⟩ | ⟨t, r', rfl, ht1, ht2⟩
      · cases hs with
        | nil =>
          simp only [itemTail, List.nil_append]
          rw [ifT (isKw_rpar.2 rfl)]
          simp [CM.pure, addItemR, Item.columnRep?, Item.primaryKey?, Item.unique?, Item.check?,
            Item.foreignKey?]
        | @cons i' o' is os h' hs => exact (hx _ _ rfl).elim
      · have hit := item_rep (d := d) hN hd h hi hfi (stop_tail os r) ([], {}) (n + 1)
          (by omega) (by simp)
        rw [List.cons_append] at hit ⊢
        rw [ifF ht2, bind_ok hit, List.foldl_cons]
        exact after_rep hN hd hs (fun i hi => hok i (by simp [hi])) (fun i hi => hf i (by simp [hi]))
          r _ n (by simp at hn; omega)
  rw [bind_ok key, bind_ok (skip_cons rpar_ne)]
  rfl

/-- A table. -/
theorem table_rep [CaseMap] {isNum : Str → Bool} (hN : NumOK isNum) {d d' : Rdbms} (hd : Known d')
    {t : TableAst} {o : List Str} (h : tableE d' (itemE isNum d') t o) (hok : TableOk t)
    (hf : (∀ i ∈ t.items, i.Placed) ∧ ∀ i is, t.items = Item.exclude .absent :: i :: is → False) (r : List Str) (n : Nat) (hn : o.length < n) :
    C.convertTable isNum d n (o ++ r) = .ok (tableRep isNum d t) r := by
  obtain ⟨tb, oi, oits, h1, h2, h3, h4, rfl⟩ := h
  unfold C.convertTable C.convertTableName
  simp only [List.cons_append, List.append_assoc, List.nil_append, List.length_cons,
    List.length_append] at hn ⊢
  rw [bind_ok (skip_cons (by decide)), bind_ok (skip_kw h1 (by decide))]
  have hdef := definition_rep (d := d) hN hd h4 hok.1 hf.1 hf.2 (S ";" :: r) n (by omega)
  generalize hrest : ['('] :: (oits ++ [')'] :: S ";" :: r) = rest at hdef ⊢
  rw [bind_ok (a := t.ifNotExists) (s' := QName.toks t.name ++ rest)]
  · rw [bind_ok (a := ((t.name.schema.map (nameVal d)).getD [], nameVal d t.name.name))
      (s' := rest)]
    · rw [bind_ok hdef, bind_ok (a := ()) (s' := r), foldl_addItemR]
      · simp [CM.pure, tableRep, tableVal]
      · rw [ifT (by decide)]; exact skip_cons (by decide)
    · cases hs : t.name.schema with
      | none =>
        simp only [QName.toks, hs, List.cons_append, List.nil_append, Option.map_none,
          Option.getD_none]
        rw [bind_ok (convertName_name h3.1)]
        subst hrest
        exact ifF (by decide)
      | some s =>
        simp only [QName.toks, hs, List.cons_append, List.nil_append, Option.map_some,
          Option.getD_some]
        rw [bind_ok (convertName_name (h3.2 s hs)), ifT (by decide),
          bind_ok (skip_cons (by decide)), bind_ok (convertName_name h3.1)]
        rfl
  · cases hine : t.ifNotExists with
    | true =>
      rw [hine] at h2
      obtain ⟨i, x, e, hi, hx, he, rfl⟩ := h2
      simp only [List.cons_append, List.nil_append]
      rw [ifT hi, bind_ok (skip_kw hi (by decide)), bind_ok (skip_kw hx (by decide)),
        bind_ok (skip_kw he (by decide))]
      rfl
    | false =>
      rw [hine] at h2
      cases h2
      have := hok.2 hine
      rw [List.nil_append]
      cases hq : QName.toks t.name with
      | nil => unfold QName.toks at hq; split at hq <;> cases hq
      | cons x xs => exact ifF (this x xs hq)

/-- The converter on what the validator kept. -/
theorem convert_rep [CaseMap] {isNum : Str → Bool} (hN : NumOK isNum) {d d' : Rdbms} (hd : Known d')
    {ss : List Stmt} {o : List Str} (h : scriptE isNum d' ss o) (hok : ScriptOk ss)
    (hf : Placed ss) (acc : List Table) (n : Nat) (hn : o.length < n) :
    C.convert isNum d n acc o = .ok (acc ++ tablesRep isNum d ss) [] := by
  obtain ⟨os, h, rfl⟩ := h
  induction h generalizing acc n with
  | nil =>
    obtain ⟨n, rfl⟩ : ∃ m, n = m + 1 := ⟨n - 1, by omega⟩
    simp [C.convert, C.ifM, C.isOutOfRange, CM.bind, CM.pure, tablesRep]
  | @cons s o ss os h hs ih =>
    have ih := ih (fun t ht => hok t (by simp [ht])) (fun t ht => hf t (by simp [ht]))
    rw [List.flatten_cons, List.length_append] at hn
    obtain ⟨n, rfl⟩ : ∃ m, n = m + 1 := ⟨n - 1, by omega⟩
    cases s with
    | other =>
      cases h
      rw [List.flatten_cons, List.nil_append, ih acc (n + 1) (by omega)]
      simp [tablesRep]
    | table t =>
      have ht := table_rep (d := d) hN hd h (hok t (by simp)) (hf t (by simp)) os.flatten (n + 1)
        (by omega)
      have hl : 0 < o.length := by obtain ⟨_, _, _, _, _, _, _, rfl⟩ := h; simp
      have hne : (o ++ os.flatten).isEmpty = false := by
        cases o with
        | nil => simp at hl
        | cons x o => rfl
      rw [List.flatten_cons, C.convert]
      have : ∀ (p q : CM (List Table)), C.ifM C.isOutOfRange p q (o ++ os.flatten) =
          q (o ++ os.flatten) := by
        intro p q; simp only [C.ifM, C.isOutOfRange, CM.bind, hne, cond_false]
      rw [this, bind_ok ht, ih _ n (by omega)]
      simp [tablesRep]

end Conv
end DDL

namespace DDL
open Spec Conv

/-- An accepted script in which nothing makes the code lose its place. -/
theorem returns_placed [CaseMap] {isNum : Str → Bool} (hN : NumOK isNum) {d : Rdbms} {ddl : List Char}
    {toks : List Str} {ss : List Stmt} (hl : Lexes d ddl toks)
    (hs : script isNum d (strip toks) ss) (hf : Placed ss) :
    Returns isNum ddl d (tablesRep isNum d ss, none) := by
  obtain ⟨out, hv⟩ := (validates_iff hN (Lexes.good hl)).2 ⟨ss, hs⟩
  refine returns_ok_iff.2 ⟨toks, out, hl, hv, out.length + 1, ?_⟩
  unfold convertN
  rw [convert_rep hN (known_vd d) (validates_scriptE hN (Lexes.good hl) hv hs) (scriptOk_of hs) hf [] _
    (Nat.lt_succ_self _)]
  rfl

end DDL
