import Verif.Proof.Exact
/-
The converter on scripts outside the faithful ones: tables and scripts.
-/

namespace DDL
open V Spec Conv

/-! ### An unnamed EXCLUDE in front -/

/-- The first token kept of an entry. -/
theorem item_first {isNum : Str → Bool} {d : Rdbms} {i : Item} {o : List Str}
    (h : itemE isNum d i o) (hi : ¬ i.Index) :
    (o = [] ∧ i = .exclude .absent) ∨ (∃ c x, i = .column c ∧ o = c.name :: x ∧ NameTok d c.name) ∨
      (∃ t x, o = t :: x ∧ isKw noTypes t = true ∧ t ≠ S ",") := by
  have con : ∀ {cn on oi}, conNameE d cn on → (∃ t x, oi = t :: x ∧ isKw noTypes t = true ∧ t ≠ S ",") →
      ∃ t x, on ++ oi = t :: x ∧ isKw noTypes t = true ∧ t ≠ S "," := by
    intro cn on oi h h'
    cases cn with
    | absent => cases h; exact h'
    | anonymous => obtain ⟨k, hk, rfl⟩ := h; exact ⟨_, _, rfl, kwT hk (by decide), kw_plain hk (by decide)⟩
    | named n => obtain ⟨k, hk, _, rfl⟩ := h; exact ⟨_, _, rfl, kwT hk (by decide), kw_plain hk (by decide)⟩
  cases i with
  | column c =>
    obtain ⟨ot, on, oc, h1, h2, h3, h4, rfl⟩ := h
    exact .inr (.inl ⟨c, _, rfl, rfl, h1⟩)
  | primaryKey m ks =>
    obtain ⟨on, oi, h0, ⟨p, k, oc, h1, h2, h3, rfl⟩, rfl⟩ := h
    exact .inr (.inr (con h0 ⟨_, _, rfl, kwT h1 (by decide), kw_plain h1 (by decide)⟩))
  | unique m ks =>
    obtain ⟨on, oi, h0, ⟨p, oc, h1, h3, rfl⟩, rfl⟩ := h
    exact .inr (.inr (con h0 ⟨_, _, rfl, kwT h1 (by decide), kw_plain h1 (by decide)⟩))
  | check m e =>
    obtain ⟨on, oi, h0, ⟨p, h1, h3, rfl⟩, rfl⟩ := h
    exact .inr (.inr (con h0 ⟨_, _, rfl, kwT h1 (by decide), kw_plain h1 (by decide)⟩))
  | foreignKey m ks r =>
    obtain ⟨on, oi, h0, ⟨p, k, oc, or, h1, h2, h3, h4, rfl⟩, rfl⟩ := h
    exact .inr (.inr (con h0 ⟨_, _, rfl, kwT h1 (by decide), kw_plain h1 (by decide)⟩))
  | exclude m =>
    obtain ⟨on, oi, h0, rfl, rfl⟩ := h
    cases m with
    | absent => cases h0; exact .inl ⟨rfl, rfl⟩
    | anonymous =>
      obtain ⟨k, hk, rfl⟩ := h0
      exact .inr (.inr ⟨_, _, rfl, kwT hk (by decide), kw_plain hk (by decide)⟩)
    | named n =>
      obtain ⟨k, hk, _, rfl⟩ := h0
      exact .inr (.inr ⟨_, _, rfl, kwT hk (by decide), kw_plain hk (by decide)⟩)
  | index n => exact absurd trivial hi
  | fulltext n x => exact absurd trivial hi

/-- The token after the commas in front of the entries. -/
theorem tail_first {isNum : Str → Bool} {d d' : Rdbms} {is : List Item} {os : List (List Str)}
    (h : All2 (itemE isNum d') is os) (hi : ∀ i ∈ is, ¬ i.Index) (hne : is ≠ []) (r : List Str) :
    isKw noTypes (C.tok (C.nextRest (itemTail os ++ [')'] :: r))) = true ∨
    ∃ c l, is.filterMap (Item.column? isNum d) = columnVal isNum d c :: l ∧ NameTok d' c.name ∧
      C.tok (C.nextRest (itemTail os ++ [')'] :: r)) = c.name := by
  induction h with
  | nil => exact absurd rfl hne
  | @cons i o is os h hs ih =>
    have step : ∀ t x, o = t :: x → t ≠ S "," → C.tok (C.nextRest (itemTail (o :: os) ++ [')'] :: r)) = t := by
      rintro t x rfl ht
      simp [itemTail, C.nextRest, C.tok, ht]
    rcases item_first h (hi i (by simp)) with ⟨rfl, rfl⟩ | ⟨c, x, rfl, rfl, hc⟩ | ⟨t, x, rfl, h1, h2⟩
    · cases hs with
      | nil => left; exact (by decide : isKw noTypes [')'] = true)
      | @cons i' o' is os h' hs =>
        have e : C.nextRest (itemTail ([] :: o' :: os) ++ [')'] :: r) =
            C.nextRest (itemTail (o' :: os) ++ [')'] :: r) := by
          simp [itemTail, C.nextRest, C.tok]
        rw [e]
        rcases ih (fun i hi' => hi i (by simp [hi'])) (by simp) with h | ⟨c, l, h1, h2⟩
        · exact .inl h
        · exact .inr ⟨c, l, by rw [List.filterMap_cons_none rfl]; exact h1, h2⟩
    · right
      refine ⟨c, _, List.filterMap_cons_some rfl, hc, step _ _ rfl (nameTok_facts hc).1⟩
    · left
      rw [step _ _ rfl h2]
      exact h1

theorem quoted_bad [CaseMap] {d d' : Rdbms} {x : Str} (hx : NameTok d' x) (h : nameVal d x = S ",") :
    BadType d (upStr x) ∧ ∀ v, BadType d (C.varyingName (upStr x) v) := by
  obtain ⟨q, y, rfl⟩ : ∃ q y, x = q :: y := by
    cases x with
    | nil => exact absurd rfl hx.2.1
    | cons q y => exact ⟨q, y, rfl⟩
  have hq : q = '"' ∨ q = '\'' ∨ q = '`' := by
    unfold nameVal unquote at h
    simp only at h
    split at h
    · exact quote_good (d := d) (.inl (by assumption))
    · exact absurd h (nameTok_facts hx).1
  have hu : ∃ z, upStr (q :: y) = q :: z := by
    rcases hq with rfl | rfl | rfl <;>
      exact ⟨y.map CaseMap.up, congrArg (· :: _) ((CaseMap.up_ascii _ (by decide)).trans (by decide))⟩
  obtain ⟨z, hz⟩ := hu
  have hk : ∀ k ∈ typeNames d, k.toList.head? ≠ some '"' ∧ k.toList.head? ≠ some '\'' ∧ k.toList.head? ≠ some '`' := by
    cases d <;> decide +kernel
  rw [hz]
  refine ⟨fun k h e => ?_, fun v => ?_⟩
  · have := hk k h
    rw [← e] at this
    rcases hq with rfl | rfl | rfl <;> simp at this
  · rw [C.varyingName, if_neg, if_neg]
    · exact space_bad
    · intro e; rcases hq with rfl | rfl | rfl <;> cases e
    · intro e; rcases hq with rfl | rfl | rfl <;> cases e

/-- After an unnamed EXCLUDE in front, a comma is taken for a column. -/
theorem loop_exclude [CaseMap] {isNum : Str → Bool} {d d' : Rdbms} {is : List Item} {os : List (List Str)}
    (h : All2 (itemE isNum d') is os) (hi : ∀ i ∈ is, ¬ i.Index) (hne : is ≠ []) {r s1 : List Str} {m : Nat}
    {ct : List Column × TableConstraint}
    (hl : C.tableDefinitionLoop isNum d m [] {} (itemTail os ++ [')'] :: r) = .ok ct s1)
    (hct : ct.1 = is.filterMap (Item.column? isNum d)) : ∃ c ∈ ct.1, BadType d c.dataType.name := by
  obtain ⟨s, hs⟩ : ∃ s, itemTail os ++ [')'] :: r = S "," :: s := by
    cases h with
    | nil => exact absurd rfl hne
    | cons h hs => exact ⟨_, rfl⟩
  have hf := tail_first (d := d) h hi hne r
  rw [hs] at hf hl
  have hn : C.convertName d (S "," :: s) = .ok (S ",") (C.nextRest (S "," :: s)) := by cases d <;> rfl
  obtain ⟨c, l, s2, h1, h2, h3, _⟩ := loop_column (ct := ([], {})) (by decide) (by decide) hn hl
  rw [List.nil_append] at h1
  refine ⟨c, by rw [h1]; simp, ?_⟩
  have : BadType d (upStr (C.tok (C.nextRest (S "," :: s)))) ∧
      ∀ v, BadType d (C.varyingName (upStr (C.tok (C.nextRest (S "," :: s)))) v) := by
    rcases hf with hf | ⟨x, l', e, hx, hf⟩
    · exact bad_kw hf
    · rw [hf]
      refine quoted_bad hx ?_
      rw [← hct, h1] at e
      have := (List.cons.inj e).1
      rw [← h2, this]
      rfl
  rcases h3 with h3 | ⟨v, h3⟩ <;> rw [h3]
  · exact this.1
  · exact this.2 v

/-! ### Tables -/

/-- The columns of the table have types. -/
def Typed (d : Rdbms) (T : Table) : Prop := ∀ c ∈ T.columns, ¬ BadType d c.dataType.name

/-- The result shows nothing of the entry. -/
def Item.Silent (isNum : Str → Bool) (d : Rdbms) (i : Item) : Prop :=
  i.column? isNum d = none ∧ i.primaryKey? d = none ∧ i.unique? d = none ∧ i.check? d = none ∧ i.foreignKey? d = none

theorem filterMap_tail {f : α → Option β} {a : List α} {x : α} {b : List α}
    (h : (a ++ x :: b).filterMap f = a.filterMap f) : ∀ y ∈ b, f y = none := by
  rw [List.filterMap_append] at h
  have : (x :: b).filterMap f = [] := by
    have h2 := congrArg List.length h
    rw [List.length_append] at h2
    exact List.eq_nil_of_length_eq_zero (by omega)
  exact fun y hy => List.filterMap_eq_nil_iff.1 this y (by simp [hy])

theorem table_rest {isNum : Str → Bool} {d : Rdbms} {t : TableAst} {is is2 : List Item} {i : Item}
    {ct : List Column × TableConstraint} (h1 : (tableVal isNum d t).columns = ct.1)
    (h2 : (tableVal isNum d t).constraints = ct.2) (h : ct = is.foldl (addItem isNum d) ([], {}))
    (hi : t.items = is ++ i :: is2) : ∀ j ∈ is2, Item.Silent isNum d j := by
  rw [foldl_addItem] at h
  subst h
  simp only [tableVal, hi, List.nil_append, TableConstraint.mk.injEq] at h1 h2
  intro j hj
  exact ⟨filterMap_tail h1 j hj, filterMap_tail h2.1 j hj, filterMap_tail h2.2.1 j hj,
    filterMap_tail h2.2.2.1 j hj, filterMap_tail h2.2.2.2 j hj⟩

/-- What is left after the closing parenthesis of an index definition. -/
theorem rest_eq (os : List (List Str)) (r : List Str) :
    (if isKw [";"] (C.tok (C.nextRest ([')'] :: (itemTail os ++ [')'] :: S ";" :: r)))) then
      C.nextRest (C.nextRest ([')'] :: (itemTail os ++ [')'] :: S ";" :: r)))
      else C.nextRest ([')'] :: (itemTail os ++ [')'] :: S ";" :: r))) = itemTail os ++ [')'] :: S ";" :: r := by
  rw [nextRest_plain rpar_ne, if_neg]
  cases os with
  | nil => exact (by decide : ¬ isKw [";"] [')'] = true)
  | cons o os => exact (by decide : ¬ isKw [";"] (S ",") = true)

/-- A table whose denotation is reported is faithful, or an index definition ended it and the rest
of its entries is left. -/
theorem table_first [CaseMap] {isNum : Str → Bool} (hN : NumOK isNum) {d d' : Rdbms} (hd : Known d')
    {t : TableAst} {o r s' : List Str} {n : Nat} (h : tableE d' (itemE isNum d') t o) (hok : TableOk t)
    (hx : ∀ n, .exclude n ∈ t.items → ∀ i ∈ t.items, ¬ i.Index)
    (hn : 2 * o.length + 5 < n) (hty : Typed d (tableVal isNum d t))
    (hc : C.convertTable isNum d n (o ++ r) = .ok (tableVal isNum d t) s') :
    t.Faithful ∨ ∃ is i is2 os2, t.items = is ++ i :: is2 ∧ i.Index ∧ All2 (itemE isNum d') is2 os2 ∧
      (∀ i ∈ is2, Item.Silent isNum d i) ∧ s' = itemTail os2 ++ [')'] :: S ";" :: r ∧
      (itemTail os2).length < o.length := by
  obtain ⟨os, ct, s1, h1, hne, hlen, hl, hT, rfl⟩ := table_undo h hok hc
  have hcols : (tableVal isNum d t).columns = ct.1 := congrArg Table.columns hT
  have hcons : (tableVal isNum d t).constraints = ct.2 := congrArg Table.constraints hT
  clear hT
  have bad : (∃ c ∈ ct.1, BadType d c.dataType.name) → False := by
    rintro ⟨c, hc', hb⟩
    exact hty c (by rw [hcols]; exact hc') hb
  by_cases hex : ∃ i is, t.items = Item.exclude .absent :: i :: is
  · obtain ⟨i, is, hi⟩ := hex
    exfalso
    have hcl : ct.1 = t.items.filterMap (Item.column? isNum d) := hcols.symm
    have hni : ∀ j ∈ i :: is, ¬ j.Index := fun j hj =>
      hx .absent (by rw [hi]; simp) j (by rw [hi]; exact List.mem_cons_of_mem _ hj)
    rw [hi] at h1 hcl
    cases h1 with
    | cons ha h1 =>
      obtain ⟨on, oi, h0, rfl, rfl⟩ := ha
      cases h0
      rw [List.nil_append, joinComma_tail, List.nil_append] at hl
      exact bad (loop_exclude h1 hni (by simp) hl (by rw [hcl, List.filterMap_cons_none rfl]))
  · by_cases hall : ∀ i ∈ t.items, i.Faithful
    · exact .inl ⟨hall, fun i is e => hex ⟨i, is, e⟩⟩
    · right
      obtain ⟨is, i, is2, hi, hf, hnf⟩ := first_bad hall
      have hit : ∀ j ∈ t.items, ItemOk j := hok.1
      rw [hi] at h1
      obtain ⟨os1, os2, rfl, h5, h6⟩ := all2_split h1
      cases h6 with
      | @cons _ ol _ os3 h6 h7 =>
        have hoki : ItemOk i := hit i (by rw [hi]; simp)
        have hxs : ∀ is', is = Item.exclude .absent :: is' → False := by
          rintro is' rfl
          cases is' with
          | nil => exact hex ⟨i, is2, by rw [hi]; rfl⟩
          | cons j is' => exact hex ⟨j, is' ++ i :: is2, by rw [hi]; rfl⟩
        rw [joinComma_mid] at hl hlen
        rw [List.append_assoc] at hl
        have hhead : C.tok (ol ++ (itemTail os3 ++ [')'] :: S ";" :: r)) ≠ S "," := by
          by_cases hidx : i.Index
          · rcases index_toks h6 hoki hidx with rfl | ⟨x, hx, rfl⟩ | ⟨k, n, hk, hn, rfl⟩ | ⟨k, n, x, hk, hn, hx, rfl⟩
            · exact rpar_ne
            · exact (nameTok_facts hx).1
            · exact kw_plain hk (by decide)
            · exact kw_plain hk (by decide)
          · rcases item_first h6 hidx with ⟨_, rfl⟩ | ⟨c, x, rfl, rfl, hc⟩ | ⟨t, x, rfl, _, h2⟩
            · exact absurd trivial hnf
            · exact (nameTok_facts hc).1
            · exact h2
        have hol : ol.length ≤ (joinComma (os1 ++ [ol])).length := by
          cases os1 with
          | nil => exact Nat.le_refl _
          | cons x os1 =>
            rw [List.cons_append, joinComma_tail, itemTail_append]; simp; omega
        rw [List.length_append] at hlen
        obtain ⟨m, ct', hct', hm, hp⟩ := loop_prefix (d := d) hN hd h5
          (fun j hj => hit j (by rw [hi]; simp [hj])) hf hxs hhead n (by omega)
        rw [hp] at hl
        have hcl : ct'.1 = is.filterMap (Item.column? isNum d) := by rw [hct', foldl_addItem]; simp
        have hst : Stop (itemTail os3 ++ [')'] :: S ";" :: r) := stop_tail os3 _
        have schema := fun hi => bad (loop_schema hN hd h6 hoki hi hst (by omega) hl)
        cases i with
        | column c =>
          exfalso
          by_cases hau : ∀ n, c.conName = .named n → ¬ Kw ["AUTOINCREMENT", "AUTO_INCREMENT"] n
          · by_cases hr : ∀ r, ColCon.references r ∈ c.cons → r.Plain
            · exact hnf ⟨hr, hau⟩
            · refine schema (.inl ⟨c, rfl, ?_, hau⟩)
              apply Classical.byContradiction
              intro hno
              exact hr fun r hr' => Classical.byContradiction fun hp => hno ⟨r, hr', hp⟩
          · obtain ⟨k, hk1, hk2⟩ : ∃ k, c.conName = .named k ∧ Kw ["AUTOINCREMENT", "AUTO_INCREMENT"] k := by
              apply Classical.byContradiction
              intro hno
              exact hau fun k hk hk' => hno ⟨k, hk, hk'⟩
            have h6' : colE isNum d' c ol := h6
            obtain ⟨ot, on, oc, g1, g2, g3, g4, rfl⟩ := h6
            obtain ⟨x, l, s2, e1, e2, e3, e4, e5⟩ := loop_column (nameTok_facts g1).2.1
              (isKw_sub (reserved_name hd g1) (by decide)) (convertName_name g1) hl
            have hau := column_auto h6' hk1 hk2 e4
            have : (tableVal isNum d t).columns = ct'.1 ++ columnVal isNum d c :: is2.filterMap (Item.column? isNum d) := by
              show t.items.filterMap _ = _
              rw [hi, List.filterMap_append, hcl]
              rfl
            rw [hcols, e1] at this
            have := (List.cons.inj (List.append_cancel_left this)).1
            rw [this] at hau
            have h9 : nameVal d k = [] := by
              have : (columnVal isNum d c).constraint.name = conNameVal d c.conName := rfl
              rw [this, hk1] at hau
              exact hau
            exact nameVal_auto hk2 h9
        | foreignKey n ks rf => exact (schema (.inr ⟨n, ks, rf, rfl, hnf⟩)).elim
        | index n =>
          rcases loop_index hd h6 hoki trivial hl with hb | ⟨rfl, rfl⟩
          · exact (bad hb).elim
          · exact ⟨is, _, is2, os3, hi, trivial, h7, table_rest hcols hcons hct' hi, rest_eq os3 r, by omega⟩
        | fulltext n j =>
          rcases loop_index hd h6 hoki trivial hl with hb | ⟨rfl, rfl⟩
          · exact (bad hb).elim
          · exact ⟨is, _, is2, os3, hi, trivial, h7, table_rest hcols hcons hct' hi, rest_eq os3 r, by omega⟩
        | _ => exact absurd trivial hnf

/-! ### After an index definition (MySQL) -/

/-- Names which the left-over tokens of index definitions may be taken for. -/
def PlainNames (T : Table) : Prop := T.name ≠ S "," ∧ T.name ≠ [')'] ∧ ∀ c ∈ T.columns, c.name ≠ S ","

/-- A table of which the result shows only the name. -/
def Hollow (T : Table) : Prop := T.columns = [] ∧ T.constraints = {}

theorem not_if {n : Str} (h : NameTok .mysql n) : isKw ["IF"] n = false := not_name (by decide +kernel) h.1

theorem convertTable_name [CaseMap] {isNum : Str → Bool} {d : Rdbms} {m : Nat} {a b x : Str} {s : List Str} {nm : Str}
    {s1 : List Str} {T : Table} {r : List Str} (ha : C.nextRest (a :: b :: x :: s) = b :: x :: s) (hb : b ≠ S ",")
    (hx : isKw ["IF"] x = false)
    (hn : C.convertName d (x :: s) = .ok nm s1) (hdot : isKw ["."] (C.tok s1) = false)
    (h : C.convertTable isNum d m (a :: b :: x :: s) = .ok T r) :
    T.name = nm ∧ ((C.convertTableDefinition isNum d m).bind fun defs =>
        (C.ifM (C.matchToken [";"]) C.skip (CM.pure ())).bind fun _ =>
        CM.pure ({ schema := [], name := nm, ifNotExists := false, columns := defs.1, constraints := defs.2 } : Table)) s1 =
          .ok T r := by
  have hif : C.ifM (C.matchToken ["IF"])
      (C.skip.bind fun _ => C.skip.bind fun _ => C.skip.bind fun _ => CM.pure true) (CM.pure false) (x :: s) =
      .ok false (x :: s) := ifF hx
  have hsk : C.skip (a :: b :: x :: s) = .ok () (b :: x :: s) := by unfold C.skip; rw [ha]
  unfold C.convertTable C.convertTableName at h
  rw [bind_ok hsk, bind_ok (skip_cons hb), bind_ok hif] at h
  rw [bind_ok (a := (([] : Str), nm)) (s' := s1)] at h
  · refine ⟨?_, h⟩
    obtain ⟨ct, s2, h1, h⟩ := bind_inv h
    obtain ⟨_, s3, h2, h⟩ := bind_inv h
    cases h
    rfl
  · rw [bind_ok hn]
    show ((C.matchToken ["."]).bind _) s1 = _
    rw [bind_ok (a := false) (s' := s1)]
    · rfl
    · unfold C.matchToken; rw [hdot]

/-- The tokens left by index definitions are read as tables without columns, one for each named
index, and at least one. -/
theorem left_state [CaseMap] {isNum : Str → Bool} {is : List Item} {os : List (List Str)}
    (h : All2 (itemE isNum .mysql) is os) (hok : ∀ i ∈ is, ItemOk i) (hi : ∀ i ∈ is, i.Index)
    {R : List Str} (hR : R = [] ∨ ∃ tb oi q rest ine, isKw ["TABLE"] tb = true ∧ ineE ine oi ∧ QNameTok .mysql q ∧
      R = S "CREATE" :: tb :: (oi ++ (QName.toks q ++ ['('] :: rest)))
    {n : Nat} {acc M : List Table} {r : List Str}
    (hM : ∀ T ∈ M, Typed .mysql T ∧ PlainNames T)
    (hc : C.convert isNum .mysql n acc (itemTail os ++ [')'] :: S ";" :: R) = .ok M r) :
    ∃ m X, X ≠ [] ∧ (∀ T ∈ X, Hollow T) ∧ n ≤ m + (itemTail os).length ∧
      C.convert isNum .mysql m (acc ++ X) R = .ok M r := by
  induction h generalizing n acc with
  | nil =>
    exfalso
    rcases hR with rfl | ⟨tb, oi, q, rest, ine, h1, h2, h3, rfl⟩
    · have := convert_left isNum .mysql n acc
      rw [show itemTail [] ++ [[')'], S ";"] = [[')'], S ";"] from rfl, this] at hc
      cases hc
    · cases n with
      | zero => cases hc
      | succ n =>
      obtain ⟨T, s', h4, h5, h6⟩ := convert_step hc
      have hT := hM T (List.mem_of_mem_drop h6)
      obtain ⟨_, h7⟩ := convertTable_name (x := S "CREATE") (nm := S "CREATE")
        (s1 := tb :: (oi ++ (QName.toks q ++ ['('] :: rest))) rfl (by decide) (by decide) rfl
        (show isKw ["."] tb = false from kwF h1 (by decide)) h4
      obtain ⟨ct, s1, h8, rfl, _⟩ := defs_inv (kw_plain h1 (by decide)) h7
      suffices ∃ c ∈ ct.1, BadType .mysql c.dataType.name by
        obtain ⟨c, hc, hb⟩ := this
        exact hT.1 c hc hb
      have col : ∀ u t x, NameTok .mysql u ∨ isKw ["IF"] u = true → isKw ("NOT" :: noTypes) t = true →
          C.tableDefinitionLoop isNum .mysql (n + 1) [] {} (u :: t :: x) = .ok ct s1 →
          ∃ c ∈ ct.1, BadType .mysql c.dataType.name := by
        intro u t x hu ht hl
        rcases hu with hu | hu
        · exact loop_bad (ct := ([], {})) (d' := .mysql) (fun h => nomatch h) hu (kwT ht (by decide)) hl
        · obtain ⟨c, l, s2, h1, _, h2, _⟩ := loop_column (ct := ([], {})) (kwF hu (by decide)) (kwF hu (by decide))
            (show C.convertName .mysql (u :: t :: x) = .ok u (t :: x) by
              have : ∀ u ∈ kwList ["IF"], u ≠ [] ∧ C.isIdentifier .mysql (u.headD ' ') = false := by decide
              have hq := forall_kw this hu
              obtain ⟨c, z, rfl, hc⟩ : ∃ c z, u = c :: z ∧ C.isIdentifier .mysql c = false := by
                cases u with
                | nil => exact absurd rfl hq.1
                | cons c z => exact ⟨c, z, rfl, hq.2⟩
              unfold C.convertName
              rw [bind_ok (next_cons (kw_plain hu (by decide)))]
              simp [CM.bind, C.headChar, hc, CM.pure]) hl
          refine ⟨c, by rw [h1]; simp, ?_⟩
          obtain ⟨a, b⟩ := bad_kw (d := .mysql) (t := t) (kwT ht (by decide))
          rcases h2 with h2 | ⟨v, h2⟩ <;> rw [h2]
          · exact a
          · exact b v
      cases ine with
      | true =>
        obtain ⟨i, x, e, hi, hx, he, rfl⟩ := h2
        exact col i x _ (.inr hi) (kwT hx (by decide)) h8
      | false =>
        cases h2
        cases hs : q.schema with
        | none =>
          simp only [QName.toks, hs, List.cons_append, List.nil_append] at h8
          exact col _ _ _ (.inl h3.1) (by decide) h8
        | some s =>
          simp only [QName.toks, hs, List.cons_append, List.nil_append] at h8
          exact col _ _ _ (.inl (h3.2 s hs)) (by decide) h8
  | @cons i o is os h hs ih =>
    have hoki := hok i (by simp)
    have hii := hi i (by simp)
    have ih := fun {n acc} => ih (n := n) (acc := acc) (fun i hi => hok i (by simp [hi])) (fun j hj => hi j (by simp [hj]))
    cases n with
    | zero => cases hc
    | succ n =>
    have hstop := stop_tail os (S ";" :: R)
    obtain ⟨y, z, hy, hyt⟩ := hstop
    have hyt : y = S "," ∨ y = [')'] := by
      cases os with
      | nil => cases hy; exact .inr rfl
      | cons => cases hy; exact .inl rfl
    have hydot : isKw ["."] y = false := by rcases hyt with rfl | rfl <;> decide
    have e : itemTail (o :: os) ++ [')'] :: S ";" :: R = S "," :: (o ++ (y :: z)) := by
      rw [itemTail, List.cons_append, List.append_assoc, hy]
    rw [e] at hc
    obtain ⟨T, s', h4, h5, h6⟩ := convert_step hc
    have hT := hM T (List.mem_of_mem_drop h6)
    have skip1 : ∀ (b : Str) x, b ≠ S "," → C.nextRest (S "," :: b :: x) = b :: x := by
      intro b x hb; simp [C.nextRest, C.tok, hb]
    have ndot : ∀ x, NameTok .mysql x → isKw ["."] x = false := fun x hx => not_name (by decide) hx.1
    rcases index_toks h hoki hii with rfl | ⟨x, hx, rfl⟩ | ⟨k, nm, hk, hnm, rfl⟩ | ⟨k, nm, x, hk, hnm, hx, rfl⟩
    · exfalso
      have : ∃ s1, C.convertName .mysql (y :: z) = .ok y s1 ∧ isKw ["."] (C.tok s1) = false := by
        cases hs with
        | nil => cases hy; exact ⟨_, rfl, (by decide : isKw ["."] (S ";") = false)⟩
        | @cons i2 o2 is os h2 hs =>
          simp only [itemTail, List.cons_append, List.append_assoc] at hy
          obtain ⟨rfl, rfl⟩ := List.cons.inj hy
          refine ⟨_, rfl, ?_⟩
          rcases index_toks h2 (hok i2 (by simp)) (hi i2 (by simp)) with rfl | ⟨x, hx, rfl⟩ | ⟨k, n, hk, hn, rfl⟩ |
            ⟨k, n, x, hk, hn, hx, rfl⟩
          · exact (by decide : isKw ["."] [')'] = false)
          · simp only [List.cons_append, List.nil_append]
            rw [skip1 _ _ (nameTok_facts hx).1]; exact ndot _ hx
          · simp only [List.cons_append, List.nil_append]
            rw [skip1 _ _ (kw_plain hk (by decide))]; exact kwF hk (by decide)
          · simp only [List.cons_append, List.nil_append]
            rw [skip1 _ _ (kw_plain hk (by decide))]; exact kwF hk (by decide)
      obtain ⟨s1, g1, g2⟩ := this
      have := (convertTable_name (skip1 _ _ rpar_ne) rpar_ne (by rcases hyt with rfl | rfl <;> decide) g1 g2 h4).1
      rcases hyt with rfl | rfl
      · exact hT.2.1 this
      · exact hT.2.2.1 this
    · exfalso
      have := (convertTable_name (skip1 _ _ (nameTok_facts hx).1) (nameTok_facts hx).1 (x := [')']) (by decide)
        (nm := [')']) (s1 := y :: z) rfl hydot h4).1
      exact hT.2.2.1 this
    · simp only [List.cons_append, List.nil_append] at h4
      obtain ⟨g1, g2⟩ := convertTable_name (skip1 _ _ (kw_plain hk (by decide))) (kw_plain hk (by decide)) (x := nm)
        (not_if hnm) (convertName_name hnm) (show isKw ["."] (C.tok ([')'] :: y :: z)) = false from (by decide : isKw ["."] [')'] = false)) h4
      obtain ⟨ct, s1, g3, rfl, g4⟩ := defs_inv rpar_ne g2
      cases os with
      | nil =>
        simp only [itemTail, List.nil_append] at hy
        obtain ⟨rfl, rfl⟩ := List.cons.inj hy
        rw [loop_rpar] at g3
        cases g3
        have : s' = R := g4
        subst this
        exact ⟨n, [_], by simp, (by intro T hT; rw [List.mem_singleton] at hT; subst hT; exact ⟨rfl, rfl⟩),
          by simp [itemTail], h5⟩
      | cons o2 os =>
        exfalso
        simp only [itemTail, List.cons_append, List.append_assoc] at hy
        obtain ⟨rfl, rfl⟩ := List.cons.inj hy
        obtain ⟨c, l, s2, e1, e2, _⟩ := loop_column (ct := ([], {})) (by decide) (by decide)
          (nm := S ",") rfl g3
        exact hT.2.2.2 c (by show c ∈ ct.1; rw [e1]; simp) e2
    · simp only [List.cons_append, List.nil_append] at h4
      obtain ⟨g1, g2⟩ := convertTable_name (skip1 _ _ (kw_plain hk (by decide))) (kw_plain hk (by decide)) (x := nm)
        (not_if hnm) (convertName_name hnm) (show isKw ["."] (C.tok (x :: [')'] :: y :: z)) = false from ndot x hx) h4
      obtain ⟨ct, s1, g3, rfl, g4⟩ := defs_inv (nameTok_facts hx).1 g2
      rw [loop_rpar] at g3
      cases g3
      rw [nextRest_plain rpar_ne, if_neg] at g4
      · subst g4
        rw [← hy] at h5
        obtain ⟨m, X, k1, k2, k3, k4⟩ := ih h5
        refine ⟨m, _ :: X, by simp, ?_, ?_, by rw [List.append_assoc] at k4; exact k4⟩
        · intro T hT'
          rcases List.mem_cons.1 hT' with rfl | hT'
          · exact ⟨rfl, rfl⟩
          · exact k2 T hT'
        · simp only [itemTail, List.length_cons, List.length_append]; omega
      · rcases hyt with rfl | rfl
        · exact (by decide : ¬ isKw [";"] (S ",") = true)
        · exact (by decide : ¬ isKw [";"] [')'] = true)

/-! ### Scripts -/

/-- The dialect that has the entry. -/
def Home (d : Rdbms) : Item → Prop
  | .exclude _ => d = .postgres
  | .index _ => d = .mysql
  | .fulltext _ _ => d = .mysql
  | _ => True

theorem tableCon_home (isNum : Str → Bool) (n : ConName) (d : Rdbms) :
    Yields (Spec.Sqlite.tableCon n) (Home d) ∧ Yields (Spec.Postgres.tableCon n) (Home .postgres) ∧
      Yields (Spec.Mysql.tableCon isNum n) (Home .mysql) := by
  refine ⟨?_, ?_, ?_⟩
  · unfold Spec.Sqlite.tableCon
    refine .alt ?_ (.alt ?_ (.alt ?_ ?_))
    · yields; trivial
    · yields; trivial
    · yields; trivial
    · rintro ts w r ⟨v, mid, h, _, _, _, rfl, rfl⟩
      revert h
      have : Yields (foreignKey .sqlite n) (Home d) := by unfold foreignKey; yields; trivial
      exact this _ _ _
  · unfold Spec.Postgres.tableCon
    refine .alt ?_ (.alt ?_ (.alt ?_ (.alt ?_ ?_)))
    · yields; trivial
    · yields; trivial
    · yields; trivial
    · rintro ts w r ⟨v, mid, h, _, _, _, rfl, rfl⟩
      revert h
      have : Yields (foreignKey .postgres n) (Home .postgres) := by unfold foreignKey; yields; trivial
      exact this _ _ _
    · yields; rfl
  · unfold Spec.Mysql.tableCon
    refine .alt ?_ (.alt ?_ (.alt ?_ (.alt ?_ (.alt ?_ ?_))))
    all_goals (yields; first | trivial | rfl)

theorem home_of {isNum : Str → Bool} {d : Rdbms} {ts : List Str} {ss : List Stmt} {t : TableAst} {i : Item}
    (h : script isNum d ts ss) (hs : .table t ∈ ss) (hi : i ∈ t.items) : Home d i := by
  obtain ⟨a, r, _, h⟩ := script_item h hs hi
  have : Yields (itemOf isNum d) (Home d) := by
    cases d with
    | sqlite =>
      refine .alt (.bind fun _ => .bind fun n => (tableCon_home isNum n .sqlite).1) ?_
      unfold Spec.Sqlite.column; yields; trivial
    | other =>
      refine .alt (.bind fun _ => .bind fun n => (tableCon_home isNum n .other).1) ?_
      unfold Spec.Sqlite.column; yields; trivial
    | postgres =>
      refine .alt (.bind fun _ => .bind fun n => (tableCon_home isNum n .sqlite).2.1) ?_
      unfold Spec.Postgres.column; yields; trivial
    | mysql =>
      refine .alt (.bind fun _ => .bind fun n => (tableCon_home isNum n .sqlite).2.2) ?_
      unfold Spec.Mysql.column; yields; trivial
  exact this _ _ _ h

theorem silent_index {isNum : Str → Bool} {i : Item} (h : Item.Silent isNum .mysql i) (hh : Home .mysql i) : i.Index := by
  obtain ⟨h1, h2, h3, h4, h5⟩ := h
  cases i with
  | column c => cases h1
  | primaryKey n c => cases h2
  | unique n c => cases h3
  | check n e => cases h4
  | foreignKey n c r => cases h5
  | exclude n => cases hh
  | index n => trivial
  | fulltext n x => trivial

theorem hollow_silent {isNum : Str → Bool} {d : Rdbms} {t : TableAst} (h : Hollow (tableVal isNum d t)) :
    ∀ i ∈ t.items, Item.Silent isNum d i := by
  obtain ⟨h1, h2⟩ := h
  simp only [tableVal, TableConstraint.mk.injEq] at h1 h2
  exact fun i hi => ⟨List.filterMap_eq_nil_iff.1 h1 i hi, List.filterMap_eq_nil_iff.1 h2.1 i hi,
    List.filterMap_eq_nil_iff.1 h2.2.1 i hi, List.filterMap_eq_nil_iff.1 h2.2.2.1 i hi,
    List.filterMap_eq_nil_iff.1 h2.2.2.2 i hi⟩

theorem flatten_form {isNum : Str → Bool} {d : Rdbms} {ss : List Stmt} {os : List (List Str)}
    (h : All2 (stmtE d (itemE isNum d)) ss os) : os.flatten = [] ∨ ∃ tb oi q rest ine, isKw ["TABLE"] tb = true ∧
      ineE ine oi ∧ QNameTok d q ∧ os.flatten = S "CREATE" :: tb :: (oi ++ (QName.toks q ++ ['('] :: rest)) := by
  induction h with
  | nil => exact .inl rfl
  | @cons s o ss os h hs ih =>
    cases s with
    | other => cases h; exact ih
    | table t =>
      right
      obtain ⟨tb, oi, oits, h1, h2, h3, h4, rfl⟩ := h
      exact ⟨tb, oi, t.name, oits ++ [')'] :: S ";" :: os.flatten, t.ifNotExists, h1, h2, h3, by simp⟩

theorem stmt_cons {isNum : Str → Bool} {d : Rdbms} {t : TableAst} {o : List Str}
    (h : tableE d (itemE isNum d) t o) : ∃ x, o = S "CREATE" :: x := by
  obtain ⟨tb, oi, oits, h1, h2, h3, h4, rfl⟩ := h
  exact ⟨_, rfl⟩

/-- Once tables without columns were put in, the result does not come right again. -/
theorem lost_state [CaseMap] {isNum : Str → Bool} {ss : List Stmt} {os : List (List Str)}
    (h : All2 (stmtE .mysql (itemE isNum .mysql)) ss os) (hok : ScriptOk ss)
    (hx : ∀ t, Stmt.table t ∈ ss → ∀ i ∈ t.items, Home .mysql i)
    {n : Nat} {acc M Q : List Table} {r : List Str} (hM : ∀ T ∈ acc ++ M, Typed .mysql T ∧ PlainNames T)
    (hQ : Q ≠ []) (hH : ∀ T ∈ Q, Hollow T) (e : Q ++ M = tablesVal isNum .mysql ss)
    (hc : C.convert isNum .mysql n acc os.flatten = .ok (acc ++ M) r) : False := by
  induction h generalizing n acc M Q with
  | nil =>
    cases Q with
    | nil => exact hQ rfl
    | cons q Q => cases e
  | @cons s o ss os h hs ih =>
    have ih := fun {n acc M Q} => ih (n := n) (acc := acc) (M := M) (Q := Q) (fun t ht => hok t (by simp [ht]))
      (fun t ht => hx t (by simp [ht]))
    rw [List.flatten_cons] at hc
    cases s with
    | other =>
      cases h
      exact ih hM hQ hH e hc
    | table t =>
      have h : tableE .mysql (itemE isNum .mysql) t o := h
      obtain ⟨x, hxo⟩ := stmt_cons h
      cases n with
      | zero => cases hc
      | succ n =>
      rw [hxo, List.cons_append] at hc
      obtain ⟨T, s', h4, h5, h6⟩ := convert_step hc
      rw [← List.cons_append, ← hxo] at h4
      rw [List.drop_left] at h6
      have hT := hM T (by simp [h6])
      cases Q with
      | nil => exact absurd rfl hQ
      | cons q Q =>
      have e' : q :: (Q ++ M) = tableVal isNum .mysql t :: tablesVal isNum .mysql ss := e
      obtain ⟨rfl, e2⟩ := List.cons.inj e'
      have hsil := hollow_silent (hH _ (List.mem_cons_self ..))
      have hidx : ∀ i ∈ t.items, i.Index := fun i hi => silent_index (hsil i hi) (hx t (by simp) i hi)
      have hokt := hok t (by simp)
      obtain ⟨os1, ct, s1, g1, g2, g3, g4, gT, g7⟩ := table_undo h hokt h4
      have g5 : T.columns = ct.1 := congrArg Table.columns gT
      have g6 : T.constraints = ct.2 := congrArg Table.constraints gT
      clear gT
      have hio := hokt.1
      generalize t.items = its at g1 g2 hidx hio
      cases g1 with
      | nil => exact g2 rfl
      | @cons i o1 is2 os2 k1 k2 =>
        rw [joinComma_tail, List.append_assoc] at g4
        rcases loop_index (d := .mysql) (d' := .mysql) (fun h => nomatch h) (ct := ([], {})) k1 (hio i (by simp))
          (hidx i (by simp)) g4 with ⟨c, hc', hb⟩ | ⟨rfl, rfl⟩
        · exact hT.1 c (by rw [g5]; exact hc') hb
        · rw [rest_eq] at g7
          subst g7
          have hTH : Hollow T := ⟨g5, g6⟩
          obtain ⟨m, X, j1, j2, j3, j4⟩ := left_state k2 (fun i hi => hio i (by simp [hi]))
            (fun i hi => hidx i (by simp [hi])) (flatten_form hs) hM h5
          obtain ⟨M', hM'⟩ := convert_grow j4
          have hMe : M = T :: (X ++ M') := by
            rw [List.append_assoc, List.append_assoc] at hM'
            exact List.append_cancel_left hM'
          rw [hM'] at j4 hM
          refine ih (Q := Q ++ T :: X) hM (by simp) ?_ ?_ j4
          · intro T' hT'
            rcases List.mem_append.1 hT' with hT' | hT'
            · exact hH T' (by simp [hT'])
            · rcases List.mem_cons.1 hT' with rfl | hT'
              · exact hTH
              · exact j2 T' hT'
          · rw [← e2, hMe]; simp

/-- A script whose denotation is the result is faithful. -/
theorem exact_state [CaseMap] {isNum : Str → Bool} (hN : NumOK isNum) {d : Rdbms} {ss : List Stmt} {os : List (List Str)}
    (h : All2 (stmtE (vd d) (itemE isNum (vd d))) ss os) (hok : ScriptOk ss)
    (hx : ∀ t, Stmt.table t ∈ ss → ∀ i ∈ t.items, Home d i)
    {n : Nat} {acc : List Table} {r : List Str} (hn : 3 * os.flatten.length + 10 ≤ n)
    (hM : ∀ T ∈ acc ++ tablesVal isNum d ss, Typed d T)
    (hnm : (∀ t, Stmt.table t ∈ ss → ∀ i ∈ t.items, ¬ i.Index) ∨ ∀ T ∈ acc ++ tablesVal isNum d ss, PlainNames T)
    (hc : C.convert isNum d n acc os.flatten = .ok (acc ++ tablesVal isNum d ss) r) : Faithful ss := by
  induction h generalizing n acc with
  | nil => intro t ht; cases ht
  | @cons s o ss os h hs ih =>
    have ih := fun {n acc} => ih (n := n) (acc := acc) (fun t ht => hok t (by simp [ht]))
      (fun t ht => hx t (by simp [ht]))
    rw [List.flatten_cons, List.length_append] at hn
    rw [List.flatten_cons] at hc
    cases s with
    | other =>
      cases h
      have := ih (by rw [List.length_nil] at hn; omega) hM (hnm.imp (fun h t ht => h t (by simp [ht])) id) hc
      intro t ht
      rcases List.mem_cons.1 ht with e | ht
      · cases e
      · exact this t ht
    | table t =>
      have h : tableE (vd d) (itemE isNum (vd d)) t o := h
      obtain ⟨x, hxo⟩ := stmt_cons h
      obtain ⟨n, rfl⟩ : ∃ m, n = m + 1 := ⟨n - 1, by omega⟩
      rw [hxo, List.cons_append] at hc
      obtain ⟨T, s', h4, h5, h6⟩ := convert_step hc
      rw [← List.cons_append, ← hxo] at h4
      have eT : T = tableVal isNum d t := by
        obtain ⟨l, hl⟩ := convert_grow h5
        rw [List.append_assoc] at hl
        exact ((List.cons.inj (List.append_cancel_left hl)).1).symm
      subst eT
      have hmv : acc ++ tablesVal isNum d (.table t :: ss) =
        (acc ++ [tableVal isNum d t]) ++ tablesVal isNum d ss := by rw [List.append_assoc]; rfl
      rw [hmv] at h5 hM hnm
      have hokt := hok t (by simp)
      have hxi : ∀ n, Item.exclude n ∈ t.items → ∀ i ∈ t.items, ¬ i.Index := by
        intro n hn' i hi hii
        have h1 : d = .postgres := hx t (by simp) _ hn'
        have h2 := hx t (by simp) _ hi
        subst h1
        cases i <;> first | exact hii.elim | cases h2
      rcases table_first hN (known_vd d) h hokt hxi (by omega) (hM _ (by simp)) h4 with hf | ⟨is, i, is2, os2, k1, k2, k3, k4, rfl, k5⟩
      · have ht := table_ok (d := d) hN (known_vd d) h hokt hf os.flatten (n + 1) (by omega)
        rw [ht] at h4
        cases h4
        have hl : 0 < o.length := by rw [hxo]; simp
        have := ih (by omega) hM (hnm.imp (fun h t ht => h t (by simp [ht])) id) h5
        intro t' ht'
        rcases List.mem_cons.1 ht' with e | ht'
        · cases e; exact hf
        · exact this t' ht'
      · exfalso
        have hi : i ∈ t.items := by rw [k1]; simp
        have hd : d = .mysql := by
          have := hx t (by simp) i hi
          cases i with
          | index n => exact this
          | fulltext n x => exact this
          | _ => exact k2.elim
        subst hd
        have hnm := hnm.resolve_left fun h => h t (by simp) i hi k2
        have hM' : ∀ T ∈ (acc ++ [tableVal isNum .mysql t]) ++ tablesVal isNum .mysql ss, Typed .mysql T ∧ PlainNames T :=
          fun T hT => ⟨hM T hT, hnm T hT⟩
        obtain ⟨m, X, j1, j2, j3, j4⟩ := left_state k3 (fun j hj => hokt.1 j (by rw [k1]; simp [hj]))
            (fun j hj => silent_index (k4 j hj) (hx t (by simp) j (by rw [k1]; simp [hj]))) (flatten_form hs) hM' h5
        obtain ⟨M', hg⟩ := convert_grow j4
        have hMe : X ++ M' = tablesVal isNum .mysql ss := by
          rw [List.append_assoc _ X] at hg
          exact (List.append_cancel_left hg).symm
        rw [hg] at j4 hM'
        exact lost_state hs (fun t ht => hok t (by simp [ht])) (fun t ht => hx t (by simp [ht])) hM' j1 j2 hMe j4

theorem typed_of {isNum : Str → Bool} {d : Rdbms} {ts : List Str} {ss : List Stmt} (hs : script isNum d ts ss) :
    ∀ T ∈ tablesVal isNum d ss, Typed d T := by
  intro T hT c hc hb
  obtain ⟨a, ha, rfl⟩ := mem_tablesVal hT
  obtain ⟨x, hx, rfl⟩ := mem_columns hc
  obtain ⟨_, _, ⟨h1, h2, h3, h4⟩, _⟩ := script_colCon hs ha hx
  have : ∃ k ∈ typeNames d, typeName x.type = k.toList := by
    unfold typeName
    split
    · next hv =>
      obtain ⟨rfl, _⟩ := h3 hv
      split
      · exact ⟨"VARBIT", by decide +kernel, rfl⟩
      · exact ⟨"VARCHAR", by decide +kernel, rfl⟩
    · obtain ⟨k, hk, h⟩ := h1
      refine ⟨k, hk, ?_⟩
      have : ∀ k ∈ typeNames d, (k.toList.map Char.toUpper).map Char.toUpper = k.toList ∧
          (k.toList.map Char.toLower).map Char.toUpper = k.toList := by
        cases d <;> decide +kernel
      rcases h with h | h <;> rw [h]
      · exact (this k hk).1
      · exact (this k hk).2
  obtain ⟨k, hk, e⟩ := this
  exact hb k hk e

end DDL
