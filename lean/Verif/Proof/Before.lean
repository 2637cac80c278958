import Verif.Proof.ExactScript
/-
What the converter has put into the result before it loses its place.
-/

namespace DDL
open Spec Conv

/-- Growing constraints. -/
structure ConGrow (a b : TableConstraint) : Prop where
  primaryKey : a.primaryKey <+: b.primaryKey
  unique : a.unique <+: b.unique
  check : a.check <+: b.check
  foreignKey : a.foreignKey <+: b.foreignKey

theorem ConGrow.refl (a : TableConstraint) : ConGrow a a :=
  ⟨List.prefix_rfl, List.prefix_rfl, List.prefix_rfl, List.prefix_rfl⟩

theorem ConGrow.trans {a b c : TableConstraint} (h : ConGrow a b) (h' : ConGrow b c) : ConGrow a c :=
  ⟨h.1.trans h'.1, h.2.trans h'.2, h.3.trans h'.3, h.4.trans h'.4⟩

theorem tableCon_grow {d : Rdbms} {n : Nat} {tc tc' : TableConstraint} {s r : List Str}
    (h : C.convertTableConstraint d n tc s = .ok tc' r) : ConGrow tc tc' := by
  obtain ⟨_, s1, _, h⟩ := bind_inv h
  rcases ifM_inv h with h | h
  · obtain ⟨_, _, _, h⟩ := bind_inv h
    obtain ⟨_, _, _, h⟩ := bind_inv h
    obtain ⟨_, _, _, h⟩ := bind_inv h
    cases h
    exact ⟨List.prefix_append .., List.prefix_rfl, List.prefix_rfl, List.prefix_rfl⟩
  rcases ifM_inv h with h | h
  · obtain ⟨_, _, _, h⟩ := bind_inv h
    obtain ⟨_, _, _, h⟩ := bind_inv h
    cases h
    exact ⟨List.prefix_rfl, List.prefix_append .., List.prefix_rfl, List.prefix_rfl⟩
  rcases ifM_inv h with h | h
  · obtain ⟨_, _, _, h⟩ := bind_inv h
    obtain ⟨_, _, _, h⟩ := bind_inv h
    cases h
    exact ⟨List.prefix_rfl, List.prefix_rfl, List.prefix_append .., List.prefix_rfl⟩
  rcases ifM_inv h with h | h
  · obtain ⟨_, _, _, h⟩ := bind_inv h
    obtain ⟨_, _, _, h⟩ := bind_inv h
    obtain ⟨_, _, _, h⟩ := bind_inv h
    obtain ⟨_, _, _, h⟩ := bind_inv h
    cases h
    exact ⟨List.prefix_rfl, List.prefix_rfl, List.prefix_rfl, List.prefix_append ..⟩
  · cases h
    exact .refl _

theorem oneItem_conGrow [CaseMap] {isNum : Str → Bool} {d : Rdbms} {n : Nat} {ct ct' : List Column × TableConstraint}
    {s r : List Str} (h : oneItem isNum d n ct s = .ok ct' r) : ConGrow ct.2 ct'.2 := by
  rcases ifM_inv h with h | h
  · obtain ⟨tc, s1, h1, h⟩ := bind_inv h
    cases h
    exact tableCon_grow h1
  · obtain ⟨c, s1, _, h⟩ := bind_inv h
    cases h
    exact .refl _

theorem loop_conGrow [CaseMap] {isNum : Str → Bool} {d : Rdbms} {n : Nat} {ct ct' : List Column × TableConstraint}
    {s r : List Str} (h : C.tableDefinitionLoop isNum d n ct.1 ct.2 s = .ok ct' r) : ConGrow ct.2 ct'.2 := by
  induction n generalizing ct s with
  | zero => cases h
  | succ n ih =>
    rw [loop_eq] at h
    rcases ifM_inv h with h | h
    · cases h; exact .refl _
    · obtain ⟨ct1, s1, h1, h⟩ := bind_inv h
      have hl := oneItem_conGrow h1
      rcases ifM_inv h with h | h
      · cases h; exact hl
      · obtain ⟨_, s2, h2, h⟩ := bind_inv h
        exact hl.trans (ih h)

/-- The table of a definition, up to the first entry that is not faithful. -/
theorem table_begins [CaseMap] {isNum : Str → Bool} (hN : NumOK isNum) {d d' : Rdbms} (hd : Known d')
    {t : TableAst} {o r s' : List Str} {n : Nat} {T : Table} (h : tableE d' (itemE isNum d') t o) (hok : TableOk t)
    (hn : o.length < n) (hc : C.convertTable isNum d n (o ++ r) = .ok T s') {is is2 : List Item}
    (hi : t.items = is ++ is2) (hf : ∀ i ∈ is, i.Faithful) (hx : ∀ is', is = Item.exclude .absent :: is' → is' ++ is2 = [])
    (hb : ∀ i is', is2 = i :: is' → ¬ i.Faithful) :
    Begins (tableVal isNum d { t with items := is }) T := by
  cases is2 with
  | nil =>
    rw [List.append_nil] at hi
    have ht : t.Faithful := by
      refine ⟨by rw [hi]; exact hf, fun i is' e => ?_⟩
      rw [hi] at e
      have := hx _ e
      cases this
    rw [table_ok (d := d) hN hd h hok ht r n hn] at hc
    cases hc
    have : { t with items := is } = t := by rw [← hi]
    rw [this]
    exact ⟨rfl, rfl, rfl, List.prefix_rfl, List.prefix_rfl, List.prefix_rfl, List.prefix_rfl, List.prefix_rfl⟩
  | cons i is2 =>
  have hnf := hb i is2 rfl
  obtain ⟨os, ct, s1, h1, hne, hlen, hl, rfl, -⟩ := table_undo h hok hc
  have hit : ∀ j ∈ t.items, ItemOk j := hok.1
  rw [hi] at h1
  obtain ⟨os1, os2, rfl, h5, h6⟩ := all2_split h1
  cases h6 with
  | @cons _ ol _ os3 h6 h7 =>
    have hoki : ItemOk i := hit i (by rw [hi]; simp)
    rw [joinComma_mid] at hl hlen
    rw [List.append_assoc] at hl
    have hhead : C.tok (ol ++ (itemTail os3 ++ [')'] :: S ";" :: r)) ≠ S "," := by
      by_cases hidx : i.Index
      · rcases index_toks h6 hoki hidx with rfl | ⟨x, hx, rfl⟩ | ⟨k, n, hk, hn, rfl⟩ | ⟨k, n, x, hk, hn, hx, rfl⟩
        · exact rpar_ne
        · exact (nameTok_facts hx).1
        · exact kw_plain hk (by decide)
        · exact kw_plain hk (by decide)
      · rcases item_first h6 hidx with ⟨_, rfl⟩ | ⟨c, x, rfl, rfl, hc⟩ | ⟨t, x, rfl, _, h2⟩
        · exact absurd trivial hnf
        · exact (nameTok_facts hc).1
        · exact h2
    rw [List.length_append] at hlen
    obtain ⟨m, ct', hct', hm, hp⟩ := loop_prefix (d := d) hN hd h5
      (fun j hj => hit j (by rw [hi]; simp [hj])) hf (fun is' e => by have := hx is' e; simp at this) hhead n (by omega)
    rw [hp] at hl
    rw [foldl_addItem] at hct'
    obtain ⟨l, hl1⟩ := loop_grow hl
    obtain ⟨g1, g2, g3, g4⟩ := loop_conGrow hl
    subst hct'
    simp only [List.nil_append] at hl1 g1 g2 g3 g4
    exact ⟨rfl, rfl, rfl, ⟨l, hl1.symm⟩, g1, g2, g3, g4⟩

theorem begins_weaken {isNum : Str → Bool} {d : Rdbms} {t : TableAst} {is is' : List Item} {T : Table}
    (h : Begins (tableVal isNum d { t with items := is ++ is' }) T) : Begins (tableVal isNum d { t with items := is }) T := by
  obtain ⟨h1, h2, h3, h4, h5, h6, h7, h8⟩ := h
  simp only [tableVal, List.filterMap_append] at h1 h2 h3 h4 h5 h6 h7 h8
  exact ⟨h1, h2, h3, (List.prefix_append ..).trans h4, (List.prefix_append ..).trans h5, (List.prefix_append ..).trans h6,
    (List.prefix_append ..).trans h7, (List.prefix_append ..).trans h8⟩

/-- The table of a definition, for any entries at its beginning that are faithful. -/
theorem table_any [CaseMap] {isNum : Str → Bool} (hN : NumOK isNum) {d d' : Rdbms} (hd : Known d')
    {t : TableAst} {o r s' : List Str} {n : Nat} {T : Table} (h : tableE d' (itemE isNum d') t o) (hok : TableOk t)
    (hn : o.length < n) (hc : C.convertTable isNum d n (o ++ r) = .ok T s') {is is2 : List Item}
    (hi : t.items = is ++ is2) (hf : ∀ i ∈ is, i.Faithful)
    (hx : is = [] ∨ ∀ i is', t.items = Item.exclude .absent :: i :: is' → False) :
    Begins (tableVal isNum d { t with items := is }) T := by
  rcases hx with rfl | hx
  · obtain ⟨os, ct, s1, h1, hne, hlen, hl, rfl, -⟩ := table_undo h hok hc
    exact ⟨rfl, rfl, rfl, List.nil_prefix, List.nil_prefix, List.nil_prefix, List.nil_prefix, List.nil_prefix⟩
  · have hx' : ∀ a b, t.items = a ++ b → ∀ is', a = Item.exclude .absent :: is' → is' ++ b = [] := by
      rintro a b e is' rfl
      cases hc : is' ++ b with
      | nil => rfl
      | cons i l => exact (hx i l (by rw [e, List.cons_append, hc])).elim
    by_cases hall : ∀ i ∈ is2, i.Faithful
    · have := table_begins hN hd h hok hn hc (is := is ++ is2) (is2 := []) (by rw [List.append_nil]; exact hi)
        (fun i hi => (List.mem_append.1 hi).elim (hf i) (hall i)) (hx' _ _ (by rw [List.append_nil]; exact hi))
        (fun _ _ e => nomatch e)
      exact begins_weaken this
    · obtain ⟨a, x, b, rfl, ha, hxx⟩ := first_bad hall
      have hi' : t.items = (is ++ a) ++ x :: b := by rw [hi, List.append_assoc]
      have := table_begins hN hd h hok hn hc (is := is ++ a) (is2 := x :: b) hi'
        (fun i hi => (List.mem_append.1 hi).elim (hf i) (ha i)) (hx' _ _ hi')
        (fun i is' e => by cases e; exact hxx)
      exact begins_weaken this

/-- The result begins with the tables of the first statements. -/
theorem script_begins [CaseMap] {isNum : Str → Bool} (hN : NumOK isNum) {d : Rdbms} {ss : List Stmt} {t : TableAst} {ss2 : List Stmt}
    {os : List (List Str)} (h : All2 (stmtE (vd d) (itemE isNum (vd d))) (ss ++ .table t :: ss2) os)
    (hok : ScriptOk (ss ++ .table t :: ss2)) (hf : Faithful ss) {n : Nat} {M : List Table} {r : List Str}
    (hn : 2 * os.flatten.length < n) (hc : C.convert isNum d n [] os.flatten = .ok M r) :
    ∃ T M2, M = tablesVal isNum d ss ++ T :: M2 ∧ ∀ is is2, t.items = is ++ is2 → (∀ i ∈ is, i.Faithful) →
      (is = [] ∨ ∀ i is', t.items = Item.exclude .absent :: i :: is' → False) →
      Begins (tableVal isNum d { t with items := is }) T := by
  obtain ⟨os1, os2, rfl, h5, h6⟩ := all2_split h
  cases h6 with
  | @cons _ ot _ os3 h6 h7 =>
    rw [List.flatten_append, List.flatten_cons] at hc hn
    simp only [List.length_append] at hn
    have h6 : tableE (vd d) (itemE isNum (vd d)) t ot := h6
    obtain ⟨m, acc', h0, h1, h2⟩ := convert_prefix (d := d) hN (known_vd d) h5 (fun t ht => hok t (by simp [ht])) hf
      (ot ++ os3.flatten) [] n (by omega)
    rw [h2] at hc
    rw [List.nil_append] at h0
    subst h0
    obtain ⟨x, hx⟩ := stmt_cons h6
    obtain ⟨m, rfl⟩ : ∃ k, m = k + 1 := ⟨m - 1, by omega⟩
    rw [hx, List.cons_append] at hc
    obtain ⟨T, s', h8, h9, -⟩ := convert_step hc
    rw [← List.cons_append, ← hx] at h8
    obtain ⟨l, hl⟩ := convert_grow h9
    refine ⟨T, l, by rw [hl]; simp, fun is is2 hi hfi hxi => ?_⟩
    exact table_any hN (known_vd d) h6 (hok t (by simp)) (by omega) h8 hi hfi hxi

end DDL
