import Verif.Proof.Before
import Verif.Proof.ConvReported
/-
What the converter has put into the result before it loses its place, as in Proof/Before.lean, for scripts in which
column constraints may be named AUTOINCREMENT.
-/

namespace DDL
open Spec Conv

/-- The entries after the first, up to a comma. -/
theorem after_prefixR [CaseMap] {isNum : Str → Bool} (hN : NumOK isNum) {d d' : Rdbms} (hd : Known d')
    {is : List Item} {os : List (List Str)} (h : All2 (itemE isNum d') is os)
    (hok : ∀ i ∈ is, ItemOk i) (hf : ∀ i ∈ is, i.Placed) (y : List Str)
    (ct : List Column × TableConstraint) (n : Nat) (hn : (itemTail os).length < n + 1) :
    ∃ m, n ≤ m + (itemTail os).length ∧ afterItem isNum d n ct (itemTail os ++ S "," :: y) =
      afterItem isNum d m (is.foldl (addItemR isNum d) ct) (S "," :: y) := by
  induction h generalizing ct n with
  | nil => exact ⟨n, by omega, rfl⟩
  | @cons i o is os h hs ih =>
    have ih := ih (fun i hi => hok i (by simp [hi])) (fun i hi => hf i (by simp [hi]))
    have hi := hok i (by simp)
    have hfi := hf i (by simp)
    rw [itemTail, List.length_cons, List.length_append] at hn
    obtain ⟨n, rfl⟩ : ∃ m, n = m + 1 := ⟨n - 1, by omega⟩
    rcases itemE_headR h hi hfi with ⟨rfl, rfl⟩ | ⟨t, r', rfl, ht1, ht2⟩
    · obtain ⟨m, h1, h2⟩ := ih ct (n + 1) (by simp at hn; omega)
      refine ⟨m, by simp [itemTail]; omega, ?_⟩
      have hadd : addItemR isNum d ct (.exclude .absent) = ct := by
        simp [addItemR, Item.columnRep?, Item.primaryKey?, Item.unique?, Item.check?, Item.foreignKey?]
      rw [List.foldl_cons, hadd, ← h2]
      simp only [itemTail, List.nil_append, List.cons_append]
      have hx : ∃ z, itemTail os ++ S "," :: y = S "," :: z := by
        cases os with
        | nil => exact ⟨_, rfl⟩
        | cons o os => exact ⟨_, rfl⟩
      obtain ⟨z, hz⟩ := hx
      rw [hz, afterItem, ifF (by decide), ifF (by decide)]
      simp only [CM.bind, C.skip]
      rw [C.nextRest, if_pos ⟨rfl, rfl⟩]
    · have hit := item_rep (d := d) hN hd h hi hfi (stop_comma os y) ct (n + 1) (by omega) (by simp)
      obtain ⟨m, h1, h2⟩ := ih (addItemR isNum d ct i) n (by simp at hn; omega)
      refine ⟨m, by simp [itemTail]; omega, ?_⟩
      rw [List.foldl_cons, ← h2, itemTail, List.cons_append, List.append_assoc, afterItem, ifF (by decide)]
      have hs : C.skip (S "," :: (t :: r' ++ (itemTail os ++ S "," :: y))) =
          .ok () (t :: r' ++ (itemTail os ++ S "," :: y)) := by
        simp [C.skip, C.nextRest, C.tok, ht1]
      rw [bind_ok hs, loop_eq]
      rw [List.cons_append] at hit ⊢
      rw [ifF ht2, bind_ok hit]

/-- All entries but the last. -/
theorem loop_prefixR [CaseMap] {isNum : Str → Bool} (hN : NumOK isNum) {d d' : Rdbms} (hd : Known d')
    {is : List Item} {os : List (List Str)} (h : All2 (itemE isNum d') is os)
    (hok : ∀ i ∈ is, ItemOk i) (hf : ∀ i ∈ is, i.Placed)
    (hx : ∀ is', is = Item.exclude .absent :: is' → False) {o y : List Str}
    (ho : C.tok (o ++ y) ≠ S ",") (n : Nat) (hn : (joinComma (os ++ [o])).length < n) :
    ∃ (m : Nat) (ct' : List Column × TableConstraint), ct' = is.foldl (addItemR isNum d) ([], {}) ∧
      n ≤ m + (joinComma (os ++ [o])).length ∧
      C.tableDefinitionLoop isNum d n [] {} (joinComma (os ++ [o]) ++ y) =
        C.tableDefinitionLoop isNum d m ct'.1 ct'.2 (o ++ y) := by
  cases h with
  | nil => exact ⟨n, ([], {}), rfl, by omega, rfl⟩
  | @cons i oi is os h hs =>
    obtain ⟨n, rfl⟩ : ∃ m, n = m + 1 := ⟨n - 1, by omega⟩
    have hi := hok i (by simp)
    have hfi := hf i (by simp)
    rw [List.cons_append, joinComma_tail, itemTail_append] at hn ⊢
    simp only [List.length_append, List.length_cons] at hn ⊢
    rcases itemE_headR h hi hfi with ⟨rfl, rfl⟩ | ⟨t, r', rfl, ht1, ht2⟩
    · exact (hx _ rfl).elim
    · have hit := item_rep (d := d) hN hd h hi hfi (stop_comma os (o ++ y)) ([], {}) (n + 1)
        (by omega) (by simp)
      obtain ⟨m, h1, h2⟩ := after_prefixR (d := d) hN hd hs (fun i hi => hok i (by simp [hi]))
        (fun i hi => hf i (by simp [hi])) (o ++ y) (addItemR isNum d ([], {}) i) n
        (by simp at hn; omega)
      have le := loop_eq isNum d n ([], {})
      simp only at le
      refine ⟨m, _, rfl, by simp at hn ⊢; omega, ?_⟩
      have e : t :: r' ++ (itemTail os ++ S "," :: o) ++ y =
          t :: (r' ++ (itemTail os ++ S "," :: (o ++ y))) := by simp
      rw [e, le]
      rw [List.cons_append] at hit
      rw [ifF ht2, bind_ok hit, h2, afterItem, ifF (by decide), bind_ok (a := ()) (s' := o ++ y), List.foldl_cons]
      simp [C.skip, C.nextRest, ho]

/-- The converter on the first statements. -/
theorem convert_prefixR [CaseMap] {isNum : Str → Bool} (hN : NumOK isNum) {d d' : Rdbms} (hd : Known d')
    {ss : List Stmt} {os : List (List Str)} (h : All2 (stmtE d' (itemE isNum d')) ss os)
    (hok : ScriptOk ss) (hf : Placed ss) (r : List Str) (acc : List Table) (n : Nat)
    (hn : os.flatten.length < n) :
    ∃ m acc', acc' = acc ++ tablesRep isNum d ss ∧ n ≤ m + os.flatten.length ∧
      C.convert isNum d n acc (os.flatten ++ r) = C.convert isNum d m acc' r := by
  induction h generalizing acc n with
  | nil => exact ⟨n, acc, (List.append_nil _).symm, by omega, rfl⟩
  | @cons s o ss os h hs ih =>
    have ih := ih (fun t ht => hok t (by simp [ht])) (fun t ht => hf t (by simp [ht]))
    rw [List.flatten_cons, List.length_append] at hn ⊢
    cases s with
    | other =>
      cases h
      obtain ⟨m, acc', h0, h1, h2⟩ := ih acc n (by omega)
      exact ⟨m, acc', h0, by omega, by rw [List.nil_append, h2]⟩
    | table t =>
      obtain ⟨n, rfl⟩ : ∃ m, n = m + 1 := ⟨n - 1, by omega⟩
      have ht := table_rep (d := d) hN hd h (hok t (by simp)) (hf t (by simp)) (os.flatten ++ r) (n + 1)
        (by omega)
      have hl : 0 < o.length := by obtain ⟨_, _, _, _, _, _, _, rfl⟩ := h; simp
      have hne : (o ++ (os.flatten ++ r)).isEmpty = false := by
        cases o with
        | nil => simp at hl
        | cons x o => rfl
      obtain ⟨m, acc', h0, h1, h2⟩ := ih (acc ++ [tableRep isNum d t]) n (by omega)
      refine ⟨m, acc', by rw [h0, List.append_assoc]; rfl, by omega, ?_⟩
      rw [List.append_assoc, C.convert]
      have : ∀ (p q : CM (List Table)), C.ifM C.isOutOfRange p q (o ++ (os.flatten ++ r)) =
          q (o ++ (os.flatten ++ r)) := by
        intro p q; simp only [C.ifM, C.isOutOfRange, CM.bind, hne, cond_false]
      rw [this, bind_ok ht, h2]

/-- The table of a definition, up to the first entry that is not placed. -/
theorem table_beginsR [CaseMap] {isNum : Str → Bool} (hN : NumOK isNum) {d d' : Rdbms} (hd : Known d')
    {t : TableAst} {o r s' : List Str} {n : Nat} {T : Table} (h : tableE d' (itemE isNum d') t o) (hok : TableOk t)
    (hn : o.length < n) (hc : C.convertTable isNum d n (o ++ r) = .ok T s') {is is2 : List Item}
    (hi : t.items = is ++ is2) (hf : ∀ i ∈ is, i.Placed) (hx : ∀ is', is = Item.exclude .absent :: is' → is' ++ is2 = [])
    (hb : ∀ i is', is2 = i :: is' → ¬ i.Placed) :
    Begins (tableRep isNum d { t with items := is }) T := by
  cases is2 with
  | nil =>
    rw [List.append_nil] at hi
    have ht : ((∀ i ∈ t.items, i.Placed) ∧ ∀ i is, t.items = Item.exclude .absent :: i :: is → False) := by
      refine ⟨by rw [hi]; exact hf, fun i is' e => ?_⟩
      rw [hi] at e
      have := hx _ e
      cases this
    rw [table_rep (d := d) hN hd h hok ht r n hn] at hc
    cases hc
    have : { t with items := is } = t := by rw [← hi]
    rw [this]
    exact ⟨rfl, rfl, rfl, List.prefix_rfl, List.prefix_rfl, List.prefix_rfl, List.prefix_rfl, List.prefix_rfl⟩
  | cons i is2 =>
  have hnf := hb i is2 rfl
  obtain ⟨os, ct, s1, h1, hne, hlen, hl, rfl, -⟩ := table_undo h hok hc
  have hit : ∀ j ∈ t.items, ItemOk j := hok.1
  rw [hi] at h1
  obtain ⟨os1, os2, rfl, h5, h6⟩ := all2_split h1
  cases h6 with
  | @cons _ ol _ os3 h6 h7 =>
    have hoki : ItemOk i := hit i (by rw [hi]; simp)
    rw [joinComma_mid] at hl hlen
    rw [List.append_assoc] at hl
    have hhead : C.tok (ol ++ (itemTail os3 ++ [')'] :: S ";" :: r)) ≠ S "," := by
      by_cases hidx : i.Index
      · rcases index_toks h6 hoki hidx with rfl | ⟨x, hx, rfl⟩ | ⟨k, n, hk, hn, rfl⟩ | ⟨k, n, x, hk, hn, hx, rfl⟩
        · exact rpar_ne
        · exact (nameTok_facts hx).1
        · exact kw_plain hk (by decide)
        · exact kw_plain hk (by decide)
      · rcases item_first h6 hidx with ⟨_, rfl⟩ | ⟨c, x, rfl, rfl, hc⟩ | ⟨t, x, rfl, _, h2⟩
        · exact absurd trivial hnf
        · exact (nameTok_facts hc).1
        · exact h2
    rw [List.length_append] at hlen
    obtain ⟨m, ct', hct', hm, hp⟩ := loop_prefixR (d := d) hN hd h5
      (fun j hj => hit j (by rw [hi]; simp [hj])) hf (fun is' e => by have := hx is' e; simp at this) hhead n (by omega)
    rw [hp] at hl
    rw [foldl_addItemR] at hct'
    obtain ⟨l, hl1⟩ := loop_grow hl
    obtain ⟨g1, g2, g3, g4⟩ := loop_conGrow hl
    subst hct'
    simp only [List.nil_append] at hl1 g1 g2 g3 g4
    exact ⟨rfl, rfl, rfl, ⟨l, hl1.symm⟩, g1, g2, g3, g4⟩

theorem begins_weakenR {isNum : Str → Bool} {d : Rdbms} {t : TableAst} {is is' : List Item} {T : Table}
    (h : Begins (tableRep isNum d { t with items := is ++ is' }) T) : Begins (tableRep isNum d { t with items := is }) T := by
  obtain ⟨h1, h2, h3, h4, h5, h6, h7, h8⟩ := h
  simp only [tableRep, tableVal, List.filterMap_append] at h1 h2 h3 h4 h5 h6 h7 h8
  exact ⟨h1, h2, h3, (List.prefix_append ..).trans h4, (List.prefix_append ..).trans h5, (List.prefix_append ..).trans h6,
    (List.prefix_append ..).trans h7, (List.prefix_append ..).trans h8⟩

/-- The table of a definition, for any entries at its beginning that are placed. -/
theorem table_anyR [CaseMap] {isNum : Str → Bool} (hN : NumOK isNum) {d d' : Rdbms} (hd : Known d')
    {t : TableAst} {o r s' : List Str} {n : Nat} {T : Table} (h : tableE d' (itemE isNum d') t o) (hok : TableOk t)
    (hn : o.length < n) (hc : C.convertTable isNum d n (o ++ r) = .ok T s') {is is2 : List Item}
    (hi : t.items = is ++ is2) (hf : ∀ i ∈ is, i.Placed)
    (hx : is = [] ∨ ∀ i is', t.items = Item.exclude .absent :: i :: is' → False) :
    Begins (tableRep isNum d { t with items := is }) T := by
  rcases hx with rfl | hx
  · obtain ⟨os, ct, s1, h1, hne, hlen, hl, rfl, -⟩ := table_undo h hok hc
    exact ⟨rfl, rfl, rfl, List.nil_prefix, List.nil_prefix, List.nil_prefix, List.nil_prefix, List.nil_prefix⟩
  · have hx' : ∀ a b, t.items = a ++ b → ∀ is', a = Item.exclude .absent :: is' → is' ++ b = [] := by
      rintro a b e is' rfl
      cases hc : is' ++ b with
      | nil => rfl
      | cons i l => exact (hx i l (by rw [e, List.cons_append, hc])).elim
    by_cases hall : ∀ i ∈ is2, i.Placed
    · have := table_beginsR hN hd h hok hn hc (is := is ++ is2) (is2 := []) (by rw [List.append_nil]; exact hi)
        (fun i hi => (List.mem_append.1 hi).elim (hf i) (hall i)) (hx' _ _ (by rw [List.append_nil]; exact hi))
        (fun _ _ e => nomatch e)
      exact begins_weakenR this
    · obtain ⟨a, x, b, rfl, ha, hxx⟩ := first_bad hall
      have hi' : t.items = (is ++ a) ++ x :: b := by rw [hi, List.append_assoc]
      have := table_beginsR hN hd h hok hn hc (is := is ++ a) (is2 := x :: b) hi'
        (fun i hi => (List.mem_append.1 hi).elim (hf i) (ha i)) (hx' _ _ hi')
        (fun i is' e => by cases e; exact hxx)
      exact begins_weakenR this

/-- The result begins with the tables of the first statements. -/
theorem script_beginsR [CaseMap] {isNum : Str → Bool} (hN : NumOK isNum) {d : Rdbms} {ss : List Stmt} {t : TableAst} {ss2 : List Stmt}
    {os : List (List Str)} (h : All2 (stmtE (vd d) (itemE isNum (vd d))) (ss ++ .table t :: ss2) os)
    (hok : ScriptOk (ss ++ .table t :: ss2)) (hf : Placed ss) {n : Nat} {M : List Table} {r : List Str}
    (hn : 2 * os.flatten.length < n) (hc : C.convert isNum d n [] os.flatten = .ok M r) :
    ∃ T M2, M = tablesRep isNum d ss ++ T :: M2 ∧ ∀ is is2, t.items = is ++ is2 → (∀ i ∈ is, i.Placed) →
      (is = [] ∨ ∀ i is', t.items = Item.exclude .absent :: i :: is' → False) →
      Begins (tableRep isNum d { t with items := is }) T := by
  obtain ⟨os1, os2, rfl, h5, h6⟩ := all2_split h
  cases h6 with
  | @cons _ ot _ os3 h6 h7 =>
    rw [List.flatten_append, List.flatten_cons] at hc hn
    simp only [List.length_append] at hn
    have h6 : tableE (vd d) (itemE isNum (vd d)) t ot := h6
    obtain ⟨m, acc', h0, h1, h2⟩ := convert_prefixR (d := d) hN (known_vd d) h5 (fun t ht => hok t (by simp [ht])) hf
      (ot ++ os3.flatten) [] n (by omega)
    rw [h2] at hc
    rw [List.nil_append] at h0
    subst h0
    obtain ⟨x, hx⟩ := stmt_cons h6
    obtain ⟨m, rfl⟩ : ∃ k, m = k + 1 := ⟨m - 1, by omega⟩
    rw [hx, List.cons_append] at hc
    obtain ⟨T, s', h8, h9, -⟩ := convert_step hc
    rw [← List.cons_append, ← hx] at h8
    obtain ⟨l, hl⟩ := convert_grow h9
    refine ⟨T, l, by rw [hl]; simp, fun is is2 hi hfi hxi => ?_⟩
    exact table_anyR hN (known_vd d) h6 (hok t (by simp)) (by omega) h8 hi hfi hxi

end DDL
