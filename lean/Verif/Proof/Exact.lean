import Verif.Proof.ConvHang
import Verif.Proof.ResultFacts
/-
The converter on scripts outside the faithful ones: the result is never the denotation.
-/

namespace DDL
open V Spec Conv

/-! ### Inversion -/

theorem bind_inv {f : CM α} {g : α → CM β} {s r : List Str} {b : β} (h : (f.bind g) s = .ok b r) :
    ∃ a s', f s = .ok a s' ∧ g a s' = .ok b r := by
  unfold CM.bind at h
  cases hf : f s with
  | ok a s' => rw [hf] at h; exact ⟨a, s', rfl, h⟩
  | panic => rw [hf] at h; cases h
  | timeout => rw [hf] at h; cases h

theorem ifM_inv {ks : List String} {p q : CM α} {s r : List Str} {b : α}
    (h : C.ifM (C.matchToken ks) p q s = .ok b r) : p s = .ok b r ∨ q s = .ok b r := by
  obtain ⟨c, s', h1, h2⟩ := bind_inv h
  cases h1
  cases hk : isKw ks (C.tok s) with
  | true => rw [hk] at h2; exact .inl h2
  | false => rw [hk] at h2; exact .inr h2

/-! ### Types -/

/-- Not the name of a type. -/
def BadType (d : Rdbms) (nm : Str) : Prop := ∀ k ∈ typeNames d, nm ≠ k.toList

theorem space_bad {d : Rdbms} {a b : Str} : BadType d (a ++ S " " ++ b) := by
  intro k hk e
  have : ∀ k ∈ typeNames d, ' ' ∉ k.toList := by cases d <;> decide +kernel
  exact this k hk (by rw [← e]; simp [S])

/-- Tokens which are not types. -/
def noTypes : List String := "(" :: "FOREIGN" :: "TABLE" :: conHeads

theorem bad_kw [CaseMap] {d : Rdbms} {t : Str} (h : isKw noTypes t = true) :
    BadType d (upStr t) ∧ ∀ v, BadType d (C.varyingName (upStr t) v) := by
  have ha : ∀ t ∈ kwList noTypes, ∀ c ∈ t, c.toNat < 128 := by decide +kernel
  rw [show upStr t = toUpper t from List.map_congr_left fun c hc => CaseMap.up_ascii c (forall_kw ha h c hc)]
  have h1 : ∀ t ∈ kwList noTypes, (∀ k ∈ typeNames d, toUpper t ≠ k.toList) ∧
      toUpper t ≠ S "BIT" ∧ toUpper t ≠ S "CHARACTER" := by cases d <;> decide +kernel
  obtain ⟨a, b, c⟩ := forall_kw h1 h
  refine ⟨a, fun v => ?_⟩
  rw [C.varyingName, if_neg b, if_neg c]
  exact space_bad

/-- The type that was read has the next token for its name. -/
theorem type_inv [CaseMap] {s r : List Str} {dt : DataType} (h : C.convertDateType s = .ok dt r) :
    dt.name = upStr (C.tok s) ∨ ∃ v, dt.name = C.varyingName (upStr (C.tok s)) v := by
  obtain ⟨t, s1, h1, h⟩ := bind_inv h
  cases h1
  obtain ⟨nm, s2, h2, h⟩ := bind_inv h
  obtain ⟨dg, s3, h3, h⟩ := bind_inv h
  cases h
  rcases ifM_inv h2 with h2 | h2
  · obtain ⟨v, s4, h4, h2⟩ := bind_inv h2
    cases h2
    exact .inr ⟨v, rfl⟩
  · cases h2
    exact .inl rfl

theorem colDef_inv [CaseMap] {isNum : Str → Bool} {d : Rdbms} {n : Nat} {s r s1 : List Str} {nm : Str} {c : Column}
    (hn : C.convertName d s = .ok nm s1) (h : C.convertColumnDefinition isNum d n s = .ok c r) :
    c.name = nm ∧ (c.dataType.name = upStr (C.tok s1) ∨
      ∃ v, c.dataType.name = C.varyingName (upStr (C.tok s1)) v) ∧
      ∃ s2, C.convertDateType s1 = .ok c.dataType s2 ∧ C.convertConstraint isNum d n s2 = .ok c.constraint r := by
  obtain ⟨nm', s1', h1, h⟩ := bind_inv h
  rw [hn] at h1
  cases h1
  obtain ⟨dt, s2, h2, h⟩ := bind_inv h
  obtain ⟨con, s3, h3, h⟩ := bind_inv h
  cases h
  exact ⟨rfl, type_inv h2, s2, h2, h3⟩

/-! ### What the loops keep -/

theorem oneItem_grow [CaseMap] {isNum : Str → Bool} {d : Rdbms} {n : Nat} {ct ct' : List Column × TableConstraint}
    {s r : List Str} (h : oneItem isNum d n ct s = .ok ct' r) : ∃ l, ct'.1 = ct.1 ++ l := by
  rcases ifM_inv h with h | h
  · obtain ⟨tc, s1, _, h⟩ := bind_inv h
    cases h
    exact ⟨[], by simp⟩
  · obtain ⟨c, s1, _, h⟩ := bind_inv h
    cases h
    exact ⟨[c], rfl⟩

theorem loop_grow [CaseMap] {isNum : Str → Bool} {d : Rdbms} {n : Nat} {ct ct' : List Column × TableConstraint}
    {s r : List Str} (h : C.tableDefinitionLoop isNum d n ct.1 ct.2 s = .ok ct' r) :
    ∃ l, ct'.1 = ct.1 ++ l := by
  induction n generalizing ct s with
  | zero => cases h
  | succ n ih =>
    rw [loop_eq] at h
    rcases ifM_inv h with h | h
    · cases h; exact ⟨[], by simp⟩
    · obtain ⟨ct1, s1, h1, h⟩ := bind_inv h
      obtain ⟨l, hl⟩ := oneItem_grow h1
      rcases ifM_inv h with h | h
      · cases h; exact ⟨l, hl⟩
      · obtain ⟨_, s2, h2, h⟩ := bind_inv h
        obtain ⟨l', hl'⟩ := ih h
        exact ⟨l ++ l', by rw [hl', hl, List.append_assoc]⟩

theorem after_grow [CaseMap] {isNum : Str → Bool} {d : Rdbms} {n : Nat} {ct ct' : List Column × TableConstraint}
    {s r : List Str} (h : afterItem isNum d n ct s = .ok ct' r) : ∃ l, ct'.1 = ct.1 ++ l := by
  rcases ifM_inv h with h | h
  · cases h; exact ⟨[], by simp⟩
  · obtain ⟨_, s2, h2, h⟩ := bind_inv h
    exact loop_grow h

theorem convert_grow [CaseMap] {isNum : Str → Bool} {d : Rdbms} {n : Nat} {acc M : List Table} {s r : List Str}
    (h : C.convert isNum d n acc s = .ok M r) : ∃ l, M = acc ++ l := by
  induction n generalizing acc s with
  | zero => cases h
  | succ n ih =>
    unfold C.convert C.ifM at h
    obtain ⟨b, s1, h1, h⟩ := bind_inv h
    cases b with
    | true => cases h; exact ⟨[], by simp⟩
    | false =>
      obtain ⟨t, s2, h2, h⟩ := bind_inv h
      obtain ⟨l, hl⟩ := ih h
      exact ⟨t :: l, by rw [hl]; simp⟩

/-- One step of the converter. -/
theorem convert_step [CaseMap] {isNum : Str → Bool} {d : Rdbms} {n : Nat} {acc M : List Table} {t : Str} {s r : List Str}
    (h : C.convert isNum d (n + 1) acc (t :: s) = .ok M r) :
    ∃ T s', C.convertTable isNum d (n + 1) (t :: s) = .ok T s' ∧ C.convert isNum d n (acc ++ [T]) s' = .ok M r ∧
      T ∈ M.drop acc.length := by
  unfold C.convert C.ifM at h
  obtain ⟨b, s1, h1, h⟩ := bind_inv h
  cases h1
  obtain ⟨T, s', h2, h⟩ := bind_inv (show ((C.convertTable isNum d (n + 1)).bind fun t =>
    C.convert isNum d n (acc ++ [t])) (t :: s) = .ok M r from h)
  refine ⟨T, s', h2, h, ?_⟩
  obtain ⟨l, rfl⟩ := convert_grow h
  simp

/-! ### A word is taken for a column -/

theorem loop_column [CaseMap] {isNum : Str → Bool} {d : Rdbms} {m : Nat} {ct ct' : List Column × TableConstraint}
    {u : Str} {s s1 r : List Str} {nm : Str} (hu : isKw [")"] u = false)
    (hu' : isKw ["CONSTRAINT", "PRIMARY", "UNIQUE", "CHECK", "FOREIGN"] u = false)
    (hn : C.convertName d (u :: s) = .ok nm s1)
    (h : C.tableDefinitionLoop isNum d m ct.1 ct.2 (u :: s) = .ok ct' r) :
    ∃ c l s2, ct'.1 = ct.1 ++ c :: l ∧ c.name = nm ∧ (c.dataType.name = upStr (C.tok s1) ∨
      ∃ v, c.dataType.name = C.varyingName (upStr (C.tok s1)) v) ∧
      C.convertColumnDefinition isNum d m (u :: s) = .ok c s2 ∧
      afterItem isNum d (m - 1) (ct.1 ++ [c], ct.2) s2 = .ok ct' r := by
  cases m with
  | zero => cases h
  | succ m =>
    rw [loop_eq, ifF hu] at h
    obtain ⟨ct1, s2, h1, h⟩ := bind_inv h
    unfold oneItem at h1
    rw [ifF hu'] at h1
    obtain ⟨c, s3, h3, h1⟩ := bind_inv h1
    cases h1
    obtain ⟨a, b, _⟩ := colDef_inv hn h3
    obtain ⟨l, hl⟩ := after_grow h
    exact ⟨c, l, s2, by rw [hl]; simp, a, b, h3, h⟩

theorem loop_bad [CaseMap] {isNum : Str → Bool} {d d' : Rdbms} (hd : Known d') {m : Nat} {ct ct' : List Column × TableConstraint}
    {u t : Str} {s r : List Str} (hu : NameTok d' u) (ht : isKw noTypes t = true)
    (h : C.tableDefinitionLoop isNum d m ct.1 ct.2 (u :: t :: s) = .ok ct' r) :
    ∃ c ∈ ct'.1, BadType d c.dataType.name := by
  obtain ⟨c, l, s2, h1, _, h2, _⟩ := loop_column (nameTok_facts hu).2.1
    (isKw_sub (reserved_name hd hu) (by decide)) (convertName_name hu) h
  refine ⟨c, by rw [h1]; simp, ?_⟩
  obtain ⟨a, b⟩ := bad_kw (d := d) ht
  rcases h2 with h2 | ⟨v, h2⟩ <;> rw [h2]
  · exact a
  · exact b v

/-! ### Qualified references -/

theorem ref_split {d : Rdbms} {r : Ref} {o rest : List Str} (h : refE d r o) (hr : ¬ r.Plain) (hs : ConHead rest) :
    ∃ s u o' t x, refE d ⟨⟨none, s⟩, none⟩ o' ∧ NameTok d u ∧ isKw noTypes t = true ∧
      o ++ rest = o' ++ S "." :: u :: t :: x ∧ o'.length ≤ o.length := by
  obtain ⟨k, oc, hk, hq, hc, rfl⟩ := h
  cases hs' : r.table.schema with
  | none => exact absurd hs' hr
  | some s =>
    have ht : ∃ t x, oc ++ rest = t :: x ∧ isKw noTypes t = true := by
      cases hcols : r.cols with
      | none =>
        rw [hcols] at hc
        cases hc
        obtain ⟨t, x, rfl, ht⟩ := hs
        exact ⟨t, x, rfl, kwT ht (by decide)⟩
      | some ks =>
        rw [hcols] at hc
        obtain ⟨_, rfl⟩ := hc
        exact ⟨['('], _, rfl, by decide⟩
    obtain ⟨t, x, e, ht⟩ := ht
    refine ⟨s, r.table.name, [k, s], t, x, ⟨k, [], hk, ⟨hq.2 s hs', ?_⟩, rfl, rfl⟩, hq.1, ht, ?_, ?_⟩
    · intro s h; cases h
    · simp [QName.toks, hs', e]
    · simp [QName.toks, hs']

/-- An entry with a qualified reference reads like a faithful one up to the dot. -/
theorem schema_split {isNum : Str → Bool} {d : Rdbms} {i : Item} {o rest : List Str}
    (h : itemE isNum d i o) (hok : ItemOk i) (hi : (∃ c, i = .column c ∧ (∃ r, .references r ∈ c.cons ∧ ¬ r.Plain) ∧
      ∀ n, c.conName = .named n → ¬ Kw ["AUTOINCREMENT", "AUTO_INCREMENT"] n) ∨ ∃ n ks r, i = .foreignKey n ks r ∧ ¬ r.Plain)
    (hs : Stop rest) :
    ∃ i' o' u t x, itemE isNum d i' o' ∧ ItemOk i' ∧ i'.Faithful ∧ o' ≠ [] ∧ NameTok d u ∧
      isKw noTypes t = true ∧ o ++ rest = o' ++ S "." :: u :: t :: x ∧ o'.length ≤ o.length := by
  rcases hi with ⟨c, rfl, ⟨r, hr, hp⟩, hn⟩ | ⟨n, ks, r, rfl, hp⟩
  · obtain ⟨cs, cs', hcs⟩ := List.append_of_mem hr
    obtain ⟨ot, on, oc, h1, h2, h3, ⟨os, h4, rfl⟩, rfl⟩ := h
    rw [hcs] at h4
    obtain ⟨os1, os2, rfl, h5, h6⟩ := all2_split h4
    cases h6 with
    | @cons _ or _ os3 h6 h7 =>
      obtain ⟨s, u, o', t, x, hr', hu, ht, e, hle⟩ := ref_split h6 hp (cons_head h7 hs.head)
      obtain ⟨hk, han⟩ := hok
      rw [hcs] at hk
      simp only [List.map_append, List.map_cons, List.nodup_append, List.nodup_cons] at hk
      refine ⟨.column { c with cons := cs ++ [.references ⟨⟨none, s⟩, none⟩] },
        c.name :: (ot ++ (on ++ (os1.flatten ++ o'))), u, t, x,
        ⟨ot, on, os1.flatten ++ o', h1, h2, h3, ⟨os1 ++ [o'], all2_join h5 (.cons hr' .nil), by simp⟩,
          rfl⟩, ⟨?_, ?_⟩, ⟨?_, hn⟩, by simp, hu, ht, ?_, ?_⟩
      · simp only [List.map_append, List.map_cons, List.map_nil, List.nodup_append]
        refine ⟨hk.1, by simp, ?_⟩
        intro a ha b hb
        rw [List.mem_singleton] at hb
        subst hb
        exact hk.2.2 a ha _ (by simp [ColCon.kind])
      · intro h
        obtain ⟨e, cs2, h2⟩ := han h
        rw [hcs] at h2
        cases cs with
        | nil => cases h2
        | cons x cs => cases h2; exact ⟨e, _, rfl⟩
      · intro r' hr'
        rw [List.mem_append, List.mem_singleton] at hr'
        rcases hr' with h | h
        · exfalso
          refine hk.2.2 (ColCon.kind (.references r')) (List.mem_map_of_mem h) _ (by simp; exact .inl rfl) rfl
        · cases h; rfl
      · rw [List.flatten_append, List.flatten_cons]
        simp only [List.append_assoc, List.cons_append, e]
      · simp only [List.length_cons, List.length_append, List.flatten_append, List.flatten_cons]; omega
  · obtain ⟨on, oi, h1, ⟨f, k, oc, or, hf, hk, hoc, hr, rfl⟩, rfl⟩ := h
    obtain ⟨s, u, o', t, x, hr', hu, ht, e, hle⟩ := ref_split hr hp hs.head
    refine ⟨.foreignKey n ks ⟨⟨none, s⟩, none⟩, on ++ (f :: k :: (oc ++ o')), u, t, x,
      ⟨on, _, h1, ⟨f, k, oc, o', hf, hk, hoc, hr', rfl⟩, rfl⟩, trivial, rfl, by simp, hu, ht, ?_, ?_⟩
    · simp only [List.append_assoc, List.cons_append, e]
    · simp only [List.length_cons, List.length_append]; omega

/-- After a qualified reference the next word is taken for a column whose type is no type. -/
theorem loop_schema [CaseMap] {isNum : Str → Bool} (hN : NumOK isNum) {d d' : Rdbms} (hd : Known d')
    {i : Item} {o rest r : List Str} {m : Nat} {ct ct' : List Column × TableConstraint}
    (h : itemE isNum d' i o) (hok : ItemOk i) (hi : (∃ c, i = .column c ∧ (∃ r, .references r ∈ c.cons ∧ ¬ r.Plain) ∧
      ∀ n, c.conName = .named n → ¬ Kw ["AUTOINCREMENT", "AUTO_INCREMENT"] n) ∨ ∃ n ks r, i = .foreignKey n ks r ∧ ¬ r.Plain)
    (hs : Stop rest) (hm : o.length < m)
    (hl : C.tableDefinitionLoop isNum d m ct.1 ct.2 (o ++ rest) = .ok ct' r) :
    ∃ c ∈ ct'.1, BadType d c.dataType.name := by
  obtain ⟨i', o', u, t, x, h1, h2, h3, h4, h5, h6, e, hle⟩ := schema_split h hok hi hs
  rw [e] at hl
  obtain ⟨m, rfl⟩ : ∃ x, m = x + 1 := ⟨m - 1, by omega⟩
  have hst : Stop (S "." :: u :: t :: x) := ⟨_, _, rfl, .inr (.inr rfl)⟩
  have hit := item_ok (d := d) hN hd h1 h2 h3 hst ct (m + 1) (by omega) h4
  rcases itemE_head h1 h2 h3 with ⟨e, _⟩ | ⟨t', r', rfl, ht1, ht2⟩
  · exact absurd e h4
  · rw [loop_eq] at hl
    rw [List.cons_append] at hit hl
    rw [ifF ht2, bind_ok hit, afterItem, ifF (by decide), bind_ok (skip_cons (by decide))] at hl
    exact loop_bad hd h5 h6 hl

/-! ### Constraints named like AUTOINCREMENT -/

theorem aux_name [CaseMap] {isNum : Str → Bool} {d : Rdbms} {n : Nat} {con con' : Constraint} {s r : List Str}
    (h : C.convertConstraintAux isNum d n con s = .ok con' r) : con'.name = con.name := by
  induction n generalizing con s with
  | zero => cases h
  | succ n ih =>
    unfold C.convertConstraintAux at h
    rcases ifM_inv h with h | h
    · cases h; rfl
    rcases ifM_inv h with h | h
    · obtain ⟨_, _, _, h⟩ := bind_inv h
      obtain ⟨_, _, _, h⟩ := bind_inv h
      have := ih h; exact this
    rcases ifM_inv h with h | h
    · obtain ⟨_, _, _, h⟩ := bind_inv h
      have := ih h; exact this
    rcases ifM_inv h with h | h
    · obtain ⟨_, _, _, h⟩ := bind_inv h
      obtain ⟨_, _, _, h⟩ := bind_inv h
      have := ih h; exact this
    rcases ifM_inv h with h | h
    · obtain ⟨_, _, _, h⟩ := bind_inv h
      have := ih h; exact this
    rcases ifM_inv h with h | h
    · obtain ⟨_, _, _, h⟩ := bind_inv h
      obtain ⟨_, _, _, h⟩ := bind_inv h
      have := ih h; exact this
    rcases ifM_inv h with h | h
    · obtain ⟨_, _, _, h⟩ := bind_inv h
      obtain ⟨_, _, _, h⟩ := bind_inv h
      have := ih h; exact this
    rcases ifM_inv h with h | h
    · obtain ⟨_, _, _, h⟩ := bind_inv h
      obtain ⟨_, _, _, h⟩ := bind_inv h
      have := ih h; exact this
    rcases ifM_inv h with h | h
    · obtain ⟨_, _, _, h⟩ := bind_inv h
      have := ih h; exact this
    cases h; rfl

/-- The name AUTOINCREMENT of a constraint is not reported. -/
theorem column_auto [CaseMap] {isNum : Str → Bool} {d d' : Rdbms} {c : ColAst} {o rest r : List Str} {n : Nat} {x : Column}
    (h : colE isNum d' c o) {m : Str} (hm : c.conName = .named m) (hk : Kw ["AUTOINCREMENT", "AUTO_INCREMENT"] m)
    (hc : C.convertColumnDefinition isNum d n (o ++ rest) = .ok x r) : x.constraint.name = [] := by
  obtain ⟨ot, on, oc, h1, h2, h3, h4, rfl⟩ := h
  rw [hm] at h3
  obtain ⟨k, hk', hn, rfl⟩ := h3
  have e : c.name :: (ot ++ ([k, m] ++ oc)) ++ rest = c.name :: (ot ++ (k :: m :: (oc ++ rest))) := by simp
  rw [e] at hc
  obtain ⟨_, _, s2, h5, h6⟩ := colDef_inv (convertName_name h1) hc
  rw [type_ok h2 ⟨_, _, rfl, kw_head hk' (by decide)⟩] at h5
  obtain ⟨-, rfl⟩ := CRes.ok.inj h5
  obtain ⟨nm, s3, h7, h8⟩ := bind_inv h6
  have := aux_name h8
  rw [this]
  rw [ifT hk', bind_ok (skip_kw hk' (by decide)), ifT (kwT (isKw_kw.2 hk) (by decide))] at h7
  cases h7
  rfl

theorem nameVal_auto {d : Rdbms} {m : Str} (hk : Kw ["AUTOINCREMENT", "AUTO_INCREMENT"] m) : nameVal d m ≠ [] := by
  have : ∀ t ∈ kwList ["AUTOINCREMENT", "AUTO_INCREMENT"], nameVal d t ≠ [] := by cases d <;> decide +kernel
  exact forall_kw this (isKw_kw.2 hk)

/-! ### MySQL index definitions -/

theorem oneCon_skip [CaseMap] {isNum : Str → Bool} {d d' : Rdbms} (hd : Known d') {k n t : Str} {m : Nat} {r : List Str}
    {ct : List Column × TableConstraint} (hk : isKw ["CONSTRAINT"] k = true) (hn : NameTok d' n)
    (ht : isKw ["PRIMARY", "UNIQUE", "CHECK", "FOREIGN"] t = false) :
    C.tableDefinitionLoop isNum d (m + 1) ct.1 ct.2 (k :: n :: t :: r) = afterItem isNum d m ct (t :: r) := by
  have hcon : C.convertTableConstraint d (m + 1) ct.2 (k :: n :: t :: r) = .ok ct.2 (t :: r) := by
    unfold C.convertTableConstraint
    rw [bind_ok (a := nameVal d n) (s' := t :: r), ifF (isKw_sub ht (by decide)),
      ifF (isKw_sub ht (by decide)), ifF (isKw_sub ht (by decide)),
      ifF (isKw_sub ht (by decide))]
    · rfl
    · rw [ifT hk, bind_ok (skip_kw hk (by decide)),
        ifF (isKw_sub (reserved_name hd hn) (by decide)), convertName_name hn]
  rw [loop_eq, ifF (kwF hk (by decide))]
  refine bind_ok ?_
  unfold oneItem
  rw [ifT (kwT hk (by decide)), bind_ok hcon]
  rfl

/-- The tokens kept of an index definition. -/
theorem index_toks {isNum : Str → Bool} {d : Rdbms} {i : Item} {o : List Str}
    (h : itemE isNum d i o) (hok : ItemOk i) (hi : i.Index) :
    o = [[')']] ∨ (∃ x, NameTok d x ∧ o = [x, [')']]) ∨
    (∃ k n, isKw ["CONSTRAINT"] k = true ∧ NameTok d n ∧ o = [k, n, [')']]) ∨
    ∃ k n x, isKw ["CONSTRAINT"] k = true ∧ NameTok d n ∧ NameTok d x ∧ o = [k, n, x, [')']] := by
  cases i with
  | index cn =>
    obtain ⟨on, oi, h1, rfl, rfl⟩ := h
    cases cn with
    | absent => cases h1; exact .inl rfl
    | anonymous => exact absurd rfl hok
    | named n =>
      obtain ⟨k, hk, hn, rfl⟩ := h1
      exact .inr (.inr (.inl ⟨k, n, hk, hn, rfl⟩))
  | fulltext cn j =>
    obtain ⟨on, oi, h1, ⟨oj, hj, rfl⟩, rfl⟩ := h
    cases cn with
    | absent =>
      cases h1
      cases j with
      | none => cases hj; exact .inl rfl
      | some x => obtain ⟨hx, rfl⟩ := hj; exact .inr (.inl ⟨x, hx, rfl⟩)
    | anonymous => exact absurd rfl hok
    | named n =>
      obtain ⟨k, hk, hn, rfl⟩ := h1
      cases j with
      | none => cases hj; exact .inr (.inr (.inl ⟨k, n, hk, hn, rfl⟩))
      | some x => obtain ⟨hx, rfl⟩ := hj; exact .inr (.inr (.inr ⟨k, n, x, hk, hn, hx, rfl⟩))
  | _ => exact hi.elim

/-- An index definition ends the table definition, unless its name is taken for a column. -/
theorem loop_index [CaseMap] {isNum : Str → Bool} {d d' : Rdbms} (hd : Known d')
    {i : Item} {o rest r : List Str} {m : Nat} {ct ct' : List Column × TableConstraint}
    (h : itemE isNum d' i o) (hok : ItemOk i) (hi : i.Index)
    (hl : C.tableDefinitionLoop isNum d m ct.1 ct.2 (o ++ rest) = .ok ct' r) :
    (∃ c ∈ ct'.1, BadType d c.dataType.name) ∨ (ct' = ct ∧ r = [')'] :: rest) := by
  cases m with
  | zero => cases hl
  | succ m =>
    rcases index_toks h hok hi with rfl | ⟨x, hx, rfl⟩ | ⟨k, n, hk, hn, rfl⟩ | ⟨k, n, x, hk, hn, hx, rfl⟩
    · rw [List.singleton_append, loop_rpar] at hl
      cases hl
      exact .inr ⟨rfl, rfl⟩
    · exact .inl (loop_bad hd hx (by decide) hl)
    · simp only [List.cons_append, List.nil_append] at hl
      rw [oneCon_skip hd hk hn (by decide), afterItem, ifT (isKw_rpar.2 rfl)] at hl
      cases hl
      exact .inr ⟨rfl, rfl⟩
    · simp only [List.cons_append, List.nil_append] at hl
      rw [oneCon_skip hd hk hn (isKw_sub (reserved_name hd hx) (by decide)), afterItem,
        ifF (nameTok_facts hx).2.1, bind_ok (skip_cons (nameTok_facts hx).1)] at hl
      cases m with
      | zero => cases hl
      | succ m =>
        rw [loop_rpar] at hl
        cases hl
        exact .inr ⟨rfl, rfl⟩

/-! ### Tables -/

/-- The definition of a table and what follows it. -/
theorem defs_inv [CaseMap] {isNum : Str → Bool} {d : Rdbms} {n : Nat} {s r : List Str} {α : Type} {b : α}
    {f : List Column × TableConstraint → α} {a : Str} (ha : a ≠ S ",")
    (h : ((C.convertTableDefinition isNum d n).bind fun defs =>
        (C.ifM (C.matchToken [";"]) C.skip (CM.pure ())).bind fun _ => CM.pure (f defs)) (a :: s) = .ok b r) :
    ∃ ct s1, C.tableDefinitionLoop isNum d n [] {} s = .ok ct s1 ∧ b = f ct ∧
      r = if isKw [";"] (C.tok (C.nextRest s1)) then C.nextRest (C.nextRest s1) else C.nextRest s1 := by
  obtain ⟨ct, s2, h1, h⟩ := bind_inv h
  unfold C.convertTableDefinition at h1
  rw [bind_ok (skip_cons ha)] at h1
  obtain ⟨ct1, s3, h2, h3⟩ := bind_inv h1
  cases h3
  refine ⟨ct, s3, h2, ?_⟩
  obtain ⟨_, s4, h4, h⟩ := bind_inv h
  cases h
  refine ⟨rfl, ?_⟩
  obtain ⟨c, s5, h5, h6⟩ := bind_inv (show ((C.matchToken [";"]).bind fun b => cond b C.skip (CM.pure ())) _ = _ from h4)
  cases h5
  cases hk : isKw [";"] (C.tok (C.nextRest s3)) with
  | true => rw [hk] at h6; cases h6; rfl
  | false => rw [hk] at h6; cases h6; rfl

/-- A table in its place. -/
theorem table_undo [CaseMap] {isNum : Str → Bool} {d d' : Rdbms} {t : TableAst} {o r s' : List Str} {n : Nat} {T : Table}
    (h : tableE d' (itemE isNum d') t o) (hok : TableOk t) (hc : C.convertTable isNum d n (o ++ r) = .ok T s') :
    ∃ os ct s1, All2 (itemE isNum d') t.items os ∧ t.items ≠ [] ∧ (joinComma os).length + 5 ≤ o.length ∧
      C.tableDefinitionLoop isNum d n [] {} (joinComma os ++ [')'] :: S ";" :: r) = .ok ct s1 ∧
      T = { tableVal isNum d t with columns := ct.1, constraints := ct.2 } ∧
      s' = if isKw [";"] (C.tok (C.nextRest s1)) then C.nextRest (C.nextRest s1) else C.nextRest s1 := by
  obtain ⟨tb, oi, oits, h1, h2, h3, ⟨hne, os, h4, rfl⟩, rfl⟩ := h
  obtain ⟨f, hf, hf'⟩ := table_head (isNum := isNum) (d := d) h1 h2 h3 hok n
    (rest := joinComma os ++ [')'] :: S ";" :: r)
  have e : S "CREATE" :: tb :: (oi ++ (QName.toks t.name ++ (['('] :: (joinComma os ++ [[')'], S ";"])))) ++ r =
      S "CREATE" :: tb :: (oi ++ (QName.toks t.name ++ ['('] :: (joinComma os ++ [')'] :: S ";" :: r))) := by simp
  rw [e, hf'] at hc
  obtain ⟨ct, s1, h5, rfl, h6⟩ := defs_inv lpar_ne hc
  refine ⟨os, ct, s1, h4, hne, ?_, h5, hf ct, h6⟩
  simp only [List.length_cons, List.length_append, List.length_nil]
  omega

theorem first_bad {P : α → Prop} {l : List α} (h : ¬ ∀ x ∈ l, P x) :
    ∃ a x b, l = a ++ x :: b ∧ (∀ y ∈ a, P y) ∧ ¬ P x := by
  induction l with
  | nil => exact absurd (fun _ h => nomatch h) h
  | cons y l ih =>
    by_cases hy : P y
    · obtain ⟨a, x, b, rfl, h1, h2⟩ := ih fun h' => h fun x hx => by
        rcases List.mem_cons.1 hx with rfl | hx
        · exact hy
        · exact h' x hx
      exact ⟨y :: a, x, b, rfl, fun z hz => by
        rcases List.mem_cons.1 hz with rfl | hz
        · exact hy
        · exact h1 z hz, h2⟩
    · exact ⟨[], y, l, rfl, (fun _ h => nomatch h), hy⟩

theorem joinComma_mid (os os2 : List (List Str)) (o : List Str) :
    joinComma (os ++ o :: os2) = joinComma (os ++ [o]) ++ itemTail os2 := by
  cases os with
  | nil => rw [List.nil_append, List.nil_append, joinComma_tail]; rfl
  | cons x os =>
    rw [List.cons_append, List.cons_append, joinComma_tail, joinComma_tail, itemTail_append, List.append_assoc]
    congr 1
    induction os with
    | nil => simp [itemTail]
    | cons y os ih => simp only [List.cons_append, itemTail, ih, List.append_assoc]

end DDL
