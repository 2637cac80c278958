import Verif.Proof.ParseFacts
import Verif.Spec.Hang
/-
Where the converter loses its place: qualified references and MySQL index definitions.
-/

namespace DDL
open V Spec Conv

/-! ### At the end of the tokens -/

/-- The loop over the entries of a table definition never ends after the last token. -/
theorem loop_nil [CaseMap] (isNum : Str → Bool) (d : Rdbms) (n : Nat) (cols : List Column)
    (tc : TableConstraint) : C.tableDefinitionLoop isNum d n cols tc [] = .timeout := by
  induction n generalizing cols tc with
  | zero => rfl
  | succ n ih =>
    have : C.tableDefinitionLoop isNum d (n + 1) cols tc [] = C.tableDefinitionLoop isNum d n
        (cols ++ [⟨EOF, ⟨upStr EOF, 0, 0⟩, {}⟩]) tc [] := by cases d <;> rfl
    rw [this]
    exact ih _ _

/-- What is left when the table definition was closed by the wrong parenthesis: the converter
starts one more table and runs out of tokens. -/
theorem convert_left [CaseMap] (isNum : Str → Bool) (d : Rdbms) (n : Nat) (acc : List Table) :
    C.convert isNum d n acc [[')'], S ";"] = .timeout := by
  cases n with
  | zero => rfl
  | succ n =>
    have h : C.convertTableDefinition isNum d (n + 1) [] = .timeout := by
      have := loop_nil isNum d (n + 1) [] {}
      show ((C.tableDefinitionLoop isNum d (n + 1) [] {}).bind _) [] = _
      unfold CM.bind
      rw [this]
    have h2 : C.convertTable isNum d (n + 1) [[')'], S ";"] = .timeout := by
      have e : C.convertTable isNum d (n + 1) [[')'], S ";"] =
          ((C.convertTableDefinition isNum d (n + 1)).bind fun defs =>
            (C.ifM (C.matchToken [";"]) C.skip (CM.pure ())).bind fun _ =>
            CM.pure { schema := [], name := EOF, ifNotExists := false,
                      columns := defs.1, constraints := defs.2 }) [] := by
        cases d <;> rfl
      rw [e]
      unfold CM.bind
      rw [h]
    show ((C.convertTable isNum d (n + 1)).bind _) _ = _
    unfold CM.bind
    rw [h2]

/-! ### Up to the last entry -/

theorem stop_comma (os : List (List Str)) (y : List Str) : Stop (itemTail os ++ S "," :: y) := by
  cases os with
  | nil => exact ⟨_, _, rfl, .inl rfl⟩
  | cons o os => exact ⟨_, _, rfl, .inl rfl⟩

/-- The entries after the first, up to a comma. -/
theorem after_prefix [CaseMap] {isNum : Str → Bool} (hN : NumOK isNum) {d d' : Rdbms} (hd : Known d')
    {is : List Item} {os : List (List Str)} (h : All2 (itemE isNum d') is os)
    (hok : ∀ i ∈ is, ItemOk i) (hf : ∀ i ∈ is, i.Faithful) (y : List Str)
    (ct : List Column × TableConstraint) (n : Nat) (hn : (itemTail os).length < n + 1) :
    ∃ m, n ≤ m + (itemTail os).length ∧ afterItem isNum d n ct (itemTail os ++ S "," :: y) =
      afterItem isNum d m (is.foldl (addItem isNum d) ct) (S "," :: y) := by
  induction h generalizing ct n with
  | nil => exact ⟨n, by omega, rfl⟩
  | @cons i o is os h hs ih =>
    have ih := ih (fun i hi => hok i (by simp [hi])) (fun i hi => hf i (by simp [hi]))
    have hi := hok i (by simp)
    have hfi := hf i (by simp)
    rw [itemTail, List.length_cons, List.length_append] at hn
    obtain ⟨n, rfl⟩ : ∃ m, n = m + 1 := ⟨n - 1, by omega⟩
    rcases itemE_head h hi hfi with ⟨rfl, rfl⟩ | ⟨t, r', rfl, ht1, ht2⟩
    · obtain ⟨m, h1, h2⟩ := ih ct (n + 1) (by simp at hn; omega)
      refine ⟨m, by simp [itemTail]; omega, ?_⟩
      have hadd : addItem isNum d ct (.exclude .absent) = ct := by
        simp [addItem, Item.column?, Item.primaryKey?, Item.unique?, Item.check?, Item.foreignKey?]
      rw [List.foldl_cons, hadd, ← h2]
      simp only [itemTail, List.nil_append, List.cons_append]
      have hx : ∃ z, itemTail os ++ S "," :: y = S "," :: z := by
        cases os with
        | nil => exact ⟨_, rfl⟩
        | cons o os => exact ⟨_, rfl⟩
      obtain ⟨z, hz⟩ := hx
      rw [hz, afterItem, ifF (by decide), ifF (by decide)]
      simp only [CM.bind, C.skip]
      rw [C.nextRest, if_pos ⟨rfl, rfl⟩]
    · have hit := item_ok (d := d) hN hd h hi hfi (stop_comma os y) ct (n + 1) (by omega) (by simp)
      obtain ⟨m, h1, h2⟩ := ih (addItem isNum d ct i) n (by simp at hn; omega)
      refine ⟨m, by simp [itemTail]; omega, ?_⟩
      rw [List.foldl_cons, ← h2, itemTail, List.cons_append, List.append_assoc, afterItem, ifF (by decide)]
      have hs : C.skip (S "," :: (t :: r' ++ (itemTail os ++ S "," :: y))) =
          .ok () (t :: r' ++ (itemTail os ++ S "," :: y)) := by
        simp [C.skip, C.nextRest, C.tok, ht1]
      rw [bind_ok hs, loop_eq]
      rw [List.cons_append] at hit ⊢
      rw [ifF ht2, bind_ok hit]

theorem itemTail_append (os : List (List Str)) (o : List Str) :
    itemTail (os ++ [o]) = itemTail os ++ S "," :: o := by
  induction os with
  | nil => simp [itemTail]
  | cons x os ih => simp [itemTail, ih]

/-- All entries but the last. -/
theorem loop_prefix [CaseMap] {isNum : Str → Bool} (hN : NumOK isNum) {d d' : Rdbms} (hd : Known d')
    {is : List Item} {os : List (List Str)} (h : All2 (itemE isNum d') is os)
    (hok : ∀ i ∈ is, ItemOk i) (hf : ∀ i ∈ is, i.Faithful)
    (hx : ∀ is', is = Item.exclude .absent :: is' → False) {o y : List Str}
    (ho : C.tok (o ++ y) ≠ S ",") (n : Nat) (hn : (joinComma (os ++ [o])).length < n) :
    ∃ (m : Nat) (ct' : List Column × TableConstraint), ct' = is.foldl (addItem isNum d) ([], {}) ∧
      n ≤ m + (joinComma (os ++ [o])).length ∧
      C.tableDefinitionLoop isNum d n [] {} (joinComma (os ++ [o]) ++ y) =
        C.tableDefinitionLoop isNum d m ct'.1 ct'.2 (o ++ y) := by
  cases h with
  | nil => exact ⟨n, ([], {}), rfl, by omega, rfl⟩
  | @cons i oi is os h hs =>
    obtain ⟨n, rfl⟩ : ∃ m, n = m + 1 := ⟨n - 1, by omega⟩
    have hi := hok i (by simp)
    have hfi := hf i (by simp)
    rw [List.cons_append, joinComma_tail, itemTail_append] at hn ⊢
    simp only [List.length_append, List.length_cons] at hn ⊢
    rcases itemE_head h hi hfi with ⟨rfl, rfl⟩ | ⟨t, r', rfl, ht1, ht2⟩
    · exact (hx _ rfl).elim
    · have hit := item_ok (d := d) hN hd h hi hfi (stop_comma os (o ++ y)) ([], {}) (n + 1)
        (by omega) (by simp)
      obtain ⟨m, h1, h2⟩ := after_prefix (d := d) hN hd hs (fun i hi => hok i (by simp [hi]))
        (fun i hi => hf i (by simp [hi])) (o ++ y) (addItem isNum d ([], {}) i) n
        (by simp at hn; omega)
      have le := loop_eq isNum d n ([], {})
      simp only at le
      refine ⟨m, _, rfl, by simp at hn ⊢; omega, ?_⟩
      have e : t :: r' ++ (itemTail os ++ S "," :: o) ++ y =
          t :: (r' ++ (itemTail os ++ S "," :: (o ++ y))) := by simp
      rw [e, le]
      rw [List.cons_append] at hit
      rw [ifF ht2, bind_ok hit, h2, afterItem, ifF (by decide), bind_ok (a := ()) (s' := o ++ y), List.foldl_cons]
      simp [C.skip, C.nextRest, ho]

/-! ### The last entry -/

/-- The loop over the entries ends too early, or never. -/
def Lost [CaseMap] (isNum : Str → Bool) (d : Rdbms) (s : List Str) : Prop :=
  ∀ m cols tc, s.length + 3 ≤ m → C.tableDefinitionLoop isNum d m cols tc s = .timeout ∨
    ∃ ct, C.tableDefinitionLoop isNum d m cols tc s = .ok ct [[')'], [')'], S ";"]

theorem loop_rpar [CaseMap] (isNum : Str → Bool) (d : Rdbms) (m : Nat) (cols : List Column)
    (tc : TableConstraint) (r : List Str) :
    C.tableDefinitionLoop isNum d (m + 1) cols tc ([')'] :: r) = .ok (cols, tc) ([')'] :: r) :=
  ifT (isKw_rpar.2 rfl)

theorem lost_index [CaseMap] {isNum : Str → Bool} {d d' : Rdbms} (hd : Known d') {i : Item} {o : List Str}
    (h : itemE isNum d' i o) (hok : ItemOk i) (hi : i.IsIndex) :
    Lost isNum d (o ++ [[')'], S ";"]) := by
  intro m cols tc hm
  right
  have named : ∀ {k n : Str} {oi : List Str}, isKw ["CONSTRAINT"] k = true → NameTok d' n →
      (oi = [] ∨ ∃ x, NameTok d' x ∧ oi = [x]) → 3 ≤ m →
      ∃ ct, C.tableDefinitionLoop isNum d m cols tc
        (k :: n :: (oi ++ [[')'], [')'], S ";"])) = .ok ct [[')'], [')'], S ";"] := by
    intro k n oi hk hn hoi hm
    obtain ⟨m, rfl⟩ : ∃ x, m = x + 2 := ⟨m - 2, by omega⟩
    have hcon : ∀ t r, isKw ["PRIMARY", "UNIQUE", "CHECK", "FOREIGN"] t = false →
        C.convertTableConstraint d (m + 2) tc (k :: n :: t :: r) = .ok tc (t :: r) := by
      intro t r ht
      unfold C.convertTableConstraint
      rw [bind_ok (a := nameVal d n) (s' := t :: r), ifF (isKw_sub ht (by decide)),
        ifF (isKw_sub ht (by decide)), ifF (isKw_sub ht (by decide)),
        ifF (isKw_sub ht (by decide))]
      · rfl
      · rw [ifT hk, bind_ok (skip_kw hk (by decide)),
          ifF (isKw_sub (reserved_name hd hn) (by decide)), convertName_name hn]
    have hone : ∀ t r, isKw ["PRIMARY", "UNIQUE", "CHECK", "FOREIGN"] t = false →
        C.tableDefinitionLoop isNum d (m + 2) cols tc (k :: n :: t :: r) =
          afterItem isNum d (m + 1) (cols, tc) (t :: r) := by
      intro t r ht
      have le := loop_eq isNum d (m + 1) (cols, tc)
      simp only at le
      rw [le, ifF (kwF hk (by decide))]
      refine bind_ok ?_
      unfold oneItem
      rw [ifT (kwT hk (by decide)), bind_ok (hcon t r ht)]
      rfl
    rcases hoi with rfl | ⟨x, hx, rfl⟩
    · refine ⟨(cols, tc), ?_⟩
      rw [List.nil_append, hone _ _ (by decide), afterItem, ifT (isKw_rpar.2 rfl)]
      rfl
    · refine ⟨(cols, tc), ?_⟩
      have hx' := nameTok_facts hx
      rw [List.singleton_append, hone _ _ (isKw_sub (reserved_name hd hx) (by decide)), afterItem,
        ifF hx'.2.1, bind_ok (skip_cons hx'.1), loop_rpar]
  have bare : 1 ≤ m → ∃ ct, C.tableDefinitionLoop isNum d m cols tc
      [[')'], [')'], S ";"] = .ok ct [[')'], [')'], S ";"] := by
    intro hm
    obtain ⟨m, rfl⟩ : ∃ x, m = x + 1 := ⟨m - 1, by omega⟩
    exact ⟨(cols, tc), loop_rpar ..⟩
  cases i with
  | index cn =>
    obtain ⟨on, oi, h1, rfl, rfl⟩ := h
    cases cn with
    | absent => cases h1; exact bare (by simp at hm; omega)
    | anonymous => exact absurd rfl hok
    | named n =>
      obtain ⟨k, hk, hn, rfl⟩ := h1
      exact named hk hn (.inl rfl) (by simp at hm; omega)
  | fulltext cn j =>
    obtain ⟨on, oi, h1, ⟨oj, hj, rfl⟩, rfl⟩ := h
    have hj' : (j = none ∧ oj = []) ∨ ∃ x, NameTok d' x ∧ oj = [x] := by
      cases j with
      | none => exact .inl ⟨rfl, hj⟩
      | some x => exact .inr ⟨x, hj.1, hj.2⟩
    cases cn with
    | absent =>
      cases h1
      rcases hj' with ⟨_, rfl⟩ | ⟨x, hx, rfl⟩
      · exact bare (by simp at hm; omega)
      · cases j with
        | none => cases hj
        | some j => rcases hi with h | h
                    · exact absurd rfl h
                    · cases h
    | anonymous => exact absurd rfl hok
    | named n =>
      obtain ⟨k, hk, hn, rfl⟩ := h1
      have := named hk hn (hj'.imp (fun h => h.2) id) (by simp at hm; omega)
      simpa using this
  | _ => exact hi.elim

/-- The tokens of a qualified reference from the table name on. -/
theorem lost_ref [CaseMap] {isNum : Str → Bool} {d d' : Rdbms} (hd : Known d') {u : Str} (hu : NameTok d' u)
    {cols : Option (List KeyPart)} {oc : List Str} (hc : refColsE d' cols oc)
    (h : cols = none ∨ ∃ c, cols = some [.col c]) :
    Lost isNum d (u :: (oc ++ [[')'], S ";"])) := by
  intro m cs tc hm
  obtain ⟨m, rfl⟩ : ∃ x, m = x + 2 := ⟨m - 2, by simp at hm; omega⟩
  have hu' := nameTok_facts hu
  have le := loop_eq isNum d (m + 1) (cs, tc)
  simp only at le
  -- the table name is taken as a column name
  have hone : ∀ r, C.tableDefinitionLoop isNum d (m + 2) cs tc (u :: r) =
      ((C.convertDateType.bind fun dt => (C.convertConstraint isNum d (m + 2)).bind fun con =>
        CM.pure (cs ++ [{ name := nameVal d u, dataType := dt, constraint := con }], tc)).bind
        fun ct => afterItem isNum d (m + 1) ct) r := by
    intro r
    rw [le, ifF hu'.2.1]
    unfold CM.bind
    have : oneItem isNum d (m + 1 + 1) (cs, tc) (u :: r) =
        (C.convertDateType.bind fun dt => (C.convertConstraint isNum d (m + 2)).bind fun con =>
        CM.pure (cs ++ [{ name := nameVal d u, dataType := dt, constraint := con }], tc)) r := by
      unfold oneItem
      rw [ifF (isKw_sub (reserved_name hd hu) (by decide))]
      unfold C.convertColumnDefinition
      have := convertName_name (d := d) (r := r) hu
      simp only [CM.bind, this]
      cases C.convertDateType r with
      | ok dt s =>
        simp only
        cases C.convertConstraint isNum d (m + 1 + 1) s with
        | ok con s => rfl
        | panic => rfl
        | timeout => rfl
      | panic => rfl
      | timeout => rfl
    rw [this]
    rfl
  rcases h with rfl | ⟨b, rfl⟩
  · -- the closing parenthesis is taken as the type
    cases hc
    left
    rw [List.nil_append, hone, bind_ok (a := (cs ++ [⟨nameVal d u, ⟨upStr [')'], 0, 0⟩, {}⟩], tc)) (s' := [S ";"])]
    · rw [afterItem, ifF (by decide), bind_ok (a := ()) (s' := [])]
      · exact loop_nil ..
      · exact skip_cons (by decide)
    · rfl
  · obtain ⟨⟨_, hk⟩, rfl⟩ := hc
    have hb := hk b (by simp)
    have hb' := nameTok_facts hb
    right
    have e : u :: (['('] :: joinComma (List.map KeyPart.toks [.col b]) ++ [[')']] ++ [[')'], S ";"]) =
        u :: ['('] :: b :: [[')'], [')'], S ";"] := rfl
    rw [e, hone]
    have hstop : ∀ con, C.convertConstraintAux isNum d (m + 2) con [[')'], [')'], S ";"] =
        .ok con [[')'], [')'], S ";"] := fun con => ifT (by decide)
    have hcon : isKw ["CONSTRAINT"] b = false := isKw_sub (reserved_name hd hb) (by decide)
    by_cases hv : isKw ["VARYING"] b = true
    · -- the column is taken as VARYING
      refine ⟨(cs ++ [⟨nameVal d u, ⟨C.varyingName (upStr ['(']) b, 0, 0⟩, {}⟩], tc), ?_⟩
      rw [bind_ok (a := (cs ++ [⟨nameVal d u, ⟨C.varyingName (upStr ['(']) b, 0, 0⟩, {}⟩], tc))
        (s' := [[')'], [')'], S ";"])]
      · rw [afterItem, ifT (isKw_rpar.2 rfl)]; rfl
      · rw [bind_ok (a := ⟨C.varyingName (upStr ['(']) b, 0, 0⟩) (s' := [[')'], [')'], S ";"])]
        · rfl
        · unfold C.convertDateType
          rw [bind_ok (next_cons lpar_ne), bind_ok (a := C.varyingName (upStr ['(']) b)
            (s' := [[')'], [')'], S ";"])]
          · rfl
          · rw [ifT hv, bind_ok (next_cons hb'.1)]; rfl
    · have hv : isKw ["VARYING"] b = false := by simpa using hv
      have hty : ∀ r, C.convertDateType (['('] :: b :: r) = .ok ⟨upStr ['('], 0, 0⟩ (b :: r) := by
        intro r
        unfold C.convertDateType
        rw [bind_ok (next_cons lpar_ne), bind_ok (a := upStr ['(']) (s' := b :: r)]
        · have : C.convertTypeDigit (b :: r) = .ok (0, 0) (b :: r) := by
            unfold C.convertTypeDigit
            refine ifF ?_
            exact (isKw_lpar_ne (fun e => name_ne_sym hb.1 e
              (by cases d' <;> decide) (by decide) (by decide)))
          rw [bind_ok this]; rfl
        · rw [ifF hv]; rfl
      by_cases ha : isKw ["AUTOINCREMENT", "AUTO_INCREMENT"] b = true
      · refine ⟨(cs ++ [⟨nameVal d u, ⟨upStr ['('], 0, 0⟩, { isAutoincrement := true }⟩], tc), ?_⟩
        rw [bind_ok (a := (cs ++ [⟨nameVal d u, ⟨upStr ['('], 0, 0⟩, { isAutoincrement := true }⟩], tc)) (s' := [[')'], [')'], S ";"])]
        · rw [afterItem, ifT (isKw_rpar.2 rfl)]; rfl
        · rw [bind_ok (hty _), bind_ok (a := { isAutoincrement := true })
            (s' := [[')'], [')'], S ";"])]
          · rfl
          · unfold C.convertConstraint
            rw [bind_ok (a := []) (s' := b :: [[')'], [')'], S ";"])]
            · rw [C.convertConstraintAux, ifF (kwF ha (by decide)), ifF (kwF ha (by decide)),
                ifT ha, bind_ok (skip_kw ha (by decide))]
              rfl
            · exact ifF hcon
      · have ha : isKw ["AUTOINCREMENT", "AUTO_INCREMENT"] b = false := by simpa using ha
        refine ⟨(cs ++ [⟨nameVal d u, ⟨upStr ['('], 0, 0⟩, {}⟩], tc), ?_⟩
        rw [bind_ok (a := (cs ++ [⟨nameVal d u, ⟨upStr ['('], 0, 0⟩, {}⟩], tc)) (s' := b :: [[')'], [')'], S ";"])]
        · rw [afterItem, ifF hb'.2.1, bind_ok (skip_cons hb'.1), loop_rpar]
        · rw [bind_ok (hty _), bind_ok (a := {}) (s' := b :: [[')'], [')'], S ";"])]
          · rfl
          · unfold C.convertConstraint
            rw [bind_ok (a := []) (s' := b :: [[')'], [')'], S ";"])]
            · have hr := reserved_name hd hb
              have h0 : isKw [",", ")"] b = false := by
                cases hx : isKw [",", ")"] b with
                | false => rfl
                | true =>
                  have := forall_kw (P := fun t => t = S "," ∨ t = [')']) (by decide) hx
                  rcases this with e | e
                  · exact absurd e hb'.1
                  · rw [e] at hb'; exact absurd hb'.2.1 (by decide)
              rw [C.convertConstraintAux, ifF h0, ifF (isKw_sub hr (by decide)), ifF ha,
                ifF (isKw_sub hr (by decide)), ifF (isKw_sub hr (by decide)),
                ifF (isKw_sub hr (by decide)), ifF (isKw_sub hr (by decide)),
                ifF (isKw_sub hr (by decide)), ifF (isKw_sub hr (by decide))]
              rfl
            · exact ifF hcon

theorem all2_split {R : α → β → Prop} {a a' : List α} {b : List β} (h : All2 R (a ++ a') b) :
    ∃ c c', b = c ++ c' ∧ All2 R a c ∧ All2 R a' c' := by
  induction a generalizing b with
  | nil => exact ⟨[], b, rfl, .nil, h⟩
  | cons x a ih =>
    cases h with
    | cons h hs =>
      obtain ⟨c, c', rfl, h1, h2⟩ := ih hs
      exact ⟨_ :: c, c', rfl, .cons h h1, h2⟩

theorem all2_join {R : α → β → Prop} {a a' : List α} {b b' : List β} (h : All2 R a b)
    (h' : All2 R a' b') : All2 R (a ++ a') (b ++ b') := by
  induction h with
  | nil => exact h'
  | cons h _ ih => exact .cons h ih

theorem silent_nil {isNum : Str → Bool} {d : Rdbms} {cs : List ColCon} {os : List (List Str)}
    (h : All2 (colConE isNum d) cs os) (hs : ∀ x ∈ cs, ColCon.Silent x) : os.flatten = [] := by
  induction h with
  | nil => rfl
  | @cons c o cs os h _ ih =>
    have h1 := hs c (by simp)
    have h2 := ih fun x hx => hs x (by simp [hx])
    cases c with
    | null => cases h; exact h2
    | other k => cases h; exact h2
    | _ => exact h1.elim

/-- An entry which ends in a qualified reference reads like a faithful one up to the dot. -/
theorem qualified_split {isNum : Str → Bool} {d : Rdbms} {i : Item} {o : List Str}
    (h : itemE isNum d i o) (hok : ItemOk i) (hi : i.EndsQualified) :
    ∃ i' o' u cols oc, itemE isNum d i' o' ∧ ItemOk i' ∧ i'.Faithful ∧ o' ≠ [] ∧ NameTok d u ∧
      refColsE d cols oc ∧ (cols = none ∨ ∃ c, cols = some [.col c]) ∧
      o = o' ++ S "." :: u :: oc := by
  have ref : ∀ {r : Ref} {o}, refE d r o → r.Qualified → ∃ s u cols oc o',
      refE d ⟨⟨none, s⟩, none⟩ o' ∧ NameTok d u ∧ refColsE d cols oc ∧
      (cols = none ∨ ∃ c, cols = some [.col c]) ∧ o = o' ++ S "." :: u :: oc := by
    rintro r o ⟨k, oc, hk, hq, hc, rfl⟩ ⟨⟨s, hs⟩, hcols⟩
    refine ⟨s, r.table.name, r.cols, oc, [k, s], ⟨k, [], hk, ⟨hq.2 s hs, ?_⟩, rfl, rfl⟩, hq.1, hc,
      hcols, ?_⟩
    · intro s h; cases h
    · simp [QName.toks, hs]
  cases i with
  | column c =>
    obtain ⟨hn, cs, r, cs', hcs, hr, hsil⟩ := hi
    obtain ⟨ot, on, oc, h1, h2, h3, ⟨os, h4, rfl⟩, rfl⟩ := h
    rw [hcs] at h4
    obtain ⟨os1, os2, rfl, h5, h6⟩ := all2_split h4
    cases h6 with
    | @cons _ or _ os3 h6 h7 =>
      obtain ⟨s, u, cols, oc, o', hr', hu, hc, hcols, rfl⟩ := ref h6 hr
      obtain ⟨hk, han⟩ := hok
      rw [hcs] at hk
      simp only [List.map_append, List.map_cons, List.nodup_append, List.nodup_cons] at hk
      refine ⟨.column { c with cons := cs ++ [.references ⟨⟨none, s⟩, none⟩] },
        c.name :: (ot ++ (on ++ (os1.flatten ++ o'))), u, cols, oc,
        ⟨ot, on, os1.flatten ++ o', h1, h2, h3, ⟨os1 ++ [o'], all2_join h5 (.cons hr' .nil), by simp⟩,
          rfl⟩, ⟨?_, ?_⟩, ⟨?_, hn⟩, by simp, hu, hc, hcols, ?_⟩
      · simp only [List.map_append, List.map_cons, List.map_nil, List.nodup_append]
        refine ⟨hk.1, by simp, ?_⟩
        intro a ha b hb
        rw [List.mem_singleton] at hb
        subst hb
        exact hk.2.2 a ha _ (by simp [ColCon.kind])
      · intro h
        obtain ⟨e, cs2, h2⟩ := han h
        rw [hcs] at h2
        cases cs with
        | nil => cases h2
        | cons x cs => cases h2; exact ⟨e, _, rfl⟩
      · intro r' hr'
        rw [List.mem_append, List.mem_singleton] at hr'
        rcases hr' with h | h
        · exfalso
          refine hk.2.2 (ColCon.kind (.references r')) (List.mem_map_of_mem h) _ (by simp; exact .inl rfl) rfl
        · cases h; rfl
      · rw [List.flatten_append, List.flatten_cons, silent_nil h7 hsil]
        simp
  | foreignKey n ks r =>
    obtain ⟨on, oi, h1, ⟨f, k, oc, or, hf, hk, hoc, hr, rfl⟩, rfl⟩ := h
    obtain ⟨s, u, cols, oc', o', hr', hu, hc, hcols, rfl⟩ := ref hr hi
    exact ⟨.foreignKey n ks ⟨⟨none, s⟩, none⟩, on ++ (f :: k :: (oc ++ o')), u, cols, oc',
      ⟨on, _, h1, ⟨f, k, oc, o', hf, hk, hoc, hr', rfl⟩, rfl⟩, trivial, rfl, by simp, hu, hc, hcols,
      by simp⟩
  | _ => exact hi.elim

theorem lost_qualified [CaseMap] {isNum : Str → Bool} (hN : NumOK isNum) {d d' : Rdbms} (hd : Known d')
    {i : Item} {o : List Str} (h : itemE isNum d' i o) (hok : ItemOk i) (hi : i.EndsQualified) :
    Lost isNum d (o ++ [[')'], S ";"]) := by
  obtain ⟨i', o', u, cols, oc, h1, h2, h3, h4, h5, h6, h7, rfl⟩ := qualified_split h hok hi
  intro m cs tc hm
  simp only [List.length_append, List.length_cons] at hm
  obtain ⟨m, rfl⟩ : ∃ x, m = x + 1 := ⟨m - 1, by omega⟩
  have hst : Stop (S "." :: u :: (oc ++ [[')'], S ";"])) := ⟨_, _, rfl, .inr (.inr rfl)⟩
  have hit := item_ok (d := d) hN hd h1 h2 h3 hst (cs, tc) (m + 1) (by omega) h4
  have e : o' ++ S "." :: u :: oc ++ [[')'], S ";"] =
      o' ++ (S "." :: u :: (oc ++ [[')'], S ";"])) := by simp
  rw [e]
  have le := loop_eq isNum d m (cs, tc)
  simp only at le
  have hloop : C.tableDefinitionLoop isNum d (m + 1) cs tc
      (o' ++ (S "." :: u :: (oc ++ [[')'], S ";"]))) =
      C.tableDefinitionLoop isNum d m (addItem isNum d (cs, tc) i').1 (addItem isNum d (cs, tc) i').2
        (u :: (oc ++ [[')'], S ";"])) := by
    rcases itemE_head h1 h2 h3 with ⟨e, _⟩ | ⟨t, r', rfl, ht1, ht2⟩
    · exact absurd e h4
    · rw [le]
      rw [List.cons_append] at hit ⊢
      rw [ifF ht2, bind_ok hit, afterItem, ifF (by decide), bind_ok (skip_cons (by decide))]
  rw [hloop]
  exact lost_ref hd h5 h6 h7 m _ _ (by simp; omega)

/-! ### Tables and scripts -/

/-- The converter from the beginning of a statement to its table definition. -/
theorem table_head [CaseMap] {isNum : Str → Bool} {d d' : Rdbms} {t : TableAst} {tb : Str} {oi rest : List Str}
    (h1 : isKw ["TABLE"] tb = true) (h2 : ineE t.ifNotExists oi) (h3 : QNameTok d' t.name)
    (hok : TableOk t) (n : Nat) :
    ∃ f : List Column × TableConstraint → Table,
      (∀ defs, f defs = { tableVal isNum d t with columns := defs.1, constraints := defs.2 }) ∧ C.convertTable isNum d n (S "CREATE" :: tb :: (oi ++ (QName.toks t.name ++ ['('] :: rest))) =
      ((C.convertTableDefinition isNum d n).bind fun defs =>
        (C.ifM (C.matchToken [";"]) C.skip (CM.pure ())).bind fun _ => CM.pure (f defs))
        (['('] :: rest) := by
  unfold C.convertTable C.convertTableName
  rw [bind_ok (skip_cons (by decide)), bind_ok (skip_kw h1 (by decide))]
  generalize hrest : ['('] :: rest = rest'
  rw [bind_ok (a := t.ifNotExists) (s' := QName.toks t.name ++ rest')]
  · rw [bind_ok (a := ((t.name.schema.map (nameVal d)).getD [], nameVal d t.name.name))
      (s' := rest')]
    · exact ⟨fun defs => ⟨_, _, _, defs.1, defs.2⟩, fun _ => rfl, rfl⟩
    · cases hs : t.name.schema with
      | none =>
        simp only [QName.toks, hs, List.cons_append, List.nil_append, Option.map_none,
          Option.getD_none]
        rw [bind_ok (convertName_name h3.1)]
        subst hrest
        exact ifF (by decide)
      | some s =>
        simp only [QName.toks, hs, List.cons_append, List.nil_append, Option.map_some,
          Option.getD_some]
        rw [bind_ok (convertName_name (h3.2 s hs)), ifT (by decide),
          bind_ok (skip_cons (by decide)), bind_ok (convertName_name h3.1)]
        rfl
  · cases hine : t.ifNotExists with
    | true =>
      rw [hine] at h2
      obtain ⟨i, x, e, hi, hx, he, rfl⟩ := h2
      simp only [List.cons_append, List.nil_append]
      rw [ifT hi, bind_ok (skip_kw hi (by decide)), bind_ok (skip_kw hx (by decide)),
        bind_ok (skip_kw he (by decide))]
      rfl
    | false =>
      rw [hine] at h2
      cases h2
      have := hok.2 hine
      rw [List.nil_append]
      cases hq : QName.toks t.name with
      | nil => unfold QName.toks at hq; split at hq <;> cases hq
      | cons x xs => exact ifF (this x xs hq)

/-- A table whose last entry loses the place: no answer, or two tokens too many are left. -/
theorem table_lost [CaseMap] {isNum : Str → Bool} (hN : NumOK isNum) {d d' : Rdbms} (hd : Known d')
    {t : TableAst} {o : List Str} (h : tableE d' (itemE isNum d') t o) (hok : TableOk t)
    {is : List Item} {i : Item} (hi : t.items = is ++ [i]) (hf : ∀ i ∈ is, i.Faithful)
    (hx : ∀ is', is = Item.exclude .absent :: is' → False)
    (hl : ∀ o, itemE isNum d' i o → Lost isNum d (o ++ [[')'], S ";"]) ∧
      C.tok (o ++ [[')'], S ";"]) ≠ S ",")
    (n : Nat) (hn : 2 * o.length + 5 < n) :
    C.convertTable isNum d n o = .timeout ∨
      ∃ tb, C.convertTable isNum d n o = .ok tb [[')'], S ";"] := by
  obtain ⟨tb, oi, oits, h1, h2, h3, ⟨_, os, h4, rfl⟩, rfl⟩ := h
  rw [hi] at h4
  obtain ⟨os1, os2, rfl, h5, h6⟩ := all2_split h4
  cases h6 with
  | @cons _ ol _ os3 h6 h7 =>
    cases h7
    obtain ⟨f, _, hf'⟩ := table_head (isNum := isNum) (d := d) h1 h2 h3 hok n
      (rest := joinComma (os1 ++ [ol]) ++ [[')'], S ";"])
    simp only [List.length_append, List.length_cons] at hn
    obtain ⟨m, ct, _, hm, hp⟩ := loop_prefix (d := d) hN hd h5
      (fun i hi' => hok.1 i (by rw [hi]; simp [hi'])) hf hx (hl ol h6).2 n (by omega)
    rw [hf']
    have hlen : ol.length ≤ (joinComma (os1 ++ [ol])).length := by
      cases os1 with
      | nil => exact Nat.le_refl _
      | cons x os1 =>
        rw [List.cons_append, joinComma_tail, itemTail_append]; simp; omega
    have hdef : C.convertTableDefinition isNum d n (['('] :: (joinComma (os1 ++ [ol]) ++
        [[')'], S ";"])) = .timeout ∨ ∃ defs, C.convertTableDefinition isNum d n
        (['('] :: (joinComma (os1 ++ [ol]) ++ [[')'], S ";"])) = .ok defs [[')'], S ";"] := by
      unfold C.convertTableDefinition
      rw [bind_ok (skip_cons lpar_ne)]
      unfold CM.bind
      rw [hp]
      rcases Classical.em (ol.length + 5 ≤ m) with hle | hle
      · rcases (hl ol h6).1 m ct.1 ct.2 (by simp; omega) with e | ⟨ct', e⟩
        · rw [e]; exact .inl rfl
        · rw [e]; exact .inr ⟨ct', rfl⟩
      · exfalso; omega
    unfold CM.bind
    rcases hdef with e | ⟨defs, e⟩
    · rw [e]; exact .inl rfl
    · rw [e]; exact .inr ⟨f defs, rfl⟩

/-- The converter on the first statements. -/
theorem convert_prefix [CaseMap] {isNum : Str → Bool} (hN : NumOK isNum) {d d' : Rdbms} (hd : Known d')
    {ss : List Stmt} {os : List (List Str)} (h : All2 (stmtE d' (itemE isNum d')) ss os)
    (hok : ScriptOk ss) (hf : Faithful ss) (r : List Str) (acc : List Table) (n : Nat)
    (hn : os.flatten.length < n) :
    ∃ m acc', acc' = acc ++ tablesVal isNum d ss ∧ n ≤ m + os.flatten.length ∧
      C.convert isNum d n acc (os.flatten ++ r) = C.convert isNum d m acc' r := by
  induction h generalizing acc n with
  | nil => exact ⟨n, acc, (List.append_nil _).symm, by omega, rfl⟩
  | @cons s o ss os h hs ih =>
    have ih := ih (fun t ht => hok t (by simp [ht])) (fun t ht => hf t (by simp [ht]))
    rw [List.flatten_cons, List.length_append] at hn ⊢
    cases s with
    | other =>
      cases h
      obtain ⟨m, acc', h0, h1, h2⟩ := ih acc n (by omega)
      exact ⟨m, acc', h0, by omega, by rw [List.nil_append, h2]⟩
    | table t =>
      obtain ⟨n, rfl⟩ : ∃ m, n = m + 1 := ⟨n - 1, by omega⟩
      have ht := table_ok (d := d) hN hd h (hok t (by simp)) (hf t (by simp)) (os.flatten ++ r) (n + 1)
        (by omega)
      have hl : 0 < o.length := by obtain ⟨_, _, _, _, _, _, _, rfl⟩ := h; simp
      have hne : (o ++ (os.flatten ++ r)).isEmpty = false := by
        cases o with
        | nil => simp at hl
        | cons x o => rfl
      obtain ⟨m, acc', h0, h1, h2⟩ := ih (acc ++ [tableVal isNum d t]) n (by omega)
      refine ⟨m, acc', by rw [h0, List.append_assoc]; rfl, by omega, ?_⟩
      rw [List.append_assoc, C.convert]
      have : ∀ (p q : CM (List Table)), C.ifM C.isOutOfRange p q (o ++ (os.flatten ++ r)) =
          q (o ++ (os.flatten ++ r)) := by
        intro p q; simp only [C.ifM, C.isOutOfRange, CM.bind, hne, cond_false]
      rw [this, bind_ok ht, h2]

theorem others_nil {isNum : Str → Bool} {d : Rdbms} {ss : List Stmt} {os : List (List Str)}
    (h : All2 (stmtE d (itemE isNum d)) ss os) (hs : ∀ s ∈ ss, s = .other) : os.flatten = [] := by
  induction h with
  | nil => rfl
  | @cons s o ss os h _ ih =>
    cases hs s (by simp)
    cases h
    simpa using ih fun s hs' => hs s (by simp [hs'])

/-- The converter never answers if the last table loses the place at its last entry. -/
theorem convert_lost [CaseMap] {isNum : Str → Bool} (hN : NumOK isNum) {d d' : Rdbms} (hd : Known d')
    {before after : List Stmt} {t : TableAst} {o : List Str}
    (h : scriptE isNum d' (before ++ .table t :: after) o)
    (hok : ScriptOk (before ++ .table t :: after)) (hb : Faithful before)
    (ha : ∀ s ∈ after, s = .other)
    {is : List Item} {i : Item} (hi : t.items = is ++ [i]) (hf : ∀ i ∈ is, i.Faithful)
    (hx : ∀ is', is = Item.exclude .absent :: is' → False)
    (hl : ∀ o, itemE isNum d' i o → Lost isNum d (o ++ [[')'], S ";"]) ∧
      C.tok (o ++ [[')'], S ";"]) ≠ S ",") (acc : List Table) (n : Nat) (hn : 3 * o.length + 10 ≤ n) :
    C.convert isNum d n acc o = .timeout := by
  obtain ⟨os, h, rfl⟩ := h
  obtain ⟨os1, os2, rfl, h5, h6⟩ := all2_split h
  cases h6 with
  | @cons _ ot _ os3 h6 h7 =>
    rw [List.flatten_append, List.flatten_cons, others_nil h7 ha, List.append_nil] at hn ⊢
    rw [List.length_append] at hn
    obtain ⟨m, acc', _, h1, h2⟩ := convert_prefix (d := d) hN hd h5 (fun t ht => hok t (by simp [ht])) hb
      ot acc n (by omega)
    rw [h2]
    obtain ⟨m, rfl⟩ : ∃ x, m = x + 1 := ⟨m - 1, by omega⟩
    have hne : ot.isEmpty = false := by
      obtain ⟨_, _, _, _, _, _, _, rfl⟩ := h6; rfl
    rw [C.convert]
    have : ∀ (p q : CM (List Table)), C.ifM C.isOutOfRange p q ot = q ot := by
      intro p q; simp only [C.ifM, C.isOutOfRange, CM.bind, hne, cond_false]
    rw [this]
    unfold CM.bind
    rcases table_lost (d := d) hN hd h6 (hok t (by simp)) hi hf hx hl (m + 1) (by omega) with e | ⟨tb, e⟩
    · rw [e]
    · rw [e]; exact convert_left ..

/-- A last entry that loses the place. -/
theorem lost_head {isNum : Str → Bool} {d : Rdbms} {i : Item} {o : List Str}
    (h : itemE isNum d i o) (hok : ItemOk i) (hi : i.IsIndex ∨ i.EndsQualified) :
    C.tok (o ++ [[')'], S ";"]) ≠ S "," := by
  rcases hi with hi | hi
  · have con : ∀ {cn on oi}, conNameE d cn on → (∀ x, C.tok (oi ++ x) ≠ S ",") →
        C.tok (on ++ oi ++ [[')'], S ";"]) ≠ S "," := by
      intro cn on oi h h'
      cases cn with
      | absent => cases h; rw [List.nil_append]; exact h' _
      | anonymous => obtain ⟨k, hk, rfl⟩ := h; exact kw_plain hk (by decide)
      | named n => obtain ⟨k, hk, _, rfl⟩ := h; exact kw_plain hk (by decide)
    cases i with
    | index cn =>
      obtain ⟨on, oi, h1, rfl, rfl⟩ := h
      exact con h1 fun x => rpar_ne
    | fulltext cn j =>
      obtain ⟨on, oi, h1, ⟨oj, hj, rfl⟩, rfl⟩ := h
      refine con h1 fun x => ?_
      cases j with
      | none => cases hj; exact rpar_ne
      | some j => obtain ⟨hj, rfl⟩ := hj; exact (nameTok_facts hj).1
    | _ => exact hi.elim
  · obtain ⟨i', o', u, cols, oc, h1, h2, h3, h4, h5, h6, h7, rfl⟩ := qualified_split h hok hi
    rcases itemE_head h1 h2 h3 with ⟨e, _⟩ | ⟨t, r', rfl, ht1, ht2⟩
    · exact absurd e h4
    · exact ht1

/-- `Parse` never returns if the last table of an accepted script loses the place at its last
entry. -/
theorem hangs_lost [CaseMap] {isNum : Str → Bool} (hN : NumOK isNum) {d : Rdbms} {ddl : List Char}
    {toks : List Str} {before after : List Stmt} {t : TableAst} {is : List Item} {i : Item}
    (hl : Lexes d ddl toks) (hs : script isNum d (strip toks) (before ++ .table t :: after))
    (hb : Faithful before) (ha : ∀ s ∈ after, s = .other) (hi : t.items = is ++ [i])
    (hf : ∀ i ∈ is, i.Faithful) (hx : ∀ is', is = Item.exclude .absent :: is' → False)
    (hl' : i.IsIndex ∨ i.EndsQualified) : Hangs isNum ddl d := by
  obtain ⟨out, hv⟩ := (validates_iff hN (Lexes.good hl)).2 ⟨_, hs⟩
  have hE := validates_scriptE hN (Lexes.good hl) hv hs
  have hok := scriptOk_of hs
  have hoki : ItemOk i := (hok t (by simp)).1 i (by rw [hi]; simp)
  have hlost : ∀ n, 3 * out.length + 10 ≤ n → convertN isNum d n out = .timeout := by
    intro n hn
    unfold convertN
    rw [convert_lost hN (known_vd d) hE hok hb ha hi hf hx ?_ [] n hn]
    intro o ho
    refine ⟨?_, lost_head ho hoki hl'⟩
    rcases hl' with h | h
    · exact lost_index (known_vd d) ho hoki h
    · exact lost_qualified hN (known_vd d) ho hoki h
  have hno : ∀ ts, ¬ Converts isNum d out ts := by
    rintro ts ⟨n, hn⟩
    have := Converts.mono hn (Nat.le_add_right n (3 * out.length + 10))
    rw [hlost _ (by omega)] at this
    cases this
  intro n
  cases hp : parseN isNum n ddl d with
  | timeout => rfl
  | panic => exact absurd hp (parseN_ne_panic _ _ _ _)
  | err e => exact absurd hp (parseN_ne_err _ _ _ _ _)
  | ok res =>
    exfalso
    obtain ⟨ts, e⟩ := res
    cases e with
    | none =>
      obtain ⟨toks', out', hl', hv', hc⟩ := returns_ok_iff.1 ⟨n, hp⟩
      cases Lexes.unique hl hl'
      cases Validates.unique hv hv'
      exact hno _ hc
    | some e =>
      rcases (returns_err_iff.1 ⟨n, hp⟩).2 with h | ⟨toks', hl', hr⟩
      · exact lex_not_both hl h
      · cases Lexes.unique hl hl'
        exact validates_not_rejects hv hr

end DDL
