import Verif.Proof.MemoryTable
/-
Reading the values that the functions of Model/Memory.lean make.
-/

namespace DDL.Mem
open DDL.Spec

/-- Every array is still there, with more cells at its end or not. -/
def Ext (h h' : Heap) : Prop := ∀ (i : Nat) l, h[i]? = some l → ∃ m, h'[i]? = some (l ++ m)

theorem Ext.refl (h : Heap) : Ext h h := fun _ _ e => ⟨[], by simpa using e⟩

theorem listR_map {R : Kind α β} {h : Heap} {f : α → β} {arr : α → List Nat} (hR : ∀ a b i, R h a b i → f a = b ∧ arr a = i) :
    ∀ {as bs is}, ListR R h as bs is → as.map f = bs ∧ as.flatMap arr = is := by
  intro as bs is hl
  induction hl with
  | nil => exact ⟨rfl, rfl⟩
  | cons h1 _ ih =>
    obtain ⟨rfl, rfl⟩ := hR _ _ _ h1
    obtain ⟨rfl, rfl⟩ := ih
    exact ⟨rfl, rfl⟩

theorem slice_cells {R : Kind α β} {mk} {h h' : Heap} {s bs ids} (hs : SliceR R mk h s bs ids) (hx : Ext h h') :
    ∃ as is, cells h' s = as.map mk ∧ ListR R h as bs is ∧ ids = arrs s ++ is := by
  cases s with
  | none =>
    obtain ⟨rfl, rfl⟩ := hs
    exact ⟨[], [], rfl, .nil, rfl⟩
  | some s =>
    obtain ⟨as, is, h1, h2, _, h4, rfl⟩ := hs
    obtain ⟨m, hm⟩ := hx _ _ h1
    refine ⟨as, is, ?_, h4, rfl⟩
    unfold cells
    simp only [List.getD, hm, Option.getD_some, h2]
    rw [List.take_append_of_le_length (by simp), List.take_of_length_le (by simp)]

theorem strs_read {h h' : Heap} {s xs ids} (hs : SliceR (Plain Str) .str h s xs ids) (hx : Ext h h') :
    strsAt h' s = xs ∧ arrs s = ids := by
  obtain ⟨as, is, h1, h2, rfl⟩ := slice_cells hs hx
  obtain ⟨h3, h4⟩ := listR_map (f := id) (arr := fun _ => []) (fun a b i h => ⟨h.1, h.2.symm⟩) h2
  subst h4
  unfold strsAt
  rw [h1, List.filterMap_map]
  refine ⟨?_, by simp⟩
  rw [← h3]
  simp only [Function.comp_def, List.filterMap_some, List.map_id]

theorem ref_read {h h' : Heap} {a b ids} (hr : RefR h a b ids) (hx : Ext h h') :
    referenceAt h' a = b ∧ arrs a.columnNames = ids := by
  obtain ⟨an, ac⟩ := a
  obtain ⟨bn, bc⟩ := b
  obtain ⟨h1, h2⟩ := hr
  have h1 : an = bn := h1
  subst h1
  cases bc with
  | none =>
    obtain ⟨h2, rfl⟩ := h2
    have h2 : ac = none := h2
    subst h2
    exact ⟨rfl, rfl⟩
  | some xs =>
    obtain ⟨h2, h3⟩ := h2
    obtain ⟨h4, h5⟩ := strs_read h3 hx
    cases ac with
    | none => cases h2
    | some s =>
      refine ⟨?_, h5⟩
      unfold referenceAt
      simp only [Option.map_some, h4]

theorem col_read {h h' : Heap} {a b ids} (hr : ColR h a b ids) (hx : Ext h h') :
    columnAt h' a = b ∧ arrs a.constraint.references.columnNames = ids := by
  obtain ⟨c, ⟨r, h1, rfl⟩, rfl⟩ := hr
  obtain ⟨h2, h3⟩ := ref_read h1 hx
  refine ⟨?_, h3⟩
  unfold columnAt
  rw [h2]

theorem flatMap_mk {mk : α → Cell} {arr : α → List Nat} (he : ∀ a, arraysOfCell (mk a) = arr a) (as : List α) :
    (as.map mk).flatMap arraysOfCell = as.flatMap arr := by
  rw [List.flatMap_map]
  congr 1
  exact funext he

/-- Reading a slice element by element. -/
theorem slice_read {R : Kind α β} {mk : α → Cell} {h h' : Heap} {s bs ids} (hs : SliceR R mk h s bs ids) (hx : Ext h h')
    {f : α → β} {arr : α → List Nat} (hR : ∀ a b i, R h a b i → f a = b ∧ arr a = i) {pick : Cell → Option β}
    (hp : ∀ a, pick (mk a) = some (f a)) (he : ∀ a, arraysOfCell (mk a) = arr a) :
    (cells h' s).filterMap pick = bs ∧ arraysOfSlice h' s = ids := by
  obtain ⟨as, is, h1, h2, rfl⟩ := slice_cells hs hx
  obtain ⟨rfl, rfl⟩ := listR_map hR h2
  unfold arraysOfSlice
  rw [h1, List.filterMap_map, flatMap_mk he]
  refine ⟨?_, rfl⟩
  have : pick ∘ mk = fun a => some (f a) := funext hp
  rw [this, List.filterMap_eq_map']

theorem tab_read {h h' : Heap} {a b ids} (hr : TabR h a b ids) (hx : Ext h h') :
    tableAt h' a = b ∧ arraysOfTable h' a = ids := by
  obtain ⟨cols, con, ⟨_, _, rfl, hc, i1, i2, i3, i4, rfl, h1, h2, h3, h4⟩, rfl⟩ := hr
  obtain ⟨c1, c2⟩ := slice_read (f := columnAt h') (arr := fun c => arrs c.constraint.references.columnNames)
    (pick := fun c => match c with
      | .column c => some (columnAt h' c)
      | _ => none) hc.1 hx (fun a b i h => col_read h hx) (fun _ => rfl) (fun _ => rfl)
  obtain ⟨p1, p2⟩ := slice_read (f := fun k => (⟨k.name, strsAt h' k.columnNames⟩ : PrimaryKey)) (arr := fun k => arrs k.columnNames)
    (pick := fun c => match c with
      | .primaryKey k => some ⟨k.name, strsAt h' k.columnNames⟩
      | _ => none) h1.1 hx (fun a b i h => by
        obtain ⟨e1, e2⟩ := strs_read h.2.2 hx
        exact ⟨by rw [e1, h.1], e2⟩) (fun _ => rfl) (fun _ => rfl)
  obtain ⟨u1, u2⟩ := slice_read (f := fun k => (⟨k.name, strsAt h' k.columnNames⟩ : Unique)) (arr := fun k => arrs k.columnNames)
    (pick := fun c => match c with
      | .unique k => some ⟨k.name, strsAt h' k.columnNames⟩
      | _ => none) h2.1 hx (fun a b i h => by
        obtain ⟨e1, e2⟩ := strs_read h.2.2 hx
        exact ⟨by rw [e1, h.1], e2⟩) (fun _ => rfl) (fun _ => rfl)
  obtain ⟨k1, k2⟩ := slice_read (f := id) (arr := fun _ => [])
    (pick := fun c => match c with
      | .check k => some k
      | _ => none) h3.1 hx (fun a b i h => ⟨h.1, h.2.symm⟩) (fun _ => rfl) (fun _ => rfl)
  obtain ⟨f1, f2⟩ := slice_read
    (f := fun k => (⟨k.name, strsAt h' k.columnNames, referenceAt h' k.references⟩ : ForeignKey))
    (arr := fun k => arrs k.columnNames ++ arrs k.references.columnNames)
    (pick := fun c => match c with
      | .foreignKey k => some ⟨k.name, strsAt h' k.columnNames, referenceAt h' k.references⟩
      | _ => none) h4.1 hx (fun a b i h => by
        obtain ⟨e, i1, i2, rfl, n, r⟩ := h
        obtain ⟨e1, e2⟩ := strs_read n.2 hx
        obtain ⟨e3, e4⟩ := ref_read r hx
        exact ⟨by rw [e1, e3, e], by rw [e2, e4]⟩) (fun _ => rfl) (fun _ => rfl)
  have c1 : columnsAt h' a.columns = cols := c1
  have hcon : constraintsAt h' a.constraints = con := by
    have p1 : (constraintsAt h' a.constraints).primaryKey = con.primaryKey := p1
    have u1 : (constraintsAt h' a.constraints).unique = con.unique := u1
    have k1 : (constraintsAt h' a.constraints).check = con.check := k1
    have f1 : (constraintsAt h' a.constraints).foreignKey = con.foreignKey := f1
    cases hk : constraintsAt h' a.constraints
    cases con
    rw [hk] at p1 u1 k1 f1
    simp only at p1 u1 k1 f1
    rw [p1, u1, k1, f1]
  refine ⟨?_, ?_⟩
  · unfold tableAt
    rw [c1, hcon]
  · unfold arraysOfTable
    rw [c2, p2, u2, k2, f2]
    simp only [List.append_assoc]

theorem tabs_read {h h' : Heap} {s ts ids} (hr : TabsR h s ts ids) (hx : Ext h h') :
    tablesAt h' s = ts ∧ arraysOf h' s = ids ∧ ∃ as is, tablesIn h' s = as ∧ ListR TabR h as ts is ∧ ids = arrs s ++ is := by
  obtain ⟨as, is, h1, h2, rfl⟩ := slice_cells hr.2 hx
  obtain ⟨h3, h4⟩ := listR_map (f := tableAt h') (arr := arraysOfTable h') (fun a b i h => tab_read h hx) h2
  have hin : tablesIn h' s = as := by
    unfold tablesIn
    rw [h1, List.filterMap_map]
    simp only [Function.comp_def, List.filterMap_some]
  refine ⟨?_, ?_, as, is, hin, h2, rfl⟩
  · unfold tablesAt
    rw [hin, h3]
  · unfold arraysOf
    rw [hin, h4]

theorem tokensOf_eq (h : Heap) (s : Option Sl) : tokensOf h s = strsAt h s := by
  cases s <;> rfl

/-- Parse in memory does what the model does. -/
theorem parse_mem [CaseMap] (g : Grow) (isNum : Str → Bool) (n : Nat) (h : Heap) (ddl : List Char) (d : Rdbms) :
    match parseN isNum n ddl d with
    | .ok (ts, e) => ∃ s h' ids, parseH g isNum n h ddl d = .ok ((s, e), h') ∧ TabsR h' s ts ids ∧ Post h [] h' ids
    | .err _ => False
    | .panic => parseH g isNum n h ddl d = .panic
    | .timeout => parseH g isNum n h ddl d = .timeout := by
  have toks : ∀ h toks, tokensOf (tokensH g h toks).2 (tokensH g h toks).1 = toks := by
    intro h toks
    obtain ⟨ids, h1, _⟩ := tokens_mem g h toks
    have h3 := (strs_read h1 (.refl _)).1
    rw [← tokensOf_eq] at h3
    exact h3
  unfold parseN parseH
  cases Lex.lexN d n ddl with
  | panic => rfl
  | timeout => rfl
  | err e =>
    obtain ⟨ids, h1, h2⟩ := empty_slice TabR .table h
    exact ⟨_, _, ids, rfl, ⟨rfl, h1⟩, h2⟩
  | ok tokens =>
    simp only [toks]
    have hp1 : Post h [] (tokensH g h tokens).2 [] := by
      obtain ⟨ids, _, h2⟩ := tokens_mem g h tokens
      exact h2.weaken (fun _ h => h) (by simp) List.nodup_nil
    cases validateN isNum d n tokens with
    | panic => rfl
    | timeout => rfl
    | err e =>
      obtain ⟨ids, h1, h2⟩ := empty_slice TabR .table (tokensH g h tokens).2
      exact ⟨_, _, ids, rfl, ⟨rfl, h1⟩, hp1.trans h2⟩
    | ok vts =>
      simp only [toks]
      have hp2 : Post h [] (tokensH g (tokensH g h tokens).2 vts).2 [] := by
        obtain ⟨ids, _, h2⟩ := tokens_mem g (tokensH g h tokens).2 vts
        exact hp1.trans (h2.weaken (fun _ h => h) (by simp) List.nodup_nil)
      unfold convertH convertN
      obtain ⟨ids, h1, h2⟩ := empty_slice TabR .table (tokensH g (tokensH g h tokens).2 vts).2
      have hm : Meets TabsR (tokensH g (tokensH g h tokens).2 vts).2 []
          ((Mem.empty.bind (convert g isNum d n)) (tokensH g (tokensH g h tokens).2 vts).2 vts) (C.convert isNum d n [] vts) :=
        Meets.empty h2 (convert_mem g isNum d n _ vts _ [] ids ⟨rfl, h1⟩ h2.nodup fun i hi => (h2.from_ i hi).1)
      cases hc : C.convert isNum d n [] vts with
      | panic =>
        rw [hc] at hm
        have hm : _ = MRes.panic := hm
        rw [hm]
      | timeout =>
        rw [hc] at hm
        have hm : _ = MRes.timeout := hm
        rw [hm]
      | ok ts r =>
        rw [hc] at hm
        obtain ⟨a, h', ids', e, hr, hp⟩ := hm
        rw [e]
        exact ⟨a, h', ids', rfl, hr, hp2.trans hp⟩

/-- ParseForce in memory does what the model does. -/
theorem force_mem [CaseMap] (g : Grow) (isNum : Str → Bool) (n : Nat) (ddl : List Char) : ∀ (ds : List Rdbms) (h : Heap),
    match parseForceLoop isNum n ddl ds with
    | .ok (ts, e) => ∃ s h' ids, parseForceLoopH g isNum n h ddl ds = .ok ((s, e), h') ∧ TabsR h' s ts ids ∧ Post h [] h' ids
    | .err _ => False
    | .panic => parseForceLoopH g isNum n h ddl ds = .panic
    | .timeout => parseForceLoopH g isNum n h ddl ds = .timeout
  | [], h => by
    obtain ⟨ids, h1, h2⟩ := empty_slice TabR .table h
    exact ⟨_, _, ids, rfl, ⟨rfl, h1⟩, h2⟩
  | d :: ds, h => by
    have hm := parse_mem g isNum n h ddl d
    unfold parseForceLoop parseForceLoopH
    cases hp : parseN isNum n ddl d with
    | ok r =>
      obtain ⟨ts, e⟩ := r
      rw [hp] at hm
      obtain ⟨s, h', ids, h1, h2, h3⟩ := hm
      rw [h1]
      cases e with
      | none => exact ⟨s, h', ids, rfl, h2, h3⟩
      | some e =>
        have ih := force_mem g isNum n ddl ds h'
        have h3 : Post h [] h' [] := h3.weaken (fun _ h => h) (by simp) List.nodup_nil
        simp only
        cases hq : parseForceLoop isNum n ddl ds with
        | ok r =>
          rw [hq] at ih
          obtain ⟨s, h'', ids, h4, h5, h6⟩ := ih
          exact ⟨s, h'', ids, h4, h5, h3.trans h6⟩
        | err _ => rw [hq] at ih; exact ih
        | panic => rw [hq] at ih; exact ih
        | timeout => rw [hq] at ih; exact ih
    | err _ => rw [hp] at hm; exact hm
    | panic => rw [hp] at hm; rw [hm]
    | timeout => rw [hp] at hm; rw [hm]

end DDL.Mem
