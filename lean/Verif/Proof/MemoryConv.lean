import Verif.Proof.Memory
/-
The functions of Model/Memory.lean do what those of Model/Converter.lean do, and share nothing.
-/

namespace DDL.Mem
open DDL.Spec

/-! ### kinds of values -/

/-- A slice of strings that is not nil. -/
def NamesR : Kind (Option Sl) (List Str) := fun h s xs ids => s.isSome = true ∧ SliceR (Plain Str) .str h s xs ids

theorem NamesR.framed : Framed NamesR := fun _ _ _ _ _ h ha => ⟨h.1, SliceR.framed Plain.framed _ _ _ _ _ h.2 ha⟩

def RefR : Kind MReference Reference := fun h a b ids => a.tableName = b.tableName ∧
  match b.columnNames with
  | none => a.columnNames = none ∧ ids = []
  | some xs => NamesR h a.columnNames xs ids

theorem RefR.framed : Framed RefR := by
  intro h h' a b ids hr ha
  obtain ⟨h1, h2⟩ := hr
  refine ⟨h1, ?_⟩
  cases hb : b.columnNames with
  | none => rw [hb] at h2; exact h2
  | some xs => rw [hb] at h2; exact NamesR.framed _ _ _ _ _ h2 ha

def ConR : Kind MConstraint Constraint := fun h a b ids => ∃ r, RefR h a.references r ids ∧
  b = { name := a.name, isPrimaryKey := a.isPrimaryKey, isUnique := a.isUnique, isNotNull := a.isNotNull,
        isAutoincrement := a.isAutoincrement, default := a.default, check := a.check, collate := a.collate, references := r }

theorem ConR.framed : Framed ConR := fun _ _ _ _ _ ⟨r, h1, h2⟩ ha => ⟨r, RefR.framed _ _ _ _ _ h1 ha, h2⟩

def ColR : Kind MColumn Column := fun h a b ids => ∃ c, ConR h a.constraint c ids ∧
  b = { name := a.name, dataType := a.dataType, constraint := c }

theorem ColR.framed : Framed ColR := fun _ _ _ _ _ ⟨r, h1, h2⟩ ha => ⟨r, ConR.framed _ _ _ _ _ h1 ha, h2⟩

def PkR : Kind MKey PrimaryKey := fun h a b ids => a.name = b.name ∧ NamesR h a.columnNames b.columnNames ids

theorem PkR.framed : Framed PkR := fun _ _ _ _ _ h ha => ⟨h.1, NamesR.framed _ _ _ _ _ h.2 ha⟩

def UqR : Kind MKey Unique := fun h a b ids => a.name = b.name ∧ NamesR h a.columnNames b.columnNames ids

theorem UqR.framed : Framed UqR := fun _ _ _ _ _ h ha => ⟨h.1, NamesR.framed _ _ _ _ _ h.2 ha⟩

def FkR : Kind MForeignKey ForeignKey := fun h a b ids => a.name = b.name ∧ ∃ i1 i2, ids = i1 ++ i2 ∧
  NamesR h a.columnNames b.columnNames i1 ∧ RefR h a.references b.references i2

theorem FkR.framed : Framed FkR := fun _ _ _ _ _ ⟨h1, i1, i2, e, h2, h3⟩ ha => ⟨h1, i1, i2, e,
  NamesR.framed _ _ _ _ _ h2 fun i hi => ha i (e ▸ List.mem_append_left _ hi),
  RefR.framed _ _ _ _ _ h3 fun i hi => ha i (e ▸ List.mem_append_right _ hi)⟩

/-- A slice that is nil when it has no elements. -/
def AccR (R : Kind α β) (mk : α → Cell) : Kind (Option Sl) (List β) := fun h s bs ids =>
  SliceR R mk h s bs ids ∧ (bs = [] → s = none)

theorem AccR.framed {R : Kind α β} {mk} (hf : Framed R) : Framed (AccR R mk) := fun _ _ _ _ _ h ha =>
  ⟨SliceR.framed hf _ _ _ _ _ h.1 ha, h.2⟩

theorem AccR.none {R : Kind α β} {mk} {h : Heap} : AccR R mk h none [] [] := ⟨⟨rfl, rfl⟩, fun _ => rfl⟩

def ColsR : Kind (Option Sl) (List Column) := AccR ColR .column

theorem ColsR.framed : Framed ColsR := AccR.framed ColR.framed

def TcR : Kind MTableConstraint TableConstraint := fun h a b ids => ∃ i1 i2 i3 i4, ids = i1 ++ (i2 ++ (i3 ++ i4)) ∧
  AccR PkR .primaryKey h a.primaryKey b.primaryKey i1 ∧ AccR UqR .unique h a.unique b.unique i2 ∧
  AccR (Plain Check) .check h a.check b.check i3 ∧ AccR FkR .foreignKey h a.foreignKey b.foreignKey i4

theorem TcR.framed : Framed TcR := by
  rintro h h' a b ids ⟨i1, i2, i3, i4, rfl, h1, h2, h3, h4⟩ ha
  exact ⟨i1, i2, i3, i4, rfl, AccR.framed PkR.framed _ _ _ _ _ h1 fun i hi => ha i (by simp [hi]),
    AccR.framed UqR.framed _ _ _ _ _ h2 fun i hi => ha i (by simp [hi]),
    AccR.framed Plain.framed _ _ _ _ _ h3 fun i hi => ha i (by simp [hi]),
    AccR.framed FkR.framed _ _ _ _ _ h4 fun i hi => ha i (by simp [hi])⟩

/-- The columns and constraints of a table. -/
def DefR : Kind (Option Sl × MTableConstraint) (List Column × TableConstraint) := fun h a b ids => ∃ i1 i2, ids = i1 ++ i2 ∧
  ColsR h a.1 b.1 i1 ∧ TcR h a.2 b.2 i2

def TabR : Kind MTable Table := fun h a b ids => ∃ cols con, DefR h (a.columns, a.constraints) (cols, con) ids ∧
  b = { schema := a.schema, name := a.name, ifNotExists := a.ifNotExists, columns := cols, constraints := con }

theorem DefR.framed : Framed DefR := fun _ _ _ _ _ ⟨i1, i2, e, h2, h3⟩ ha => ⟨i1, i2, e,
  ColsR.framed _ _ _ _ _ h2 fun i hi => ha i (e ▸ List.mem_append_left _ hi),
  TcR.framed _ _ _ _ _ h3 fun i hi => ha i (e ▸ List.mem_append_right _ hi)⟩

theorem TabR.framed : Framed TabR := fun _ _ _ _ _ ⟨c, t, h1, h2⟩ ha => ⟨c, t, DefR.framed _ _ _ _ _ h1 ha, h2⟩

def TabsR : Kind (Option Sl) (List Table) := fun h s ts ids => s.isSome = true ∧ SliceR TabR .table h s ts ids

theorem TabsR.framed : Framed TabsR := fun _ _ _ _ _ h ha => ⟨h.1, SliceR.framed TabR.framed _ _ _ _ _ h.2 ha⟩

/-! ### functions -/

theorem Meets.post {R : Kind α β} {h h1 : Heap} {i0 i1 : List Nat} {m : MRes α} {p : CRes β} (hp : Post h i0 h1 i1)
    (hm : Meets R h1 i1 m p) : Meets R h i0 m p := by
  cases p with
  | ok b r =>
    obtain ⟨a, h', ids, e, hr, hp'⟩ := hm
    exact ⟨a, h', ids, e, hr, hp.trans hp'⟩
  | panic => exact hm
  | timeout => exact hm

theorem Meets.append {R : Kind α β} {g : Grow} {s : Option Sl} {c : Cell} {k : Option Sl → MM α} {h : Heap} {i0 i1 : List Nat}
    {r : List Str} {p : CRes β} (hp : Post h i0 (appendH g h s c).2 i1)
    (hm : Meets R (appendH g h s c).2 i1 (k (appendH g h s c).1 (appendH g h s c).2 r) p) :
    Meets R h i0 (((append g s c).bind k) h r) p := Meets.post hp hm

theorem Meets.empty {R : Kind α β} {k : Option Sl → MM α} {h : Heap} {i0 i1 : List Nat}
    {r : List Str} {p : CRes β} (hp : Post h i0 (emptyH h).2 i1)
    (hm : Meets R (emptyH h).2 i1 (k (emptyH h).1 (emptyH h).2 r) p) :
    Meets R h i0 ((Mem.empty.bind k) h r) p := Meets.post hp hm

theorem appendH_isSome (g : Grow) (h : Heap) (s : Option Sl) (c : Cell) : (appendH g h s c).1.isSome = true := by
  unfold appendH alloc
  cases s with
  | none => rfl
  | some s => by_cases hc : s.len < s.cap <;> simp [hc]

theorem Meets.skip {R : Kind α β} {h : Heap} {ids : List Nat} {k : Unit → MM α} {q : Unit → CM β} {s : List Str}
    (hk : ∀ c r, Meets R h ids (k c h r) (q c r)) :
    Meets R h ids ((Mem.skip.bind k) h s) ((C.skip.bind q) s) := Meets.lift hk

theorem names_loop (g : Grow) : ∀ (n : Nat) (h : Heap) (s : List Str) (ls : Option Sl) (xs : List Str) (ids : List Nat),
    NamesR h ls xs ids → ids.Nodup → (∀ i ∈ ids, i < h.length) →
    Meets NamesR h ids (columnNamesLoop g n ls h s) (C.columnNamesLoop n xs s)
  | 0, _, _, _, _, _, _, _, _ => rfl
  | n + 1, h, s, ls, xs, ids, hr, hn, hl => by
    unfold columnNamesLoop C.columnNamesLoop
    refine Meets.ifM (fun r => meets_pure hr hn hl) fun r => Meets.ifM (fun r => ?_) fun r => ?_
    · exact Meets.skip fun _ r => names_loop g n h r ls xs ids hr hn hl
    · refine Meets.lift fun t r => ?_
      obtain ⟨i1, h1, h2⟩ := append_slice Plain.framed g (a := t) (b := t) (ie := []) hr.2 ⟨rfl, rfl⟩ (by simpa using hn)
        (by simpa using hl)
      rw [List.append_nil] at h2
      exact Meets.append h2 (Meets.skip fun _ r => names_loop g n _ r _ _ _ ⟨appendH_isSome .., h1⟩ h2.nodup
        fun i hi => (h2.from_ i hi).1)

theorem names_mem (g : Grow) (n : Nat) (h : Heap) (s : List Str) :
    Meets NamesR h [] (convertCommaSeparatedColumnNames g n h s) (C.convertCommaSeparatedColumnNames n s) := by
  unfold convertCommaSeparatedColumnNames C.convertCommaSeparatedColumnNames
  refine Meets.skip fun _ r => ?_
  obtain ⟨ids, h1, h2⟩ := empty_slice (Plain Str) .str h
  refine Meets.empty h2 ?_
  refine Meets.bind (names_loop g n _ _ _ _ _ ⟨rfl, h1⟩ h2.nodup fun i hi => (h2.from_ i hi).1) ?_
  intro a b h' ids r hr hp
  exact Meets.skip fun _ r => meets_pure hr hp.nodup fun i hi => (hp.from_ i hi).1

theorem reference_mem (g : Grow) (d : Rdbms) (n : Nat) (h : Heap) (s : List Str) :
    Meets RefR h [] (convertReference g d n h s) (C.convertReference d n s) := by
  unfold convertReference C.convertReference
  refine Meets.skip fun _ r => Meets.lift fun t r => Meets.ifM (fun r => ?_) fun r => ?_
  · refine Meets.bind (names_mem g n h r) ?_
    intro a b h' ids r hr hp
    exact meets_pure ⟨rfl, hr⟩ hp.nodup fun i hi => (hp.from_ i hi).1
  · exact meets_pure ⟨rfl, rfl, rfl⟩ List.nodup_nil (by simp)

theorem constraint_loop [CaseMap] (g : Grow) (isNum : Str → Bool) (d : Rdbms) :
    ∀ (n : Nat) (h : Heap) (s : List Str) (c : MConstraint) (c' : Constraint) (ids : List Nat),
    ConR h c c' ids → ids.Nodup → (∀ i ∈ ids, i < h.length) →
    Meets ConR h ids (convertConstraintAux g isNum d n c h s) (C.convertConstraintAux isNum d n c' s)
  | 0, _, _, _, _, _, _, _, _ => rfl
  | n + 1, h, s, c, c', ids, hr, hn, hl => by
    unfold convertConstraintAux C.convertConstraintAux
    have ih := fun h r c c' ids => constraint_loop g isNum d n h r c c' ids
    refine Meets.ifM (fun r => meets_pure hr hn hl) fun r => ?_
    obtain ⟨rf, h1, rfl⟩ := hr
    refine Meets.ifM (fun r => ?_) fun r => ?_
    · exact Meets.skip fun _ r => Meets.skip fun _ r => ih _ _ _ _ _ ⟨rf, h1, rfl⟩ hn hl
    refine Meets.ifM (fun r => ?_) fun r => ?_
    · exact Meets.skip fun _ r => ih _ _ _ _ _ ⟨rf, h1, rfl⟩ hn hl
    refine Meets.ifM (fun r => ?_) fun r => ?_
    · exact Meets.skip fun _ r => Meets.skip fun _ r => ih _ _ _ _ _ ⟨rf, h1, rfl⟩ hn hl
    refine Meets.ifM (fun r => ?_) fun r => ?_
    · exact Meets.skip fun _ r => ih _ _ _ _ _ ⟨rf, h1, rfl⟩ hn hl
    refine Meets.ifM (fun r => ?_) fun r => ?_
    · exact Meets.skip fun _ r => Meets.lift fun v r => ih _ _ _ _ _ ⟨rf, h1, rfl⟩ hn hl
    refine Meets.ifM (fun r => ?_) fun r => ?_
    · exact Meets.skip fun _ r => Meets.lift fun v r => ih _ _ _ _ _ ⟨rf, h1, rfl⟩ hn hl
    refine Meets.ifM (fun r => ?_) fun r => ?_
    · exact Meets.skip fun _ r => Meets.lift fun v r => ih _ _ _ _ _ ⟨rf, h1, rfl⟩ hn hl
    refine Meets.ifM (fun r => ?_) fun r => ?_
    · refine Meets.give (i0 := []) ?_ (by simp)
      refine Meets.bind (reference_mem g d n h r) ?_
      intro a b h' ids r hr hp
      exact ih _ _ _ _ _ ⟨b, hr, rfl⟩ hp.nodup fun i hi => (hp.from_ i hi).1
    · exact meets_pure ⟨rf, h1, rfl⟩ hn hl

theorem constraint_mem [CaseMap] (g : Grow) (isNum : Str → Bool) (d : Rdbms) (n : Nat) (h : Heap) (s : List Str) :
    Meets ConR h [] (convertConstraint g isNum d n h s) (C.convertConstraint isNum d n s) := by
  unfold convertConstraint C.convertConstraint
  refine Meets.bind (R := Plain Str) ?_ ?_
  · refine Meets.ifM (fun r => Meets.skip fun _ r => Meets.ifM (fun r => ?_) fun r => meets_lift ..) fun r => ?_
    · exact meets_pure ⟨rfl, rfl⟩ List.nodup_nil (by simp)
    · exact meets_pure ⟨rfl, rfl⟩ List.nodup_nil (by simp)
  · rintro a b h' ids r ⟨rfl, rfl⟩ hp
    exact constraint_loop g isNum d n _ _ _ _ _ ⟨{}, ⟨rfl, rfl, rfl⟩, rfl⟩ List.nodup_nil (by simp)

theorem column_mem [CaseMap] (g : Grow) (isNum : Str → Bool) (d : Rdbms) (n : Nat) (h : Heap) (s : List Str) :
    Meets ColR h [] (convertColumnDefinition g isNum d n h s) (C.convertColumnDefinition isNum d n s) := by
  unfold convertColumnDefinition C.convertColumnDefinition
  refine Meets.lift fun name r => Meets.lift fun dt r => Meets.bind (constraint_mem g isNum d n h r) ?_
  intro a b h' ids r hr hp
  exact meets_pure ⟨b, hr, rfl⟩ hp.nodup fun i hi => (hp.from_ i hi).1

end DDL.Mem
