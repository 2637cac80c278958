import Verif.Proof.Conc
/-
The functions of Model/Concurrent.lean do what those of Model/Converter.lean do, with arrays of their own. As in
Proof/MemoryConv.lean and Proof/MemoryTable.lean.
-/

namespace DDL.Conc
open DDL.Spec Mem

/-! ### kinds of values -/

/-- A slice of strings that is not nil. -/
def NamesR : Kind (Option Sl) (List Str) := fun h s xs ids => s.isSome = true ∧ SliceR (Plain Str) .str h s xs ids

theorem NamesR.framed : Framed NamesR := fun _ _ _ _ _ h ha => ⟨h.1, SliceR.framed Plain.framed _ _ _ _ _ h.2 ha⟩

def RefR : Kind MReference Reference := fun h a b ids => a.tableName = b.tableName ∧
  match b.columnNames with
  | none => a.columnNames = none ∧ ids = []
  | some xs => NamesR h a.columnNames xs ids

theorem RefR.framed : Framed RefR := by
  intro h h' a b ids hr ha
  obtain ⟨h1, h2⟩ := hr
  refine ⟨h1, ?_⟩
  cases hb : b.columnNames with
  | none => rw [hb] at h2; exact h2
  | some xs => rw [hb] at h2; exact NamesR.framed _ _ _ _ _ h2 ha

def ConR : Kind MConstraint Constraint := fun h a b ids => ∃ r, RefR h a.references r ids ∧
  b = { name := a.name, isPrimaryKey := a.isPrimaryKey, isUnique := a.isUnique, isNotNull := a.isNotNull,
        isAutoincrement := a.isAutoincrement, default := a.default, check := a.check, collate := a.collate, references := r }

theorem ConR.framed : Framed ConR := fun _ _ _ _ _ ⟨r, h1, h2⟩ ha => ⟨r, RefR.framed _ _ _ _ _ h1 ha, h2⟩

def ColR : Kind MColumn Column := fun h a b ids => ∃ c, ConR h a.constraint c ids ∧
  b = { name := a.name, dataType := a.dataType, constraint := c }

theorem ColR.framed : Framed ColR := fun _ _ _ _ _ ⟨r, h1, h2⟩ ha => ⟨r, ConR.framed _ _ _ _ _ h1 ha, h2⟩

def PkR : Kind MKey PrimaryKey := fun h a b ids => a.name = b.name ∧ NamesR h a.columnNames b.columnNames ids

theorem PkR.framed : Framed PkR := fun _ _ _ _ _ h ha => ⟨h.1, NamesR.framed _ _ _ _ _ h.2 ha⟩

def UqR : Kind MKey Unique := fun h a b ids => a.name = b.name ∧ NamesR h a.columnNames b.columnNames ids

theorem UqR.framed : Framed UqR := fun _ _ _ _ _ h ha => ⟨h.1, NamesR.framed _ _ _ _ _ h.2 ha⟩

def FkR : Kind MForeignKey ForeignKey := fun h a b ids => a.name = b.name ∧ ∃ i1 i2, ids = i1 ++ i2 ∧
  NamesR h a.columnNames b.columnNames i1 ∧ RefR h a.references b.references i2

theorem FkR.framed : Framed FkR := fun _ _ _ _ _ ⟨h1, i1, i2, e, h2, h3⟩ ha => ⟨h1, i1, i2, e,
  NamesR.framed _ _ _ _ _ h2 fun i hi => ha i (e ▸ List.mem_append_left _ hi),
  RefR.framed _ _ _ _ _ h3 fun i hi => ha i (e ▸ List.mem_append_right _ hi)⟩

/-- A slice that is nil when it has no elements. -/
def AccR (R : Kind α β) (mk : α → Cell) : Kind (Option Sl) (List β) := fun h s bs ids =>
  SliceR R mk h s bs ids ∧ (bs = [] → s = none)

theorem AccR.framed {R : Kind α β} {mk} (hf : Framed R) : Framed (AccR R mk) := fun _ _ _ _ _ h ha =>
  ⟨SliceR.framed hf _ _ _ _ _ h.1 ha, h.2⟩

theorem AccR.none {R : Kind α β} {mk} {h : View} : AccR R mk h none [] [] := ⟨⟨rfl, rfl⟩, fun _ => rfl⟩

def ColsR : Kind (Option Sl) (List Column) := AccR ColR .column

theorem ColsR.framed : Framed ColsR := AccR.framed ColR.framed

def TcR : Kind MTableConstraint TableConstraint := fun h a b ids => ∃ i1 i2 i3 i4, ids = i1 ++ (i2 ++ (i3 ++ i4)) ∧
  AccR PkR .primaryKey h a.primaryKey b.primaryKey i1 ∧ AccR UqR .unique h a.unique b.unique i2 ∧
  AccR (Plain Check) .check h a.check b.check i3 ∧ AccR FkR .foreignKey h a.foreignKey b.foreignKey i4

theorem TcR.framed : Framed TcR := by
  rintro h h' a b ids ⟨i1, i2, i3, i4, rfl, h1, h2, h3, h4⟩ ha
  exact ⟨i1, i2, i3, i4, rfl, AccR.framed PkR.framed _ _ _ _ _ h1 fun i hi => ha i (by simp [hi]),
    AccR.framed UqR.framed _ _ _ _ _ h2 fun i hi => ha i (by simp [hi]),
    AccR.framed Plain.framed _ _ _ _ _ h3 fun i hi => ha i (by simp [hi]),
    AccR.framed FkR.framed _ _ _ _ _ h4 fun i hi => ha i (by simp [hi])⟩

/-- The columns and constraints of a table. -/
def DefR : Kind (Option Sl × MTableConstraint) (List Column × TableConstraint) := fun h a b ids => ∃ i1 i2, ids = i1 ++ i2 ∧
  ColsR h a.1 b.1 i1 ∧ TcR h a.2 b.2 i2

def TabR : Kind MTable Table := fun h a b ids => ∃ cols con, DefR h (a.columns, a.constraints) (cols, con) ids ∧
  b = { schema := a.schema, name := a.name, ifNotExists := a.ifNotExists, columns := cols, constraints := con }

theorem DefR.framed : Framed DefR := fun _ _ _ _ _ ⟨i1, i2, e, h2, h3⟩ ha => ⟨i1, i2, e,
  ColsR.framed _ _ _ _ _ h2 fun i hi => ha i (e ▸ List.mem_append_left _ hi),
  TcR.framed _ _ _ _ _ h3 fun i hi => ha i (e ▸ List.mem_append_right _ hi)⟩

theorem TabR.framed : Framed TabR := fun _ _ _ _ _ ⟨c, t, h1, h2⟩ ha => ⟨c, t, DefR.framed _ _ _ _ _ h1 ha, h2⟩

def TabsR : Kind (Option Sl) (List Table) := fun h s ts ids => s.isSome = true ∧ SliceR TabR .table h s ts ids

theorem TabsR.framed : Framed TabsR := fun _ _ _ _ _ h ha => ⟨h.1, SliceR.framed TabR.framed _ _ _ _ _ h.2 ha⟩

/-! ### functions -/

theorem names_loop (g : Room) : ∀ (n : Nat) (h : View) (s : List Str) (ls : Option Sl) (xs : List Str) (ids : List Nat),
    NamesR h ls xs ids → ids.Nodup → (∀ i ∈ ids, h i ≠ none) →
    Meets NamesR h ids (columnNamesLoop g n ls s) (C.columnNamesLoop n xs s)
  | 0, _, _, _, _, _, _, _, _ => rfl
  | n + 1, h, s, ls, xs, ids, hr, hn, hl => by
    unfold columnNamesLoop C.columnNamesLoop
    refine Meets.ifM (fun r => meets_pure hr hn hl) fun r => Meets.ifM (fun r => ?_) fun r => ?_
    · exact Meets.skip fun _ r => names_loop g n h r ls xs ids hr hn hl
    · refine Meets.lift fun t r => ?_
      refine Meets.append (append_slice Plain.framed g (a := t) (b := t) (ie := []) hr.2 ⟨rfl, rfl⟩ (by simpa using hn)
        (by simpa using hl)) ?_
      rintro s' h' ⟨hs, i1, h1, h2⟩
      rw [List.append_nil] at h2
      exact ⟨i1, h2, Meets.skip fun _ r => names_loop g n _ r _ _ _ ⟨hs, h1⟩ h2.nodup fun i hi => (h2.from_ i hi).1⟩

theorem names_mem (g : Room) (n : Nat) (h : View) (s : List Str) :
    Meets NamesR h [] (convertCommaSeparatedColumnNames g n s) (C.convertCommaSeparatedColumnNames n s) := by
  unfold convertCommaSeparatedColumnNames C.convertCommaSeparatedColumnNames
  refine Meets.skip fun _ r => ?_
  refine Meets.empty (empty_slice (Plain Str) .str h) ?_
  rintro s' h' ⟨hs, ids, h1, h2⟩
  refine ⟨ids, h2, ?_⟩
  refine Meets.bind (names_loop g n _ _ _ _ _ ⟨hs, h1⟩ h2.nodup fun i hi => (h2.from_ i hi).1) ?_
  intro a b h' ids r hr hp
  exact Meets.skip fun _ r => meets_pure hr hp.nodup fun i hi => (hp.from_ i hi).1

theorem reference_mem (g : Room) (d : Rdbms) (n : Nat) (h : View) (s : List Str) :
    Meets RefR h [] (convertReference g d n s) (C.convertReference d n s) := by
  unfold convertReference C.convertReference
  refine Meets.skip fun _ r => Meets.lift fun t r => Meets.ifM (fun r => ?_) fun r => ?_
  · refine Meets.bind (names_mem g n h r) ?_
    intro a b h' ids r hr hp
    exact meets_pure ⟨rfl, hr⟩ hp.nodup fun i hi => (hp.from_ i hi).1
  · exact meets_pure ⟨rfl, rfl, rfl⟩ List.nodup_nil (by simp)

theorem constraint_loop [CaseMap] (g : Room) (isNum : Str → Bool) (d : Rdbms) :
    ∀ (n : Nat) (h : View) (s : List Str) (c : MConstraint) (c' : Constraint) (ids : List Nat),
    ConR h c c' ids → ids.Nodup → (∀ i ∈ ids, h i ≠ none) →
    Meets ConR h ids (convertConstraintAux g isNum d n c s) (C.convertConstraintAux isNum d n c' s)
  | 0, _, _, _, _, _, _, _, _ => rfl
  | n + 1, h, s, c, c', ids, hr, hn, hl => by
    unfold convertConstraintAux C.convertConstraintAux
    have ih := fun h r c c' ids => constraint_loop g isNum d n h r c c' ids
    refine Meets.ifM (fun r => meets_pure hr hn hl) fun r => ?_
    obtain ⟨rf, h1, rfl⟩ := hr
    refine Meets.ifM (fun r => ?_) fun r => ?_
    · exact Meets.skip fun _ r => Meets.skip fun _ r => ih _ _ _ _ _ ⟨rf, h1, rfl⟩ hn hl
    refine Meets.ifM (fun r => ?_) fun r => ?_
    · exact Meets.skip fun _ r => ih _ _ _ _ _ ⟨rf, h1, rfl⟩ hn hl
    refine Meets.ifM (fun r => ?_) fun r => ?_
    · exact Meets.skip fun _ r => Meets.skip fun _ r => ih _ _ _ _ _ ⟨rf, h1, rfl⟩ hn hl
    refine Meets.ifM (fun r => ?_) fun r => ?_
    · exact Meets.skip fun _ r => ih _ _ _ _ _ ⟨rf, h1, rfl⟩ hn hl
    refine Meets.ifM (fun r => ?_) fun r => ?_
    · exact Meets.skip fun _ r => Meets.lift fun v r => ih _ _ _ _ _ ⟨rf, h1, rfl⟩ hn hl
    refine Meets.ifM (fun r => ?_) fun r => ?_
    · exact Meets.skip fun _ r => Meets.lift fun v r => ih _ _ _ _ _ ⟨rf, h1, rfl⟩ hn hl
    refine Meets.ifM (fun r => ?_) fun r => ?_
    · exact Meets.skip fun _ r => Meets.lift fun v r => ih _ _ _ _ _ ⟨rf, h1, rfl⟩ hn hl
    refine Meets.ifM (fun r => ?_) fun r => ?_
    · refine Meets.give (i0 := []) ?_ (by simp)
      refine Meets.bind (reference_mem g d n h r) ?_
      intro a b h' ids r hr hp
      exact ih _ _ _ _ _ ⟨b, hr, rfl⟩ hp.nodup fun i hi => (hp.from_ i hi).1
    · exact meets_pure ⟨rf, h1, rfl⟩ hn hl

theorem constraint_mem [CaseMap] (g : Room) (isNum : Str → Bool) (d : Rdbms) (n : Nat) (h : View) (s : List Str) :
    Meets ConR h [] (convertConstraint g isNum d n s) (C.convertConstraint isNum d n s) := by
  unfold convertConstraint C.convertConstraint
  refine Meets.bind (R := Plain Str) ?_ ?_
  · refine Meets.ifM (fun r => Meets.skip fun _ r => Meets.ifM (fun r => ?_) fun r => meets_lift ..) fun r => ?_
    · exact meets_pure ⟨rfl, rfl⟩ List.nodup_nil (by simp)
    · exact meets_pure ⟨rfl, rfl⟩ List.nodup_nil (by simp)
  · rintro a b h' ids r ⟨rfl, rfl⟩ hp
    exact constraint_loop g isNum d n _ _ _ _ _ ⟨{}, ⟨rfl, rfl, rfl⟩, rfl⟩ List.nodup_nil (by simp)

theorem column_mem [CaseMap] (g : Room) (isNum : Str → Bool) (d : Rdbms) (n : Nat) (h : View) (s : List Str) :
    Meets ColR h [] (convertColumnDefinition g isNum d n s) (C.convertColumnDefinition isNum d n s) := by
  unfold convertColumnDefinition C.convertColumnDefinition
  refine Meets.lift fun name r => Meets.lift fun dt r => Meets.bind (constraint_mem g isNum d n h r) ?_
  intro a b h' ids r hr hp
  exact meets_pure ⟨b, hr, rfl⟩ hp.nodup fun i hi => (hp.from_ i hi).1

/-- `append` to one slice among others. -/
theorem append_frame {R : Kind α β} {mk} (hf : Framed R) (g : Room) {h : View} {s : Option Sl} {bs : List β} {i0 : List Nat}
    {a : α} {b : β} {ie : List Nat} (F : List Nat) (hs : AccR R mk h s bs i0) (he : R h a b ie)
    (hn : (F ++ (i0 ++ ie)).Nodup) (hl : ∀ i ∈ F ++ (i0 ++ ie), h i ≠ none) :
    WP (fun s' h' => ∃ ids, AccR R mk h' s' (bs ++ [b]) ids ∧ Post h (F ++ (i0 ++ ie)) h' (F ++ ids) ∧ Agree F h h')
      (appendG g s (mk a)) h := by
  refine WP.imp (fun s' h' hq => ?_) _ _ (append_slice hf g hs.1 he (List.nodup_append.1 hn).2.1 fun i hi => hl i (List.mem_append_right _ hi))
  obtain ⟨_, ids, h1, h2⟩ := hq
  have := h2.frame hn fun i hi => hl i (List.mem_append_left _ hi)
  exact ⟨ids, ⟨h1, by simp⟩, this.1, this.2⟩

theorem tableConstraint_mem (g : Room) (d : Rdbms) (n : Nat) (h : View) (s : List Str) (tc : MTableConstraint)
    (tc' : TableConstraint) (ids : List Nat) (hr : TcR h tc tc' ids) (hn : ids.Nodup) (hl : ∀ i ∈ ids, h i ≠ none) :
    Meets TcR h ids (convertTableConstraint g d n tc s) (C.convertTableConstraint d n tc' s) := by
  unfold convertTableConstraint C.convertTableConstraint
  have hname : Meets (Plain Str) h [] ((ifM (C.matchToken ["CONSTRAINT"])
      (skip.bind fun _ =>
        ifM (C.matchToken ["PRIMARY", "UNIQUE", "CHECK", "FOREIGN"]) (GM.pure []) (GM.lift (C.convertName d)))
      (GM.pure [])) s) ((C.ifM (C.matchToken ["CONSTRAINT"])
      (C.skip.bind fun _ =>
        C.ifM (C.matchToken ["PRIMARY", "UNIQUE", "CHECK", "FOREIGN"]) (CM.pure []) (C.convertName d))
      (CM.pure [])) s) := by
    refine Meets.ifM (fun r => Meets.skip fun _ r => Meets.ifM (fun r => ?_) fun r => meets_lift ..) fun r => ?_
    · exact meets_pure ⟨rfl, rfl⟩ List.nodup_nil (by simp)
    · exact meets_pure ⟨rfl, rfl⟩ List.nodup_nil (by simp)
  replace hname := hname.frame (F := ids) (by simpa using hn) hl
  rw [List.append_nil] at hname
  refine Meets.bind hname ?_
  rintro name _ h1 _ r ⟨_, rfl, ⟨rfl, rfl⟩, hag⟩ hp
  rw [List.append_nil]
  have hr1 := TcR.framed _ _ _ _ _ hr hag
  have hl1 : ∀ i ∈ ids, h1 i ≠ none := fun i hi => hp.le i (hl i hi)
  clear hname hr hl hag hp s h
  have names : ∀ s, Meets (fun h' a b ids' => ∃ ie, ids' = ids ++ ie ∧ NamesR h' a b ie ∧ TcR h' tc tc' ids) h1 ids
      (convertCommaSeparatedColumnNames g n s) (C.convertCommaSeparatedColumnNames n s) := by
    intro s
    have := (names_mem g n h1 s).frame (F := ids) (by simpa using hn) hl1
    rw [List.append_nil] at this
    refine this.imp ?_
    rintro h' a b _ ⟨ie, rfl, hr, hag⟩ hp
    exact ⟨_, ⟨ie, rfl, hr, TcR.framed _ _ _ _ _ hr1 hag⟩, hp⟩
  refine Meets.ifM (fun r => ?_) fun r => Meets.ifM (fun r => ?_) fun r => Meets.ifM (fun r => ?_) fun r =>
    Meets.ifM (fun r => ?_) fun r => ?_
  · refine Meets.skip fun _ r => Meets.skip fun _ r => Meets.bind (names r) ?_
    rintro cs cs' h2 _ r ⟨ie, rfl, hcs, i1, i2, i3, i4, rfl, t1, t2, t3, t4⟩ hp
    refine Meets.append (append_frame PkR.framed g (a := ⟨name, cs⟩) (b := ⟨name, cs'⟩) (i2 ++ (i3 ++ i4)) t1 ⟨rfl, hcs⟩
      (nodup_perm hp.nodup (by counts)) (fun i hi => (hp.from_ i (mem_perm (by counts) hi)).1)) ?_
    rintro l hA ⟨i1', a1, a2, a3⟩
    have a2' := a2.perm (i0' := i1 ++ (i2 ++ (i3 ++ i4)) ++ ie) (i1' := i1' ++ (i2 ++ (i3 ++ i4))) (by counts) (by counts)
    refine ⟨_, a2', meets_pure ⟨i1', i2, i3, i4, rfl, a1, ?_, ?_, ?_⟩ a2'.nodup fun i hi => (a2'.from_ i hi).1⟩
    · exact AccR.framed UqR.framed _ _ _ _ _ t2 (a3.sub fun i hi => by simp [hi])
    · exact AccR.framed Plain.framed _ _ _ _ _ t3 (a3.sub fun i hi => by simp [hi])
    · exact AccR.framed FkR.framed _ _ _ _ _ t4 (a3.sub fun i hi => by simp [hi])
  · refine Meets.skip fun _ r => Meets.bind (names r) ?_
    rintro cs cs' h2 _ r ⟨ie, rfl, hcs, i1, i2, i3, i4, rfl, t1, t2, t3, t4⟩ hp
    refine Meets.append (append_frame UqR.framed g (a := ⟨name, cs⟩) (b := ⟨name, cs'⟩) (i1 ++ (i3 ++ i4)) t2 ⟨rfl, hcs⟩
      (nodup_perm hp.nodup (by counts)) (fun i hi => (hp.from_ i (mem_perm (by counts) hi)).1)) ?_
    rintro l hA ⟨i2', a1, a2, a3⟩
    have a2' := a2.perm (i0' := i1 ++ (i2 ++ (i3 ++ i4)) ++ ie) (i1' := i1 ++ (i2' ++ (i3 ++ i4))) (by counts) (by counts)
    refine ⟨_, a2', meets_pure ⟨i1, i2', i3, i4, rfl, ?_, a1, ?_, ?_⟩ a2'.nodup fun i hi => (a2'.from_ i hi).1⟩
    · exact AccR.framed PkR.framed _ _ _ _ _ t1 (a3.sub fun i hi => by simp [hi])
    · exact AccR.framed Plain.framed _ _ _ _ _ t3 (a3.sub fun i hi => by simp [hi])
    · exact AccR.framed FkR.framed _ _ _ _ _ t4 (a3.sub fun i hi => by simp [hi])
  · refine Meets.skip fun _ r => Meets.lift fun e r => ?_
    obtain ⟨i1, i2, i3, i4, rfl, t1, t2, t3, t4⟩ := hr1
    refine Meets.append (append_frame Plain.framed g (a := (⟨name, e⟩ : Check)) (b := ⟨name, e⟩) (ie := [])
      (i1 ++ (i2 ++ i4)) t3 ⟨rfl, rfl⟩
      (nodup_perm hn (by intro i; simp only [List.count_append, List.count_nil]; omega))
      (fun i hi => hl1 i (mem_perm (by intro i; simp only [List.count_append, List.count_nil]; omega) hi))) ?_
    rintro l hA ⟨i3', a1, a2, a3⟩
    have a2' := a2.perm (i0' := i1 ++ (i2 ++ (i3 ++ i4))) (i1' := i1 ++ (i2 ++ (i3' ++ i4)))
      (by intro i; simp only [List.count_append, List.count_nil]; omega) (by counts)
    refine ⟨_, a2', meets_pure ⟨i1, i2, i3', i4, rfl, ?_, ?_, a1, ?_⟩ a2'.nodup fun i hi => (a2'.from_ i hi).1⟩
    · exact AccR.framed PkR.framed _ _ _ _ _ t1 (a3.sub fun i hi => by simp [hi])
    · exact AccR.framed UqR.framed _ _ _ _ _ t2 (a3.sub fun i hi => by simp [hi])
    · exact AccR.framed FkR.framed _ _ _ _ _ t4 (a3.sub fun i hi => by simp [hi])
  · refine Meets.skip fun _ r => Meets.skip fun _ r => Meets.bind (names r) ?_
    rintro cs cs' h2 _ r ⟨ie, rfl, hcs, htc⟩ hp
    have hrf := (reference_mem g d n h2 r).frame (F := ids ++ ie) (by simpa using hp.nodup) fun i hi => (hp.from_ i hi).1
    rw [List.append_nil] at hrf
    refine Meets.bind hrf ?_
    rintro rf rf' h3 _ r ⟨ir, rfl, hrr, hag⟩ hp3
    have hcs := NamesR.framed _ _ _ _ _ hcs (hag.sub fun i hi => by simp [hi])
    obtain ⟨i1, i2, i3, i4, rfl, t1, t2, t3, t4⟩ := TcR.framed _ _ _ _ _ htc (hag.sub fun i hi => by simp [hi])
    refine Meets.append (append_frame FkR.framed g (a := ⟨name, cs, rf⟩) (b := ⟨name, cs', rf'⟩) (ie := ie ++ ir)
      (i1 ++ (i2 ++ i3)) t4 ⟨rfl, ie, ir, rfl, hcs, hrr⟩
      (nodup_perm hp3.nodup (by counts)) (fun i hi => (hp3.from_ i (mem_perm (by counts) hi)).1)) ?_
    rintro l hA ⟨i4', a1, a2, a3⟩
    have a2' := a2.perm (i0' := i1 ++ (i2 ++ (i3 ++ i4)) ++ ie ++ ir) (i1' := i1 ++ (i2 ++ (i3 ++ i4'))) (by counts) (by counts)
    refine ⟨_, a2', meets_pure ⟨i1, i2, i3, i4', rfl, ?_, ?_, ?_, a1⟩ a2'.nodup fun i hi => (a2'.from_ i hi).1⟩
    · exact AccR.framed PkR.framed _ _ _ _ _ t1 (a3.sub fun i hi => by simp [hi])
    · exact AccR.framed UqR.framed _ _ _ _ _ t2 (a3.sub fun i hi => by simp [hi])
    · exact AccR.framed Plain.framed _ _ _ _ _ t3 (a3.sub fun i hi => by simp [hi])
  · exact meets_pure hr1 hn hl1

theorem definition_loop [CaseMap] (g : Room) (isNum : Str → Bool) (d : Rdbms) :
    ∀ (n : Nat) (h : View) (s : List Str) (c : Option Sl) (t : MTableConstraint) (ct' : List Column × TableConstraint)
      (ids : List Nat), DefR h (c, t) ct' ids → ids.Nodup → (∀ i ∈ ids, h i ≠ none) →
    Meets DefR h ids (tableDefinitionLoop g isNum d n c t s) (C.tableDefinitionLoop isNum d n ct'.1 ct'.2 s)
  | 0, _, _, _, _, _, _, _, _, _ => rfl
  | n + 1, h, s, c, t, ct', ids, hr, hn, hl => by
    unfold tableDefinitionLoop C.tableDefinitionLoop
    refine Meets.ifM (fun r => meets_pure hr hn hl) fun r => ?_
    refine Meets.bind (R := DefR) ?_ ?_
    · obtain ⟨i1, i2, rfl, h1, h2⟩ := hr
      have hn' := List.nodup_append.1 hn
      refine Meets.ifM (fun r => ?_) fun r => ?_
      · refine Meets.bind ((tableConstraint_mem g d (n + 1) h r _ _ i2 h2 hn'.2.1
          (fun i hi => hl i (List.mem_append_right _ hi))).frame hn fun i hi => hl i (List.mem_append_left _ hi)) ?_
        rintro a b h' _ r ⟨i2', rfl, ha, hag⟩ hp
        exact meets_pure ⟨i1, i2', rfl, ColsR.framed _ _ _ _ _ h1 hag, ha⟩ hp.nodup fun i hi => (hp.from_ i hi).1
      · have hc := (column_mem g isNum d (n + 1) h r).frame (F := i1 ++ i2) (by simpa using hn) hl
        rw [List.append_nil] at hc
        refine Meets.bind hc ?_
        rintro a b h' _ r ⟨ie, rfl, ha, hag⟩ hp
        refine Meets.append (append_frame (mk := Cell.column) ColR.framed g i2
          (ColsR.framed _ _ _ _ _ h1 (hag.sub fun i hi => by simp [hi])) ha
          (nodup_perm hp.nodup (by counts)) (fun i hi => (hp.from_ i (mem_perm (by counts) hi)).1)) ?_
        rintro l hA ⟨i1', a1, a2, a3⟩
        have a2' := a2.perm (i0' := i1 ++ i2 ++ ie) (i1' := i1' ++ i2) (by counts) (by counts)
        exact ⟨_, a2', meets_pure ⟨i1', i2, rfl, a1,
          TcR.framed _ _ _ _ _ (TcR.framed _ _ _ _ _ h2 (hag.sub fun i hi => by simp [hi])) a3⟩ a2'.nodup
          fun i hi => (a2'.from_ i hi).1⟩
    · rintro a b h' ids' r hr' hp
      refine Meets.ifM (fun r => meets_pure hr' hp.nodup fun i hi => (hp.from_ i hi).1) fun r => Meets.skip fun _ r => ?_
      exact definition_loop g isNum d n h' r a.1 a.2 b ids' hr' hp.nodup fun i hi => (hp.from_ i hi).1

theorem definition_mem [CaseMap] (g : Room) (isNum : Str → Bool) (d : Rdbms) (n : Nat) (h : View) (s : List Str) :
    Meets DefR h [] (convertTableDefinition g isNum d n s) (C.convertTableDefinition isNum d n s) := by
  unfold convertTableDefinition C.convertTableDefinition
  refine Meets.skip fun _ r => ?_
  have h0 : DefR h (none, {}) ([], {}) [] := ⟨[], [], rfl, .none, [], [], [], [], rfl, .none, .none, .none, .none⟩
  refine Meets.bind (definition_loop g isNum d n h r none {} ([], {}) [] h0 List.nodup_nil (by simp)) ?_
  intro a b h' ids r hr hp
  exact Meets.skip fun _ r => meets_pure hr hp.nodup fun i hi => (hp.from_ i hi).1

theorem table_mem [CaseMap] (g : Room) (isNum : Str → Bool) (d : Rdbms) (n : Nat) (h : View) (s : List Str) :
    Meets TabR h [] (convertTable g isNum d n s) (C.convertTable isNum d n s) := by
  unfold convertTable C.convertTable
  refine Meets.skip fun _ r => Meets.skip fun _ r => ?_
  refine Meets.bind (R := Plain Bool) ?_ ?_
  · refine Meets.ifM (fun r => Meets.skip fun _ r => Meets.skip fun _ r => Meets.skip fun _ r => ?_) fun r => ?_
    · exact meets_pure ⟨rfl, rfl⟩ List.nodup_nil (by simp)
    · exact meets_pure ⟨rfl, rfl⟩ List.nodup_nil (by simp)
  · rintro a b h' _ r ⟨rfl, rfl⟩ hp
    refine Meets.lift fun names r => Meets.bind (definition_mem g isNum d n h' r) ?_
    intro c c' h2 ids r hr hp2
    have hsemi : Meets (Plain Unit) h2 [] ((ifM (C.matchToken [";"]) skip (GM.pure ())) r)
        ((C.ifM (C.matchToken [";"]) C.skip (CM.pure ())) r) :=
      Meets.ifM (fun r => meets_lift _ _ _) fun r => meets_pure ⟨rfl, rfl⟩ List.nodup_nil (by simp)
    replace hsemi := hsemi.frame (F := ids) (by simpa using hp2.nodup) fun i hi => (hp2.from_ i hi).1
    rw [List.append_nil] at hsemi
    refine Meets.bind hsemi ?_
    rintro _ _ h3 _ r ⟨_, rfl, ⟨_, rfl⟩, hag⟩ hp3
    rw [List.append_nil] at hp3 ⊢
    exact meets_pure ⟨c'.1, c'.2, DefR.framed _ _ _ _ _ hr hag, rfl⟩ hp3.nodup fun i hi => (hp3.from_ i hi).1

theorem convert_mem [CaseMap] (g : Room) (isNum : Str → Bool) (d : Rdbms) :
    ∀ (n : Nat) (h : View) (s : List Str) (acc : Option Sl) (ts : List Table) (ids : List Nat),
    TabsR h acc ts ids → ids.Nodup → (∀ i ∈ ids, h i ≠ none) →
    Meets TabsR h ids (convert g isNum d n acc s) (C.convert isNum d n ts s)
  | 0, _, _, _, _, _, _, _, _ => rfl
  | n + 1, h, s, acc, ts, ids, hr, hn, hl => by
    unfold convert C.convert
    refine Meets.ifM (fun r => meets_pure hr hn hl) fun r => ?_
    have hc := (table_mem g isNum d (n + 1) h r).frame (F := ids) (by simpa using hn) hl
    rw [List.append_nil] at hc
    refine Meets.bind hc ?_
    rintro a b h' _ r ⟨ie, rfl, ha, hag⟩ hp
    refine Meets.append (append_slice (mk := Cell.table) TabR.framed g (SliceR.framed TabR.framed _ _ _ _ _ hr.2 hag) ha hp.nodup
      fun i hi => (hp.from_ i hi).1) ?_
    rintro s' hA ⟨hs, i1, a1, a2⟩
    exact ⟨i1, a2, convert_mem g isNum d n _ _ _ _ _ ⟨hs, a1⟩ a2.nodup fun i hi => (a2.from_ i hi).1⟩

end DDL.Conc
