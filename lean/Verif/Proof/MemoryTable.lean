import Verif.Proof.MemoryConv
/-
The functions of Model/Memory.lean, continued: tables.
-/

namespace DDL.Mem
open DDL.Spec

theorem nodup_perm {l l' : List Nat} (hn : l.Nodup) (hp : ∀ i, l'.count i = l.count i) : l'.Nodup :=
  (List.Perm.nodup_iff (List.perm_iff_count.2 hp)).2 hn

theorem mem_perm {l l' : List Nat} (hp : ∀ i, l'.count i = l.count i) {i : Nat} (hi : i ∈ l') : i ∈ l :=
  (List.Perm.mem_iff (List.perm_iff_count.2 hp)).1 hi

/-- Order does not matter. -/
theorem Post.perm {h h' : Heap} {i0 i0' i1 i1' : List Nat} (p : Post h i0 h' i1) (h0 : ∀ i, i0'.count i = i0.count i)
    (h1 : ∀ i, i1'.count i = i1.count i) : Post h i0' h' i1' :=
  p.weaken (fun _ hi => mem_perm (fun i => (h0 i).symm) hi) (fun _ hi => mem_perm h1 hi) (nodup_perm p.nodup h1)

/-- `append` to one slice among others. -/
theorem append_frame {R : Kind α β} {mk} (hf : Framed R) (g : Grow) {h : Heap} {s : Option Sl} {bs : List β} {i0 : List Nat}
    {a : α} {b : β} {ie : List Nat} (F : List Nat) (hs : AccR R mk h s bs i0) (he : R h a b ie)
    (hn : (F ++ (i0 ++ ie)).Nodup) (hl : ∀ i ∈ F ++ (i0 ++ ie), i < h.length) :
    ∃ ids, AccR R mk (appendH g h s (mk a)).2 (appendH g h s (mk a)).1 (bs ++ [b]) ids ∧
      Post h (F ++ (i0 ++ ie)) (appendH g h s (mk a)).2 (F ++ ids) ∧ AgreeOn F h (appendH g h s (mk a)).2 := by
  obtain ⟨ids, h1, h2⟩ := append_slice hf g hs.1 he (List.nodup_append.1 hn).2.1 fun i hi => hl i (List.mem_append_right _ hi)
  have := h2.frame hn fun i hi => hl i (List.mem_append_left _ hi)
  exact ⟨ids, ⟨h1, by simp⟩, this.1, this.2⟩

macro "counts" : tactic => `(tactic| (intro i; simp only [List.count_append]; omega))

theorem _root_.DDL.Spec.AgreeOn.sub {F F' : List Nat} {h h' : Heap} (ha : AgreeOn F h h') (hs : ∀ i ∈ F', i ∈ F) : AgreeOn F' h h' :=
  fun i hi => ha i (hs i hi)

theorem tableConstraint_mem (g : Grow) (d : Rdbms) (n : Nat) (h : Heap) (s : List Str) (tc : MTableConstraint)
    (tc' : TableConstraint) (ids : List Nat) (hr : TcR h tc tc' ids) (hn : ids.Nodup) (hl : ∀ i ∈ ids, i < h.length) :
    Meets TcR h ids (convertTableConstraint g d n tc h s) (C.convertTableConstraint d n tc' s) := by
  unfold convertTableConstraint C.convertTableConstraint
  have hname : Meets (Plain Str) h [] ((ifM (C.matchToken ["CONSTRAINT"])
      (skip.bind fun _ =>
        ifM (C.matchToken ["PRIMARY", "UNIQUE", "CHECK", "FOREIGN"]) (MM.pure []) (MM.lift (C.convertName d)))
      (MM.pure [])) h s) ((C.ifM (C.matchToken ["CONSTRAINT"])
      (C.skip.bind fun _ =>
        C.ifM (C.matchToken ["PRIMARY", "UNIQUE", "CHECK", "FOREIGN"]) (CM.pure []) (C.convertName d))
      (CM.pure [])) s) := by
    refine Meets.ifM (fun r => Meets.skip fun _ r => Meets.ifM (fun r => ?_) fun r => meets_lift ..) fun r => ?_
    · exact meets_pure ⟨rfl, rfl⟩ List.nodup_nil (by simp)
    · exact meets_pure ⟨rfl, rfl⟩ List.nodup_nil (by simp)
  replace hname := hname.frame (F := ids) (by simpa using hn) hl
  rw [List.append_nil] at hname
  refine Meets.bind hname ?_
  rintro name _ h1 _ r ⟨_, rfl, ⟨rfl, rfl⟩, hag⟩ hp
  rw [List.append_nil]
  have hr1 := TcR.framed _ _ _ _ _ hr hag
  have hl1 : ∀ i ∈ ids, i < h1.length := fun i hi => Nat.lt_of_lt_of_le (hl i hi) hp.le
  clear hname hr hl hag hp s h
  have names : ∀ s, Meets (fun h' a b ids' => ∃ ie, ids' = ids ++ ie ∧ NamesR h' a b ie ∧ TcR h' tc tc' ids) h1 ids
      (convertCommaSeparatedColumnNames g n h1 s) (C.convertCommaSeparatedColumnNames n s) := by
    intro s
    have := (names_mem g n h1 s).frame (F := ids) (by simpa using hn) hl1
    rw [List.append_nil] at this
    refine this.imp ?_
    rintro h' a b _ ⟨ie, rfl, hr, hag⟩ hp
    exact ⟨_, ⟨ie, rfl, hr, TcR.framed _ _ _ _ _ hr1 hag⟩, hp⟩
  refine Meets.ifM (fun r => ?_) fun r => Meets.ifM (fun r => ?_) fun r => Meets.ifM (fun r => ?_) fun r =>
    Meets.ifM (fun r => ?_) fun r => ?_
  · refine Meets.skip fun _ r => Meets.skip fun _ r => Meets.bind (names r) ?_
    rintro cs cs' h2 _ r ⟨ie, rfl, hcs, i1, i2, i3, i4, rfl, t1, t2, t3, t4⟩ hp
    obtain ⟨i1', a1, a2, a3⟩ := append_frame PkR.framed g (a := ⟨name, cs⟩) (b := ⟨name, cs'⟩) (i2 ++ (i3 ++ i4)) t1 ⟨rfl, hcs⟩
      (nodup_perm hp.nodup (by counts)) (fun i hi => (hp.from_ i (mem_perm (by counts) hi)).1)
    have a2' := a2.perm (i0' := i1 ++ (i2 ++ (i3 ++ i4)) ++ ie) (i1' := i1' ++ (i2 ++ (i3 ++ i4))) (by counts) (by counts)
    refine Meets.append a2' (meets_pure ⟨i1', i2, i3, i4, rfl, a1, ?_, ?_, ?_⟩ a2'.nodup fun i hi => (a2'.from_ i hi).1)
    · exact AccR.framed UqR.framed _ _ _ _ _ t2 (a3.sub fun i hi => by simp [hi])
    · exact AccR.framed Plain.framed _ _ _ _ _ t3 (a3.sub fun i hi => by simp [hi])
    · exact AccR.framed FkR.framed _ _ _ _ _ t4 (a3.sub fun i hi => by simp [hi])
  · refine Meets.skip fun _ r => Meets.bind (names r) ?_
    rintro cs cs' h2 _ r ⟨ie, rfl, hcs, i1, i2, i3, i4, rfl, t1, t2, t3, t4⟩ hp
    obtain ⟨i2', a1, a2, a3⟩ := append_frame UqR.framed g (a := ⟨name, cs⟩) (b := ⟨name, cs'⟩) (i1 ++ (i3 ++ i4)) t2 ⟨rfl, hcs⟩
      (nodup_perm hp.nodup (by counts)) (fun i hi => (hp.from_ i (mem_perm (by counts) hi)).1)
    have a2' := a2.perm (i0' := i1 ++ (i2 ++ (i3 ++ i4)) ++ ie) (i1' := i1 ++ (i2' ++ (i3 ++ i4))) (by counts) (by counts)
    refine Meets.append a2' (meets_pure ⟨i1, i2', i3, i4, rfl, ?_, a1, ?_, ?_⟩ a2'.nodup fun i hi => (a2'.from_ i hi).1)
    · exact AccR.framed PkR.framed _ _ _ _ _ t1 (a3.sub fun i hi => by simp [hi])
    · exact AccR.framed Plain.framed _ _ _ _ _ t3 (a3.sub fun i hi => by simp [hi])
    · exact AccR.framed FkR.framed _ _ _ _ _ t4 (a3.sub fun i hi => by simp [hi])
  · refine Meets.skip fun _ r => Meets.lift fun e r => ?_
    obtain ⟨i1, i2, i3, i4, rfl, t1, t2, t3, t4⟩ := hr1
    obtain ⟨i3', a1, a2, a3⟩ := append_frame Plain.framed g (a := (⟨name, e⟩ : Check)) (b := ⟨name, e⟩) (ie := [])
      (i1 ++ (i2 ++ i4)) t3 ⟨rfl, rfl⟩
      (nodup_perm hn (by intro i; simp only [List.count_append, List.count_nil]; omega))
      (fun i hi => hl1 i (mem_perm (by intro i; simp only [List.count_append, List.count_nil]; omega) hi))
    have a2' := a2.perm (i0' := i1 ++ (i2 ++ (i3 ++ i4))) (i1' := i1 ++ (i2 ++ (i3' ++ i4)))
      (by intro i; simp only [List.count_append, List.count_nil]; omega) (by counts)
    refine Meets.append a2' (meets_pure ⟨i1, i2, i3', i4, rfl, ?_, ?_, a1, ?_⟩ a2'.nodup fun i hi => (a2'.from_ i hi).1)
    · exact AccR.framed PkR.framed _ _ _ _ _ t1 (a3.sub fun i hi => by simp [hi])
    · exact AccR.framed UqR.framed _ _ _ _ _ t2 (a3.sub fun i hi => by simp [hi])
    · exact AccR.framed FkR.framed _ _ _ _ _ t4 (a3.sub fun i hi => by simp [hi])
  · refine Meets.skip fun _ r => Meets.skip fun _ r => Meets.bind (names r) ?_
    rintro cs cs' h2 _ r ⟨ie, rfl, hcs, htc⟩ hp
    have hrf := (reference_mem g d n h2 r).frame (F := ids ++ ie) (by simpa using hp.nodup) fun i hi => (hp.from_ i hi).1
    rw [List.append_nil] at hrf
    refine Meets.bind hrf ?_
    rintro rf rf' h3 _ r ⟨ir, rfl, hrr, hag⟩ hp3
    have hcs := NamesR.framed _ _ _ _ _ hcs (hag.sub fun i hi => by simp [hi])
    obtain ⟨i1, i2, i3, i4, rfl, t1, t2, t3, t4⟩ := TcR.framed _ _ _ _ _ htc (hag.sub fun i hi => by simp [hi])
    obtain ⟨i4', a1, a2, a3⟩ := append_frame FkR.framed g (a := ⟨name, cs, rf⟩) (b := ⟨name, cs', rf'⟩) (ie := ie ++ ir)
      (i1 ++ (i2 ++ i3)) t4 ⟨rfl, ie, ir, rfl, hcs, hrr⟩
      (nodup_perm hp3.nodup (by counts)) (fun i hi => (hp3.from_ i (mem_perm (by counts) hi)).1)
    have a2' := a2.perm (i0' := i1 ++ (i2 ++ (i3 ++ i4)) ++ ie ++ ir) (i1' := i1 ++ (i2 ++ (i3 ++ i4'))) (by counts) (by counts)
    refine Meets.append a2' (meets_pure ⟨i1, i2, i3, i4', rfl, ?_, ?_, ?_, a1⟩ a2'.nodup fun i hi => (a2'.from_ i hi).1)
    · exact AccR.framed PkR.framed _ _ _ _ _ t1 (a3.sub fun i hi => by simp [hi])
    · exact AccR.framed UqR.framed _ _ _ _ _ t2 (a3.sub fun i hi => by simp [hi])
    · exact AccR.framed Plain.framed _ _ _ _ _ t3 (a3.sub fun i hi => by simp [hi])
  · exact meets_pure hr1 hn hl1

theorem definition_loop [CaseMap] (g : Grow) (isNum : Str → Bool) (d : Rdbms) :
    ∀ (n : Nat) (h : Heap) (s : List Str) (c : Option Sl) (t : MTableConstraint) (ct' : List Column × TableConstraint)
      (ids : List Nat), DefR h (c, t) ct' ids → ids.Nodup → (∀ i ∈ ids, i < h.length) →
    Meets DefR h ids (tableDefinitionLoop g isNum d n c t h s) (C.tableDefinitionLoop isNum d n ct'.1 ct'.2 s)
  | 0, _, _, _, _, _, _, _, _, _ => rfl
  | n + 1, h, s, c, t, ct', ids, hr, hn, hl => by
    unfold tableDefinitionLoop C.tableDefinitionLoop
    refine Meets.ifM (fun r => meets_pure hr hn hl) fun r => ?_
    refine Meets.bind (R := DefR) ?_ ?_
    · obtain ⟨i1, i2, rfl, h1, h2⟩ := hr
      have hn' := List.nodup_append.1 hn
      refine Meets.ifM (fun r => ?_) fun r => ?_
      · refine Meets.bind ((tableConstraint_mem g d (n + 1) h r _ _ i2 h2 hn'.2.1
          (fun i hi => hl i (List.mem_append_right _ hi))).frame hn fun i hi => hl i (List.mem_append_left _ hi)) ?_
        rintro a b h' _ r ⟨i2', rfl, ha, hag⟩ hp
        exact meets_pure ⟨i1, i2', rfl, ColsR.framed _ _ _ _ _ h1 hag, ha⟩ hp.nodup fun i hi => (hp.from_ i hi).1
      · have hc := (column_mem g isNum d (n + 1) h r).frame (F := i1 ++ i2) (by simpa using hn) hl
        rw [List.append_nil] at hc
        refine Meets.bind hc ?_
        rintro a b h' _ r ⟨ie, rfl, ha, hag⟩ hp
        obtain ⟨i1', a1, a2, a3⟩ := append_frame (mk := Cell.column) ColR.framed g i2
          (ColsR.framed _ _ _ _ _ h1 (hag.sub fun i hi => by simp [hi])) ha
          (nodup_perm hp.nodup (by counts)) (fun i hi => (hp.from_ i (mem_perm (by counts) hi)).1)
        have a2' := a2.perm (i0' := i1 ++ i2 ++ ie) (i1' := i1' ++ i2) (by counts) (by counts)
        exact Meets.append a2' (meets_pure ⟨i1', i2, rfl, a1,
          TcR.framed _ _ _ _ _ (TcR.framed _ _ _ _ _ h2 (hag.sub fun i hi => by simp [hi])) a3⟩ a2'.nodup
          fun i hi => (a2'.from_ i hi).1)
    · rintro a b h' ids' r hr' hp
      refine Meets.ifM (fun r => meets_pure hr' hp.nodup fun i hi => (hp.from_ i hi).1) fun r => Meets.skip fun _ r => ?_
      exact definition_loop g isNum d n h' r a.1 a.2 b ids' hr' hp.nodup fun i hi => (hp.from_ i hi).1

theorem definition_mem [CaseMap] (g : Grow) (isNum : Str → Bool) (d : Rdbms) (n : Nat) (h : Heap) (s : List Str) :
    Meets DefR h [] (convertTableDefinition g isNum d n h s) (C.convertTableDefinition isNum d n s) := by
  unfold convertTableDefinition C.convertTableDefinition
  refine Meets.skip fun _ r => ?_
  have h0 : DefR h (none, {}) ([], {}) [] := ⟨[], [], rfl, .none, [], [], [], [], rfl, .none, .none, .none, .none⟩
  refine Meets.bind (definition_loop g isNum d n h r none {} ([], {}) [] h0 List.nodup_nil (by simp)) ?_
  intro a b h' ids r hr hp
  exact Meets.skip fun _ r => meets_pure hr hp.nodup fun i hi => (hp.from_ i hi).1

theorem table_mem [CaseMap] (g : Grow) (isNum : Str → Bool) (d : Rdbms) (n : Nat) (h : Heap) (s : List Str) :
    Meets TabR h [] (convertTable g isNum d n h s) (C.convertTable isNum d n s) := by
  unfold convertTable C.convertTable
  refine Meets.skip fun _ r => Meets.skip fun _ r => ?_
  refine Meets.bind (R := Plain Bool) ?_ ?_
  · refine Meets.ifM (fun r => Meets.skip fun _ r => Meets.skip fun _ r => Meets.skip fun _ r => ?_) fun r => ?_
    · exact meets_pure ⟨rfl, rfl⟩ List.nodup_nil (by simp)
    · exact meets_pure ⟨rfl, rfl⟩ List.nodup_nil (by simp)
  · rintro a b h' _ r ⟨rfl, rfl⟩ hp
    refine Meets.lift fun names r => Meets.bind (definition_mem g isNum d n h' r) ?_
    intro c c' h2 ids r hr hp2
    have hsemi : Meets (Plain Unit) h2 [] ((ifM (C.matchToken [";"]) skip (MM.pure ())) h2 r)
        ((C.ifM (C.matchToken [";"]) C.skip (CM.pure ())) r) :=
      Meets.ifM (fun r => meets_lift _ _ _) fun r => meets_pure ⟨rfl, rfl⟩ List.nodup_nil (by simp)
    replace hsemi := hsemi.frame (F := ids) (by simpa using hp2.nodup) fun i hi => (hp2.from_ i hi).1
    rw [List.append_nil] at hsemi
    refine Meets.bind hsemi ?_
    rintro _ _ h3 _ r ⟨_, rfl, ⟨_, rfl⟩, hag⟩ hp3
    rw [List.append_nil] at hp3 ⊢
    exact meets_pure ⟨c'.1, c'.2, DefR.framed _ _ _ _ _ hr hag, rfl⟩ hp3.nodup fun i hi => (hp3.from_ i hi).1

theorem convert_mem [CaseMap] (g : Grow) (isNum : Str → Bool) (d : Rdbms) :
    ∀ (n : Nat) (h : Heap) (s : List Str) (acc : Option Sl) (ts : List Table) (ids : List Nat),
    TabsR h acc ts ids → ids.Nodup → (∀ i ∈ ids, i < h.length) →
    Meets TabsR h ids (convert g isNum d n acc h s) (C.convert isNum d n ts s)
  | 0, _, _, _, _, _, _, _, _ => rfl
  | n + 1, h, s, acc, ts, ids, hr, hn, hl => by
    unfold convert C.convert
    refine Meets.ifM (fun r => meets_pure hr hn hl) fun r => ?_
    have hc := (table_mem g isNum d (n + 1) h r).frame (F := ids) (by simpa using hn) hl
    rw [List.append_nil] at hc
    refine Meets.bind hc ?_
    rintro a b h' _ r ⟨ie, rfl, ha, hag⟩ hp
    obtain ⟨i1, a1, a2⟩ := append_slice (mk := Cell.table) TabR.framed g (SliceR.framed TabR.framed _ _ _ _ _ hr.2 hag) ha hp.nodup
      fun i hi => (hp.from_ i hi).1
    exact Meets.append a2 (convert_mem g isNum d n _ _ _ _ _ ⟨appendH_isSome .., a1⟩ a2.nodup fun i hi => (a2.from_ i hi).1)

/-- `tokensH` makes a slice of the tokens. -/
theorem tokens_mem (g : Grow) (h : Heap) (tokens : List Str) :
    ∃ ids, SliceR (Plain Str) .str (tokensH g h tokens).2 (tokensH g h tokens).1 tokens ids ∧
      Post h [] (tokensH g h tokens).2 ids := by
  have : ∀ (ts : List Str) (sh : Option Sl × Heap) (xs : List Str) (ids : List Nat), SliceR (Plain Str) .str sh.2 sh.1 xs ids →
      Post h [] sh.2 ids → ∃ ids, SliceR (Plain Str) .str
        (ts.foldl (fun sh t => appendH g sh.2 sh.1 (.str t)) sh).2
        (ts.foldl (fun sh t => appendH g sh.2 sh.1 (.str t)) sh).1 (xs ++ ts) ids ∧
      Post h [] (ts.foldl (fun sh t => appendH g sh.2 sh.1 (.str t)) sh).2 ids := by
    intro ts
    induction ts with
    | nil => intro sh xs ids h1 h2; exact ⟨ids, by simpa using h1, h2⟩
    | cons t ts ih =>
      intro sh xs ids h1 h2
      obtain ⟨i1, a1, a2⟩ := append_slice Plain.framed g (a := t) (b := t) (ie := []) h1 ⟨rfl, rfl⟩ (by simpa using h2.nodup)
        (fun i hi => (h2.from_ i (by simpa using hi)).1)
      rw [List.append_nil] at a2
      have := ih _ _ _ a1 (h2.trans a2)
      rw [List.append_assoc] at this
      exact this
  obtain ⟨ids, h1, h2⟩ := empty_slice (Plain Str) .str h
  exact this tokens _ [] ids h1 h2

end DDL.Mem
