import Verif.Proof.MemoryShare
import Verif.Proof.ParseFacts
import Verif.Proof.Float
/-
C61: what Parse returns shares no memory. C62: which lists of a result are nil.

`parseH` is `Parse` with its slices in memory (Model/Memory.lean): a slice is a piece of an array, and `append` writes
into the array when there is room. `h` is the memory before the call, with whatever is in it; `g` says how much room a new
array gets, and is arbitrary. `tablesAt h s` are the tables that the slice `s` holds in the memory `h`, `arraysOf h s` the
arrays that it uses, each as often as it is used (Spec/Memory.lean).
-/

namespace DDL.Props
open DDL Spec Mem

/-- `Parse(ddl, d)`, in the memory `h`, returns the slice `s` and the error `e` and leaves the memory `h'`. -/
def MemReturns [CaseMap] (g : Grow) (isNum : Str → Bool) (h : Heap) (ddl : List Char) (d : Rdbms) (s : Option Sl)
    (e : Option VErr) (h' : Heap) : Prop :=
  ∃ n, parseH g isNum n h ddl d = .ok ((s, e), h')

/-- What a call leaves, in the terms of the proofs. -/
theorem memReturns_facts [CaseMap] {g : Grow} {isNum : Str → Bool} {h : Heap} {ddl : List Char} {d : Rdbms} {s : Option Sl}
    {e : Option VErr} {h' : Heap} (hm : MemReturns g isNum h ddl d s e h') :
    ∃ n ts ids, parseN isNum n ddl d = .ok (ts, e) ∧ TabsR h' s ts ids ∧ Post h [] h' ids := by
  obtain ⟨n, hn⟩ := hm
  have := parse_mem g isNum n h ddl d
  cases hp : parseN isNum n ddl d with
  | ok r =>
    obtain ⟨ts, e'⟩ := r
    rw [hp] at this
    obtain ⟨s', h'', ids, h1, h2, h3⟩ := this
    rw [hn] at h1
    cases h1
    exact ⟨n, ts, ids, hp, h2, h3⟩
  | err _ => rw [hp] at this; exact this.elim
  | panic => rw [hp] at this; rw [hn] at this; cases this
  | timeout => rw [hp] at this; rw [hn] at this; cases this

/-- C61 (values). With slices in memory, however much room they are given and whatever else is in memory, Parse returns
exactly the tables and errors that it returns with slices as values. -/
theorem C61_values [CaseMap] (g : Grow) (isNum : Str → Bool) (h : Heap) (ddl : List Char) (d : Rdbms) (ts : List Table)
    (e : Option VErr) :
    Returns isNum ddl d (ts, e) ↔ ∃ s h', MemReturns g isNum h ddl d s e h' ∧ tablesAt h' s = ts := by
  constructor
  · rintro ⟨n, hn⟩
    have := parse_mem g isNum n h ddl d
    rw [hn] at this
    obtain ⟨s, h', ids, h1, h2, _⟩ := this
    exact ⟨s, h', ⟨n, h1⟩, (tabs_read h2 (.refl _)).1⟩
  · rintro ⟨s, h', hm, rfl⟩
    obtain ⟨n, ts, ids, h1, h2, _⟩ := memReturns_facts hm
    rw [(tabs_read h2 (.refl _)).1]
    exact ⟨n, h1⟩

/-- C61 (not returning). -/
theorem C61_hangs [CaseMap] (g : Grow) (isNum : Str → Bool) (h : Heap) (ddl : List Char) (d : Rdbms) :
    Hangs isNum ddl d ↔ ∀ n, parseH g isNum n h ddl d = .timeout := by
  refine forall_congr' fun n => ?_
  have := parse_mem g isNum n h ddl d
  cases hp : parseN isNum n ddl d with
  | ok r =>
    obtain ⟨ts, e'⟩ := r
    rw [hp] at this
    obtain ⟨s', h'', ids, h1, _⟩ := this
    rw [h1]
    exact ⟨fun e => (nomatch e), fun e => (nomatch e)⟩
  | err _ => rw [hp] at this; exact this.elim
  | panic => rw [hp] at this; rw [this]; exact ⟨fun e => (nomatch e), fun e => (nomatch e)⟩
  | timeout => rw [hp] at this; exact ⟨fun _ => this, fun _ => rfl⟩

/-- C61 (nothing shared). The arrays of a result are new, and no array is used twice. -/
theorem C61_unshared [CaseMap] {g : Grow} {isNum : Str → Bool} {h : Heap} {ddl : List Char} {d : Rdbms} {s : Option Sl}
    {e : Option VErr} {h' : Heap} (hm : MemReturns g isNum h ddl d s e h') :
    (arraysOf h' s).Nodup ∧ ∀ a ∈ arraysOf h' s, h.length ≤ a ∧ a < h'.length := by
  obtain ⟨n, ts, ids, _, h2, h3⟩ := memReturns_facts hm
  rw [(tabs_read h2 (.refl _)).2.1]
  exact ⟨h3.nodup, fun a ha => ⟨((h3.from_ a ha).2).resolve_left (by simp), (h3.from_ a ha).1⟩⟩

/-- C61 (nothing touched). What was in memory before the call is still there. -/
theorem C61_untouched [CaseMap] {g : Grow} {isNum : Str → Bool} {h : Heap} {ddl : List Char} {d : Rdbms} {s : Option Sl}
    {e : Option VErr} {h' : Heap} (hm : MemReturns g isNum h ddl d s e h') {a : Nat} (ha : a < h.length) : h'[a]? = h[a]? := by
  obtain ⟨n, ts, ids, _, _, h3⟩ := memReturns_facts hm
  exact h3.same a ha (by simp)

/-- C61 (calls). A second call, with whatever text and dialect, leaves the result of the first one as it is, and so does
whatever is done with the arrays of its own result. -/
theorem C61_calls [CaseMap] {g g₂ : Grow} {isNum : Str → Bool} {h : Heap} {ddl ddl₂ : List Char} {d d₂ : Rdbms}
    {s s₂ : Option Sl} {e e₂ : Option VErr} {h₁ h₂ h₃ : Heap} (hm : MemReturns g isNum h ddl d s e h₁)
    (hm₂ : MemReturns g₂ isNum h₁ ddl₂ d₂ s₂ e₂ h₂) (hw : ∀ a, a ∉ arraysOf h₂ s₂ → h₃[a]? = h₂[a]?) :
    tablesAt h₃ s = tablesAt h₁ s := by
  obtain ⟨n, ts, ids, _, t1, p1⟩ := memReturns_facts hm
  have hag : AgreeOn ids h₁ h₃ := fun a ha => by
    have hl := (p1.from_ a ha).1
    rw [hw a fun hin => ?_, C61_untouched hm₂ hl]
    have := (C61_unshared hm₂).2 a hin
    omega
  rw [(tabs_read t1 (.refl _)).1, (tabs_read (TabsR.framed _ _ _ _ _ t1 hag) (.refl _)).1]

/-- C61 (tables). Whatever is written to the arrays of one table of a result, the other tables stay as they are. -/
theorem C61_tables [CaseMap] {g : Grow} {isNum : Str → Bool} {h : Heap} {ddl : List Char} {d : Rdbms} {s : Option Sl}
    {e : Option VErr} {h' h'' : Heap} (hm : MemReturns g isNum h ddl d s e h') {i j : Nat} {t u : MTable}
    (hi : (tablesIn h' s)[i]? = some t) (hj : (tablesIn h' s)[j]? = some u) (hij : i ≠ j)
    (hw : ∀ a, a ∉ arraysOfTable h' t → h''[a]? = h'[a]?) :
    (tablesIn h'' s)[j]? = some u ∧ tableAt h'' u = tableAt h' u := by
  obtain ⟨n, ts, ids, _, t1, p1⟩ := memReturns_facts hm
  obtain ⟨_, _, as, is, ein, hl, rfl⟩ := tabs_read t1 (.refl _)
  have hn := List.nodup_append.1 p1.nodup
  rw [ein] at hi hj
  obtain ⟨bt, it, bu, iu, ht, hu, hd, hti, hui⟩ := hl.apart hn.2.1 hi hj hij
  have et := (tab_read ht (.refl _)).2
  rw [et] at hw
  refine ⟨?_, ?_⟩
  · have : cells h'' s = cells h' s := by
      cases s with
      | none => rfl
      | some x =>
        unfold cells
        simp only [List.getD]
        rw [hw x.arr fun hin => ?_]
        exact hn.2.2 x.arr (by simp [arrs]) x.arr (hti _ hin) rfl
    unfold tablesIn at ein ⊢
    rw [this, ein, hj]
  · rw [(tab_read hu (.refl _)).1]
    exact (tab_read (TabR.framed _ _ _ _ _ hu fun a ha => hw a fun hin => hd a hin ha) (.refl _)).1

/-- C61 (append). Appending to any slice of a result adds one element to that slice, and leaves the result as it is: no cell
in use is overwritten. -/
theorem C61_append [CaseMap] {g g₂ : Grow} {isNum : Str → Bool} {h : Heap} {ddl : List Char} {d : Rdbms} {s : Option Sl}
    {e : Option VErr} {h' : Heap} (hm : MemReturns g isNum h ddl d s e h') {x : Option Sl} (hx : x ∈ slicesOf h' s) (c : Cell) :
    cells (appendH g₂ h' x c).2 (appendH g₂ h' x c).1 = cells h' x ++ [c] ∧
    tablesAt (appendH g₂ h' x c).2 s = tablesAt h' s := by
  obtain ⟨n, ts, ids, _, t1, p1⟩ := memReturns_facts hm
  obtain ⟨h1, h2⟩ := append_full g₂ (TabsR.full t1 x hx) c
  exact ⟨h2, by rw [(tabs_read t1 (.refl _)).1, (tabs_read t1 h1).1]⟩

/-- C61 (ParseForce). The same tables; new arrays, none used twice; what was in memory is still there. -/
theorem C61_force [CaseMap] (g : Grow) (isNum : Str → Bool) (h : Heap) (ddl : List Char) {ts : List Table} {e : Option VErr}
    (hr : ForceReturns isNum ddl (ts, e)) :
    ∃ n s h', parseForceH g isNum n h ddl = .ok ((s, e), h') ∧ tablesAt h' s = ts ∧ (arraysOf h' s).Nodup ∧
      (∀ a ∈ arraysOf h' s, h.length ≤ a ∧ a < h'.length) ∧ ∀ a, a < h.length → h'[a]? = h[a]? := by
  obtain ⟨n, hn⟩ := hr
  have := force_mem g isNum n ddl [.sqlite, .postgres, .mysql] h
  unfold parseForceN at hn
  rw [hn] at this
  obtain ⟨s, h', ids, h1, h2, h3⟩ := this
  obtain ⟨r1, r2, _⟩ := tabs_read h2 (.refl _)
  rw [← r2] at h3
  exact ⟨n, s, h', h1, r1, h3.nodup, fun a ha => ⟨((h3.from_ a ha).2).resolve_left (by simp), (h3.from_ a ha).1⟩,
    fun a ha => h3.same a ha (by simp)⟩

/-- C61 (ParseForce, values). What ParseForce returns in memory is what it returns with slices as values. -/
theorem C61_force_values [CaseMap] {g : Grow} {isNum : Str → Bool} {n : Nat} {h : Heap} {ddl : List Char} {s : Option Sl}
    {e : Option VErr} {h' : Heap} (hm : parseForceH g isNum n h ddl = .ok ((s, e), h')) :
    ForceReturns isNum ddl (tablesAt h' s, e) := by
  have := force_mem g isNum n ddl [.sqlite, .postgres, .mysql] h
  cases hp : parseForceLoop isNum n ddl [.sqlite, .postgres, .mysql] with
  | ok r =>
    obtain ⟨ts, e'⟩ := r
    rw [hp] at this
    obtain ⟨s', h'', ids, h1, t1, _⟩ := this
    have hm : parseForceLoopH g isNum n h ddl [.sqlite, .postgres, .mysql] = .ok ((s, e), h') := hm
    rw [hm] at h1
    cases h1
    rw [(tabs_read t1 (.refl _)).1]
    exact ⟨n, hp⟩
  | err _ => rw [hp] at this; exact this.elim
  | panic => rw [hp] at this; unfold parseForceH at hm; rw [hm] at this; cases this
  | timeout => rw [hp] at this; unfold parseForceH at hm; rw [hm] at this; cases this

/-- C62. The slice of tables is not nil, also when there is an error. In the tables the lists without elements are nil, but for
the lists of column names of keys, which are never nil. -/
theorem C62_nil [CaseMap] {g : Grow} {isNum : Str → Bool} {h : Heap} {ddl : List Char} {d : Rdbms} {s : Option Sl}
    {e : Option VErr} {h' : Heap} (hm : MemReturns g isNum h ddl d s e h') :
    s ≠ none ∧ ∀ t ∈ tablesIn h' s, NilLists h' t := by
  obtain ⟨n, ts, ids, _, t1, _⟩ := memReturns_facts hm
  refine ⟨fun e => absurd t1.1 (by rw [e]; decide), fun t ht => ?_⟩
  obtain ⟨_, _, as, is, ein, hl, _⟩ := tabs_read t1 (.refl _)
  rw [ein] at ht
  obtain ⟨b, i, hb⟩ := hl.mem ht
  exact hb.nil

/-- C62 (ParseForce). Nor is the slice that ParseForce returns nil, and the lists in it are nil in the same cases. -/
theorem C62_force [CaseMap] {g : Grow} {isNum : Str → Bool} {n : Nat} {h : Heap} {ddl : List Char} {s : Option Sl}
    {e : Option VErr} {h' : Heap} (hm : parseForceH g isNum n h ddl = .ok ((s, e), h')) :
    s ≠ none ∧ ∀ t ∈ tablesIn h' s, NilLists h' t := by
  have := force_mem g isNum n ddl [.sqlite, .postgres, .mysql] h
  cases hp : parseForceLoop isNum n ddl [.sqlite, .postgres, .mysql] with
  | ok r =>
    obtain ⟨ts, e'⟩ := r
    rw [hp] at this
    obtain ⟨s', h'', ids, h1, t1, _⟩ := this
    have hm : parseForceLoopH g isNum n h ddl [.sqlite, .postgres, .mysql] = .ok ((s, e), h') := hm
    rw [hm] at h1
    cases h1
    refine ⟨fun e => absurd t1.1 (by rw [e]; decide), fun t ht => ?_⟩
    obtain ⟨_, _, as, is, ein, hl, _⟩ := tabs_read t1 (.refl _)
    rw [ein] at ht
    obtain ⟨b, i, hb⟩ := hl.mem ht
    exact hb.nil
  | err _ => rw [hp] at this; exact this.elim
  | panic => rw [hp] at this; unfold parseForceH at hm; rw [hm] at this; cases this
  | timeout => rw [hp] at this; unfold parseForceH at hm; rw [hm] at this; cases this

/-! ### examples -/

/-- What a call leaves, to be looked at. -/
def memRun [CaseMap] (g : Grow) (h : Heap) (ddl : String) (d : Rdbms) : Option Sl × Heap :=
  match parseH g (fun _ => false) 250 h ddl.toList d with
  | .ok ((s, _), h) => (s, h)
  | _ => (none, [])

/-- Two tables, a key and a foreign key with a list of names. -/
def twoTables : String := "CREATE TABLE t (aa TEXT, bb TEXT, PRIMARY KEY (aa)); CREATE TABLE u (aa TEXT REFERENCES t(aa));"

/-- A memory with one array in it. Double the room. -/
def someHeap : Heap := [[.str (S "x")]]

/-- The call returns, in memory too. -/
example : MemReturns (fun _ n => 2 * n) (fun _ => false) someHeap twoTables.toList .sqlite
    (memRun (fun _ n => 2 * n) someHeap twoTables .sqlite).1 none (memRun (fun _ n => 2 * n) someHeap twoTables .sqlite).2 :=
  ⟨250, by decide +kernel⟩

/-- The tables, their names of columns, and the arrays they use: all different and new. -/
example :
    ((tablesAt (memRun (fun _ n => 2 * n) someHeap twoTables .sqlite).2
      (memRun (fun _ n => 2 * n) someHeap twoTables .sqlite).1).map fun t => (t.name, t.columns.map Column.name)) =
      [(S "t", [S "aa", S "bb"]), (S "u", [S "aa"])] ∧
    (arraysOf (memRun (fun _ n => 2 * n) someHeap twoTables .sqlite).2
      (memRun (fun _ n => 2 * n) someHeap twoTables .sqlite).1).Nodup ∧
    (arraysOf (memRun (fun _ n => 2 * n) someHeap twoTables .sqlite).2
      (memRun (fun _ n => 2 * n) someHeap twoTables .sqlite).1).length = 6 ∧
    0 ∉ arraysOf (memRun (fun _ n => 2 * n) someHeap twoTables .sqlite).2
      (memRun (fun _ n => 2 * n) someHeap twoTables .sqlite).1 := by decide +kernel

/-- In memory slices can overwrite each other: of two slices made by appending to one, the second spoils the first. It is
this that does not happen. -/
example : ∃ (h : Heap) (s : Option Sl), cells h s = [.str (S "a")] ∧
    cells (appendH (fun _ n => 2 * n) (appendH (fun _ n => 2 * n) h s (.str (S "b"))).2 s (.str (S "c"))).2
      (appendH (fun _ n => 2 * n) h s (.str (S "b"))).1 = [.str (S "a"), .str (S "c")] :=
  ⟨[[.str (S "a")]], some ⟨0, 1, 2⟩, by decide +kernel, by decide +kernel⟩

/-- The list of columns of a result has room, so that appending to it writes into its array. -/
example : (tablesIn (memRun (fun _ n => 2 * n) [] "CREATE TABLE t (aa TEXT, bb TEXT, cc TEXT);" .sqlite).2
    (memRun (fun _ n => 2 * n) [] "CREATE TABLE t (aa TEXT, bb TEXT, cc TEXT);" .sqlite).1).map
      (fun t => t.columns.map fun s => (s.len, s.cap)) = [some (3, 6)] := by decide +kernel

/-- A table without constraints, one with: nil and not nil. -/
example : (tablesIn (memRun (fun _ n => n) someHeap twoTables .sqlite).2 (memRun (fun _ n => n) someHeap twoTables .sqlite).1).map
    (fun t => (t.columns.isSome, t.constraints.primaryKey.isSome, t.constraints.unique.isSome)) =
    [(true, true, false), (true, false, false)] := by decide +kernel

/-- An error: an empty slice that is not nil. -/
example : (memRun (fun _ n => n) someHeap "CREATE" .mysql).1 = some ⟨3, 0, 0⟩ := by decide +kernel

/-- No dialect accepts: an empty slice that is not nil. -/
example : (match parseForceH (fun _ n => n) (fun _ => false) 50 someHeap "CREATE".toList with
    | .ok ((s, _), _) => s.map Sl.len
    | _ => none) = some 0 := by decide +kernel

end DDL.Props
