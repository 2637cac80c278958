import Verif.Proof.AstFacts
/-
Facts about the tables returned for a script, and where their parts come from.
-/

namespace DDL
open V Spec Conv

/-- Every result for a faithful script is the denoted one. -/
theorem result_eq [CaseMap] {isNum : Str → Bool} (hN : NumOK isNum) {d : Rdbms} {ddl : List Char}
    {toks : List Str} {ss : List Stmt} {T : List Table} {e : Option VErr} (hl : Lexes d ddl toks)
    (hs : script isNum d (strip toks) ss) (hf : Faithful ss) (hr : Returns isNum ddl d (T, e)) :
    T = tablesVal isNum d ss ∧ e = none := by
  cases Returns.unique hr (returns_of_script hN hl hs hf)
  exact ⟨rfl, rfl⟩

theorem mem_tablesVal {isNum : Str → Bool} {d : Rdbms} {ss : List Stmt} {t : Table}
    (h : t ∈ tablesVal isNum d ss) : ∃ a, Stmt.table a ∈ ss ∧ t = tableVal isNum d a := by
  obtain ⟨s, hs, h⟩ := List.mem_filterMap.1 h
  cases s with
  | table a => cases h; exact ⟨a, hs, rfl⟩
  | other => cases h

theorem mem_columns {isNum : Str → Bool} {d : Rdbms} {a : TableAst} {c : Column}
    (h : c ∈ (tableVal isNum d a).columns) : ∃ x, Item.column x ∈ a.items ∧ c = columnVal isNum d x := by
  obtain ⟨i, hi, h⟩ := List.mem_filterMap.1 h
  cases i with
  | column x => cases h; exact ⟨x, hi, rfl⟩
  | _ => cases h

theorem mem_checks {isNum : Str → Bool} {d : Rdbms} {a : TableAst} {c : Check}
    (h : c ∈ (tableVal isNum d a).constraints.check) :
    ∃ n e, Item.check n e ∈ a.items ∧ c = ⟨conNameVal d n, exprText e⟩ := by
  obtain ⟨i, hi, h⟩ := List.mem_filterMap.1 h
  cases i with
  | check n e => cases h; exact ⟨n, e, hi, rfl⟩
  | _ => cases h

theorem mem_pks {isNum : Str → Bool} {d : Rdbms} {a : TableAst} {c : PrimaryKey}
    (h : c ∈ (tableVal isNum d a).constraints.primaryKey) :
    ∃ n ks, Item.primaryKey n ks ∈ a.items ∧ c = ⟨conNameVal d n, keyCols ks⟩ := by
  obtain ⟨i, hi, h⟩ := List.mem_filterMap.1 h
  cases i with
  | primaryKey n e => cases h; exact ⟨n, e, hi, rfl⟩
  | _ => cases h

theorem mem_uniques {isNum : Str → Bool} {d : Rdbms} {a : TableAst} {c : Unique}
    (h : c ∈ (tableVal isNum d a).constraints.unique) :
    ∃ n ks, Item.unique n ks ∈ a.items ∧ c = ⟨conNameVal d n, keyCols ks⟩ := by
  obtain ⟨i, hi, h⟩ := List.mem_filterMap.1 h
  cases i with
  | unique n e => cases h; exact ⟨n, e, hi, rfl⟩
  | _ => cases h

theorem mem_fks {isNum : Str → Bool} {d : Rdbms} {a : TableAst} {c : ForeignKey}
    (h : c ∈ (tableVal isNum d a).constraints.foreignKey) :
    ∃ n ks r, Item.foreignKey n ks r ∈ a.items ∧ c = ⟨conNameVal d n, keyCols ks, refVal d r⟩ := by
  obtain ⟨i, hi, h⟩ := List.mem_filterMap.1 h
  cases i with
  | foreignKey n e r => cases h; exact ⟨n, e, r, hi, rfl⟩
  | _ => cases h

/-! ### Where the parts of a column constraint come from -/

/-- The source of a column constraint at the front of `ts`. -/
def ConSrc (isNum : Str → Bool) (d : Rdbms) (ts : List Str) : ColCon → Prop
  | .check e => ∃ k r, ts = k :: (e ++ r) ∧ Kw ["CHECK"] k ∧ ParenToks e
  | .default (.expr e) => ∃ k r, ts = k :: (e ++ r) ∧ Kw ["DEFAULT"] k ∧ ParenToks e
  | .default (.lit t) => ∃ k r, ts = k :: t :: r ∧ Kw ["DEFAULT"] k ∧ Literal isNum (vd d) t
  | .collate n => ∃ k r, ts = k :: n :: r ∧ Kw ["COLLATE"] k
  | .references ref => ∃ k r, ts = k :: r ∧ Kw ["REFERENCES"] k ∧ ∃ r', qname (vd d) r ref.table r'
  | .autoIncrement => d = .mysql
  | .primaryKey a => d = .mysql → a = false
  | _ => True

/-- The tokens of an opening parenthesis and what it closes. -/
theorem parens_inv {ts r e : List Str} (h : parens ts e r) : ts = e ++ r ∧ ParenToks e := by
  obtain ⟨i, hb, rfl, rfl⟩ := h; exact ⟨rfl, i, hb, rfl⟩

theorem kw_inv' {ks : List String} {ts r : List Str} (h : kw ks ts () r) : ∃ t, ts = t :: r ∧ Kw ks t := by
  obtain ⟨t, _, ⟨rfl, h⟩, _, rfl⟩ := h; exact ⟨t, rfl, h⟩

theorem check_src {isNum : Str → Bool} {d : Rdbms} {L : List Str → Lang ColCon} {ts r : List Str} {v : ColCon}
    (h : (do kw ["CHECK"]; let e ← parens; L e) ts v r) (hL : ∀ e, Yields (L e) (· = .check e)) :
    ConSrc isNum d ts v := by
  obtain ⟨_, _, h1, e, _, h2, h3⟩ := h
  obtain ⟨k, rfl, hk⟩ := kw_inv' h1
  obtain ⟨rfl, hp⟩ := parens_inv h2
  rw [hL e _ _ _ h3]
  exact ⟨k, _, rfl, hk, hp⟩

theorem default_src {isNum : Str → Bool} {d : Rdbms} {ts r : List Str} {v : ColCon}
    (h : (do kw ["DEFAULT"]; let v ← defaultValue isNum (vd d); return ColCon.default v : Lang ColCon) ts v r) :
    ConSrc isNum d ts v := by
  obtain ⟨_, _, h1, w, _, h2, rfl, rfl⟩ := h
  obtain ⟨k, rfl, hk⟩ := kw_inv' h1
  rcases h2 with ⟨_, _, ⟨rfl, _⟩, e, _, h2, rfl, rfl⟩ | ⟨_, _, ⟨rfl, _⟩, t, _, ⟨rfl, h2⟩, rfl, rfl⟩
  · obtain ⟨rfl, hp⟩ := parens_inv h2
    exact ⟨k, _, rfl, hk, hp⟩
  · exact ⟨k, _, rfl, hk, h2⟩

theorem ref_src {isNum : Str → Bool} {d : Rdbms} {L : Lang Unit} {ts r : List Str} {v : ColCon}
    (h : (do let x ← colRef (vd d); L; return ColCon.references x : Lang ColCon) ts v r) :
    ConSrc isNum d ts v := by
  obtain ⟨x, _, ⟨_, _, h1, t, _, h2, _, _, _, rfl, _⟩, _, _, _, rfl, _⟩ := h
  obtain ⟨k, rfl, hk⟩ := kw_inv' h1
  exact ⟨k, _, rfl, hk, _, h2⟩

theorem colCon_src_sqlite (isNum : Str → Bool) (d : Rdbms) (hd : vd d = .sqlite) {ts r : List Str} {v : ColCon}
    (h : Spec.Sqlite.colCon isNum ts v r) : ConSrc isNum d ts v := by
  have hm : d ≠ .mysql := by rintro rfl; cases hd
  have triv : ∀ {L : Lang ColCon}, Yields L (fun v => ∀ ts, ConSrc isNum d ts v) → L ts v r →
      ConSrc isNum d ts v := fun h h' => h _ _ _ h' _
  rcases h with h | h | h | h | h | h | h | h | h
  · exact triv (by yields; intro _ h; exact absurd h hm) h
  · exact triv (by yields; intro _; trivial) h
  · exact triv (by yields; intro _; trivial) h
  · exact check_src h fun e => .pure rfl
  · exact default_src (by rw [hd]; exact h)
  · obtain ⟨_, _, h1, c, _, ⟨rfl, _⟩, rfl, rfl⟩ := h
    obtain ⟨k, rfl, hk⟩ := kw_inv' h1
    exact ⟨k, _, rfl, hk⟩
  · exact ref_src (by rw [hd]; exact h)
  · exact triv (by yields; intro _; trivial) h
  · exact triv (by yields; intro _; trivial) h

theorem colCon_src (isNum : Str → Bool) (d : Rdbms) {ts r : List Str} {v : ColCon}
    (h : colConOf isNum d ts v r) : ConSrc isNum d ts v := by
  cases d with
  | sqlite => exact colCon_src_sqlite isNum _ rfl h
  | other => exact colCon_src_sqlite isNum _ rfl h
  | postgres =>
    have triv : ∀ {L : Lang ColCon}, Yields L (fun v => ∀ ts, ConSrc isNum .postgres ts v) → L ts v r →
        ConSrc isNum .postgres ts v := fun h h' => h _ _ _ h' _
    rcases h with h | h | h | h | h | h | h | h
    · exact triv (by yields; intro _ h; rfl) h
    · exact triv (by yields; intro _; trivial) h
    · exact triv (by yields; intro _; trivial) h
    · exact triv (by yields; intro _; trivial) h
    · obtain ⟨e, _, ⟨_, _, h1, _, _, h2, _, _, h3, rfl, rfl⟩, rfl, rfl⟩ := h
      exact check_src (L := fun e => (pure (ColCon.check e) : Lang ColCon)) ⟨_, _, h1, _, _, h2, rfl, rfl⟩
        fun e => .pure rfl
    · exact default_src h
    · exact ref_src h
    · exact triv (by yields; intro _; trivial) h
  | mysql =>
    have triv : ∀ {L : Lang ColCon}, Yields L (fun v => ∀ ts, ConSrc isNum .mysql ts v) → L ts v r →
        ConSrc isNum .mysql ts v := fun h h' => h _ _ _ h' _
    rcases h with h | h | h | h | h | h | h | h | h | h
    · exact triv (by yields; intro _ h; rfl) h
    · exact triv (by yields; intro _ h; rfl) h
    · exact triv (by yields; intro _; trivial) h
    · exact triv (by yields; intro _; trivial) h
    · exact triv (by yields; intro _; trivial) h
    · obtain ⟨e, _, ⟨_, _, h1, _, _, h2, _, _, h3, _, _, h4, rfl, rfl⟩, rfl, rfl⟩ := h
      exact check_src (L := fun e => (pure (ColCon.check e) : Lang ColCon)) ⟨_, _, h1, _, _, h2, rfl, rfl⟩
        fun e => .pure rfl
    · obtain ⟨_, _, h1, h2⟩ := h
      obtain ⟨k, rfl, hk⟩ := kw_inv' h1
      rcases h2 with ⟨_, _, ⟨rfl, _⟩, e, _, h2, rfl, rfl⟩ | ⟨_, _, ⟨rfl, _⟩, t, _, ⟨rfl, h2⟩, _, _, _, rfl, rfl⟩
      · obtain ⟨rfl, hp⟩ := parens_inv h2
        exact ⟨k, _, rfl, hk, hp⟩
      · exact ⟨k, _, rfl, hk, h2⟩
    · obtain ⟨_, _, h1, c, _, ⟨rfl, _⟩, rfl, rfl⟩ := h
      obtain ⟨k, rfl, hk⟩ := kw_inv' h1
      exact ⟨k, _, rfl, hk⟩
    · exact ref_src h
    · rcases h with h | h | h | h | h | h | h | h | h | h | h | h
      all_goals exact triv (by yields; intro _; first | trivial | rfl) h

/-- The constraints of a column of a script. -/
theorem script_colCon {isNum : Str → Bool} {d : Rdbms} {ts : List Str} {ss : List Stmt} {t : TableAst} {c : ColAst}
    (h : script isNum d ts ss) (hs : .table t ∈ ss) (hi : .column c ∈ t.items) :
    c.name ∈ ts ∧ Name (vd d) c.name ∧ TypeFacts d c.type ∧
    (∀ n, c.conName = .named n → n ∈ ts ∧ Name (vd d) n) ∧
    (c.cons.map ColCon.kind).Nodup ∧ ∀ x ∈ c.cons, ∃ ts', ts' <:+ ts ∧ ConSrc isNum d ts' x := by
  obtain ⟨a, r, h1, h2⟩ := script_item h hs hi
  obtain ⟨ty, mid, body, rfl, h3, h4, h5, h6, h7⟩ := column_inv h2
  have s1 : ty <:+ ts := (List.suffix_cons _ _).trans h1
  have s2 := (suff_type d _ _ _ h4).trans s1
  have s3 := (suff_conName d _ _ _ h5).trans s2
  refine ⟨h1.subset (List.mem_cons_self ..), h3, type_facts d _ _ _ h4, ?_, h7, ?_⟩
  · intro n hn
    rw [hn] at h5
    have key : ∀ d', (conName d') mid (.named n) body → n ∈ ts ∧ Name d' n := by
      rintro d' ⟨o, _, h, h'⟩
      rcases h with ⟨_, _, h1, w, _, ⟨rfl, h⟩, rfl, rfl⟩ | ⟨_, _, _, rfl, rfl⟩
      · obtain ⟨e, rfl⟩ := h'
        cases e
        obtain ⟨k, rfl, _⟩ := kw_inv' h1
        exact ⟨s2.subset (by simp), h⟩
      · obtain ⟨e, _⟩ := h'; cases e
    cases d with
    | sqlite => exact key _ h5
    | other => exact key _ h5
    | postgres => exact key _ h5
    | mysql =>
      obtain ⟨o, _, h, h'⟩ := h5
      rcases h with ⟨_, _, h1, w, _, h, rfl, rfl⟩ | ⟨_, _, _, rfl, rfl⟩
      · rcases h with ⟨_, _, _, rfl, _⟩ | ⟨_, _, ⟨rfl, _⟩, m, _, ⟨rfl, h⟩, rfl, rfl⟩
        · obtain ⟨e, _⟩ := h'; cases e
        · obtain ⟨e, rfl⟩ := h'
          cases e
          obtain ⟨k, rfl, _⟩ := kw_inv' h1
          exact ⟨s2.subset (by simp), h⟩
      · obtain ⟨e, _⟩ := h'; cases e
  · intro x hx
    obtain ⟨ts', r', h8, h9⟩ := many_mem (fun _ _ _ h => (cons_colCon isNum d _ _ _ h).1) h6 hx
    exact ⟨ts', h8.trans s3, colCon_src isNum d h9⟩

/-! ### Where the parts of the other entries come from -/

/-- Every meaning of the phrase, read at some place of `T`, satisfies `P`. -/
def From (T : List Str) (L : Lang β) (P : β → Prop) : Prop := ∀ ts v r, ts <:+ T → L ts v r → P v

theorem From.pure {T : List Str} {v : β} {P : β → Prop} (h : P v) : From T (pure v : Lang β) P := by
  rintro ts w r _ ⟨rfl, _⟩; exact h

theorem From.bind {T : List Str} {L : Lang α} {f : α → Lang β} {P : β → Prop} {Q : α → Prop} (hs : Suff L)
    (hL : From T L Q) (h : ∀ v, Q v → From T (f v) P) : From T (L >>= f) P := by
  rintro ts w r hT ⟨v, mid, h1, h2⟩
  exact h v (hL _ _ _ hT h1) _ _ _ ((hs _ _ _ h1).trans hT) h2

theorem From.skip {T : List Str} {L : Lang α} {f : α → Lang β} {P : β → Prop} (hs : Suff L)
    (h : ∀ v, From T (f v) P) : From T (L >>= f) P :=
  .bind (Q := fun _ => True) hs (fun _ _ _ _ _ => trivial) fun v _ => h v

theorem From.alt {T : List Str} {L M : Lang β} {P : β → Prop} (h : From T L P) (h' : From T M P) :
    From T (L <|> M) P := by
  rintro ts w r hT (h1 | h1)
  · exact h _ _ _ hT h1
  · exact h' _ _ _ hT h1

theorem From.yields {T : List Str} {L : Lang β} {P : β → Prop} (h : Yields L P) : From T L P :=
  fun _ _ _ _ h' => h _ _ _ h'

/-- The token is a name of the source. -/
def NameSrc (T : List Str) (d : Rdbms) (n : Str) : Prop := n ∈ T ∧ Name d n

theorem from_name (T : List Str) (d : Rdbms) : From T (name d) (NameSrc T d) := by
  rintro ts v r hT ⟨rfl, h⟩
  exact ⟨hT.subset (List.mem_cons_self ..), h⟩

/-- The columns of the list are names of the source. -/
def KeysSrc (T : List Str) (d : Rdbms) (ks : List KeyPart) : Prop := ∀ n, KeyPart.col n ∈ ks → NameSrc T d n

/-- The name of a constraint is a name of the source. -/
def ConNameSrc (T : List Str) (d : Rdbms) (c : ConName) : Prop := ∀ n, c = .named n → NameSrc T d n

/-- A name with a schema or without. -/
def QNameSrc (T : List Str) (d : Rdbms) (q : QName) : Prop :=
  NameSrc T d q.name ∧ ∀ s, q.schema = some s → NameSrc T d s

theorem from_qname (T : List Str) (d : Rdbms) : From T (qname d) (QNameSrc T d) := by
  unfold Spec.qname
  refine .bind (Suff.name d) (from_name T d) fun a ha => ?_
  refine .bind (Q := fun o => ∀ b, o = some b → NameSrc T d b) (Suff.optKw _ (Suff.name d)) ?_ fun o ho => ?_
  · unfold Spec.optKw
    refine .alt (.skip (Suff.kw _) fun _ => .bind (Suff.name d) (from_name T d) fun b hb => .pure ?_)
      (.yields (by yields; rintro b ⟨⟩))
    rintro _ ⟨⟩; exact hb
  · cases o with
    | none => exact .pure ⟨ha, by rintro s ⟨⟩⟩
    | some b => exact .pure ⟨ho b rfl, by rintro s ⟨⟩; exact ha⟩

theorem from_sep {T : List Str} {L : Lang β} {P : β → Prop} (hs : Suff L) (h : From T L P) :
    From T (Sep L) (fun vs => ∀ v ∈ vs, P v) := by
  intro ts vs r hT hv v hm
  obtain ⟨a, b, h1, h2⟩ := sep_mem hs hv hm
  exact h _ _ _ (h1.trans hT) h2

theorem keysSrc_cols {T : List Str} {d : Rdbms} {ns : List Str} (h : ∀ n ∈ ns, NameSrc T d n) :
    KeysSrc T d (colKeys ns) := by
  intro n hn
  obtain ⟨m, hm, e⟩ := List.mem_map.1 hn
  cases e; exact h _ hm

theorem from_nameList (T : List Str) (d : Rdbms) : From T (nameList d) (KeysSrc T d) := by
  unfold Spec.nameList names
  refine .skip (Suff.kw _) fun _ => .bind (.sep (Suff.name d)) (from_sep (Suff.name d) (from_name T d)) fun ns hns => ?_
  exact .skip (Suff.kw _) fun _ => .pure (keysSrc_cols hns)

theorem suff_keyPart : Suff Spec.Mysql.keyPart := by
  have := Suff.digitN
  unfold Spec.Mysql.keyPart; suff

theorem from_keyList (T : List Str) : From T Spec.Mysql.keyList (KeysSrc T .mysql) := by
  unfold Spec.Mysql.keyList
  refine .skip (Suff.kw _) fun _ => .bind (Q := KeysSrc T .mysql) (.sep suff_keyPart) ?_ fun ks hks =>
    .skip (Suff.kw _) fun _ => .pure hks
  have h : From T Spec.Mysql.keyPart (fun k => ∀ n, k = .col n → NameSrc T .mysql n) := by
    unfold Spec.Mysql.keyPart
    refine .bind (Q := fun k => ∀ n, k = .col n → NameSrc T .mysql n) ?_ ?_ fun k hk =>
      .skip (Suff.optWord _) fun _ => .pure hk
    · have := Suff.digitN
      suff
    · refine .alt (.yields (by yields; rintro n ⟨⟩)) ?_
      refine .bind (Suff.name _) (from_name T _) fun n hn => .skip Suff.digitN fun _ => .pure ?_
      rintro _ ⟨⟩; exact hn
  exact fun ts vs r hT hv n hn => from_sep suff_keyPart h ts vs r hT hv _ hn n rfl

/-- The parts of an entry that is not a column. -/
def ItemSrc (T : List Str) (d : Rdbms) : Item → Prop
  | .column _ => True
  | .primaryKey n ks => ConNameSrc T d n ∧ KeysSrc T d ks
  | .unique n ks => ConNameSrc T d n ∧ KeysSrc T d ks
  | .check n e => ConNameSrc T d n ∧ ExprSrc T "CHECK" e
  | .foreignKey n ks r => ConNameSrc T d n ∧ KeysSrc T d ks ∧ QNameSrc T d r.table ∧
      ∀ cs, r.cols = some cs → KeysSrc T d cs
  | .exclude n => ConNameSrc T d n
  | .index n => ConNameSrc T d n
  | .fulltext n _ => ConNameSrc T d n

theorem from_conName (T : List Str) (d : Rdbms) : From T (conName d) (ConNameSrc T d) := by
  unfold Spec.conName
  refine .bind (Q := fun o => ∀ n, o = some n → NameSrc T d n) (Suff.optKw _ (Suff.name d)) ?_ fun o ho => ?_
  · unfold Spec.optKw
    refine .alt (.skip (Suff.kw _) fun _ => .bind (Suff.name d) (from_name T d) fun b hb => .pure ?_)
      (.yields (by yields; rintro b ⟨⟩))
    rintro _ ⟨⟩; exact hb
  · cases o with
    | none => exact .pure (by rintro n ⟨⟩)
    | some m => exact .pure (by rintro n ⟨⟩; exact ho _ rfl)

theorem from_conName_mysql (T : List Str) (ks : List String) :
    From T (Spec.Mysql.conName ks) (ConNameSrc T .mysql) := by
  unfold Spec.Mysql.conName
  refine .bind (Q := fun o => ∀ n, o = some (some n) → NameSrc T .mysql n) ?_ ?_ fun o ho => ?_
  · have := Suff.name .mysql
    suff
  · unfold Spec.optKw
    refine .alt (.skip (Suff.kw _) fun _ => .bind (Q := fun o => ∀ n, o = some n → NameSrc T .mysql n) ?_ ?_
      fun o ho => .pure ?_) (.yields (by yields; rintro b ⟨⟩))
    · have := Suff.name .mysql
      suff
    · refine .alt (.yields (by yields; rintro n ⟨⟩)) (.skip (Suff.notAt _) fun _ =>
        .bind (Suff.name _) (from_name T _) fun n hn => .pure ?_)
      rintro _ ⟨⟩; exact hn
    · rintro n ⟨⟩; exact ho _ rfl
  · match o, ho with
    | none, _ => exact .pure (by rintro n ⟨⟩)
    | some none, _ => exact .pure (by rintro n ⟨⟩)
    | some (some m), ho => exact .pure (by rintro n ⟨⟩; exact ho _ rfl)

theorem from_check {T : List Str} {f : List Str → Lang β} {P : β → Prop}
    (h : ∀ e, ExprSrc T "CHECK" e → From T (f e) P) : From T (do kw ["CHECK"]; let e ← parens; f e) P := by
  rintro ts v r hT ⟨_, _, h1, e, mid, h2, h3⟩
  obtain ⟨k, rfl, hk⟩ := kw_inv' h1
  obtain ⟨rfl, hp⟩ := parens_inv h2
  refine h e ⟨hp, ?_⟩ _ _ _ ((List.suffix_append e mid).trans ((List.suffix_cons _ _).trans hT)) h3
  obtain ⟨a, rfl⟩ := hT
  exact ⟨a, k, mid, rfl, hk⟩

theorem from_foreignKey {T : List Str} {d : Rdbms} {n : ConName} (hn : ConNameSrc T d n) :
    From T (foreignKey d n) (ItemSrc T d) := by
  unfold Spec.foreignKey
  refine .skip (Suff.kw _) fun _ => .skip (Suff.kw _) fun _ => .bind (Suff.nameList d) (from_nameList T d) fun ks hks =>
    .skip (Suff.kw _) fun _ => .bind (Suff.qname d) (from_qname T d) fun t ht => ?_
  refine .bind (Q := fun o => ∀ cs, o = some cs → KeysSrc T d cs) ?_ ?_ fun rs hrs => .pure ⟨hn, hks, ht, hrs⟩
  · have := Suff.name d
    unfold names; suff
  · unfold Spec.optKw names
    refine .alt (.skip (Suff.kw _) fun _ => ?_) (.yields (by yields; rintro b ⟨⟩))
    refine .bind (Q := KeysSrc T d) ?_ ?_ fun ks hks => .pure (by rintro _ ⟨⟩; exact hks)
    · have := Suff.name d
      suff
    · exact .bind (.sep (Suff.name d)) (from_sep (Suff.name d) (from_name T d)) fun ns hns =>
        .skip (Suff.kw _) fun _ => .pure (keysSrc_cols hns)

theorem from_sqlite {T : List Str} {n : ConName} (hn : ConNameSrc T .sqlite n) :
    From T (Spec.Sqlite.tableCon n) (ItemSrc T .sqlite) := by
  unfold Spec.Sqlite.tableCon
  refine .alt ?_ (.alt ?_ (.alt ?_ ?_))
  · exact .skip (Suff.kw _) fun _ => .skip (Suff.kw _) fun _ => .bind (Suff.nameList _) (from_nameList T _)
      fun ks hks => From.yields (by yields; exact ⟨hn, hks⟩)
  · exact .skip (Suff.kw _) fun _ => .bind (Suff.nameList _) (from_nameList T _)
      fun ks hks => From.yields (by yields; exact ⟨hn, hks⟩)
  · exact from_check fun e he => .pure ⟨hn, he⟩
  · exact .bind (Suff.foreignKey _ _) (from_foreignKey hn) fun i hi => From.yields (by yields; exact hi)

theorem from_postgres {T : List Str} {n : ConName} (hn : ConNameSrc T .postgres n) :
    From T (Spec.Postgres.tableCon n) (ItemSrc T .postgres) := by
  unfold Spec.Postgres.tableCon
  refine .alt ?_ (.alt ?_ (.alt ?_ (.alt ?_ ?_)))
  · exact .skip (Suff.kw _) fun _ => .skip (Suff.kw _) fun _ => .bind (Suff.nameList _) (from_nameList T _)
      fun ks hks => From.yields (by yields; exact ⟨hn, hks⟩)
  · exact .skip (Suff.kw _) fun _ => .bind (Suff.nameList _) (from_nameList T _)
      fun ks hks => From.yields (by yields; exact ⟨hn, hks⟩)
  · refine .bind (Q := ExprSrc T "CHECK") PostgresImpl.suff_check ?_ fun e he => .pure ⟨hn, he⟩
    exact from_check fun e he => From.yields (by yields; exact he)
  · exact .bind (Suff.foreignKey _ _) (from_foreignKey hn) fun i hi => From.yields (by yields; exact hi)
  · exact .yields (by yields; exact hn)

theorem from_mysql (isNum : Str → Bool) {T : List Str} {n : ConName} (hn : ConNameSrc T .mysql n) :
    From T (Spec.Mysql.tableCon isNum n) (ItemSrc T .mysql) := by
  unfold Spec.Mysql.tableCon
  refine .alt ?_ (.alt ?_ (.alt ?_ (.alt ?_ (.alt ?_ ?_))))
  · exact .skip (Suff.kw _) fun _ => .skip (Suff.kw _) fun _ => .skip MysqlImpl.suff_indexType fun _ =>
      .bind MysqlImpl.suff_keyList (from_keyList T) fun ks hks => From.yields (by yields; exact ⟨hn, hks⟩)
  · exact .skip (Suff.kw _) fun _ => .skip (Suff.optWord _) fun _ => .skip (MysqlImpl.suff_nameUnless _) fun _ =>
      .skip MysqlImpl.suff_indexType fun _ =>
      .bind MysqlImpl.suff_keyList (from_keyList T) fun ks hks => From.yields (by yields; exact ⟨hn, hks⟩)
  · exact .skip (Suff.kw _) fun _ => .skip (Suff.kw _) fun _ => .skip (MysqlImpl.suff_nameUnless _) fun _ =>
      .bind (Suff.nameList _) (from_nameList T _) fun ks hks => .skip (Suff.kw _) fun _ =>
      .bind (Suff.qname _) (from_qname T _) fun t ht => .bind MysqlImpl.suff_keyList (from_keyList T) fun rs hrs =>
      From.yields (by yields; exact ⟨hn, hks, ht, by rintro _ ⟨⟩; exact hrs⟩)
  · refine .bind (Q := ExprSrc T "CHECK") MysqlImpl.suff_check ?_ fun e he => .pure ⟨hn, he⟩
    exact from_check fun e he => From.yields (by yields; exact he)
  · exact .yields (by yields; exact hn)
  · exact .yields (by yields; exact hn)

theorem from_item (isNum : Str → Bool) (T : List Str) (d : Rdbms) : From T (itemOf isNum d) (ItemSrc T (vd d)) := by
  cases d with
  | sqlite => refine .alt (.skip (Suff.at _) fun _ => .bind (Suff.conName _) (from_conName T _) fun n hn =>
      from_sqlite hn) (.yields ?_); unfold Spec.Sqlite.column; yields; trivial
  | other => refine .alt (.skip (Suff.at _) fun _ => .bind (Suff.conName _) (from_conName T _) fun n hn =>
      from_sqlite hn) (.yields ?_); unfold Spec.Sqlite.column; yields; trivial
  | postgres => refine .alt (.skip (Suff.at _) fun _ => .bind (Suff.conName _) (from_conName T _) fun n hn =>
      from_postgres hn) (.yields ?_); unfold Spec.Postgres.column; yields; trivial
  | mysql => refine .alt (.skip (Suff.at _) fun _ => .bind (MysqlImpl.suff_conName _) (from_conName_mysql T _) fun n hn =>
      from_mysql isNum hn) (.yields ?_); unfold Spec.Mysql.column; yields; trivial

/-- The parts of the entries of a script. -/
theorem script_itemSrc {isNum : Str → Bool} {d : Rdbms} {ts : List Str} {ss : List Stmt} {t : TableAst} {i : Item}
    (h : script isNum d ts ss) (hs : .table t ∈ ss) (hi : i ∈ t.items) : ItemSrc ts (vd d) i := by
  obtain ⟨a, r, h1, h2⟩ := script_item h hs hi
  exact from_item isNum ts d _ _ _ h1 h2

/-- The name of a table. -/
theorem stmt_name {isNum : Str → Bool} {d : Rdbms} {T ts r : List Str} {t : TableAst} (hT : ts <:+ T)
    (h : stmtOf isNum d ts (.table t) r) : QNameSrc T (vd d) t.name := by
  have key : ∀ (d' : Rdbms) (o : Lang Unit) (ts : List Str), ts <:+ T →
      createTable d' (itemOf isNum d) o ts (.table t) r → QNameSrc T d' t.name := by
    rintro d' o ts hT ⟨_, _, h1, _, _, h2, _, _, h3, _, _, h6, is, mid, h7, _, _, h8, _, _, h9, _, _, h10, e, rfl⟩
    cases e
    exact from_qname T d' _ _ _ ((Suff.ifNotExists _ _ _ h2).trans ((Suff.kw _ _ _ _ h1).trans hT)) h3
  have no : ∀ (ks : List String) (ts : List Str), ¬ other ks ts (.table t) r := by
    rintro ks ts ⟨_, _, _, _, _, _, e, _⟩; cases e
  cases d with
  | postgres =>
    obtain ⟨_, _, h1, h | h⟩ := h
    · exact key _ _ _ ((Suff.kw _ _ _ _ h1).trans hT) h
    · exact absurd h (no _ _)
  | mysql =>
    obtain ⟨_, _, h1, h | h⟩ := h
    · exact key _ _ _ ((Suff.kw _ _ _ _ h1).trans hT) h
    · exact absurd h (no _ _)
  | sqlite =>
    obtain ⟨_, _, h1, _, _, h2, h | h⟩ := h
    · exact key _ _ _ ((Suff.optWord _ _ _ _ h2).trans ((Suff.kw _ _ _ _ h1).trans hT)) h
    · exact absurd h (no _ _)
  | other =>
    obtain ⟨_, _, h1, _, _, h2, h | h⟩ := h
    · exact key .sqlite _ _ ((Suff.optWord _ _ _ _ h2).trans ((Suff.kw _ _ _ _ h1).trans hT)) h
    · exact absurd h (no _ _)

theorem script_name {isNum : Str → Bool} {d : Rdbms} {ts : List Str} {ss : List Stmt} {t : TableAst}
    (h : script isNum d ts ss) (hs : .table t ∈ ss) : QNameSrc ts (vd d) t.name := by
  obtain ⟨a, r, h1, h2⟩ := script_stmt h hs
  exact stmt_name h1 h2

/-! ### Reported names -/

theorem nameVal_of {d : Rdbms} (hd : d ≠ .other) {T : List Str} {n : Str} (h : NameSrc T (vd d) n) :
    NameOf d T (nameVal d n) := by
  obtain ⟨hm, hn⟩ := h
  have hq : identQuotes d = nameQuotes d := by cases d <;> first | rfl | exact absurd rfl hd
  have hn : Name d n := by cases d <;> first | exact hn | exact absurd rfl hd
  refine ⟨n, hm, ?_⟩
  unfold nameVal
  rw [hq]
  rcases hn with ⟨c, r, rfl, hc⟩ | hp
  · exact .inl ⟨⟨c, r, rfl, hc⟩, by show (if c ∈ nameQuotes d then _ else _) = _; rw [if_pos hc]⟩
  · refine .inr ⟨hp, ?_⟩
    obtain ⟨⟨c, r, rfl, hc, _⟩, _⟩ := hp
    have : c ∉ nameQuotes d := by
      intro hm
      have : ∀ c ∈ ['"', '`'], ¬ (c.isAlpha = true ∨ c = '_') := by decide
      exact this c (by cases d <;> simp_all [nameQuotes]) hc
    show (if c ∈ nameQuotes d then _ else _) = _
    rw [if_neg this]

theorem conNameVal_of {d : Rdbms} (hd : d ≠ .other) {T : List Str} {n : ConName} (h : ConNameSrc T (vd d) n) :
    conNameVal d n = [] ∨ NameOf d T (conNameVal d n) := by
  cases n with
  | named m => exact .inr (nameVal_of hd (h m rfl))
  | _ => exact .inl rfl

theorem suffix_expr {T ts e : List Str} {k : String} {t : Str} {r : List Str} (h : ts <:+ T)
    (he : ts = t :: (e ++ r)) (hk : Kw [k] t) (hp : ∃ i, Bal i ∧ e = ['('] :: i ++ [[')']]) : ExprSrc T k e := by
  obtain ⟨a, rfl⟩ := h
  exact ⟨hp, a, t, r, by rw [he], hk⟩

theorem findSome_mem {f : α → Option β} {l : List α} {b : β} (h : l.findSome? f = some b) :
    ∃ a ∈ l, f a = some b := List.exists_of_findSome?_eq_some h

end DDL
