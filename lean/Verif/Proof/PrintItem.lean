import Verif.Proof.PrintCon
/-
Printed types, columns, table constraints, statements and scripts.
-/

namespace DDL
open V Spec

/-! ### Types -/

/-- The type a description stands for. -/
def typeOf (τ : DataType) : TypeAst := ⟨τ.name, false, digitsOf τ.digitN τ.digitM⟩

theorem DigitsOK.mono {k k' : Nat} {τ : DataType} (h : DigitsOK k τ) (hk : k ≤ k') : DigitsOK k' τ := by
  obtain ⟨h1, h2, h3, h4, h5, h6, h7⟩ := h
  exact ⟨h1, h2, h3, h4, h5, fun h => h6 (by omega), fun h => h7 (by omega)⟩

theorem DigitsOK.zero {τ : DataType} (h : DigitsOK 0 τ) :
    digitsText τ.digitN τ.digitM = [] ∧ digitsOf τ.digitN τ.digitM = none := by
  have h0 : τ.digitN = 0 := h.2.2.2.2.2.1 rfl
  unfold digitsText digitsOf
  rw [if_pos h0, if_pos h0]; exact ⟨rfl, rfl⟩

/-- A word of letters in upper case. -/
def typeWordB (w : String) : Bool :=
  fixedB w.toList && (w.toList.map Char.toUpper == w.toList) && !w.toList.isEmpty &&
    w.toList.all (fun c => c.isAlphanum || c == '_')

theorem typeWords {d : Rdbms} {p : List String × Nat} (hp : p ∈ types d) {w : String} (hw : w ∈ p.1) :
    typeWordB w = true := by
  have : ∀ p ∈ types d, ∀ w ∈ p.1, typeWordB w = true := by cases d <;> decide
  exact this p hp w hw

theorem TypeOK.word {d : Rdbms} {τ : DataType} (h : TypeOK d τ) : Txt d (piece τ.name) [τ.name] := by
  obtain ⟨p, hp, w, hw, e, _⟩ := h
  have hb := typeWords hp hw
  unfold typeWordB at hb
  simp only [Bool.and_eq_true, Bool.not_eq_true', List.all_eq_true] at hb
  rw [e]
  refine .word (isWord_alnum (by intro h; rw [h] at hb; simp at hb) fun c hc => ?_)
  simpa using hb.2 c hc

theorem TypeOK.val {d : Rdbms} {τ : DataType} (h : TypeOK d τ) : typeVal (typeOf τ) = τ := by
  obtain ⟨p, hp, w, hw, e, hd⟩ := h
  have hb := typeWords hp hw
  unfold typeWordB at hb
  simp only [Bool.and_eq_true, beq_iff_eq] at hb
  obtain ⟨h1, h2⟩ := digitsVal_digitsOf hd
  unfold typeVal typeOf typeName
  simp only [h1, h2]
  rw [if_neg (by simp), e, hb.1.1.2, ← e]

theorem typeText_plain {d : Rdbms} {τ : DataType} (h : (d == .postgres && τ.name == S "DOUBLE") = false) :
    typeText d τ = piece τ.name ++ digitsText τ.digitN τ.digitM := by
  unfold typeText
  rw [h]
  exact congrArg (· ++ digitsText τ.digitN τ.digitM) (List.append_nil _)

theorem sqlite_type {τ : DataType} (h : TypeOK .sqlite τ) :
    Ph .sqlite T9 (do let t ← tok (Kw ["TEXT", "NUMERIC", "INTEGER", "REAL", "NONE"])
                      return (⟨t, false, none⟩ : TypeAst))
      (typeText .sqlite τ) (typeOf τ) := by
  have hw := TypeOK.word h
  obtain ⟨p, hp, w, hw', e, hd⟩ := h
  cases List.mem_singleton.1 hp
  obtain ⟨z1, z2⟩ := DigitsOK.zero hd
  have : ∀ w ∈ ["TEXT", "NUMERIC", "INTEGER", "REAL", "NONE"], Kw ["TEXT", "NUMERIC", "INTEGER", "REAL", "NONE"] w.toList := by
    decide
  refine ⟨[τ.name], hw.eq (by rw [typeText_plain rfl, z1, List.append_nil]) rfl, fun r _ => ?_⟩
  refine ⟨τ.name, r, ⟨rfl, e ▸ this w hw'⟩, ?_, rfl⟩
  rw [typeOf, z2]

theorem postgres_type {τ : DataType} (h : TypeOK .postgres τ) :
    Ph .postgres T9 Spec.Postgres.type (typeText .postgres τ) (typeOf τ) := by
  have hw := TypeOK.word h
  obtain ⟨p, hp, w, hw', e, hd⟩ := h
  have hkw : ∀ p ∈ types .postgres, ∀ w ∈ p.1,
      (w ∈ ["BIT", "CHARACTER"] ∧ p.2 ≤ 1) ∨ (w ∈ ["VARBIT", "VARCHAR", "CHAR"] ∧ p.2 ≤ 1) ∨
      (w ∈ ["NUMERIC", "DECIMAL"] ∧ p.2 ≤ 2) ∨ (w ∈ ["DOUBLE"] ∧ p.2 ≤ 0) ∨
      (w ∈ ["TIME", "TIMESTAMP"] ∧ p.2 ≤ 1) ∨
      (Kw dataTypePostgres w.toList ∧ ¬ Kw Spec.Postgres.specialTypes w.toList ∧
        w.toList ≠ S "DOUBLE" ∧ p.2 ≤ 0) := by decide +kernel
  have notD : ∀ {ks : List String}, w ∈ ks → (∀ w ∈ ks, w.toList ≠ S "DOUBLE") →
      (Rdbms.postgres == .postgres && τ.name == S "DOUBLE") = false := by
    intro ks hm hk
    rw [e]; simpa using hk w hm
  rcases hkw p hp w hw' with ⟨h, hk⟩ | ⟨h, hk⟩ | ⟨h, hk⟩ | ⟨h, hk⟩ | ⟨h, hk⟩ | ⟨h1, h2, h3, hk⟩
  · obtain ⟨ts, g1, g2⟩ := digitN_head (d := .postgres) (T := T9) (by decide) (DigitsOK.mono hd hk)
    have k : ∀ w ∈ ["BIT", "CHARACTER"], Kw ["BIT", "CHARACTER"] w.toList := by decide
    refine ⟨[τ.name] ++ ts, (hw.append g1).eq (typeText_plain (notD h (by decide))).symm rfl, fun r hr => .inl ?_⟩
    exact ⟨τ.name, _, ⟨rfl, e ▸ k w h⟩, false, _, optWord_none ((g2 r hr).2.notAt (by decide)), _, r, (g2 r hr).1, rfl, rfl⟩
  · obtain ⟨ts, g1, g2⟩ := digitN_ph (d := .postgres) (T := T9) (by decide) (DigitsOK.mono hd hk)
    have k : ∀ w ∈ ["VARBIT", "VARCHAR", "CHAR"], Kw ["VARBIT", "VARCHAR", "CHAR"] w.toList := by decide
    refine ⟨[τ.name] ++ ts, (hw.append g1).eq (typeText_plain (notD h (by decide))).symm rfl, fun r hr => .inr (.inl ?_)⟩
    exact ⟨τ.name, _, ⟨rfl, e ▸ k w h⟩, _, r, g2 r hr, rfl, rfl⟩
  · obtain ⟨ts, g1, g2⟩ := digitPS_ph (d := .postgres) (T := T9) (by decide) (DigitsOK.mono hd hk)
    have k : ∀ w ∈ ["NUMERIC", "DECIMAL"], Kw ["NUMERIC", "DECIMAL"] w.toList := by decide
    refine ⟨[τ.name] ++ ts, (hw.append g1).eq (typeText_plain (notD h (by decide))).symm rfl,
      fun r hr => .inr (.inr (.inl ?_))⟩
    exact ⟨τ.name, _, ⟨rfl, e ▸ k w h⟩, _, r, g2 r hr, rfl, rfl⟩
  · obtain ⟨z1, z2⟩ := DigitsOK.zero (DigitsOK.mono hd hk)
    have e' : τ.name = S "DOUBLE" := by rw [e, List.mem_singleton.1 h]
    have hp2 : Txt .postgres (S "PRECISION ") [S "PRECISION"] := .fixed _ (by decide) (by decide)
    refine ⟨[τ.name] ++ [S "PRECISION"], (hw.append hp2).eq (by
      unfold typeText
      rw [z1, e', List.append_nil]
      rfl) rfl, fun r hr => .inr (.inr (.inr (.inl ?_)))⟩
    refine ⟨τ.name, _, ⟨rfl, ?_⟩, (), r, kwS (by decide), ?_, rfl⟩
    · rw [e']; decide
    · rw [typeOf, z2]
  · obtain ⟨ts, g1, g2⟩ := digitN_ph (d := .postgres) (T := T9) (by decide) (DigitsOK.mono hd hk)
    have k : ∀ w ∈ ["TIME", "TIMESTAMP"], Kw ["TIME", "TIMESTAMP"] w.toList := by decide
    refine ⟨[τ.name] ++ ts, (hw.append g1).eq (typeText_plain (notD h (by decide))).symm rfl,
      fun r hr => .inr (.inr (.inr (.inr (.inl ?_))))⟩
    exact ⟨τ.name, _, ⟨rfl, e ▸ k w h⟩, _, r, g2 r hr, (), r, ⟨none, r, optKw_none (hr.notAt (by decide)), rfl, rfl⟩,
      rfl, rfl⟩
  · obtain ⟨z1, z2⟩ := DigitsOK.zero (DigitsOK.mono hd hk)
    refine ⟨[τ.name], hw.eq (by
      rw [typeText_plain (by rw [e]; simpa using h3), z1, List.append_nil]) rfl,
      fun r hr => .inr (.inr (.inr (.inr (.inr ?_))))⟩
    refine ⟨τ.name, r, ⟨rfl, e ▸ ⟨h1, h2⟩⟩, ?_, rfl⟩
    rw [typeOf, z2]

theorem mysql_type {τ : DataType} (h : TypeOK .mysql τ) :
    Ph .mysql T9 Spec.Mysql.type (typeText .mysql τ) (typeOf τ) := by
  have hw := TypeOK.word h
  obtain ⟨p, hp, w, hw', e, hd⟩ := h
  have hkw : ∀ p ∈ types .mysql, ∀ w ∈ p.1,
      (w ∈ Spec.Mysql.typesN ∧ p.2 ≤ 1) ∨ (w ∈ Spec.Mysql.typesPS ∧ p.2 ≤ 2) ∨
      (w ∈ Spec.Mysql.typesTime ∧ p.2 ≤ 1) ∨
      (Kw dataTypeMysql w.toList ∧ ¬ Kw (Spec.Mysql.typesN ++ Spec.Mysql.typesPS ++ Spec.Mysql.typesTime) w.toList ∧
        p.2 ≤ 0) := by decide +kernel
  have et := typeText_plain (d := .mysql) (τ := τ) rfl
  rcases hkw p hp w hw' with ⟨h, hk⟩ | ⟨h, hk⟩ | ⟨h, hk⟩ | ⟨h1, h2, hk⟩
  · obtain ⟨ts, g1, g2⟩ := digitN_ph (d := .mysql) (T := T9) (by decide) (DigitsOK.mono hd hk)
    have k : ∀ w ∈ Spec.Mysql.typesN, Kw Spec.Mysql.typesN w.toList := by decide
    refine ⟨[τ.name] ++ ts, (hw.append g1).eq et.symm rfl, fun r hr => .inl ?_⟩
    exact ⟨τ.name, _, ⟨rfl, e ▸ k w h⟩, _, r, g2 r hr, rfl, rfl⟩
  · obtain ⟨ts, g1, g2⟩ := digitPS_ph (d := .mysql) (T := T9) (by decide) (DigitsOK.mono hd hk)
    have k : ∀ w ∈ Spec.Mysql.typesPS, Kw Spec.Mysql.typesPS w.toList := by decide
    refine ⟨[τ.name] ++ ts, (hw.append g1).eq et.symm rfl, fun r hr => .inr (.inl ?_)⟩
    exact ⟨τ.name, _, ⟨rfl, e ▸ k w h⟩, _, r, g2 r hr, rfl, rfl⟩
  · obtain ⟨ts, g1, g2⟩ := digitN_ph (d := .mysql) (T := T9) (by decide) (DigitsOK.mono hd hk)
    have k : ∀ w ∈ Spec.Mysql.typesTime, Kw Spec.Mysql.typesTime w.toList := by decide
    refine ⟨[τ.name] ++ ts, (hw.append g1).eq et.symm rfl, fun r hr => .inr (.inr (.inl ?_))⟩
    exact ⟨τ.name, _, ⟨rfl, e ▸ k w h⟩, _, r, g2 r hr, (), r, ⟨none, r, optKw_none (hr.notAt (by decide)), rfl, rfl⟩,
      rfl, rfl⟩
  · obtain ⟨z1, z2⟩ := DigitsOK.zero (DigitsOK.mono hd hk)
    refine ⟨[τ.name], hw.eq (by rw [et, z1, List.append_nil]) rfl, fun r hr => .inr (.inr (.inr ?_))⟩
    refine ⟨τ.name, r, ⟨rfl, e ▸ ⟨h1, h2⟩⟩, ?_, rfl⟩
    rw [typeOf, z2]

/-! ### Constraint names -/

theorem at_head {T r : List Str} {ks : List String} (h : Head T r) (hT : ∀ t ∈ T, Kw ks t) :
    at_ ks r () r := by
  obtain ⟨t, r', rfl, ht⟩ := h
  exact ⟨rfl, t, r', rfl, hT t ht⟩

/-- `[CONSTRAINT name]` if one of `T` follows; then the first token is CONSTRAINT or one of `T`. -/
def NPh (d : Rdbms) (T : List Str) (L : Lang ConName) (n : Str) : Prop :=
  ∃ ts, Txt d (conNameText d n) ts ∧ ∀ r, Head T r →
    L (ts ++ r) (conNameOf d n) r ∧ Head (S "CONSTRAINT" :: T) (ts ++ r)

theorem conName_ph {d : Rdbms} {T : List Str} (hT : ∀ t ∈ T, ¬ Kw ["CONSTRAINT"] t) {n : Str}
    (h : Quotable n) : NPh d T (conName d) n := by
  unfold NPh conNameText conNameOf
  by_cases h0 : n = []
  · subst h0
    rw [if_pos rfl]
    exact ⟨[], .nil, fun r hr => ⟨⟨none, r, optKw_none (hr.notAt hT), rfl, rfl⟩,
      hr.mono fun t ht => .tail _ ht⟩⟩
  · rw [if_neg h0]
    refine ⟨[S "CONSTRAINT"] ++ [nameTok d n], ?_, fun r hr => ⟨?_, .cons (.head _)⟩⟩
    · have : (n != []) = true := by simpa using h0
      rw [this]
      exact Txt.append (.fixed [S "CONSTRAINT"] (by decide) (by decide)) (.name h)
    · exact ⟨some (nameTok d n), r, optKw_some (by decide) (name_intro (name_nameTok d n)), rfl, rfl⟩

theorem mysql_conName_ph {T : List Str} (hT : ∀ t ∈ T, ¬ Kw ["CONSTRAINT"] t) {ks : List String}
    (hk : ks.all (fun k => noHead '"' k && noHead '`' k) = true) {n : Str}
    (h : Quotable n) : NPh .mysql T (Spec.Mysql.conName ks) n := by
  unfold NPh conNameText conNameOf
  by_cases h0 : n = []
  · subst h0
    rw [if_pos rfl]
    exact ⟨[], .nil, fun r hr => ⟨⟨none, r, optKw_none (hr.notAt hT), rfl, rfl⟩,
      hr.mono fun t ht => .tail _ ht⟩⟩
  · rw [if_neg h0]
    refine ⟨[S "CONSTRAINT"] ++ [nameTok .mysql n], ?_, fun r hr => ⟨?_, .cons (.head _)⟩⟩
    · have : (n != []) = true := by simpa using h0
      rw [this]
      exact Txt.append (.fixed [S "CONSTRAINT"] (by decide) (by decide)) (.name h)
    · exact ⟨some (some (nameTok .mysql n)), r, optKw_some (by decide)
        (.inr ⟨(), _, notAt_cons (not_kw_nameTok hk), _, r, name_intro (name_nameTok .mysql n), rfl, rfl⟩),
        rfl, rfl⟩

/-! ### Columns -/

/-- Tokens of a check, if there is one. -/
theorem check_toks {d : Rdbms} {s : List Char} (h : s ≠ [] → ExprOK d s) :
    ∃ e, (s ≠ [] → Txt d (piece s) e ∧ ∀ r, parens (e ++ r) e r) ∧ (s ≠ [] → exprText e = s) ∧
      Spaced e := by
  by_cases h0 : s = []
  · exact ⟨[], fun h => (h h0).elim, fun h => (h h0).elim, trivial⟩
  · obtain ⟨e, h1, h2, h3, _, h4⟩ := Txt.expr (h h0)
    exact ⟨e, fun _ => ⟨h1, h2⟩, fun _ => h3, h4⟩

/-- Reads `name type [CONSTRAINT name] constraint ...` -/
def colOf (d : Rdbms) (c : Column) (e : List Str) : ColAst :=
  ⟨nameTok d c.name, typeOf c.dataType, conNameOf d c.constraint.name, consOf d c.constraint e⟩

/-- The parts of a column make a column. -/
theorem column_parts {isNum : Str → Bool} {d : Rdbms} {T : Lang TypeAst} {N : Lang ConName}
    {first : List String} {K : Lang ColCon} {c : Column} (h : ColumnOK isNum d c)
    (hT : Ph d T9 T (typeText d c.dataType) (typeOf c.dataType))
    (hN : NPh d T8 N c.constraint.name)
    {e : List Str} {s : List Char} (hs : constraintText d c.constraint = conNameText d c.constraint.name ++ s)
    (hK : MPh d first K T8 s (consOf d c.constraint e)) :
    Ph d T0 (do let n ← name d
                let t ← T
                let cn ← N
                let cs ← colCons first K
                return Item.column ⟨n, t, cn, cs⟩)
      (columnText d c) (.column (colOf d c e)) := by
  obtain ⟨ts1, a1, a2⟩ := hT
  obtain ⟨ts2, b1, b2⟩ := hN
  obtain ⟨ts3, c1, c2⟩ := hK
  refine ⟨[nameTok d c.name] ++ ts1 ++ (ts2 ++ ts3), ?_, fun r hr => ?_⟩
  · have := ((Txt.name h.1).append a1).append (b1.append c1)
    exact this.eq (by unfold columnText; rw [hs]) rfl
  · obtain ⟨c3, c4⟩ := c2 r hr
    obtain ⟨b3, b4⟩ := b2 _ c4
    refine ⟨nameTok d c.name, ts1 ++ (ts2 ++ (ts3 ++ r)), ?_, _, _, a2 _ b4, _, _, b3, _, r,
      ⟨c3, kinds_consOf d c.constraint e⟩, rfl, rfl⟩
    have : [nameTok d c.name] ++ ts1 ++ (ts2 ++ ts3) ++ r = nameTok d c.name :: (ts1 ++ (ts2 ++ (ts3 ++ r))) := by
      simp only [List.append_assoc, List.cons_append, List.nil_append]
    rw [this]
    exact name_intro (name_nameTok d c.name)

theorem columnVal_colOf {isNum : Str → Bool} (hN : NumOK isNum) {d : Rdbms} (hd : d ≠ .other)
    {c : Column} (h : ColumnOK isNum d c) {e : List Str}
    (he : c.constraint.check ≠ [] → exprText e = c.constraint.check) :
    columnVal isNum d (colOf d c e) = c := by
  unfold columnVal colOf
  simp only [nameVal_nameTok hd, TypeOK.val h.2.1, constraintVal_consOf hN hd h.2.2 he]

theorem faithful_colOf {d : Rdbms} {c : Column} {e : List Str} : (colOf d c e).Faithful :=
  ⟨fun _ hr => plain_consOf hr, fun _ hn => conNameOf_ok hn⟩

/-! ### Entries -/

/-- What an entry contributes, and that the code reports it. -/
structure Den (isNum : Str → Bool) (d : Rdbms) (i : Item) (c : Option Column) (p : Option PrimaryKey)
    (u : Option Unique) (k : Option Check) (f : Option ForeignKey) : Prop where
  col : i.column? isNum d = c
  pk : i.primaryKey? d = p
  un : i.unique? d = u
  ck : i.check? d = k
  fk : i.foreignKey? d = f
  ok : i.Faithful
  ne : ∀ n, i ≠ .exclude n
  tidy : i.Tidy d
  rep : i.Reported

theorem hasColumn_colKeys {ns : List Str} (h : ns ≠ []) : HasColumn (colKeys ns) := by
  cases ns with
  | nil => exact absurd rfl h
  | cons n ns => exact ⟨n, by simp [colKeys]⟩

theorem column_item {isNum : Str → Bool} (hN : NumOK isNum) {d : Rdbms} (hd : d ≠ .other)
    {c : Column} (h : ColumnOK isNum d c) :
    ∃ i, Ph d T0 (itemOf isNum d) (columnText d c) i ∧ Den isNum d i (some c) none none none none := by
  obtain ⟨e, he, he', hae⟩ := check_toks h.2.2.2.2.2.1
  refine ⟨.column (colOf d c e), ?_, ⟨congrArg some (columnVal_colOf hN hd h he'), rfl, rfl, rfl, rfl,
    faithful_colOf, (by intro n h; cases h), fun _ hx => tidy_consOf hae hx, trivial⟩⟩
  cases d with
  | other => exact (hd rfl).elim
  | sqlite =>
    obtain ⟨s, hs, hm⟩ := sqlite_cons hN h.2.2 he
    obtain ⟨ts, h1, h2⟩ := column_parts h (sqlite_type h.2.1) (conName_ph (by decide) h.2.2.1) hs hm
    refine ⟨ts, h1, fun r hr => .inr ?_⟩
    obtain ⟨n, m1, g1, t, m2, ⟨t', m3, g2, rfl, rfl⟩, cn, m4, g3, cs, m5, g4, e1, rfl⟩ := h2 r hr
    exact ⟨n, m1, g1, t', _, g2, cn, m4, g3, cs, _, g4, e1, rfl⟩
  | postgres =>
    obtain ⟨s, hs, hm⟩ := postgres_cons hN h.2.2 he
    obtain ⟨ts, h1, h2⟩ := column_parts h (postgres_type h.2.1) (conName_ph (by decide) h.2.2.1) hs hm
    exact ⟨ts, h1, fun r hr => .inr (h2 r hr)⟩
  | mysql =>
    obtain ⟨s, hs, hm⟩ := mysql_cons hN h.2.2 he
    obtain ⟨ts, h1, h2⟩ := column_parts h (mysql_type h.2.1)
      (mysql_conName_ph (ks := ["CHECK"]) (by decide) (by decide) h.2.2.1) hs hm
    exact ⟨ts, h1, fun r hr => .inr (h2 r hr)⟩

/-- First words of the printed table constraints. -/
def TK : List Str := [S "PRIMARY", S "UNIQUE", S "CHECK", S "FOREIGN"]

/-- A table constraint of the dialect. -/
def conOf (isNum : Str → Bool) : Rdbms → ConName → Lang Item
  | .postgres => Spec.Postgres.tableCon
  | .mysql => Spec.Mysql.tableCon isNum
  | _ => Spec.Sqlite.tableCon

theorem con_item {isNum : Str → Bool} {d : Rdbms} (hd : d ≠ .other) {n : Str} (hn : Quotable n)
    {s : List Char} {i : Item} {k : Str} (hk : k ∈ TK)
    (h : CPh d T0 (conOf isNum d (conNameOf d n)) s i k) :
    Ph d T0 (itemOf isNum d) (conNameText d n ++ s) i := by
  obtain ⟨ts, h1, h2⟩ := h
  cases d with
  | other => exact (hd rfl).elim
  | sqlite =>
    obtain ⟨ts', g1, g2⟩ := conName_ph (d := .sqlite) (T := TK) (by decide) hn
    refine ⟨ts' ++ (k :: ts), g1.append h1, fun r hr => .inl ?_⟩
    rw [List.append_assoc]
    obtain ⟨g3, g4⟩ := g2 (k :: ts ++ r) (.cons hk)
    exact ⟨(), _, at_head g4 (by decide), _, _, g3, h2 r hr⟩
  | postgres =>
    obtain ⟨ts', g1, g2⟩ := conName_ph (d := .postgres) (T := TK) (by decide) hn
    refine ⟨ts' ++ (k :: ts), g1.append h1, fun r hr => .inl ?_⟩
    rw [List.append_assoc]
    obtain ⟨g3, g4⟩ := g2 (k :: ts ++ r) (.cons hk)
    exact ⟨(), _, at_head g4 (by decide), _, _, g3, h2 r hr⟩
  | mysql =>
    obtain ⟨ts', g1, g2⟩ := mysql_conName_ph (T := TK) (ks := ["PRIMARY", "UNIQUE", "FOREIGN", "CHECK"])
      (by decide) (by decide) hn
    refine ⟨ts' ++ (k :: ts), g1.append h1, fun r hr => .inl ?_⟩
    rw [List.append_assoc]
    obtain ⟨g3, g4⟩ := g2 (k :: ts ++ r) (.cons hk)
    exact ⟨(), _, at_head g4 (by decide), _, _, g3, h2 r hr⟩

theorem mysql_indexType {r : List Str} (h : notAt ["USING"] r () r) : Spec.Mysql.indexType r () r :=
  ⟨none, r, optKw_none h, rfl, rfl⟩

theorem mysql_indexOptions {isNum : Str → Bool} {r : List Str} (h : Head T0 r) :
    Spec.Mysql.indexOptions isNum r () r := many_unit (h.notAt (by decide))

theorem primaryKey_item {isNum : Str → Bool} {d : Rdbms} (hd : d ≠ .other) {k : PrimaryKey}
    (hn : Quotable k.name) (hk : KeyNames d k.columnNames) :
    ∃ i, Ph d T0 (itemOf isNum d) (primaryKeyText d k) i ∧ Den isNum d i none (some k) none none none := by
  refine ⟨.primaryKey (conNameOf d k.name) (colKeys k.columnNames), ?_, ⟨rfl, ?_, rfl, rfl, rfl, trivial,
    (by intro n h; cases h), fun _ => hasColumn_colKeys hk.1, trivial⟩⟩
  · have ht : Txt d (S "PRIMARY KEY ") [S "PRIMARY", S "KEY"] := .fixed _ (by decide) (by decide)
    have := con_item (isNum := isNum) hd hn (s := S "PRIMARY KEY " ++ keyListText k.columnNames)
      (i := .primaryKey (conNameOf d k.name) (colKeys k.columnNames)) (k := S "PRIMARY") (by decide) (by
        cases d with
        | other => exact (hd rfl).elim
        | sqlite =>
          obtain ⟨ts, h1, h2⟩ := nameList_keys hk
          refine ⟨S "KEY" :: ts, ht.append h1, fun r hr => .inl ?_⟩
          exact ⟨(), _, kwS (by decide), (), _, kwS (by decide), _, _, h2 r, (), r,
            sqlite_conflict (hr.notAt (by decide)), rfl, rfl⟩
        | postgres =>
          obtain ⟨ts, h1, h2⟩ := nameList_keys hk
          refine ⟨S "KEY" :: ts, ht.append h1, fun r hr => .inl ?_⟩
          exact ⟨(), _, kwS (by decide), (), _, kwS (by decide), _, _, h2 r, (), r,
            postgres_indexParams (hr.notAt (by decide)) (hr.notAt (by decide)) (hr.notAt (by decide)), rfl, rfl⟩
        | mysql =>
          obtain ⟨ts, h1, h2⟩ := keyList_keys hk
          refine ⟨S "KEY" :: S "(" :: ts, ht.append h1, fun r hr => .inl ?_⟩
          exact ⟨(), _, kwS (by decide), (), _, kwS (by decide), (), _, mysql_indexType (notAt_cons (by decide)),
            _, _, h2 r, (), r, mysql_indexOptions hr, rfl, rfl⟩)
    unfold primaryKeyText
    rw [List.append_assoc]
    exact this
  · show some _ = _
    rw [conNameVal_conNameOf hd, keyCols_colKeys]

theorem unique_item {isNum : Str → Bool} {d : Rdbms} (hd : d ≠ .other) {k : Unique}
    (hn : Quotable k.name) (hk : KeyNames d k.columnNames) :
    ∃ i, Ph d T0 (itemOf isNum d) (uniqueText d k) i ∧ Den isNum d i none none (some k) none none := by
  refine ⟨.unique (conNameOf d k.name) (colKeys k.columnNames), ?_, ⟨rfl, rfl, ?_, rfl, rfl, trivial,
    (by intro n h; cases h), fun _ => hasColumn_colKeys hk.1, trivial⟩⟩
  · have ht : Txt d (S "UNIQUE ") [S "UNIQUE"] := .fixed _ (by decide) (by decide)
    have := con_item (isNum := isNum) hd hn (s := S "UNIQUE " ++ keyListText k.columnNames)
      (i := .unique (conNameOf d k.name) (colKeys k.columnNames)) (k := S "UNIQUE") (by decide) (by
        cases d with
        | other => exact (hd rfl).elim
        | sqlite =>
          obtain ⟨ts, h1, h2⟩ := nameList_keys hk
          refine ⟨ts, ht.append h1, fun r hr => .inr (.inl ?_)⟩
          exact ⟨(), _, kwS (by decide), _, _, h2 r, (), r, sqlite_conflict (hr.notAt (by decide)), rfl, rfl⟩
        | postgres =>
          obtain ⟨ts, h1, h2⟩ := nameList_keys hk
          refine ⟨ts, ht.append h1, fun r hr => .inr (.inl ?_)⟩
          exact ⟨(), _, kwS (by decide), _, _, h2 r, (), r,
            postgres_indexParams (hr.notAt (by decide)) (hr.notAt (by decide)) (hr.notAt (by decide)), rfl, rfl⟩
        | mysql =>
          obtain ⟨ts, h1, h2⟩ := keyList_keys hk
          refine ⟨S "(" :: ts, ht.append h1, fun r hr => .inr (.inl ?_)⟩
          exact ⟨(), _, kwS (by decide), false, _, optWord_none (notAt_cons (by decide)), none, _,
            .inl ⟨(), _, ⟨rfl, _, _, rfl, by decide⟩, rfl, rfl⟩, (), _, mysql_indexType (notAt_cons (by decide)),
            _, _, h2 r, (), r, mysql_indexOptions hr, rfl, rfl⟩)
    unfold uniqueText
    rw [List.append_assoc]
    exact this
  · show some _ = _
    rw [conNameVal_conNameOf hd, keyCols_colKeys]

theorem check_item {isNum : Str → Bool} {d : Rdbms} (hd : d ≠ .other) {k : Check}
    (hn : Quotable k.name) (hk : ExprOK d k.expr) :
    ∃ i, Ph d T0 (itemOf isNum d) (checkText d k) i ∧ Den isNum d i none none none (some k) none := by
  obtain ⟨e, h1, h2, h3, _, h4⟩ := Txt.expr hk
  refine ⟨.check (conNameOf d k.name) e, ?_, ⟨rfl, rfl, rfl, ?_, rfl, trivial,
    (by intro n h; cases h), h4, trivial⟩⟩
  · have ht : Txt d (S "CHECK ") [S "CHECK"] := .fixed _ (by decide) (by decide)
    have := con_item (isNum := isNum) hd hn (s := S "CHECK " ++ piece k.expr)
      (i := .check (conNameOf d k.name) e) (k := S "CHECK") (by decide) (by
        refine ⟨e, ht.append h1, fun r hr => ?_⟩
        cases d with
        | other => exact (hd rfl).elim
        | sqlite => exact .inr (.inr (.inl ⟨(), _, kwS (by decide), _, _, h2 r, rfl, rfl⟩))
        | postgres => exact .inr (.inr (.inl ⟨_, r, ⟨(), _, kwS (by decide), e, r, h2 r, none, r,
            optKw_none (hr.notAt (by decide)), rfl, rfl⟩, rfl, rfl⟩))
        | mysql => exact .inr (.inr (.inr (.inl ⟨e, r, mysql_check (h2 r) (hr.notAt (by decide))
            (hr.notAt (by decide)), rfl, rfl⟩))))
    unfold checkText
    rw [List.append_assoc]
    exact this
  · show some _ = _
    rw [conNameVal_conNameOf hd, h3]

theorem foreignKey_item {isNum : Str → Bool} {d : Rdbms} (hd : d ≠ .other) {k : ForeignKey}
    (hn : Quotable k.name) (hk : KeyNames d k.columnNames) (hr : ReferenceOK d k.references)
    (hm : d = .mysql → k.references.columnNames ≠ none) :
    ∃ i, Ph d T0 (itemOf isNum d) (foreignKeyText d k) i ∧ Den isNum d i none none none none (some k) := by
  refine ⟨.foreignKey (conNameOf d k.name) (colKeys k.columnNames) (refOf d k.references), ?_,
    ⟨rfl, rfl, rfl, rfl, ?_, rfl, (by intro n h; cases h), ?_, trivial⟩⟩
  · have := con_item (isNum := isNum) hd hn
      (s := S "FOREIGN KEY " ++ keyListText k.columnNames ++ referenceText d k.references)
      (i := .foreignKey (conNameOf d k.name) (colKeys k.columnNames) (refOf d k.references))
      (k := S "FOREIGN") (by decide) (by
        cases d with
        | other => exact (hd rfl).elim
        | sqlite =>
          obtain ⟨ts, h1, h2⟩ := foreignKey_ph (cn := conNameOf .sqlite k.name) hk hr
          exact ⟨ts, h1, fun r hr => .inr (.inr (.inr ⟨_, r, h2 r hr, (), r, many_unit (hr.notAt (by decide)), rfl, rfl⟩))⟩
        | postgres =>
          obtain ⟨ts, h1, h2⟩ := foreignKey_ph (cn := conNameOf .postgres k.name) hk hr
          exact ⟨ts, h1, fun r hr => .inr (.inr (.inr (.inl ⟨_, r, h2 r hr, (), r, many_unit (hr.notAt (by decide)), rfl, rfl⟩)))⟩
        | mysql =>
          obtain ⟨kn, kc, ⟨t, cs⟩⟩ := k
          cases cs with
          | none => exact (hm rfl rfl).elim
          | some rs =>
            have hk : KeyNames .mysql kc := hk
            obtain ⟨ts, h1, h2⟩ := nameList_keys hk
            obtain ⟨ts', h1', h2'⟩ := keyList_keys (hr.2 rs rfl)
            have hb : ∃ ts'', ts = S "(" :: ts'' := by
              obtain ⟨_, _, ⟨x, _, ⟨e, hx⟩, _⟩, _⟩ := h2 []
              obtain ⟨k', hk', hx'⟩ := hx
              rw [List.mem_singleton] at hk'
              subst hk'
              rw [List.append_nil] at e
              rcases hx' with rfl | rfl <;> exact ⟨_, e⟩
            obtain ⟨ts'', rfl⟩ := hb
            have hf := Txt.append (d := .mysql) (.fixed (s := S "FOREIGN KEY ") [S "FOREIGN", S "KEY"] (by decide) (by decide)) h1
            have hn := Txt.append (d := .mysql) (.fixed (s := S "REFERENCES ") [S "REFERENCES"] (by decide) (by decide))
              (Txt.name (n := t) hr.1)
            refine ⟨S "KEY" :: ((S "(" :: ts'') ++ ([S "REFERENCES", nameTok .mysql t] ++ (S "(" :: ts'))),
              ((hf.append (hn.append h1')).eq rfl rfl), fun r hr => .inr (.inr (.inl ?_))⟩
            refine ⟨(), _, kwS (by decide), (), _, kwS (by decide), none, _,
              .inl ⟨(), _, ⟨rfl, S "(", _, rfl, by decide⟩, rfl, rfl⟩, colKeys kc,
              S "REFERENCES" :: nameTok .mysql t :: (S "(" :: ts' ++ r), ?_, (), _,
              kwS (by decide), _, _, qname_tok (notAt_cons (t := S "(") (by decide)), colKeys rs, r, h2' r, (), r,
              many_unit (hr.notAt (by decide)), rfl, rfl⟩
            have := h2 (S "REFERENCES" :: nameTok .mysql t :: (S "(" :: ts' ++ r))
            show nameList .mysql ((S "(" :: ts'') ++ ([S "REFERENCES", nameTok .mysql t] ++ (S "(" :: ts')) ++ r) _ _
            rw [List.append_assoc, List.append_assoc]
            exact this)
    unfold foreignKeyText
    rw [List.append_assoc, List.append_assoc]
    rw [List.append_assoc] at this
    exact this
  · show some _ = _
    rw [conNameVal_conNameOf hd, keyCols_colKeys, refVal_refOf hd]
  · intro _ cs hcs
    obtain ⟨ks, hks, rfl⟩ := Option.map_eq_some_iff.1 hcs
    exact hasColumn_colKeys (hr.2 ks hks).1

end DDL
