import Verif.Proof.Simple
/-
Facts about derivations: a phrase can be read in one way only, and what the parts of a statement
look like.
-/

namespace DDL
open V Spec Conv

/-! ### One reading -/

/-- A phrase can be read in one way only. -/
def Det (L : Lang β) : Prop :=
  ∀ ts, (∀ t ∈ ts, Good t) → ∀ v r v' r', L ts v r → L ts v' r' → v = v' ∧ r = r'

theorem det_of_impls {p : Nat → Prog Unit} {L : Lang β} {E : β → List Str → Prop}
    (h : ∀ n, Impls n (p n) L E) : Det L := by
  intro ts hg v r v' r' h1 h2
  have hI := h (ts.length + 1) ts ⟨by omega, hg⟩
  unfold Impl at hI
  cases hr : runA (p (ts.length + 1)) ts with
  | ok a rest o =>
    rw [hr] at hI
    obtain ⟨w, _, _, hu⟩ := hI
    obtain ⟨rfl, rfl⟩ := hu _ _ h1
    obtain ⟨rfl, rfl⟩ := hu _ _ h2
    exact ⟨rfl, rfl⟩
  | fail r => rw [hr] at hI; exact absurd h1 (hI _ _)
  | panic => rw [hr] at hI; exact hI.elim
  | timeout => rw [hr] at hI; exact absurd h1 (hI.1 _ _)

theorem det_stmt {isNum : Str → Bool} (hN : NumOK isNum) (d : Rdbms) : Det (stmtOf isNum d) := by
  cases d with
  | postgres => exact det_of_impls (PostgresImpl.stmt_impl hN)
  | mysql => exact det_of_impls (MysqlImpl.stmt_impl hN)
  | sqlite => exact det_of_impls (SqliteImpl.stmt_impl hN)
  | other => exact det_of_impls (SqliteImpl.stmt_impl hN)

theorem det_item {isNum : Str → Bool} (hN : NumOK isNum) (d : Rdbms) : Det (itemOf isNum d) := by
  cases d with
  | postgres => exact det_of_impls (PostgresImpl.item_impl hN)
  | mysql => exact det_of_impls (MysqlImpl.item_impl hN)
  | sqlite => exact det_of_impls (SqliteImpl.item_impl hN)
  | other => exact det_of_impls (SqliteImpl.item_impl hN)

theorem det_type (d : Rdbms) : Det (typeLang d) := by
  cases d with
  | postgres => exact det_of_impls PostgresImpl.type_impl
  | mysql => exact det_of_impls MysqlImpl.type_impl
  | sqlite => exact det_of_impls SqliteImpl.type_impl
  | other => exact det_of_impls SqliteImpl.type_impl

theorem det_conName (d : Rdbms) : Det (conNameLang d) := by
  cases d with
  | postgres => exact det_of_impls fun n => conName_impl n .postgres
  | mysql => exact det_of_impls fun n => MysqlImpl.conName_impl n ["CHECK"] (by decide)
  | sqlite => exact det_of_impls fun n => conName_impl n .sqlite
  | other => exact det_of_impls fun n => conName_impl n .sqlite

theorem det_colCon {isNum : Str → Bool} (hN : NumOK isNum) (d : Rdbms) : Det (colConOf isNum d) := by
  cases d with
  | postgres => exact det_of_impls (PostgresImpl.colCon_impl hN)
  | mysql => exact det_of_impls (MysqlImpl.colCon_impl hN)
  | sqlite => exact det_of_impls (SqliteImpl.colCon_impl hN)
  | other => exact det_of_impls (SqliteImpl.colCon_impl hN)

theorem suff_item (isNum : Str → Bool) (d : Rdbms) : Suff (itemOf isNum d) := by
  cases d with
  | postgres => exact PostgresImpl.suff_item isNum
  | mysql => exact MysqlImpl.suff_item isNum
  | sqlite => exact SqliteImpl.suff_item isNum
  | other => exact SqliteImpl.suff_item isNum

theorem suff_type (d : Rdbms) : Suff (typeLang d) := by
  cases d with
  | postgres => exact PostgresImpl.suff_type
  | mysql => exact MysqlImpl.suff_type
  | _ => exact (Suff.tok _).bind fun _ => .pure _

theorem suff_conName (d : Rdbms) : Suff (conNameLang d) := by
  cases d with
  | mysql => exact MysqlImpl.suff_conName _
  | _ => exact Suff.conName _

theorem cons_colCon (isNum : Str → Bool) (d : Rdbms) : Cons (colConOf isNum d) := by
  cases d with
  | postgres => exact PostgresImpl.cons_colCon isNum
  | mysql => exact MysqlImpl.cons_colCon isNum
  | sqlite => exact SqliteImpl.cons_colCon isNum
  | other => exact SqliteImpl.cons_colCon isNum

theorem cons_stmt (isNum : Str → Bool) (d : Rdbms) : Cons (stmtOf isNum d) := by
  cases d with
  | postgres => exact PostgresImpl.cons_stmt isNum
  | mysql => exact MysqlImpl.cons_stmt isNum
  | sqlite => exact SqliteImpl.cons_stmt isNum
  | other => exact SqliteImpl.cons_stmt isNum

theorem good_suffix {ts r : List Str} (hg : ∀ t ∈ ts, Good t) (h : r <:+ ts) : ∀ t ∈ r, Good t :=
  fun t ht => hg t (h.subset ht)

/-- As many as possible. -/
theorem det_many {ks : List String} {L : Lang β} (hd : Det L) (hs : Suff L) : Det (Many ks L) := by
  intro ts hg v r v' r' h1 h2
  induction h1 generalizing v' with
  | nil h =>
    cases h2 with
    | nil _ => exact ⟨rfl, rfl⟩
    | cons hk _ _ => obtain ⟨_, t, x, rfl, ht⟩ := hk; exact absurd ht (h.2 t x rfl)
  | @cons ts w mid ws rest hk h _ ih =>
    cases h2 with
    | nil h' => obtain ⟨_, t, x, rfl, ht⟩ := hk; exact absurd ht (h'.2 t x rfl)
    | cons hk' h' hm =>
      obtain ⟨rfl, rfl⟩ := hd ts hg _ _ _ _ h h'
      obtain ⟨rfl, rfl⟩ := ih (good_suffix hg (hs _ _ _ h)) _ hm
      exact ⟨rfl, rfl⟩

/-- The reading of a script starts with that of any script it starts with. -/
theorem script_split {isNum : Str → Bool} (hN : NumOK isNum) {d : Rdbms} {a b : List Str}
    {sa sab : List Stmt} (ha : script isNum d a sa) (hg : ∀ t ∈ a ++ b, Good t)
    (hab : script isNum d (a ++ b) sab) : ∃ sb, sab = sa ++ sb ∧ script isNum d b sb := by
  have hloc : LocE (stmtOf isNum d) := by cases d <;> (unfold stmtOf; infer_instance)
  unfold script at ha
  induction ha generalizing sab with
  | nil => exact ⟨sab, rfl, hab⟩
  | @cons ts s mid ss h hs ih =>
    obtain ⟨p, hp, rfl, hl⟩ := hloc.locE h
    rw [List.append_assoc] at hab hg
    generalize hT : p ++ (mid ++ b) = T at *
    cases hab with
    | nil => exact absurd (List.append_eq_nil_iff.1 hT).1 hp
    | cons h' hs' =>
      obtain ⟨rfl, rfl⟩ := det_stmt hN d _ hg _ _ _ _ (hT ▸ hl (mid ++ b)) h'
      obtain ⟨sb, rfl, h2⟩ := ih (fun t ht => hg t (by rw [← hT]; exact List.mem_append_right _ ht)) hs'
      exact ⟨sb, rfl, h2⟩

/-! ### The parts of a statement -/

theorem kw_inv {ks : List String} {t : Str} {ts r : List Str} {u : Unit} (h : kw ks (t :: ts) u r) :
    Kw ks t ∧ r = ts := by
  obtain ⟨v, mid, ⟨h1, h2⟩, _, rfl⟩ := h
  cases h1
  exact ⟨h2, rfl⟩

theorem optWord_inv {ks : List String} {t : Str} {ts r : List Str} {b : Bool} (h : optWord ks (t :: ts) b r)
    (hn : ¬ Kw ks t) : b = false ∧ r = t :: ts := by
  rcases h with ⟨_, _, h, _⟩ | ⟨_, _, h, rfl, rfl⟩
  · exact absurd (kw_inv h).1 hn
  · exact ⟨rfl, h.1⟩

theorem optKw_inv {ks : List String} {L : Lang β} {t : Str} {ts r : List Str} {b : Option β}
    (h : optKw ks L (t :: ts) b r) (hn : ¬ Kw ks t) : b = none ∧ r = t :: ts := by
  rcases h with ⟨_, _, h, _⟩ | ⟨_, _, h, rfl, rfl⟩
  · exact absurd (kw_inv h).1 hn
  · exact ⟨rfl, h.1⟩

theorem kw_disj {ks ks' : List String} {t : Str} (h : Kw ks t) (hk : ∀ t ∈ kwList ks, ¬ Kw ks' t) : ¬ Kw ks' t := by
  have := forall_kw (P := fun t => ¬ Kw ks' t) hk (isKw_kw.2 h)
  exact this

/-- A statement that starts with `CREATE TABLE t (`. -/
theorem stmt_inv {isNum : Str → Bool} {d : Rdbms} {c tb t : Str} {ts r : List Str} {s : Stmt}
    (htb : Kw ["TABLE"] tb) (hi : ¬ Kw ["IF"] t)
    (h : stmtOf isNum d (c :: tb :: t :: S "(" :: ts) s r) :
    ∃ is mid, s = .table ⟨false, ⟨none, t⟩, is⟩ ∧ Sep (itemOf isNum d) ts is mid := by
  have key : ∀ (d' : Rdbms) (o : Lang Unit), createTable d' (itemOf isNum d) o (tb :: t :: S "(" :: ts) s r →
      ∃ is mid, s = .table ⟨false, ⟨none, t⟩, is⟩ ∧ Sep (itemOf isNum d) ts is mid := by
    rintro d' o ⟨_, _, h1, _, _, ⟨_, _, h2, rfl, rfl⟩, _, _, ⟨_, _, h3, _, _, h4, h5⟩, _, _, h6, is, mid, h7,
      _, _, h8, _, _, h9, _, _, h10, rfl, rfl⟩
    obtain ⟨_, rfl⟩ := kw_inv h1
    obtain ⟨rfl, rfl⟩ := optKw_inv h2 hi
    obtain ⟨h3, _⟩ := h3
    cases h3
    obtain ⟨rfl, rfl⟩ := optKw_inv h4 (by decide)
    obtain ⟨rfl, rfl⟩ := h5
    obtain ⟨_, rfl⟩ := kw_inv h6
    exact ⟨is, mid, rfl, h7⟩
  have no : ∀ ks : List String, (∀ t ∈ kwList ["TABLE"], ¬ Kw ks t) → ¬ other ks (tb :: t :: S "(" :: ts) s r := by
    rintro ks hk ⟨_, _, h, _⟩
    exact kw_disj htb hk (kw_inv h).1
  cases d with
  | postgres =>
    obtain ⟨_, _, h1, h | h⟩ := h <;> obtain ⟨_, rfl⟩ := kw_inv h1
    · exact key _ _ h
    · exact absurd h (no _ (by decide))
  | mysql =>
    obtain ⟨_, _, h1, h | h⟩ := h <;> obtain ⟨_, rfl⟩ := kw_inv h1
    · exact key _ _ h
    · exact absurd h (no _ (by decide))
  | sqlite =>
    obtain ⟨_, _, h1, _, _, h2, h | h⟩ := h <;> obtain ⟨_, rfl⟩ := kw_inv h1 <;>
      obtain ⟨rfl, rfl⟩ := optWord_inv h2 (kw_disj htb (by decide))
    · exact key _ _ h
    · exact absurd h (no _ (by decide))
  | other =>
    obtain ⟨_, _, h1, _, _, h2, h | h⟩ := h <;> obtain ⟨_, rfl⟩ := kw_inv h1 <;>
      obtain ⟨rfl, rfl⟩ := optWord_inv h2 (kw_disj htb (by decide))
    · exact key _ _ h
    · exact absurd h (no _ (by decide))

/-- An entry that starts with a name is a column. -/
theorem item_inv {isNum : Str → Bool} {d : Rdbms} {c : Str} {ts r : List Str} {i : Item} (hc : Name (vd d) c)
    (h : itemOf isNum d (c :: ts) i r) :
    ∃ τ mid cn body cs, i = .column ⟨c, τ, cn, cs⟩ ∧ typeLang d ts τ mid ∧ conNameLang d mid cn body ∧
      colCons (colConFirstOf d) (colConOf isNum d) body cs r := by
  have no : ∀ {d ks u r}, Name d c → (∀ t ∈ kwList ks, isIdentifier d (t.headD ' ') = false ∧ plainName d t = false) →
      ¬ at_ ks (c :: ts) u r := by
    rintro d ks u r hc hk ⟨_, _, _, ⟨⟩, h⟩
    have := not_name hk hc
    rw [isKw_kw.2 h] at this
    cases this
  cases d with
  | postgres =>
    rcases h with ⟨_, _, h, _⟩ | ⟨_, _, ⟨e, _⟩, τ, mid, h2, cn, body, h3, cs, _, h4, rfl, rfl⟩
    · exact absurd h (no hc (by decide +kernel))
    · cases e; exact ⟨τ, mid, cn, body, cs, rfl, h2, h3, h4⟩
  | mysql =>
    rcases h with ⟨_, _, h, _⟩ | ⟨_, _, ⟨e, _⟩, τ, mid, h2, cn, body, h3, cs, _, h4, rfl, rfl⟩
    · exact absurd h (no hc (by decide +kernel))
    · cases e; exact ⟨τ, mid, cn, body, cs, rfl, h2, h3, h4⟩
  | sqlite =>
    rcases h with ⟨_, _, h, _⟩ | ⟨_, _, ⟨e, _⟩, τ, mid, h2, cn, body, h3, cs, _, h4, rfl, rfl⟩
    · exact absurd h (no hc (by decide +kernel))
    · cases e; exact ⟨_, mid, cn, body, cs, rfl, ⟨τ, _, h2, rfl, rfl⟩, h3, h4⟩
  | other =>
    rcases h with ⟨_, _, h, _⟩ | ⟨_, _, ⟨e, _⟩, τ, mid, h2, cn, body, h3, cs, _, h4, rfl, rfl⟩
    · exact absurd h (no (d := .sqlite) hc (by decide +kernel))
    · cases e; exact ⟨_, mid, cn, body, cs, rfl, ⟨τ, _, h2, rfl, rfl⟩, h3, h4⟩

theorem entries_suffix {L : Lang β} (hs : Suff L) {ts r : List Str} (h : Entries L ts r) : r <:+ ts := by
  induction h with
  | nil => exact List.suffix_rfl
  | cons h hc _ ih => exact ih.trans (((Suff.kw _) _ _ _ hc).trans (hs _ _ _ h))

/-- The entries of a list after the first ones. -/
theorem sep_inv {L : Lang β} (hd : Det L) (hs : Suff L) {ts mid r : List Str} {is : List β}
    (hg : ∀ t ∈ ts, Good t) (he : Entries L ts mid) (h : Sep L ts is r) :
    ∃ pre is', is = pre ++ is' ∧ Sep L mid is' r := by
  induction he generalizing is with
  | nil => exact ⟨[], _, rfl, h⟩
  | @cons ts v mid mid' rest h1 hc _ ih =>
    have hg' := good_suffix hg (hs _ _ _ h1)
    cases h with
    | one h2 hn =>
      obtain ⟨rfl, rfl⟩ := hd _ hg _ _ _ _ h1 h2
      cases mid with
      | nil => obtain ⟨_, _, ⟨e, _⟩, _⟩ := hc; cases e
      | cons t x => exact absurd (kw_inv hc).1 (hn.2 t x rfl)
    | cons h2 hc' hs' =>
      obtain ⟨rfl, rfl⟩ := hd _ hg _ _ _ _ h1 h2
      cases mid with
      | nil => obtain ⟨_, _, ⟨e, _⟩, _⟩ := hc; cases e
      | cons t x =>
        obtain ⟨_, rfl⟩ := kw_inv hc
        obtain ⟨_, rfl⟩ := kw_inv hc'
        obtain ⟨pre, is', rfl, h⟩ := ih (good_suffix hg' (List.suffix_cons _ _)) hs'
        exact ⟨_ :: pre, is', rfl, h⟩

theorem sep_head {L : Lang β} {ts r : List Str} {is : List β} (h : Sep L ts is r) :
    ∃ i mid, i ∈ is ∧ L ts i mid := by
  cases h with
  | one h _ => exact ⟨_, _, List.mem_cons_self .., h⟩
  | cons h _ _ => exact ⟨_, _, List.mem_cons_self .., h⟩

/-- A column of a script is read as a column of one of its tables. -/
theorem column_at {isNum : Str → Bool} (hN : NumOK isNum) {d : Rdbms} {ts body : List Str}
    {c : Str} {τ : TypeAst} {cn : ConName} (hg : ∀ x ∈ ts, Good x) (hc : ColumnAt isNum d ts c τ cn body)
    {ss : List Stmt} (hs : script isNum d ts ss) :
    ∃ t cs r, Stmt.table t ∈ ss ∧ .column ⟨c, τ, cn, cs⟩ ∈ t.items ∧ (∀ x ∈ body, Good x) ∧
      colCons (colConFirstOf d) (colConOf isNum d) body cs r := by
  obtain ⟨before, sb, cr, tb, t, items, ty, mid, rfl, hb, htb, hi, he, hcn, ht, hn⟩ := hc
  have hcn : Name (vd d) c := by cases d <;> exact hcn
  obtain ⟨sc, rfl, hs2⟩ := script_split hN hb hg hs
  have hg2 : ∀ x ∈ items, Good x := fun x hx => hg x (by simp [hx])
  clear hs
  unfold script at hs2
  cases hs2 with
  | cons h _ =>
    obtain ⟨is, m, rfl, hsep⟩ := stmt_inv htb hi h
    obtain ⟨pre, is', rfl, hsep2⟩ := sep_inv (det_item hN d) (suff_item isNum d) hg2 he hsep
    obtain ⟨i, m', him, hitem⟩ := sep_head hsep2
    obtain ⟨τ', mid', cn', body', cs', rfl, h1, h2, h3⟩ := item_inv hcn hitem
    have g1 : ∀ x ∈ ty, Good x := good_suffix hg2
      ((List.suffix_cons c ty).trans (entries_suffix (suff_item isNum d) he))
    obtain ⟨rfl, rfl⟩ := det_type d _ g1 _ _ _ _ ht h1
    have g2 := good_suffix g1 (suff_type d _ _ _ ht)
    obtain ⟨rfl, rfl⟩ := det_conName d _ g2 _ _ _ _ hn h2
    have g3 := good_suffix g2 (suff_conName d _ _ _ hn)
    exact ⟨_, cs', _, List.mem_append_right _ (List.mem_cons_self ..), List.mem_append_right _ him, g3, h3⟩

/-- A column that repeats a constraint is not in any script. -/
theorem no_script_dup {isNum : Str → Bool} (hN : NumOK isNum) {d : Rdbms} {ts body rest : List Str}
    {c : Str} {τ : TypeAst} {cn : ConName} {cs : List ColCon} (hg : ∀ x ∈ ts, Good x)
    (hc : ColumnAt isNum d ts c τ cn body)
    (hm : Many (colConFirstOf d) (colConOf isNum d) body cs rest)
    (hdup : ¬ (cs.map ColCon.kind).Nodup) (sx : List Stmt) : ¬ script isNum d ts sx := by
  intro hs
  obtain ⟨t, cs', r, _, _, g3, h3, h4⟩ := column_at hN hg hc hs
  obtain ⟨rfl, _⟩ := det_many (det_colCon hN d) (fun _ _ _ h => (cons_colCon isNum d _ _ _ h).1) _ g3 _ _ _ _ hm h3
  exact hdup h4

/-- What is read after the first ones. -/
theorem many_after {ks : List String} {L : Lang β} (hd : Det L) (hs : Suff L) {ts mid r : List Str} {vs ws : List β}
    (hg : ∀ t ∈ ts, Good t) (h1 : Reads ks L ts vs mid) (h2 : Many ks L ts ws r) :
    ∃ us, ws = vs ++ us ∧ Many ks L mid us r ∧ ∀ t ∈ mid, Good t := by
  induction h1 generalizing ws with
  | nil => exact ⟨ws, rfl, h2, hg⟩
  | @cons ts w mid vs rest hk h _ ih =>
    cases h2 with
    | nil h' => obtain ⟨_, t, x, rfl, ht⟩ := hk; exact absurd ht (h'.2 t x rfl)
    | cons hk' h' hm =>
      obtain ⟨rfl, rfl⟩ := hd ts hg _ _ _ _ h h'
      obtain ⟨us, rfl, h3, h4⟩ := ih (good_suffix hg (hs _ _ _ h)) hm
      exact ⟨us, rfl, h3, h4⟩

/-! ### Where entries and constraints come from -/

theorem sep_mem {L : Lang β} (hs : Suff L) {ts r : List Str} {is : List β} (h : Sep L ts is r) {i : β}
    (hi : i ∈ is) : ∃ ts' r', ts' <:+ ts ∧ L ts' i r' := by
  induction h with
  | one h _ => cases List.mem_singleton.1 hi; exact ⟨_, _, List.suffix_rfl, h⟩
  | @cons ts v mid mid' vs rest h hc _ ih =>
    rcases List.mem_cons.1 hi with rfl | hi
    · exact ⟨_, _, List.suffix_rfl, h⟩
    · obtain ⟨ts', r', h1, h2⟩ := ih hi
      exact ⟨ts', r', h1.trans (((Suff.kw _) _ _ _ hc).trans (hs _ _ _ h)), h2⟩

theorem many_mem {ks : List String} {L : Lang β} (hs : Suff L) {ts r : List Str} {is : List β}
    (h : Many ks L ts is r) {i : β} (hi : i ∈ is) : ∃ ts' r', ts' <:+ ts ∧ L ts' i r' := by
  induction h with
  | nil => cases hi
  | @cons ts v mid vs rest _ h _ ih =>
    rcases List.mem_cons.1 hi with rfl | hi
    · exact ⟨_, _, List.suffix_rfl, h⟩
    · obtain ⟨ts', r', h1, h2⟩ := ih hi
      exact ⟨ts', r', h1.trans (hs _ _ _ h), h2⟩

/-- What a CREATE TABLE statement is made of. -/
theorem stmt_items {isNum : Str → Bool} {d : Rdbms} {ts r : List Str} {t : TableAst}
    (h : stmtOf isNum d ts (.table t) r) :
    ∃ ts' r', ts' <:+ ts ∧ Sep (itemOf isNum d) ts' t.items r' := by
  have key : ∀ (d' : Rdbms) (o : Lang Unit) (ts : List Str), createTable d' (itemOf isNum d) o ts (.table t) r →
      ∃ ts' r', ts' <:+ ts ∧ Sep (itemOf isNum d) ts' t.items r' := by
    rintro d' o ts ⟨_, _, h1, _, _, h2, _, _, h3, _, _, h6, is, mid, h7, _, _, h8, _, _, h9, _, _, h10, e, rfl⟩
    cases e
    exact ⟨_, _, ((Suff.kw _ _ _ _ h6).trans (Suff.qname _ _ _ _ h3)).trans ((Suff.ifNotExists _ _ _ h2).trans
      (Suff.kw _ _ _ _ h1)), h7⟩
  have no : ∀ (ks : List String) (ts : List Str), ¬ other ks ts (.table t) r := by
    rintro ks ts ⟨_, _, _, _, _, _, e, _⟩; cases e
  have ex : ∀ {a b : List Str}, a <:+ b → (∃ ts' r', ts' <:+ a ∧ Sep (itemOf isNum d) ts' t.items r') →
      ∃ ts' r', ts' <:+ b ∧ Sep (itemOf isNum d) ts' t.items r' := by
    rintro a b h ⟨ts', r', h1, h2⟩; exact ⟨ts', r', h1.trans h, h2⟩
  cases d with
  | postgres =>
    obtain ⟨_, _, h1, h | h⟩ := h
    · exact ex (Suff.kw _ _ _ _ h1) (key _ _ _ h)
    · exact absurd h (no _ _)
  | mysql =>
    obtain ⟨_, _, h1, h | h⟩ := h
    · exact ex (Suff.kw _ _ _ _ h1) (key _ _ _ h)
    · exact absurd h (no _ _)
  | sqlite =>
    obtain ⟨_, _, h1, _, _, h2, h | h⟩ := h
    · exact ex ((Suff.optWord _ _ _ _ h2).trans (Suff.kw _ _ _ _ h1)) (key _ _ _ h)
    · exact absurd h (no _ _)
  | other =>
    obtain ⟨_, _, h1, _, _, h2, h | h⟩ := h
    · exact ex ((Suff.optWord _ _ _ _ h2).trans (Suff.kw _ _ _ _ h1)) (key _ _ _ h)
    · exact absurd h (no _ _)

theorem script_stmt {isNum : Str → Bool} {d : Rdbms} {ts : List Str} {ss : List Stmt} {s : Stmt}
    (h : script isNum d ts ss) (hs : s ∈ ss) : ∃ ts' r, ts' <:+ ts ∧ stmtOf isNum d ts' s r := by
  unfold script at h
  induction h with
  | nil => cases hs
  | cons h _ ih =>
    rcases List.mem_cons.1 hs with rfl | hs
    · exact ⟨_, _, List.suffix_rfl, h⟩
    · obtain ⟨ts', r, h1, h2⟩ := ih hs
      exact ⟨ts', r, h1.trans (cons_stmt isNum d _ _ _ h).1, h2⟩

/-- Every entry of a script is read off some place of it. -/
theorem script_item {isNum : Str → Bool} {d : Rdbms} {ts : List Str} {ss : List Stmt} {t : TableAst} {i : Item}
    (h : script isNum d ts ss) (hs : .table t ∈ ss) (hi : i ∈ t.items) :
    ∃ ts' r, ts' <:+ ts ∧ itemOf isNum d ts' i r := by
  obtain ⟨a, r, h1, h2⟩ := script_stmt h hs
  obtain ⟨b, r', h3, h4⟩ := stmt_items h2
  obtain ⟨c, r'', h5, h6⟩ := sep_mem (suff_item isNum d) h4 hi
  exact ⟨c, r'', h5.trans (h3.trans h1), h6⟩

/-- Every meaning of the phrase satisfies `P`. -/
def Yields (L : Lang β) (P : β → Prop) : Prop := ∀ ts v r, L ts v r → P v

theorem Yields.pure {v : β} {P : β → Prop} (h : P v) : Yields (pure v : Lang β) P := by
  rintro ts w r ⟨rfl, _⟩; exact h

theorem Yields.bind {L : Lang α} {f : α → Lang β} {P : β → Prop} (h : ∀ v, Yields (f v) P) :
    Yields (L >>= f) P := by
  rintro ts w r ⟨v, mid, _, h2⟩; exact h v _ _ _ h2

theorem Yields.alt {L M : Lang β} {P : β → Prop} (h : Yields L P) (h' : Yields M P) : Yields (L <|> M) P := by
  rintro ts w r (h1 | h1)
  · exact h _ _ _ h1
  · exact h' _ _ _ h1

/-- Steps to the values a phrase returns. -/
macro "yields" : tactic => `(tactic| repeat' first
  | (with_reducible apply Yields.pure) | (with_reducible apply Yields.alt)
  | (with_reducible apply Yields.bind); intro)

/-- The entry is not a column. -/
def Item.notColumn : Item → Prop
  | .column _ => False
  | _ => True

theorem tableCon_notColumn (isNum : Str → Bool) (n : ConName) :
    Yields (Spec.Sqlite.tableCon n) Item.notColumn ∧ Yields (Spec.Postgres.tableCon n) Item.notColumn ∧
      Yields (Spec.Mysql.tableCon isNum n) Item.notColumn := by
  refine ⟨?_, ?_, ?_⟩
  · unfold Spec.Sqlite.tableCon
    refine .alt ?_ (.alt ?_ (.alt ?_ ?_))
    · yields; trivial
    · yields; trivial
    · yields; trivial
    · rintro ts w r ⟨v, mid, h, _, _, _, rfl, rfl⟩
      revert h
      have : Yields (foreignKey .sqlite n) Item.notColumn := by unfold foreignKey; yields; trivial
      exact this _ _ _
  · unfold Spec.Postgres.tableCon
    refine .alt ?_ (.alt ?_ (.alt ?_ (.alt ?_ ?_)))
    · yields; trivial
    · yields; trivial
    · yields; trivial
    · rintro ts w r ⟨v, mid, h, _, _, _, rfl, rfl⟩
      revert h
      have : Yields (foreignKey .postgres n) Item.notColumn := by unfold foreignKey; yields; trivial
      exact this _ _ _
    · yields; trivial
  · unfold Spec.Mysql.tableCon
    refine .alt ?_ (.alt ?_ (.alt ?_ (.alt ?_ (.alt ?_ ?_))))
    all_goals (yields; trivial)

/-- The parts of a column. -/
theorem column_inv {isNum : Str → Bool} {d : Rdbms} {ts r : List Str} {c : ColAst}
    (h : itemOf isNum d ts (.column c) r) :
    ∃ ty mid body, ts = c.name :: ty ∧ Name (vd d) c.name ∧ typeLang d ty c.type mid ∧
      conNameLang d mid c.conName body ∧ colCons (colConFirstOf d) (colConOf isNum d) body c.cons r := by
  cases d with
  | postgres =>
    rcases h with ⟨_, _, _, n, _, _, h⟩ | ⟨_, _, ⟨e, h1⟩, τ, mid, h2, cn, body, h3, cs, _, h4, e', rfl⟩
    · exact ((tableCon_notColumn isNum n).2.1 _ _ _ h).elim
    · cases e; cases e'; exact ⟨_, _, _, rfl, h1, h2, h3, h4⟩
  | mysql =>
    rcases h with ⟨_, _, _, n, _, _, h⟩ | ⟨_, _, ⟨e, h1⟩, τ, mid, h2, cn, body, h3, cs, _, h4, e', rfl⟩
    · exact ((tableCon_notColumn isNum n).2.2 _ _ _ h).elim
    · cases e; cases e'; exact ⟨_, _, _, rfl, h1, h2, h3, h4⟩
  | sqlite =>
    rcases h with ⟨_, _, _, n, _, _, h⟩ | ⟨_, _, ⟨e, h1⟩, τ, mid, h2, cn, body, h3, cs, _, h4, e', rfl⟩
    · exact ((tableCon_notColumn isNum n).1 _ _ _ h).elim
    · cases e; cases e'; exact ⟨_, _, _, rfl, h1, ⟨τ, _, h2, rfl, rfl⟩, h3, h4⟩
  | other =>
    rcases h with ⟨_, _, _, n, _, _, h⟩ | ⟨_, _, ⟨e, h1⟩, τ, mid, h2, cn, body, h3, cs, _, h4, e', rfl⟩
    · exact ((tableCon_notColumn isNum n).1 _ _ _ h).elim
    · cases e; cases e'; exact ⟨_, _, _, rfl, h1, ⟨τ, _, h2, rfl, rfl⟩, h3, h4⟩

/-! ### Types -/

theorem posInt_pos {ts r : List Str} {v : Nat} (h : posInt ts v r) : 0 < v := by
  obtain ⟨t, _, ds, _, _, _, _, h, _⟩ := h; exact h

/-- Digits are positive. -/
def DigitsPos : Option (Nat × Option Nat) → Prop
  | none => True
  | some (n, m) => 0 < n ∧ ∀ k, m = some k → 0 < k

theorem digitN_pos : Yields digitN DigitsPos := by
  rintro ts v r (⟨_, _, _, w, _, ⟨n, _, h, _, _, _, rfl, rfl⟩, rfl, rfl⟩ | ⟨_, _, _, rfl, rfl⟩)
  · exact ⟨posInt_pos h, fun k hk => by cases hk⟩
  · trivial

theorem digitPS_pos : Yields digitPS DigitsPos := by
  rintro ts v r (⟨_, _, _, w, _, ⟨n, _, h, m, _, h', _, _, _, rfl, rfl⟩, rfl, rfl⟩ | ⟨_, _, _, rfl, rfl⟩)
  · refine ⟨posInt_pos h, fun k hk => ?_⟩
    subst hk
    rcases h' with ⟨_, _, _, w, _, h', e, _⟩ | ⟨_, _, _, e, _⟩
    · cases e; exact posInt_pos h'
    · cases e
  · trivial

theorem Kw.mono {ks ks' : List String} (h : ∀ k ∈ ks, k ∈ ks') {t : Str} (ht : Kw ks t) : Kw ks' t := by
  obtain ⟨k, hk, h2⟩ := ht; exact ⟨k, h k hk, h2⟩

/-- What is known about the type of a column. -/
def TypeFacts (d : Rdbms) (τ : TypeAst) : Prop :=
  Kw (typeNames d) τ.name ∧ DigitsPos τ.digits ∧
    (τ.varying = true → d = .postgres ∧ Kw ["BIT", "CHARACTER"] τ.name) ∧
    (d = .sqlite ∨ d = .other → τ.digits = none)

theorem type_facts (d : Rdbms) : Yields (typeLang d) (TypeFacts d) := by
  have sq : ∀ d, d = .sqlite ∨ d = .other → Yields (do
      let t ← tok (Kw ["TEXT", "NUMERIC", "INTEGER", "REAL", "NONE"])
      return (⟨t, false, none⟩ : TypeAst)) (TypeFacts d) := by
    rintro d hd ts v r ⟨t, _, ⟨rfl, h⟩, rfl, rfl⟩
    exact ⟨by rcases hd with rfl | rfl <;> exact h, trivial, by rintro ⟨⟩, fun _ => rfl⟩
  cases d with
  | sqlite => exact sq _ (.inl rfl)
  | other => exact sq _ (.inr rfl)
  | postgres =>
    have mk : ∀ {ks n v g}, (∀ k ∈ ks, k ∈ typeNames .postgres) → Kw ks n → DigitsPos g →
        (v = true → Kw ["BIT", "CHARACTER"] n) → TypeFacts .postgres ⟨n, v, g⟩ := by
      intro ks n v g h1 h2 h3 h4
      exact ⟨Kw.mono h1 h2, h3, fun hv => ⟨rfl, h4 hv⟩, fun h => by rcases h with h | h <;> cases h⟩
    rintro ts v r (⟨n, _, ⟨_, h⟩, b, _, _, g, _, hg, rfl, rfl⟩ | ⟨n, _, ⟨_, h⟩, g, _, hg, rfl, rfl⟩ |
      ⟨n, _, ⟨_, h⟩, g, _, hg, rfl, rfl⟩ | ⟨n, _, ⟨_, h⟩, _, _, _, rfl, rfl⟩ |
      ⟨n, _, ⟨_, h⟩, g, _, hg, _, _, _, rfl, rfl⟩ | ⟨n, _, ⟨_, h, _⟩, rfl, rfl⟩)
    · exact mk (by decide +kernel) h (digitN_pos _ _ _ hg) fun _ => h
    · exact mk (by decide +kernel) h (digitN_pos _ _ _ hg) (by rintro ⟨⟩)
    · exact mk (by decide +kernel) h (digitPS_pos _ _ _ hg) (by rintro ⟨⟩)
    · exact mk (by decide +kernel) h trivial (by rintro ⟨⟩)
    · exact mk (by decide +kernel) h (digitN_pos _ _ _ hg) (by rintro ⟨⟩)
    · exact mk (fun _ h => List.mem_cons_of_mem _ h) h trivial (by rintro ⟨⟩)
  | mysql =>
    have mk : ∀ {ks n g}, (∀ k ∈ ks, k ∈ typeNames .mysql) → Kw ks n → DigitsPos g →
        TypeFacts .mysql ⟨n, false, g⟩ := by
      intro ks n g h1 h2 h3
      exact ⟨Kw.mono h1 h2, h3, by rintro ⟨⟩, fun h => by rcases h with h | h <;> cases h⟩
    rintro ts v r (⟨n, _, ⟨_, h⟩, g, _, hg, rfl, rfl⟩ | ⟨n, _, ⟨_, h⟩, g, _, hg, rfl, rfl⟩ |
      ⟨n, _, ⟨_, h⟩, g, _, hg, _, _, _, rfl, rfl⟩ | ⟨n, _, ⟨_, h, _⟩, rfl, rfl⟩)
    · exact mk (by decide +kernel) h (digitN_pos _ _ _ hg)
    · exact mk (by decide +kernel) h (digitPS_pos _ _ _ hg)
    · exact mk (by decide +kernel) h (digitN_pos _ _ _ hg)
    · exact mk (fun _ h => List.mem_cons_of_mem _ h) h trivial

end DDL
