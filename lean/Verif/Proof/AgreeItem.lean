import Verif.Proof.AgreeType
/-
Reading the same tokens with two dialects: the entries of a table definition.
-/

namespace DDL
open V Spec Conv

variable {isNum : Str → Bool} {d e : Rdbms}

theorem name_word {ks : List String}
    (h : ∀ t ∈ kwList ks, isIdentifier d (t.headD ' ') = false ∧ plainName d t = false) {t : Str} (ht : Name d t) :
    ¬ Kw ks t := fun hk => by
  have := not_name h ht
  rw [isKw_kw.2 hk] at this; cases this

theorem vd_known (hd : d ≠ .other) : vd d = d := by
  cases d <;> first | rfl | exact absurd rfl hd

theorem myConName_same (hp : Pair d .mysql) {ks : List String} (hks : ∀ k ∈ ks, k ∈ ["PRIMARY", "UNIQUE", "FOREIGN", "CHECK"])
    {ts r s : List Str} {v w : ConName} (h : conName d ts v r) (h' : Mysql.conName ks ts w s) :
    r = s ∧ v = w ∧ conNameVal d v = conNameVal .mysql w := by
  obtain ⟨a, _, h1, h2⟩ := h
  obtain ⟨b, _, h1', h2'⟩ := h'
  rcases optKw_def.1 h1 with ⟨t, x, n, rfl, ht, ⟨rfl, hn⟩, rfl⟩ | ⟨rfl, rfl, hn⟩
  · rcases optKw_def.1 h1' with ⟨t', x', m, e1, ht', hm, rfl⟩ | ⟨rfl, rfl, hn'⟩
    · cases e1
      rcases hm with ⟨_, _, ⟨rfl, _, _, e2, h3⟩, rfl, rfl⟩ | ⟨_, _, ⟨rfl, h3⟩, n', _, ⟨e2, h4⟩, rfl, rfl⟩
      · cases e2
        refine absurd (Kw.mono hks h3) (name_word ?_ hn)
        cases hp <;> decide +kernel
      · cases e2
        obtain ⟨rfl, rfl⟩ := h2
        obtain ⟨rfl, rfl⟩ := h2'
        exact ⟨rfl, rfl, name_same hp.left (by decide) hn h4⟩
    · exact absurd ht (hn' _ _ rfl)
  · rcases optKw_def.1 h1' with ⟨t', x', m, rfl, ht', hm, rfl⟩ | ⟨rfl, rfl, hn'⟩
    · exact absurd ht' (hn _ _ rfl)
    · obtain ⟨rfl, rfl⟩ := h2
      obtain ⟨rfl, rfl⟩ := h2'
      exact ⟨rfl, rfl, rfl⟩

theorem colConName_same (hp : Pair d e) {ts r s : List Str} {v w : ConName} (h : conNameLang d ts v r)
    (h' : conNameLang e ts w s) : r = s ∧ v = w ∧ conNameVal d v = conNameVal e w := by
  cases hp with
  | sp => exact conName_exact (by decide) (by decide) _ _ _ _ _ h h'
  | sm => exact myConName_same .sm (by decide) h h'
  | pm => exact myConName_same .pm (by decide) h h'

theorem stuck_column {mid body r : List Str} {cn : ConName} {cs : List ColCon} (hs : Stuck d mid)
    (h1 : conNameLang d mid cn body) (h2 : colCons (colConFirstOf d) (colConOf isNum d) body cs r) : ¬ AtEnd r := by
  have key : body = mid := by
    have hc : ¬ HeadIn ["CONSTRAINT"] mid := fun h => hs (h.mono (by
      intro k hk; cases List.mem_singleton.1 hk; exact List.mem_cons_self ..))
    have : ∀ {β : Type} {L : Lang β} {b : Option β} {m}, optKw ["CONSTRAINT"] L mid b m → m = mid := by
      intro β L b m h
      rcases optKw_def.1 h with ⟨t, x, n, rfl, ht, _⟩ | ⟨_, h, _⟩
      · exact absurd ⟨t, x, rfl, ht⟩ hc
      · exact h
    cases d
    all_goals
      obtain ⟨a, m, h3, h4⟩ := h1
      cases this h3
      rcases a with _ | _
    all_goals first
      | exact h4.2
      | (rename_i a; rcases a with _ | _ <;> exact h4.2)
  subst key
  exact hs.dead _ _ h2.1

/-- Two columns that say the same. -/
theorem column_same (hp : Pair d e) {ts r s : List Str} {c c' : ColAst} (h : itemOf isNum d ts (.column c) r)
    (h' : itemOf isNum e ts (.column c') s) (hr : AtEnd r) (hs : AtEnd s) (hn : e = .mysql → NoCheckNot c.cons) :
    r = s ∧ columnVal isNum d c = columnVal isNum e c' ∧ (c.Faithful ↔ c'.Faithful) := by
  obtain ⟨ty, mid, body, rfl, h1, h2, h3, h4⟩ := column_inv h
  obtain ⟨ty', mid', body', e1, h1', h2', h3', h4'⟩ := column_inv h'
  rw [vd_known hp.left] at h1
  rw [vd_known hp.right] at h1'
  have e2 : c.name = c'.name := (List.cons.inj e1).1
  cases (List.cons.inj e1).2
  rw [← e2] at h1'
  rcases type_step hp h2 h2' with ⟨rfl, ht⟩ | hst | hst
  · obtain ⟨rfl, hc, hc'⟩ := colConName_same hp h3 h3'
    obtain ⟨rfl, hcs⟩ := colCons_same hp h4.1 h4'.1 hr hs hn
    refine ⟨rfl, ?_, ?_⟩
    · unfold columnVal constraintVal
      rw [← e2, name_same hp.left hp.right h1 h1', ht, hc', hcs.pk, hcs.uq, hcs.nn, hcs.ai, hcs.df, hcs.ck, hcs.co, hcs.rf]
    · unfold ColAst.Faithful
      rw [hc, hcs.pl]
  · exact absurd hr (stuck_column hst h3 h4)
  · exact absurd hs (stuck_column hst h3' h4')

/-! ### Table constraints -/

/-- The keys of a primary key. -/
def pkKeys : Rdbms → Lang (List KeyPart)
  | .mysql => do Mysql.indexType; Mysql.keyList
  | d => nameList d

/-- The keys of a unique constraint. -/
def uqKeys : Rdbms → Lang (List KeyPart)
  | .mysql => do let _ ← optWord ["INDEX", "KEY"]; let _ ← Mysql.nameUnless ["("]; Mysql.indexType; Mysql.keyList
  | d => nameList d

/-- The keys of a foreign key. -/
def fkKeys : Rdbms → Lang (List KeyPart)
  | .mysql => do let _ ← Mysql.nameUnless ["("]; nameList .mysql
  | d => nameList d

/-- The referenced columns. -/
def fkCols : Rdbms → Lang (Option (List KeyPart))
  | .mysql => do let rs ← Mysql.keyList; return some rs
  | d => optKw ["("] (do let ns ← names d; kw [")"]; return colKeys ns)

/-- What follows the keys. -/
def idxTail (isNum : Str → Bool) : Rdbms → Lang Unit
  | .postgres => Postgres.indexParams
  | .mysql => Mysql.indexOptions isNum
  | _ => Sqlite.conflict

/-- What follows a check. -/
def ckT : Rdbms → List String
  | .postgres => ["NO"]
  | .mysql => ["NOT", "ENFORCED"]
  | _ => []

/-- First words of the table constraints of one dialect. -/
def onlyT : Rdbms → List String
  | .postgres => ["EXCLUDE"]
  | .mysql => ["INDEX", "KEY", "FULLTEXT", "SPATIAL"]
  | _ => []

/-- The table constraints. -/
def tableConOf (isNum : Str → Bool) : Rdbms → ConName → Lang Item
  | .postgres => Postgres.tableCon
  | .mysql => Mysql.tableCon isNum
  | _ => Sqlite.tableCon

/-- The forms of a table constraint. -/
inductive TInv (isNum : Str → Bool) (d : Rdbms) (n : ConName) (ts : List Str) (i : Item) (r : List Str) : Prop
  | pk (a b : Str) (x : List Str) (ks : List KeyPart) (m : List Str) (h : ts = a :: b :: x) (ha : Kw ["PRIMARY"] a)
      (hk : pkKeys d x ks m) (ht : idxTail isNum d m () r) (hi : i = .primaryKey n ks)
  | uq (a : Str) (x : List Str) (ks : List KeyPart) (m : List Str) (h : ts = a :: x) (ha : Kw ["UNIQUE"] a)
      (hk : uqKeys d x ks m) (ht : idxTail isNum d m () r) (hi : i = .unique n ks)
  | ck (a : Str) (x e m : List Str) (h : ts = a :: x) (ha : Kw ["CHECK"] a) (hp : parens x e m)
      (ht : r = m ∨ HeadIn (ckT d) m) (hi : i = .check n e)
  | fk (a b : Str) (x : List Str) (ks : List KeyPart) (c : Str) (m : List Str) (q : QName) (m' : List Str)
      (rs : Option (List KeyPart)) (m'' : List Str) (h : ts = a :: b :: x) (ha : Kw ["FOREIGN"] a)
      (hk : fkKeys d x ks (c :: m)) (hq : qname d m q m') (hc : fkCols d m' rs m'') (ht : refTail d m'' () r)
      (hi : i = .foreignKey n ks ⟨q, rs⟩)
  | only (h : HeadIn (onlyT d) ts)

theorem tinv_of (hd : d ≠ .other) {n : ConName} {ts r : List Str} {i : Item} (h : tableConOf isNum d n ts i r) :
    TInv isNum d n ts i r := by
  cases d with
  | other => exact absurd rfl hd
  | sqlite =>
    rcases h with h | h | h | h
    · obtain ⟨_, _, h1, _, _, h2, ks, _, h3, _, _, h4, rfl, rfl⟩ := h
      obtain ⟨a, rfl, ha⟩ := kw_def.1 h1
      obtain ⟨b, rfl, _⟩ := kw_def.1 h2
      exact .pk a b _ ks _ rfl ha h3 h4 rfl
    · obtain ⟨_, _, h1, ks, _, h3, _, _, h4, rfl, rfl⟩ := h
      obtain ⟨a, rfl, ha⟩ := kw_def.1 h1
      exact .uq a _ ks _ rfl ha h3 h4 rfl
    · obtain ⟨_, _, h1, e, _, h3, rfl, rfl⟩ := h
      obtain ⟨a, rfl, ha⟩ := kw_def.1 h1
      exact .ck a _ e _ rfl ha h3 (.inl rfl) rfl
    · obtain ⟨fk, _, ⟨_, _, h1, _, _, h2, ks, _, h3, _, _, h4, q, _, h5, rs, _, h6, rfl, rfl⟩, _, _, h7, rfl, rfl⟩ := h
      obtain ⟨a, rfl, ha⟩ := kw_def.1 h1
      obtain ⟨b, rfl, _⟩ := kw_def.1 h2
      obtain ⟨c, rfl, _⟩ := kw_def.1 h4
      exact .fk a b _ ks c _ q _ rs _ rfl ha h3 h5 h6 h7 rfl
  | postgres =>
    rcases h with h | h | h | h | h
    · obtain ⟨_, _, h1, _, _, h2, ks, _, h3, _, _, h4, rfl, rfl⟩ := h
      obtain ⟨a, rfl, ha⟩ := kw_def.1 h1
      obtain ⟨b, rfl, _⟩ := kw_def.1 h2
      exact .pk a b _ ks _ rfl ha h3 h4 rfl
    · obtain ⟨_, _, h1, ks, _, h3, _, _, h4, rfl, rfl⟩ := h
      obtain ⟨a, rfl, ha⟩ := kw_def.1 h1
      exact .uq a _ ks _ rfl ha h3 h4 rfl
    · obtain ⟨e, _, ⟨_, _, h1, e', _, h3, _, _, h4, rfl, rfl⟩, rfl, rfl⟩ := h
      obtain ⟨a, rfl, ha⟩ := kw_def.1 h1
      refine .ck a _ e _ rfl ha h3 ?_ rfl
      rcases optKw_def.1 h4 with ⟨t, x, v, rfl, ht, _⟩ | ⟨_, rfl, _⟩
      · exact .inr ⟨t, x, rfl, ht⟩
      · exact .inl rfl
    · obtain ⟨fk, _, ⟨_, _, h1, _, _, h2, ks, _, h3, _, _, h4, q, _, h5, rs, _, h6, rfl, rfl⟩, _, _, h7, rfl, rfl⟩ := h
      obtain ⟨a, rfl, ha⟩ := kw_def.1 h1
      obtain ⟨b, rfl, _⟩ := kw_def.1 h2
      obtain ⟨c, rfl, _⟩ := kw_def.1 h4
      exact .fk a b _ ks c _ q _ rs _ rfl ha h3 h5 h6 h7 rfl
    · obtain ⟨_, _, h1, _⟩ := h
      obtain ⟨a, rfl, ha⟩ := kw_def.1 h1
      exact .only ⟨a, _, rfl, ha⟩
  | mysql =>
    rcases h with h | h | h | h | h | h
    · obtain ⟨_, _, h1, _, _, h2, _, _, h3, ks, _, h4, _, _, h5, rfl, rfl⟩ := h
      obtain ⟨a, rfl, ha⟩ := kw_def.1 h1
      obtain ⟨b, rfl, _⟩ := kw_def.1 h2
      exact .pk a b _ ks _ rfl ha ⟨_, _, h3, h4⟩ h5 rfl
    · obtain ⟨_, _, h1, o, _, h2, nm, _, h3, _, _, h4, ks, _, h5, _, _, h6, rfl, rfl⟩ := h
      obtain ⟨a, rfl, ha⟩ := kw_def.1 h1
      exact .uq a _ ks _ rfl ha ⟨_, _, h2, _, _, h3, _, _, h4, h5⟩ h6 rfl
    · obtain ⟨_, _, h1, _, _, h2, nm, _, h3, ks, _, h4, _, _, h5, q, _, h6, rs, _, h7, _, _, h8, rfl, rfl⟩ := h
      obtain ⟨a, rfl, ha⟩ := kw_def.1 h1
      obtain ⟨b, rfl, _⟩ := kw_def.1 h2
      obtain ⟨c, rfl, _⟩ := kw_def.1 h5
      exact .fk a b _ ks c _ q _ (some rs) _ rfl ha ⟨_, _, h3, h4⟩ h6 ⟨_, _, h7, rfl, rfl⟩ h8 rfl
    · obtain ⟨e, _, ⟨_, _, h1, e', _, h3, _, _, h4, _, _, h5, rfl, rfl⟩, rfl, rfl⟩ := h
      obtain ⟨a, rfl, ha⟩ := kw_def.1 h1
      refine .ck a _ e _ rfl ha h3 ?_ rfl
      rcases optWord_def.1 h4 with ⟨_, t, rfl, ht⟩ | ⟨_, rfl, _⟩
      · exact .inr ⟨t, _, rfl, Kw.mono (by decide) ht⟩
      rcases optWord_def.1 h5 with ⟨_, t, rfl, ht⟩ | ⟨_, rfl, _⟩
      · exact .inr ⟨t, _, rfl, Kw.mono (by decide) ht⟩
      · exact .inl rfl
    · obtain ⟨_, _, h1, _⟩ := h
      obtain ⟨a, rfl, ha⟩ := kw_def.1 h1
      exact .only ⟨a, _, rfl, Kw.mono (by decide) ha⟩
    · obtain ⟨_, _, h1, _⟩ := h
      obtain ⟨a, rfl, ha⟩ := kw_def.1 h1
      exact .only ⟨a, _, rfl, Kw.mono (by decide) ha⟩

theorem keyPart_plain {t u : Str} {x m : List Str} {k : KeyPart} (ht : ¬ Kw ["("] t) (hu : Kw [",", ")"] u)
    (h : Mysql.keyPart (t :: u :: x) k m) : k = .col t ∧ m = u :: x := by
  obtain ⟨k', _, h1, _, _, h2, rfl, rfl⟩ := h
  rcases h1 with ⟨_, _, ⟨_, _, _, e, h3⟩, _⟩ | ⟨n, _, ⟨e, _⟩, g, _, h3, rfl, rfl⟩
  · cases e; exact absurd h3 ht
  · cases e
    rcases digitN_tail h3 with ⟨_, rfl⟩ | ⟨t, u, y, n, e, ht, _⟩
    · rcases optWord_def.1 h2 with ⟨_, t, e, ht⟩ | ⟨_, rfl, _⟩
      · cases e; exact (kw_disj hu (by decide) ht).elim
      · exact ⟨rfl, rfl⟩
    · cases e; exact (kw_disj hu (by decide) ht).elim

theorem name_not_paren (d : Rdbms) {t : Str} (h : Name d t) : ¬ Kw ["("] t := by
  apply name_word _ h
  cases d <;> decide +kernel

theorem seps_same {ts r s r' s' : List Str} {ns : List Str} {ks : List KeyPart} {u w : Unit}
    (h1 : Sep (name d) ts ns r) (h2 : Sep Mysql.keyPart ts ks s) (hr : kw [")"] r u r') (hs : kw [")"] s w s') :
    r' = s' ∧ keyCols (colKeys ns) = keyCols ks := by
  induction h1 generalizing ks s with
  | one h hn =>
    obtain ⟨rfl, h⟩ := h
    obtain ⟨t, rfl, ht⟩ := kw_def.1 hr
    cases h2 with
    | one h2 hn' =>
      obtain ⟨rfl, rfl⟩ := keyPart_plain (name_not_paren d h) (Kw.mono (by decide) ht) h2
      exact ⟨kw_same hr hs, rfl⟩
    | cons h2 hc =>
      obtain ⟨rfl, rfl⟩ := keyPart_plain (name_not_paren d h) (Kw.mono (by decide) ht) h2
      obtain ⟨t', e, ht'⟩ := kw_def.1 hc
      cases e; exact (kw_disj ht (by decide) ht').elim
  | cons h hc h1 ih =>
    obtain ⟨rfl, h⟩ := h
    obtain ⟨t, rfl, ht⟩ := kw_def.1 hc
    cases h2 with
    | one h2 hn' =>
      obtain ⟨rfl, rfl⟩ := keyPart_plain (name_not_paren d h) (Kw.mono (by decide) ht) h2
      exact absurd ht (hn'.2 _ _ rfl)
    | cons h2 hc' h3 =>
      obtain ⟨rfl, rfl⟩ := keyPart_plain (name_not_paren d h) (Kw.mono (by decide) ht) h2
      cases kw_same hc hc'
      obtain ⟨h4, h5⟩ := ih h3 hr hs
      exact ⟨h4, congrArg (_ :: ·) h5⟩

theorem keyList_same {ts r s : List Str} {v w : List KeyPart} (h1 : nameList d ts v r) (h2 : Mysql.keyList ts w s) :
    r = s ∧ keyCols v = keyCols w := by
  obtain ⟨_, _, h3, ns, _, h4, _, _, h5, rfl, rfl⟩ := h1
  obtain ⟨_, _, h3', ks, _, h4', _, _, h5', rfl, rfl⟩ := h2
  cases kw_same h3 h3'
  exact seps_same h4 h4' h5 h5'

theorem nameList_head {ts r : List Str} {v : List KeyPart} (h : nameList d ts v r) : HeadIn ["("] ts := by
  obtain ⟨_, _, h3, _⟩ := h
  obtain ⟨t, rfl, ht⟩ := kw_def.1 h3
  exact ⟨t, _, rfl, ht⟩

theorem indexType_no {ts r : List Str} {u : Unit} (h : HeadIn ["("] ts) (h' : Mysql.indexType ts u r) : r = ts := by
  obtain ⟨_, _, h1, _, rfl⟩ := h'
  rcases optKw_def.1 h1 with ⟨t, x, v, rfl, ht, _⟩ | ⟨_, h, _⟩
  · exact (clash h ⟨_, _, rfl, ht⟩ (by decide)).elim
  · exact h

theorem nameUnless_no {ts r : List Str} {v : Option Str} (h : HeadIn ["("] ts) (h' : Mysql.nameUnless ["("] ts v r) : r = ts := by
  rcases h' with ⟨_, _, ⟨rfl, _⟩, _, rfl⟩ | ⟨_, _, ⟨rfl, hn⟩, _⟩
  · rfl
  · obtain ⟨t, x, rfl, ht⟩ := h
    exact absurd ht (hn _ _ rfl)

theorem pkKeys_same (hp : Pair d e) {ts r s : List Str} {v w : List KeyPart} (h1 : pkKeys d ts v r) (h2 : pkKeys e ts w s) :
    r = s ∧ keyCols v = keyCols w := by
  cases hp with
  | sp => obtain ⟨h, rfl⟩ := nameList_exact (by decide) (by decide) _ _ _ _ _ h1 h2; exact ⟨h, rfl⟩
  | sm =>
    obtain ⟨_, _, h3, h4⟩ := h2
    cases indexType_no (nameList_head h1) h3
    exact keyList_same h1 h4
  | pm =>
    obtain ⟨_, _, h3, h4⟩ := h2
    cases indexType_no (nameList_head h1) h3
    exact keyList_same h1 h4

theorem optWord_no {ks : List String} {ts r : List Str} {b : Bool} (h : HeadIn ["("] ts)
    (hk : ∀ t ∈ kwList ["("], ¬ Kw ks t) (h' : optWord ks ts b r) : r = ts := by
  rcases optWord_def.1 h' with ⟨_, t, rfl, ht⟩ | ⟨_, h, _⟩
  · exact (clash h ⟨_, _, rfl, ht⟩ hk).elim
  · exact h

theorem uqKeys_same (hp : Pair d e) {ts r s : List Str} {v w : List KeyPart} (h1 : uqKeys d ts v r) (h2 : uqKeys e ts w s) :
    r = s ∧ keyCols v = keyCols w := by
  cases hp with
  | sp => obtain ⟨h, rfl⟩ := nameList_exact (by decide) (by decide) _ _ _ _ _ h1 h2; exact ⟨h, rfl⟩
  | sm =>
    obtain ⟨_, _, h3, _, _, h4, _, _, h5, h6⟩ := h2
    cases optWord_no (nameList_head h1) (by decide) h3
    cases nameUnless_no (nameList_head h1) h4
    cases indexType_no (nameList_head h1) h5
    exact keyList_same h1 h6
  | pm =>
    obtain ⟨_, _, h3, _, _, h4, _, _, h5, h6⟩ := h2
    cases optWord_no (nameList_head h1) (by decide) h3
    cases nameUnless_no (nameList_head h1) h4
    cases indexType_no (nameList_head h1) h5
    exact keyList_same h1 h6

theorem fkKeys_same (hp : Pair d e) {ts r s : List Str} {v w : List KeyPart} (h1 : fkKeys d ts v r) (h2 : fkKeys e ts w s) :
    r = s ∧ keyCols v = keyCols w := by
  cases hp with
  | sp => obtain ⟨h, rfl⟩ := nameList_exact (by decide) (by decide) _ _ _ _ _ h1 h2; exact ⟨h, rfl⟩
  | sm =>
    obtain ⟨_, _, h3, h4⟩ := h2
    cases nameUnless_no (nameList_head h1) h3
    obtain ⟨h, rfl⟩ := nameList_exact (by decide) (by decide) _ _ _ _ _ h1 h4; exact ⟨h, rfl⟩
  | pm =>
    obtain ⟨_, _, h3, h4⟩ := h2
    cases nameUnless_no (nameList_head h1) h3
    obtain ⟨h, rfl⟩ := nameList_exact (by decide) (by decide) _ _ _ _ _ h1 h4; exact ⟨h, rfl⟩

theorem fkCols_same (hp : Pair d e) {ts r s : List Str} {v w : Option (List KeyPart)} (h1 : fkCols d ts v r)
    (h2 : fkCols e ts w s) : r = s ∧ v.map keyCols = w.map keyCols := by
  have hm : ∀ {d : Rdbms} {r v}, optKw ["("] (do let ns ← names d; kw [")"]; return colKeys ns) ts v r →
      fkCols .mysql ts w s → r = s ∧ v.map keyCols = w.map keyCols := by
    rintro d r v h1 ⟨rs, _, ⟨_, _, h3', ks, _, h4', _, _, h5', rfl, rfl⟩, rfl, rfl⟩
    obtain ⟨t', rfl, ht'⟩ := kw_def.1 h3'
    rcases optKw_def.1 h1 with ⟨t, x, v, e1, ht, ⟨ns, _, h3, _, _, h4, rfl, rfl⟩, rfl⟩ | ⟨_, _, hn⟩
    · cases e1
      obtain ⟨h5, h6⟩ := seps_same h3 h4' h4 h5'
      exact ⟨h5, congrArg some h6⟩
    · exact absurd ht' (hn _ _ rfl)
  cases hp with
  | sp =>
    have hc : Exact (fun v w => v = w) (do let ns ← names .sqlite; kw [")"]; return colKeys ns)
        (do let ns ← names .postgres; kw [")"]; return colKeys ns) := by
      rintro ts v r w s ⟨n, _, h1, _, _, h2, rfl, rfl⟩ ⟨n', _, h1', _, _, h2', rfl, rfl⟩
      obtain ⟨rfl, rfl⟩ := names_exact (by decide) (by decide) _ _ _ _ _ h1 h1'
      exact ⟨kw_same h2 h2', rfl⟩
    obtain ⟨rfl, hb⟩ := hc.optKw _ _ _ _ _ h1 h2
    rcases hb with ⟨rfl, rfl⟩ | ⟨x, y, rfl, rfl, rfl⟩ <;> exact ⟨rfl, rfl⟩
  | sm => exact hm h1 h2
  | pm => exact hm h1 h2

/-- The next two tokens are keywords. -/
def Head2 (ks ks' : List String) (ts : List Str) : Prop := ∃ a b x, ts = a :: b :: x ∧ Kw ks a ∧ Kw ks' b

theorem indexParams_tail2 {m r : List Str} {u : Unit} (h : Postgres.indexParams m u r) :
    r = m ∨ HeadIn ["INCLUDE"] m ∨ Head2 ["WITH"] ["("] m ∨ Head2 ["USING"] ["INDEX"] m := by
  obtain ⟨_, _, h1, _, _, h2, _, _, h3, _, rfl⟩ := h
  rcases optKw_def.1 h1 with ⟨t, x, v, rfl, ht, _⟩ | ⟨_, rfl, _⟩
  · exact .inr (.inl ⟨t, x, rfl, ht⟩)
  rcases optKw_def.1 h2 with ⟨t, x, v, rfl, ht, hp, _⟩ | ⟨_, rfl, _⟩
  · obtain ⟨y, rfl⟩ := parens_head hp
    exact .inr (.inr (.inl ⟨t, _, y, rfl, ht, by decide⟩))
  rcases optKw_def.1 h3 with ⟨t, x, v, rfl, ht, ⟨_, _, h4, _⟩, _⟩ | ⟨_, rfl, _⟩
  · obtain ⟨b, rfl, hb⟩ := kw_def.1 h4
    exact .inr (.inr (.inr ⟨t, b, _, rfl, ht, hb⟩))
  · exact .inl rfl

theorem indexOptions_tail {m r : List Str} {u : Unit} (h : Mysql.indexOptions isNum m u r) :
    r = m ∨ (HeadIn Mysql.indexOptionFirst m ∧ ¬ Head2 ["WITH"] ["("] m ∧ ¬ Head2 ["USING"] ["INDEX"] m) := by
  obtain ⟨_, _, h, _, rfl⟩ := h
  cases h with
  | nil => exact .inl rfl
  | cons hk h =>
    refine .inr ⟨at_headIn hk, ?_, ?_⟩
    · rintro ⟨a, b, x, rfl, ha, hb⟩
      have hc : ∀ {ks : List String} {f : Unit → Lang Unit} {v m}, (∀ t ∈ kwList ["WITH"], ¬ Kw ks t) →
          ¬ (Lang.bind (kw ks) f) (a :: b :: x) v m := by
        rintro ks f v m hd ⟨_, _, h, _⟩
        obtain ⟨t, e, ht⟩ := kw_def.1 h
        cases e; exact kw_disj ha hd ht
      rcases h with h | h | h | h | h | h
      · exact hc (by decide) h
      · exact hc (by decide) h
      · obtain ⟨_, _, h1, _, _, h2, _⟩ := h
        obtain ⟨t, e, ht⟩ := kw_def.1 h1
        cases e
        obtain ⟨t, e, ht⟩ := kw_def.1 h2
        cases e
        exact kw_disj hb (by decide) ht
      · exact hc (by decide) h
      · obtain ⟨t, e, ht⟩ := kw_def.1 h
        cases e; exact kw_disj ha (by decide) ht
      · exact hc (by decide) h
    · rintro ⟨a, b, x, rfl, ha, hb⟩
      have hc : ∀ {ks : List String} {f : Unit → Lang Unit} {v m}, (∀ t ∈ kwList ["USING"], ¬ Kw ks t) →
          ¬ (Lang.bind (kw ks) f) (a :: b :: x) v m := by
        rintro ks f v m hd ⟨_, _, h, _⟩
        obtain ⟨t, e, ht⟩ := kw_def.1 h
        cases e; exact kw_disj ha hd ht
      rcases h with h | h | h | h | h | h
      · exact hc (by decide) h
      · obtain ⟨_, _, h1, h2⟩ := h
        obtain ⟨t, e, ht⟩ := kw_def.1 h1
        cases e
        obtain ⟨t, e, ht⟩ := kw_def.1 h2
        cases e
        exact kw_disj hb (by decide) ht
      · exact hc (by decide) h
      · exact hc (by decide) h
      · obtain ⟨t, e, ht⟩ := kw_def.1 h
        cases e; exact kw_disj ha (by decide) ht
      · exact hc (by decide) h

theorem idxTail_same (hp : Pair d e) {m r s : List Str} {u w : Unit} (h1 : idxTail isNum d m u r) (h2 : idxTail isNum e m w s)
    (hr : AtEnd r) (hs : AtEnd s) : r = s := by
  cases hp with
  | sp =>
    rcases conflict_tail h1 with rfl | h1 <;> rcases indexParams_tail h2 with rfl | h2
    · rfl
    · exact (clash hr h2 (by decide)).elim
    · exact (clash hs h1 (by decide)).elim
    · exact (clash h1 h2 (by decide)).elim
  | sm =>
    rcases conflict_tail h1 with rfl | h1 <;> rcases indexOptions_tail h2 with rfl | ⟨h2, _⟩
    · rfl
    · exact (clash hr h2 (by decide)).elim
    · exact (clash hs h1 (by decide)).elim
    · exact (clash h1 h2 (by decide)).elim
  | pm =>
    have h3 : ∀ {ks ks' : List String}, Head2 ks ks' m → HeadIn ks m := by
      rintro ks ks' ⟨a, b, x, rfl, h, _⟩; exact ⟨a, _, rfl, h⟩
    rcases indexParams_tail2 h1 with rfl | h1 | h1 | h1 <;> rcases indexOptions_tail h2 with rfl | ⟨h2, h4, h5⟩
    · rfl
    · exact (clash hr h2 (by decide)).elim
    · exact (clash hs h1 (by decide)).elim
    · exact (clash h1 h2 (by decide)).elim
    · exact (clash hs (h3 h1) (by decide)).elim
    · exact absurd h1 h4
    · exact (clash hs (h3 h1) (by decide)).elim
    · exact absurd h1 h5

theorem refTail_same (hp : Pair d e) {m r s : List Str} {u w : Unit} (h1 : refTail d m u r) (h2 : refTail e m w s)
    (hs : AtEnd s) : r = s := by
  have h3 : ¬ AtDefer s := by
    rintro (h | ⟨a, b, x, rfl, h, _⟩)
    · exact clash hs h (by decide)
    · exact clash hs ⟨a, _, rfl, h⟩ (by decide)
  cases hp with
  | sp => rcases refClauses_sqlite h1 h2 with h | h
          · exact h
          · exact absurd h h3
  | sm => rcases refClauses_sqlite h1 h2 with h | h
          · exact h
          · exact absurd h h3
  | pm => exact (refClauses_exact _ _ _ _ _ h1 h2).1

theorem ckTail_same (hp : Pair d e) {m r s : List Str} (h1 : r = m ∨ HeadIn (ckT d) m) (h2 : s = m ∨ HeadIn (ckT e) m)
    (hr : AtEnd r) (hs : AtEnd s) : r = s := by
  rcases h1 with rfl | h1 <;> rcases h2 with rfl | h2
  · rfl
  · cases hp <;> exact (clash hr h2 (by decide)).elim
  · cases hp <;> exact (clash hs h1 (by decide)).elim
  · cases hp <;> exact (clash h1 h2 (by decide)).elim

/-- The two entries say the same. -/
structure ItemSame (isNum : Str → Bool) (d e : Rdbms) (i j : Item) : Prop where
  co : i.column? isNum d = j.column? isNum e
  pk : i.primaryKey? d = j.primaryKey? e
  uq : i.unique? d = j.unique? e
  ck : i.check? d = j.check? e
  fk : i.foreignKey? d = j.foreignKey? e
  fa : i.Faithful ↔ j.Faithful
  ex : (∀ n, i ≠ .exclude n) ∧ (∀ n, j ≠ .exclude n)

theorem only_not_shared (hp : Pair d e) {ts : List Str} :
    (HeadIn (onlyT d) ts → ¬ HeadIn ["PRIMARY", "UNIQUE", "CHECK", "FOREIGN"] ts) ∧
    (HeadIn (onlyT e) ts → ¬ HeadIn ["PRIMARY", "UNIQUE", "CHECK", "FOREIGN"] ts) ∧
    (HeadIn (onlyT d) ts → ¬ HeadIn (onlyT e) ts) := by
  cases hp <;> exact ⟨fun h => h.disj (by decide), fun h => h.disj (by decide), fun h => h.disj (by decide)⟩

theorem tinv_head {n : ConName} {ts r : List Str} {i : Item} (h : TInv isNum d n ts i r) :
    HeadIn (onlyT d) ts ∨ HeadIn ["PRIMARY", "UNIQUE", "CHECK", "FOREIGN"] ts := by
  cases h with
  | pk a b x ks m h ha => exact .inr ⟨a, _, h, Kw.mono (by decide) ha⟩
  | uq a x ks m h ha => exact .inr ⟨a, _, h, Kw.mono (by decide) ha⟩
  | ck a x e m h ha => exact .inr ⟨a, _, h, Kw.mono (by decide) ha⟩
  | fk a b x ks c m q m' rs m'' h ha => exact .inr ⟨a, _, h, Kw.mono (by decide) ha⟩
  | only h => exact .inl h

/-- What two dialects make of the same table constraint. -/
theorem tableCon_same (hp : Pair d e) {n n' : ConName} (hn : conNameVal d n = conNameVal e n') {ts r s : List Str} {i j : Item}
    (h : TInv isNum d n ts i r) (h' : TInv isNum e n' ts j s) (hr : AtEnd r) (hs : AtEnd s) :
    r = s ∧ ItemSame isNum d e i j := by
  obtain ⟨o1, o2, o3⟩ := only_not_shared hp (ts := ts)
  have no1 : ¬ HeadIn (onlyT d) ts := by
    intro ho
    rcases tinv_head h' with h1 | h1
    · exact o3 ho h1
    · exact o1 ho h1
  have no2 : ¬ HeadIn (onlyT e) ts := by
    intro ho
    rcases tinv_head h with h1 | h1
    · exact o3 h1 ho
    · exact o2 ho h1
  cases h with
  | only h => exact absurd h no1
  | pk a b x ks m h ha hk ht hi =>
    subst h
    cases h' with
    | only h => exact absurd h no2
    | pk a' b' x' ks' m' h ha' hk' ht' hi' =>
      cases h
      obtain ⟨rfl, hks⟩ := pkKeys_same hp hk hk'
      cases idxTail_same hp ht ht' hr hs
      subst hi hi'
      exact ⟨rfl, rfl, by simp only [Item.primaryKey?, hn, hks], rfl, rfl, rfl, Iff.rfl, by simp, by simp⟩
    | uq a' x' ks' m' h ha' => cases h; exact (kw_disj ha (by decide) ha').elim
    | ck a' x' e' m' h ha' => cases h; exact (kw_disj ha (by decide) ha').elim
    | fk a' b' x' ks' c' m1 q' m2 rs' m3 h ha' => cases h; exact (kw_disj ha (by decide) ha').elim
  | uq a x ks m h ha hk ht hi =>
    subst h
    cases h' with
    | only h => exact absurd h no2
    | pk a' b' x' ks' m' h ha' => cases h; exact (kw_disj ha (by decide) ha').elim
    | uq a' x' ks' m' h ha' hk' ht' hi' =>
      cases h
      obtain ⟨rfl, hks⟩ := uqKeys_same hp hk hk'
      cases idxTail_same hp ht ht' hr hs
      subst hi hi'
      exact ⟨rfl, rfl, rfl, by simp only [Item.unique?, hn, hks], rfl, rfl, Iff.rfl, by simp, by simp⟩
    | ck a' x' e' m' h ha' => cases h; exact (kw_disj ha (by decide) ha').elim
    | fk a' b' x' ks' c' m1 q' m2 rs' m3 h ha' => cases h; exact (kw_disj ha (by decide) ha').elim
  | ck a x p m h ha hk ht hi =>
    subst h
    cases h' with
    | only h => exact absurd h no2
    | pk a' b' x' ks' m' h ha' => cases h; exact (kw_disj ha (by decide) ha').elim
    | uq a' x' ks' m' h ha' => cases h; exact (kw_disj ha (by decide) ha').elim
    | ck a' x' e' m' h ha' hk' ht' hi' =>
      cases h
      obtain ⟨rfl, rfl⟩ := parens_exact _ _ _ _ _ hk hk'
      cases ckTail_same hp ht ht' hr hs
      subst hi hi'
      exact ⟨rfl, rfl, rfl, rfl, by simp only [Item.check?, hn], rfl, Iff.rfl, by simp, by simp⟩
    | fk a' b' x' ks' c' m1 q' m2 rs' m3 h ha' => cases h; exact (kw_disj ha (by decide) ha').elim
  | fk a b x ks c m q m' rs m'' h ha hk hq hc ht hi =>
    subst h
    cases h' with
    | only h => exact absurd h no2
    | pk a' b' x' ks' m' h ha' => cases h; exact (kw_disj ha (by decide) ha').elim
    | uq a' x' ks' m' h ha' => cases h; exact (kw_disj ha (by decide) ha').elim
    | ck a' x' e' m' h ha' => cases h; exact (kw_disj ha (by decide) ha').elim
    | fk a' b' x' ks' c' m1 q' m2 rs' m3 h ha' hk' hq' hc' ht' hi' =>
      cases h
      obtain ⟨e1, hks⟩ := fkKeys_same hp hk hk'
      cases e1
      obtain ⟨rfl, rfl, hq1, _⟩ := qname_exact hp.left hp.right _ _ _ _ _ hq hq'
      obtain ⟨rfl, hrs⟩ := fkCols_same hp hc hc'
      cases refTail_same hp ht ht' hs
      subst hi hi'
      exact ⟨rfl, rfl, rfl, rfl, rfl, by simp only [Item.foreignKey?, refVal, hn, hks, hrs, hq1], Iff.rfl, by simp, by simp⟩

/-! ### Entries -/

/-- The words shared by the dialects that start a table constraint. -/
def sharedFirst : List String := ["CONSTRAINT", "PRIMARY", "UNIQUE", "CHECK", "FOREIGN"]

/-- The name of a table constraint. -/
def itemConName : Rdbms → Lang ConName
  | .mysql => Mysql.conName ["PRIMARY", "UNIQUE", "FOREIGN", "CHECK"]
  | d => conName d

theorem itemConName_same (hp : Pair d e) {ts r s : List Str} {v w : ConName} (h : itemConName d ts v r)
    (h' : itemConName e ts w s) : r = s ∧ v = w ∧ conNameVal d v = conNameVal e w := by
  cases hp with
  | sp => exact conName_exact (by decide) (by decide) _ _ _ _ _ h h'
  | sm => exact myConName_same .sm (by decide) h h'
  | pm => exact myConName_same .pm (by decide) h h'

theorem item_cases (hd : d ≠ .other) {ts r : List Str} {i : Item} (h : itemOf isNum d ts i r) :
    (HeadIn (sharedFirst ++ onlyT d) ts ∧ ∃ n m, itemConName d ts n m ∧ tableConOf isNum d n m i r) ∨ ∃ c, i = .column c := by
  cases d with
  | other => exact absurd rfl hd
  | sqlite =>
    rcases h with ⟨_, _, h1, n, m, h2, h3⟩ | ⟨_, _, _, τ, mid, h2, cn, body, h3, cs, _, h4, e', rfl⟩
    · obtain ⟨rfl, t, x, rfl, ht⟩ := h1
      exact .inl ⟨⟨t, x, rfl, Kw.mono (by decide) ht⟩, n, m, h2, h3⟩
    · exact .inr ⟨_, e'⟩
  | postgres =>
    rcases h with ⟨_, _, h1, n, m, h2, h3⟩ | ⟨_, _, _, τ, mid, h2, cn, body, h3, cs, _, h4, e', rfl⟩
    · obtain ⟨rfl, t, x, rfl, ht⟩ := h1
      exact .inl ⟨⟨t, x, rfl, Kw.mono (by decide) ht⟩, n, m, h2, h3⟩
    · exact .inr ⟨_, e'⟩
  | mysql =>
    rcases h with ⟨_, _, h1, n, m, h2, h3⟩ | ⟨_, _, _, τ, mid, h2, cn, body, h3, cs, _, h4, e', rfl⟩
    · obtain ⟨rfl, t, x, rfl, ht⟩ := h1
      exact .inl ⟨⟨t, x, rfl, Kw.mono (by decide) ht⟩, n, m, h2, h3⟩
    · exact .inr ⟨_, e'⟩

theorem itemConName_absent {ts m : List Str} {n : ConName} (hc : ¬ HeadIn ["CONSTRAINT"] ts) (h : itemConName d ts n m) : m = ts := by
  have : ∀ {β : Type} {L : Lang β} {b : Option β} {m}, optKw ["CONSTRAINT"] L ts b m → m = ts := by
    intro β L b m h
    rcases optKw_def.1 h with ⟨t, x, n, rfl, ht, _⟩ | ⟨_, h, _⟩
    · exact absurd ⟨t, x, rfl, ht⟩ hc
    · exact h
  cases d
  all_goals
    obtain ⟨a, m, h3, h4⟩ := h
    cases this h3
    rcases a with _ | _
  all_goals first
    | exact h4.2
    | (rename_i a; rcases a with _ | _ <;> exact h4.2)

theorem posInt_not_name {u : Str} (h : Name d u) (n : Nat) : ¬ PosInt u n := by
  rintro ⟨ds, he, h0, hd, _⟩
  have h1 : ∀ c r, u = c :: r → c.isDigit = true ∨ c = '+' := by
    rintro c r rfl
    rcases he with he | he
    · exact .inl (hd c (by rw [← he]; exact List.mem_cons_self ..))
    · exact .inr (List.cons.inj he).1
  rcases h with ⟨c, r, rfl, hc⟩ | ⟨⟨c, r, rfl, hc, _⟩, _⟩
  · rcases h1 _ _ rfl with h | rfl
    · have : ∀ d : Rdbms, ∀ c ∈ nameQuotes d, c.isDigit = false := by intro d; cases d <;> decide
      rw [this d c hc] at h; cases h
    · revert hc; cases d <;> decide
  · rcases h1 _ _ rfl with h | rfl
    · rcases hc with hc | rfl
      · simp only [Char.isAlpha, Char.isUpper, Char.isLower, Char.isDigit, Bool.or_eq_true, Bool.and_eq_true, decide_eq_true_eq,
          UInt32.le_iff_toNat_le, ge_iff_le] at hc h
        have e1 : 'A'.val.toNat = 65 := rfl
        have e2 : 'Z'.val.toNat = 90 := rfl
        have e3 : 'a'.val.toNat = 97 := rfl
        have e4 : 'z'.val.toNat = 122 := rfl
        have e5 : '0'.val.toNat = 48 := rfl
        have e6 : '9'.val.toNat = 57 := rfl
        omega
      · revert h; decide
    · revert hc; decide

theorem keyList_second {ts r : List Str} {ks : List KeyPart} (h : Mysql.keyList ts ks r) :
    ∃ a u y, ts = a :: u :: y ∧ Kw ["("] a ∧ ∀ n, ¬ PosInt u n := by
  obtain ⟨_, _, h1, _, _, h2, _⟩ := h
  obtain ⟨a, rfl, ha⟩ := kw_def.1 h1
  have : ∀ {x k m}, Mysql.keyPart x k m → ∃ u y, x = u :: y ∧ ∀ n, ¬ PosInt u n := by
    rintro x k m ⟨_, _, h3, _⟩
    rcases h3 with ⟨_, _, ⟨rfl, t, y, rfl, ht⟩, _⟩ | ⟨n, _, ⟨rfl, hn⟩, _⟩
    · refine ⟨t, y, rfl, ?_⟩
      rcases ht with ⟨k, hk, ht⟩
      cases List.mem_singleton.1 hk
      have ht : t = ['('] := by rcases ht with rfl | rfl <;> decide
      subst ht
      rintro n ⟨ds, he, _, hd, _⟩
      rcases he with he | he
      · have := hd '(' (by rw [← he]; exact List.mem_cons_self ..)
        revert this; decide
      · cases he
    · exact ⟨n, _, rfl, posInt_not_name hn⟩
  cases h2 with
  | one h => obtain ⟨u, y, rfl, hu⟩ := this h; exact ⟨a, u, y, rfl, ha, hu⟩
  | cons h => obtain ⟨u, y, rfl, hu⟩ := this h; exact ⟨a, u, y, rfl, ha, hu⟩

/-- What follows the first word of an index definition. -/
theorem index_second {n : ConName} {a : Str} {x r : List Str} {i : Item} (h : Mysql.tableCon isNum n (a :: x) i r)
    (ha : Kw (onlyT .mysql) a) : HeadIn ["USING", "(", "INDEX", "KEY"] x ∨
      ∃ u y, x = u :: y ∧ (HeadIn ["USING"] y ∨ ∃ a u z, y = a :: u :: z ∧ Kw ["("] a ∧ ∀ n, ¬ PosInt u n) := by
  have hc : ∀ {ks : List String} {f : Unit → Lang Item}, (∀ t ∈ kwList (onlyT .mysql), ¬ Kw ks t) →
      ¬ (Lang.bind (kw ks) f) (a :: x) i r := by
    rintro ks f hd ⟨_, _, h, _⟩
    obtain ⟨t, e, ht⟩ := kw_def.1 h
    cases e; exact kw_disj ha hd ht
  rcases h with h | h | h | h | h | h
  · exact (hc (by decide) h).elim
  · exact (hc (by decide) h).elim
  · exact (hc (by decide) h).elim
  · obtain ⟨_, _, ⟨_, _, h, _⟩, _⟩ := h
    obtain ⟨t, e, ht⟩ := kw_def.1 h
    cases e; exact (kw_disj ha (by decide) ht).elim
  · obtain ⟨_, _, h1, _, _, h2, _, _, h3, _, _, h4, _⟩ := h
    obtain ⟨t, e, ht⟩ := kw_def.1 h1
    cases e
    rcases h2 with ⟨_, _, h2, rfl, rfl⟩ | ⟨_, _, ⟨rfl, h5⟩, nm, _, ⟨rfl, h6⟩, rfl, rfl⟩
    · obtain ⟨rfl, t, y, rfl, ht⟩ := h2
      exact .inl ⟨t, y, rfl, Kw.mono (by decide) ht⟩
    · refine .inr ⟨nm, _, rfl, ?_⟩
      obtain ⟨_, _, h3, _, rfl⟩ := h3
      rcases optKw_def.1 h3 with ⟨t, x, v, rfl, ht, _⟩ | ⟨_, rfl, _⟩
      · exact .inl ⟨t, x, rfl, ht⟩
      · exact .inr (keyList_second h4)
  · obtain ⟨_, _, h1, _, _, h2, _, _, h3, _, _, h4, _⟩ := h
    obtain ⟨t, e, ht⟩ := kw_def.1 h1
    cases e
    rcases optWord_def.1 h2 with ⟨_, t, rfl, ht⟩ | ⟨_, rfl, _⟩
    · exact .inl ⟨t, _, rfl, Kw.mono (by decide) ht⟩
    rcases h3 with ⟨_, _, h2, rfl, rfl⟩ | ⟨_, _, ⟨rfl, h5⟩, nm, _, ⟨rfl, h6⟩, rfl, rfl⟩
    · obtain ⟨rfl, t, y, rfl, ht⟩ := h2
      exact .inl ⟨t, y, rfl, Kw.mono (by decide) ht⟩
    · exact .inr ⟨nm, _, rfl, .inr (keyList_second h4)⟩

/-- What follows EXCLUDE. -/
theorem exclude_second {n : ConName} {a : Str} {x r : List Str} {i : Item} (h : Postgres.tableCon n (a :: x) i r)
    (ha : Kw ["EXCLUDE"] a) : HeadIn ["USING", "("] x := by
  have hc : ∀ {ks : List String} {f : Unit → Lang Item}, (∀ t ∈ kwList ["EXCLUDE"], ¬ Kw ks t) →
      ¬ (Lang.bind (kw ks) f) (a :: x) i r := by
    rintro ks f hd ⟨_, _, h, _⟩
    obtain ⟨t, e, ht⟩ := kw_def.1 h
    cases e; exact kw_disj ha hd ht
  rcases h with h | h | h | h | h
  · exact (hc (by decide) h).elim
  · exact (hc (by decide) h).elim
  · obtain ⟨_, _, ⟨_, _, h, _⟩, _⟩ := h
    obtain ⟨t, e, ht⟩ := kw_def.1 h
    cases e; exact (kw_disj ha (by decide) ht).elim
  · obtain ⟨_, _, ⟨_, _, h, _⟩, _⟩ := h
    obtain ⟨t, e, ht⟩ := kw_def.1 h
    cases e; exact (kw_disj ha (by decide) ht).elim
  · obtain ⟨_, _, h1, _, _, h2, _, _, h3, _⟩ := h
    obtain ⟨t, e, ht⟩ := kw_def.1 h1
    cases e
    rcases optKw_def.1 h2 with ⟨t, x, v, rfl, ht, _⟩ | ⟨_, rfl, _⟩
    · exact ⟨t, x, rfl, Kw.mono (by decide) ht⟩
    · obtain ⟨y, rfl⟩ := parens_head h3
      exact ⟨_, y, rfl, by decide⟩

theorem not_type (d : Rdbms) {x r : List Str} {τ : TypeAst} (h : typeLang d x τ r) :
    ¬ HeadIn ["USING", "(", "INDEX", "KEY"] x := by
  cases d with
  | other =>
    obtain ⟨t, _, ⟨rfl, ht⟩, _⟩ := h
    exact HeadIn.disj ⟨t, _, rfl, ht⟩ (by decide +kernel)
  | sqlite =>
    obtain ⟨t, x, rfl, _, ht⟩ := type_form (by decide) h
    exact HeadIn.disj ⟨t, x, rfl, ht⟩ (by decide +kernel)
  | postgres =>
    obtain ⟨t, x, rfl, _, ht⟩ := type_form (by decide) h
    exact HeadIn.disj ⟨t, x, rfl, ht⟩ (by decide +kernel)
  | mysql =>
    obtain ⟨t, x, rfl, _, ht⟩ := type_form (by decide) h
    exact HeadIn.disj ⟨t, x, rfl, ht⟩ (by decide +kernel)

/-- A column of one dialect is not a table constraint of another one. -/
theorem column_table (hd : d ≠ .other) (he : e ≠ .other) {ts r s : List Str} {c : ColAst} {n : ConName} {m : List Str} {j : Item}
    (h : itemOf isNum d ts (.column c) r) (hr : AtEnd r) (hh : HeadIn (sharedFirst ++ onlyT e) ts) (hn : itemConName e ts n m)
    (ht : tableConOf isNum e n m j s) : False := by
  obtain ⟨ty, mid, body, rfl, h1, h2, h3, h4⟩ := column_inv h
  rw [vd_known hd] at h1
  have h0 : ¬ Kw sharedFirst c.name := name_word (by cases d <;> decide +kernel) h1
  obtain ⟨_, _, e1, h5⟩ := hh
  cases e1
  have ho : Kw (onlyT e) c.name := by
    obtain ⟨k, hk, hk'⟩ := h5
    rcases List.mem_append.1 hk with hk | hk
    · exact absurd ⟨k, hk, hk'⟩ h0
    · exact ⟨k, hk, hk'⟩
  have hm : m = c.name :: ty := by
    refine itemConName_absent ?_ hn
    rintro ⟨t, x, e1, ht⟩
    cases e1
    exact h0 (Kw.mono (by decide) ht)
  subst hm
  have hx := not_type d h2
  cases e with
  | other => exact absurd rfl he
  | sqlite => obtain ⟨k, hk, _⟩ := ho; cases hk
  | postgres => exact hx ((exclude_second ht ho).mono (by decide))
  | mysql =>
    rcases index_second ht ho with hy | ⟨u, y, rfl, hy⟩
    · exact hx hy
    · exact stuck_column (type_key hd h2 hy) h3 h4 hr

/-- Nowhere in a column of the table a CHECK is directly followed by NOT NULL. -/
def ItemOk (i : Item) : Prop := ∀ c, i = .column c → NoCheckNot c.cons

/-- What two dialects make of the same entry. -/
theorem item_same (hp : Pair d e) {ts r s : List Str} {i j : Item} (h : itemOf isNum d ts i r) (h' : itemOf isNum e ts j s)
    (hr : AtEnd r) (hs : AtEnd s) (hn : e = .mysql → ItemOk i) : r = s ∧ ItemSame isNum d e i j := by
  rcases item_cases hp.left h with ⟨h1, n, m, h2, h3⟩ | ⟨c, rfl⟩ <;>
    rcases item_cases hp.right h' with ⟨h1', n', m', h2', h3'⟩ | ⟨c', rfl⟩
  · obtain ⟨rfl, _, hv⟩ := itemConName_same hp h2 h2'
    exact tableCon_same hp hv (tinv_of hp.left h3) (tinv_of hp.right h3') hr hs
  · exact (column_table hp.right hp.left h' hs h1 h2 h3).elim
  · exact (column_table hp.left hp.right h hr h1' h2' h3').elim
  · obtain ⟨rfl, hc, hf⟩ := column_same hp h h' hr hs (fun h => hn h c rfl)
    exact ⟨rfl, congrArg some hc, rfl, rfl, rfl, rfl, hf, by simp, by simp⟩

end DDL
