import Verif.Proof.PrintText
/-
Printed tables are derivable, and denote the tables.
-/

namespace DDL
open V Spec

/-- The next token is one of `T`. -/
def Head (T : List Str) (r : List Str) : Prop := ∃ t r', r = t :: r' ∧ t ∈ T

theorem Head.notAt {T r : List Str} {ks : List String} (h : Head T r)
    (hT : ∀ t ∈ T, ¬ Kw ks t) : notAt ks r () r := by
  obtain ⟨t, r', rfl, ht⟩ := h
  exact notAt_cons (hT t ht)

theorem Head.mono {T T' r : List Str} (h : Head T r) (hT : ∀ t ∈ T, t ∈ T') : Head T' r := by
  obtain ⟨t, r', e, ht⟩ := h
  exact ⟨t, r', e, hT t ht⟩

theorem Head.cons {T r : List Str} {t : Str} (h : t ∈ T) : Head T (t :: r) := ⟨t, r, rfl, h⟩

/-- What may come after a phrase, from the right. -/
def T0 : List Str := [S ",", S ")"]
def T1 : List Str := S "REFERENCES" :: T0
def T2 : List Str := S "CHECK" :: T1
def T3 : List Str := S "COLLATE" :: T2
def T4 : List Str := S "DEFAULT" :: T3
def T5 : List Str := S "UNIQUE" :: T4
def T6 : List Str := S "NOT" :: T5
def T7 : List Str := S "AUTO_INCREMENT" :: T6
def T8 : List Str := S "PRIMARY" :: T7
def T9 : List Str := S "CONSTRAINT" :: T8

/-- `s` is the text of an `L` with meaning `v`, if one of `T` follows. -/
def Ph (d : Rdbms) (T : List Str) (L : Lang β) (s : List Char) (v : β) : Prop :=
  ∃ ts, Txt d s ts ∧ ∀ r, Head T r → L (ts ++ r) v r

/-- The same, and the first token is `k`. -/
def CPh (d : Rdbms) (T : List Str) (L : Lang β) (s : List Char) (v : β) (k : Str) : Prop :=
  ∃ ts, Txt d s (k :: ts) ∧ ∀ r, Head T r → L (k :: (ts ++ r)) v r

/-- Constraints, when the end of the column follows; then one of `T` comes first. -/
def MPh (d : Rdbms) (first : List String) (L : Lang ColCon) (T : List Str) (s : List Char)
    (vs : List ColCon) : Prop :=
  ∃ ts, Txt d s ts ∧ ∀ r, Head T0 r → Many first L (ts ++ r) vs r ∧ Head T (ts ++ r)

theorem MPh.nil {d : Rdbms} {first : List String} {L : Lang ColCon}
    (h : ∀ t ∈ T0, ¬ Kw first t) : MPh d first L T0 [] [] :=
  ⟨[], .nil, fun _ hr => ⟨.nil (hr.notAt h), hr⟩⟩

theorem MPh.cons {d : Rdbms} {first : List String} {L : Lang ColCon} {T : List Str}
    {s s' : List Char} {v : ColCon} {vs : List ColCon} {k : Str} (h : CPh d T L s v k)
    (h' : MPh d first L T s' vs) (hk : Kw first k) : MPh d first L (k :: T) (s ++ s') (v :: vs) := by
  obtain ⟨ts, h1, h2⟩ := h
  obtain ⟨ts', h1', h2'⟩ := h'
  refine ⟨k :: ts ++ ts', h1.append h1', fun r hr => ⟨?_, ⟨k, ts ++ (ts' ++ r), by simp, by simp⟩⟩⟩
  obtain ⟨h3, h4⟩ := h2' r hr
  rw [List.append_assoc]
  exact .cons ⟨rfl, k, _, rfl, hk⟩ (h2 _ h4) h3

theorem MPh.skip {d : Rdbms} {first : List String} {L : Lang ColCon} {T : List Str}
    {s : List Char} {vs : List ColCon} (k : Str) (h : MPh d first L T s vs) :
    MPh d first L (k :: T) s vs := by
  obtain ⟨ts, h1, h2⟩ := h
  exact ⟨ts, h1, fun r hr => ⟨(h2 r hr).1, (h2 r hr).2.mono (fun t ht => .tail _ ht)⟩⟩

/-- A list with one element or none. -/
def opt (b : Bool) (v : α) : List α := if b then [v] else []

theorem MPh.opt {d : Rdbms} {first : List String} {L : Lang ColCon} {T : List Str}
    {s s' : List Char} {v : ColCon} {vs : List ColCon} {k : Str} {b : Bool}
    (h : b = true → CPh d T L s v k)
    (h' : MPh d first L T s' vs) (hk : Kw first k) :
    MPh d first L (k :: T) (textIf b s ++ s') (opt b v ++ vs) := by
  cases b with
  | false => exact h'.skip k
  | true => exact MPh.cons (h rfl) h' hk

/-! ### Phrases of all dialects -/

theorem Txt.eq {d : Rdbms} {s s' : List Char} {ts ts' : List Str} (h : Txt d s ts) (e : s = s')
    (e' : ts = ts') : Txt d s' ts' := e ▸ e' ▸ h

theorem Txt.lpar {d : Rdbms} : Txt d (S "( ") [S "("] := .fixed _ (by decide) rfl
theorem Txt.rpar {d : Rdbms} : Txt d (S ") ") [S ")"] := .fixed _ (by decide) rfl
theorem Txt.comma {d : Rdbms} : Txt d (S ", ") [S ","] := .fixed _ (by decide) rfl

/-- `CONSTRAINT name` -/
def conNameOf (d : Rdbms) (n : Str) : ConName := if n = [] then .absent else .named (nameTok d n)

theorem conNameVal_conNameOf {d : Rdbms} (hd : d ≠ .other) (n : Str) :
    conNameVal d (conNameOf d n) = n := by
  unfold conNameOf
  split
  · rename_i h; rw [h]; rfl
  · exact nameVal_nameTok hd n

theorem sep_keys {d : Rdbms} {L : Lang β} {f : Str → β} {ks : List Str} (h : KeyNames d ks)
    (hL : ∀ k r, KeyName d k → Head T0 r → L (k :: r) (f k) r) :
    ∃ ts, Txt d (keysText ks) ts ∧ ∀ r, Sep L (ts ++ S ")" :: r) (ks.map f) (S ")" :: r) := by
  obtain ⟨h0, h⟩ := h
  induction ks with
  | nil => exact (h0 rfl).elim
  | cons k ks ih =>
    cases ks with
    | nil =>
      exact ⟨[k], .key (h k (by simp)), fun r => .one (hL k _ (h k (by simp)) (.cons (by simp [T0])))
        (notAt_cons (by decide))⟩
    | cons k' ks =>
      obtain ⟨ts, h1, h2⟩ := ih (by simp) (fun x hx => h x (by simp [hx]))
      refine ⟨[k] ++ [S ","] ++ ts, ((Txt.key (h k (by simp))).append Txt.comma).append h1,
        fun r => ?_⟩
      exact .cons (hL k _ (h k (by simp)) (.cons (by simp [T0]))) (kw_intro (by decide)) (h2 r)

theorem names_keys {d : Rdbms} {ks : List Str} (h : KeyNames d ks) :
    ∃ ts, Txt d (keysText ks) ts ∧ ∀ r, names d (ts ++ S ")" :: r) ks (S ")" :: r) := by
  obtain ⟨ts, h1, h2⟩ := sep_keys (L := name d) (f := id) h (fun k r hk _ => name_intro (KeyName.name hk))
  rw [List.map_id] at h2
  exact ⟨ts, h1, h2⟩

theorem nameList_keys {d : Rdbms} {ks : List Str} (h : KeyNames d ks) :
    ∃ ts, Txt d (keyListText ks) ts ∧ ∀ r, nameList d (ts ++ r) (colKeys ks) r := by
  obtain ⟨ts, h1, h2⟩ := names_keys h
  refine ⟨[S "("] ++ ts ++ [S ")"], (Txt.lpar.append h1).append
    Txt.rpar, fun r => ?_⟩
  refine ⟨(), _, kw_intro (by decide), ks, _, ?_, (), _, kw_intro (t := S ")") (by decide), rfl, rfl⟩
  show names d (ts ++ [S ")"] ++ r) ks _
  rw [List.append_assoc]
  exact h2 r

theorem keyPart_intro {k : Str} {r : List Str} (hk : KeyName .mysql k) (hr : Head T0 r) :
    Spec.Mysql.keyPart (k :: r) (.col k) r := by
  refine ⟨_, _, .inr ⟨k, r, name_intro (KeyName.name hk), none, r, optKw_none (hr.notAt (by decide)), rfl, rfl⟩,
    false, r, optWord_none (hr.notAt (by decide)), rfl, rfl⟩

theorem keyList_keys {ks : List Str} (h : KeyNames .mysql ks) :
    ∃ ts, Txt .mysql (keyListText ks) (S "(" :: ts) ∧
      ∀ r, Spec.Mysql.keyList (S "(" :: ts ++ r) (colKeys ks) r := by
  obtain ⟨ts, h1, h2⟩ := sep_keys (L := Spec.Mysql.keyPart) (f := KeyPart.col) h
    (fun k r hk hr => keyPart_intro hk hr)
  refine ⟨ts ++ [S ")"], (Txt.lpar.append h1).append
    Txt.rpar, fun r => ?_⟩
  refine ⟨(), _, kw_intro (by decide), _, _, ?_, (), _, kw_intro (t := S ")") (by decide), rfl, rfl⟩
  show Sep Spec.Mysql.keyPart (ts ++ [S ")"] ++ r) _ _
  rw [List.append_assoc]
  exact h2 r

theorem keyCols_colKeys (ks : List Str) : keyCols (colKeys ks) = ks := by
  induction ks with
  | nil => rfl
  | cons k ks ih => simpa [keyCols, colKeys] using ih

/-- The reference a description stands for. -/
def refOf (d : Rdbms) (r : Reference) : Ref :=
  ⟨⟨none, nameTok d r.tableName⟩, r.columnNames.map colKeys⟩

theorem refVal_refOf {d : Rdbms} (hd : d ≠ .other) (r : Reference) : refVal d (refOf d r) = r := by
  unfold refVal refOf
  simp only [nameVal_nameTok hd]
  cases r with
  | mk t cs => cases cs with
    | none => rfl
    | some ks => simp [keyCols_colKeys]

theorem qname_tok {d : Rdbms} {n : Str} {r : List Str} (hn : notAt ["."] r () r) :
    qname d (nameTok d n :: r) ⟨none, nameTok d n⟩ r := qname_plain (name_nameTok d n) hn

theorem referenceText_none (d : Rdbms) (t : Str) :
    referenceText d ⟨t, none⟩ = S "REFERENCES " ++ nameText d t := List.append_nil _

theorem referenceText_some (d : Rdbms) (t : Str) (ks : List Str) :
    referenceText d ⟨t, some ks⟩ = S "REFERENCES " ++ nameText d t ++ keyListText ks := rfl

/-- A reference of a column. -/
theorem colRef_ph {d : Rdbms} {r : Reference} (h : ReferenceOK d r)
    (h1 : ∀ ks, r.columnNames = some ks → ks.length = 1) :
    CPh d T0 (colRef d) (referenceText d r) (refOf d r) (S "REFERENCES") := by
  obtain ⟨t, cs⟩ := r
  have hn := Txt.append (d := d) (.fixed (s := S "REFERENCES ") [S "REFERENCES"] (by decide) rfl)
    (Txt.name h.1)
  cases cs with
  | none =>
    refine ⟨[nameTok d t], hn.eq (referenceText_none d t).symm rfl, fun r hr => ?_⟩
    exact ⟨(), _, kw_intro (by decide), _, _, qname_tok (hr.notAt (by decide)), none, _,
      optKw_none (hr.notAt (by decide)), rfl, rfl⟩
  | some ks =>
    have hk := h.2 ks rfl
    match ks, h1 ks rfl with
    | [k], _ =>
      have hk' : KeyName d k := hk.2 k (by simp)
      refine ⟨[nameTok d t, S "(", k, S ")"], ?_, fun r hr => ?_⟩
      · have h2 : Txt d (keyListText [k]) ([S "("] ++ [k] ++ [S ")"]) :=
          (Txt.lpar.append (.key hk')).append
            Txt.rpar
        exact (hn.append h2).eq rfl rfl
      · exact ⟨(), _, kw_intro (by decide), _, _, qname_tok (notAt_cons (by decide)), _, _,
          optKw_some (v := colKeys [k]) (by decide) ⟨k, _, name_intro (KeyName.name hk'), (), _, kw_intro (by decide), rfl, rfl⟩,
          rfl, rfl⟩

/-- A foreign key. -/
theorem foreignKey_ph {d : Rdbms} {cn : ConName} {ks : List Str} {r : Reference} (hk : KeyNames d ks)
    (h : ReferenceOK d r) :
    CPh d T0 (foreignKey d cn) (S "FOREIGN KEY " ++ keyListText ks ++ referenceText d r)
      (.foreignKey cn (colKeys ks) (refOf d r)) (S "FOREIGN") := by
  obtain ⟨t, cs⟩ := r
  obtain ⟨ts, h1, h2⟩ := nameList_keys hk
  have hn := Txt.append (d := d) (.fixed (s := S "REFERENCES ") [S "REFERENCES"] (by decide) rfl)
    (Txt.name h.1)
  have hf := Txt.append (d := d) (.fixed (s := S "FOREIGN KEY ") [S "FOREIGN", S "KEY"] (by decide) rfl) h1
  cases cs with
  | none =>
    refine ⟨S "KEY" :: (ts ++ [S "REFERENCES", nameTok d t]), (hf.append hn).eq (by rw [referenceText_none]) rfl,
      fun r hr => ?_⟩
    refine ⟨(), _, kw_intro (by decide), (), _, kw_intro (by decide), _, _, ?_, (), _,
      kw_intro (t := S "REFERENCES") (by decide), _, _, qname_tok (hr.notAt (by decide)), none, _,
      optKw_none (hr.notAt (by decide)), rfl, rfl⟩
    show nameList d (ts ++ [S "REFERENCES", nameTok d t] ++ r) _ _
    rw [List.append_assoc]
    exact h2 (S "REFERENCES" :: nameTok d t :: r)
  | some rs =>
    obtain ⟨ts', h1', h2'⟩ := names_keys (h.2 rs rfl)
    have h3 : Txt d (keyListText rs) ([S "("] ++ ts' ++ [S ")"]) :=
      (Txt.lpar.append h1').append Txt.rpar
    refine ⟨S "KEY" :: (ts ++ [S "REFERENCES", nameTok d t, S "("] ++ ts' ++ [S ")"]),
      ((hf.append hn).append h3).eq (by
        rw [referenceText_some, List.append_assoc]) (by simp only [List.append_assoc, List.cons_append, List.nil_append]), fun r hr => ?_⟩
    refine ⟨(), _, kw_intro (by decide), (), _, kw_intro (by decide), _,
      S "REFERENCES" :: nameTok d t :: S "(" :: (ts' ++ S ")" :: r), ?_, (), _,
      kw_intro (t := S "REFERENCES") (by decide), _, _, qname_tok (notAt_cons (t := S "(") (by decide)),
      some (colKeys rs), _,
      optKw_some (by decide) ⟨rs, _, h2' r, (), r, kw_intro (t := S ")") (by decide), rfl, rfl⟩, rfl, rfl⟩
    show nameList d (ts ++ [S "REFERENCES", nameTok d t, S "("] ++ ts' ++ [S ")"] ++ r) _ _
    rw [List.append_assoc, List.append_assoc, List.append_assoc]
    exact h2 (S "REFERENCES" :: nameTok d t :: S "(" :: (ts' ++ S ")" :: r))

/-- The token of a default value. -/
def dfltTok : DefaultVal → Str
  | .nil => []
  | .num t => t
  | .str s => '\'' :: s ++ ['\'']
  | .bool true => S "TRUE"
  | .bool false => S "FALSE"

theorem defaultText_eq (v : DefaultVal) :
    defaultText v = textIf (v != .nil) (S "DEFAULT " ++ piece (dfltTok v)) := by
  cases v with
  | nil => rfl
  | num t => rfl
  | str s =>
    have e : S "DEFAULT '" = S "DEFAULT " ++ ['\''] := by decide
    have e2 : S "' " = ['\'', ' '] := by decide
    show S "DEFAULT '" ++ s ++ S "' " = S "DEFAULT " ++ (('\'' :: s ++ ['\'']) ++ [' '])
    rw [e, e2]
    simp only [List.append_assoc, List.cons_append, List.nil_append]
  | bool b => cases b <;> rfl

theorem not_num {isNum : Str → Bool} (hN : NumOK isNum) {c : Char} {r : Str}
    (h : (isDig c || ['+', '-', '.', 'i', 'I', 'n', 'N'].contains c) = false) :
    isNum (c :: r) = false := by
  cases e : isNum (c :: r) with
  | false => rfl
  | true =>
    obtain ⟨c', r', e', h'⟩ := hN _ e
    cases e'
    rcases h' with h' | h'
    · rw [h'] at h; cases h
    · rw [List.contains_iff_mem.2 h', Bool.or_true] at h; cases h

/-- Its text, what it means, and that it is a literal and no parenthesis. -/
theorem dfltTok_ok {isNum : Str → Bool} (hN : NumOK isNum) {d : Rdbms} (hd : d ≠ .other)
    {v : DefaultVal} (h : DefaultOK isNum d v) (hv : v ≠ .nil) :
    Txt d (piece (dfltTok v)) [dfltTok v] ∧ litVal isNum d (dfltTok v) = v ∧
      Literal isNum d (dfltTok v) ∧ ¬ Kw ["("] (dfltTok v) := by
  cases v with
  | nil => exact (hv rfl).elim
  | num t =>
    refine ⟨.word h.2, ?_, .inl h.1, ?_⟩
    · show litVal isNum d t = .num t
      unfold litVal; rw [if_pos h.1]
    · rintro ⟨k, hk, e⟩
      rw [List.mem_singleton] at hk
      subst hk
      have e : t = ['('] := by rcases e with e | e <;> exact e
      have := h.2.2.1 '(' (by rw [e]; simp)
      exact this (by simp [nonWord, puncts])
  | str s =>
    have hq : '\'' ∈ stringQuotes d := by cases d <;> decide
    have hq' : '\'' ∈ textQuotes d := by cases d <;> first | exact (hd rfl).elim | decide
    refine ⟨.quoted (by decide) (by intro _; decide) h, ?_,
      .inr (.inl ⟨'\'', s ++ ['\''], rfl, hq⟩), not_kw_head (by decide)⟩
    have hn : isNum ('\'' :: s ++ ['\'']) = false := not_num hN (by decide)
    show litVal isNum d ('\'' :: s ++ ['\'']) = .str s
    unfold litVal
    rw [if_neg (by rw [hn]; simp), if_pos (by simp [hq']), content_quoted]
  | bool b =>
    have n1 : isNum (S "TRUE") = false := not_num hN (by decide)
    have n2 : isNum (S "FALSE") = false := not_num hN (by decide)
    have m : ∀ x ∈ textQuotes d, x ≠ 'T' ∧ x ≠ 'F' := by cases d <;> decide
    cases b with
    | true =>
      refine ⟨.word (isWord_alnum (by decide) (by decide)), ?_, .inr (.inr (by show Kw _ (S "TRUE"); decide)), by show ¬ Kw _ (S "TRUE"); decide⟩
      show litVal isNum d (S "TRUE") = _
      unfold litVal
      rw [if_neg (by rw [n1]; simp), if_neg (by
        simp only [S, List.head?, Option.any]
        intro hc
        exact (m _ (of_decide_eq_true hc)).1 rfl)]
      rfl
    | false =>
      refine ⟨.word (isWord_alnum (by decide) (by decide)), ?_, .inr (.inr (by show Kw _ (S "FALSE"); decide)), by show ¬ Kw _ (S "FALSE"); decide⟩
      show litVal isNum d (S "FALSE") = _
      unfold litVal
      rw [if_neg (by rw [n2]; simp), if_neg (by
        simp only [S, List.head?, Option.any]
        intro hc
        exact (m _ (of_decide_eq_true hc)).2 rfl)]
      rfl

/-- `DEFAULT literal` -/
theorem default_txt {isNum : Str → Bool} (hN : NumOK isNum) {d : Rdbms} (hd : d ≠ .other)
    {v : DefaultVal} (h : DefaultOK isNum d v) (hv : v ≠ .nil) :
    Txt d (S "DEFAULT " ++ piece (dfltTok v)) (S "DEFAULT" :: [dfltTok v]) :=
  Txt.append (.fixed [S "DEFAULT"] (by decide) rfl) (dfltTok_ok hN hd h hv).1

theorem defaultValue_lit {isNum : Str → Bool} {d : Rdbms} {t : Str} {r : List Str}
    (h : Literal isNum d t) (hp : ¬ Kw ["("] t) : defaultValue isNum d (t :: r) (.lit t) r :=
  .inr ⟨(), _, notAt_cons hp, t, r, ⟨rfl, h⟩, rfl, rfl⟩

/-- `( n )` or nothing, and `( n , m )`. -/
def digitsOf (n m : Int) : Option (Nat × Option Nat) :=
  if n = 0 then none else some (n.toNat, if m = 0 then none else some m.toNat)

theorem digitN_head {d : Rdbms} {T : List Str} (hT : ∀ t ∈ T, ¬ Kw ["("] t) {τ : DataType}
    (h : DigitsOK 1 τ) : ∃ ts, Txt d (digitsText τ.digitN τ.digitM) ts ∧ ∀ r, Head T r →
      digitN (ts ++ r) (digitsOf τ.digitN τ.digitM) r ∧ Head (S "(" :: T) (ts ++ r) := by
  obtain ⟨h1, h2, _, _, _, _, h3⟩ := h
  have hm : τ.digitM = 0 := h3 (by decide)
  unfold digitsText digitsOf
  rw [if_pos hm, if_pos hm]
  split
  · exact ⟨[], .nil, fun r hr => ⟨optKw_none (hr.notAt hT), hr.mono fun t ht => .tail _ ht⟩⟩
  · rename_i h0
    refine ⟨[S "("] ++ [decDigits τ.digitN.toNat] ++ [S ")"], ?_, fun r hr => ⟨?_, .cons (.head _)⟩⟩
    · exact ((Txt.lpar.append (.dec _)).append Txt.rpar).eq (by rw [List.append_nil]) rfl
    · exact optKw_some (by decide) ⟨_, _, ⟨_, rfl, posInt_decDigits (by omega) (by omega)⟩, (), _,
        kw_intro (by decide), rfl, rfl⟩

theorem digitN_ph {d : Rdbms} {T : List Str} (hT : ∀ t ∈ T, ¬ Kw ["("] t) {τ : DataType}
    (h : DigitsOK 1 τ) : Ph d T digitN (digitsText τ.digitN τ.digitM) (digitsOf τ.digitN τ.digitM) := by
  obtain ⟨ts, h1, h2⟩ := digitN_head hT h
  exact ⟨ts, h1, fun r hr => (h2 r hr).1⟩

theorem digitPS_ph {d : Rdbms} {T : List Str} (hT : ∀ t ∈ T, ¬ Kw ["("] t) {τ : DataType}
    (h : DigitsOK 2 τ) : Ph d T digitPS (digitsText τ.digitN τ.digitM) (digitsOf τ.digitN τ.digitM) := by
  obtain ⟨h1, h2, h3, h4, _, _, _⟩ := h
  unfold digitsText digitsOf
  split
  · exact ⟨[], .nil, fun r hr => optKw_none (hr.notAt hT)⟩
  · rename_i h0
    split
    · refine ⟨[S "("] ++ [decDigits τ.digitN.toNat] ++ [S ")"], ?_, fun r hr => ?_⟩
      · exact ((Txt.lpar.append (.dec _)).append Txt.rpar).eq (by rw [List.append_nil]) rfl
      · exact optKw_some (by decide) ⟨_, _, ⟨_, rfl, posInt_decDigits (by omega) (by omega)⟩, none, _,
          optKw_none (notAt_cons (by decide)), (), _, kw_intro (by decide), rfl, rfl⟩
    · refine ⟨[S "("] ++ [decDigits τ.digitN.toNat] ++ ([S ","] ++ [decDigits τ.digitM.toNat]) ++ [S ")"],
        ?_, fun r hr => ?_⟩
      · exact ((Txt.lpar.append (.dec _)).append
          (Txt.comma.append (.dec _))).append Txt.rpar
      · exact optKw_some (by decide) ⟨_, _, ⟨_, rfl, posInt_decDigits (by omega) (by omega)⟩,
          some τ.digitM.toNat, _,
          optKw_some (by decide) ⟨_, rfl, posInt_decDigits (by omega) (by omega)⟩, (), _,
          kw_intro (by decide), rfl, rfl⟩

theorem digitsVal_digitsOf {τ : DataType} {k : Nat} (h : DigitsOK k τ) :
    digitNVal (digitsOf τ.digitN τ.digitM) = τ.digitN ∧
    digitMVal (digitsOf τ.digitN τ.digitM) = τ.digitM := by
  obtain ⟨h1, h2, h3, h4, h5, _, _⟩ := h
  unfold digitsOf
  split
  · rename_i h; rw [h, h5 h]; exact ⟨rfl, rfl⟩
  · split
    · rename_i h; rw [h]; simp [digitNVal, digitMVal]; omega
    · simp [digitNVal, digitMVal]; omega

end DDL
