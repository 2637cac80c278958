import Verif.Proof.Impl
/-
The helper functions shared by the three validators implement the phrases of the grammar.
-/

namespace DDL
open V Spec

/-! ### Monad laws of grammars -/

theorem Lang.bind_assoc (L : Lang α) (f : α → Lang β) (g : β → Lang γ) :
    (L >>= f >>= g) = (L >>= fun a => f a >>= g) := by
  funext ts w r
  apply propext
  constructor
  · rintro ⟨v, mid, ⟨u, mid', h1, h2⟩, h3⟩; exact ⟨u, mid', h1, v, mid, h2, h3⟩
  · rintro ⟨u, mid', h1, v, mid, h2, h3⟩; exact ⟨v, mid, ⟨u, mid', h1, h2⟩, h3⟩

theorem Lang.pure_bind (a : α) (f : α → Lang β) : ((pure a : Lang α) >>= f) = f a := by
  funext ts w r
  apply propext
  constructor
  · rintro ⟨v, mid, ⟨rfl, rfl⟩, h3⟩; exact h3
  · exact fun h => ⟨a, ts, ⟨rfl, rfl⟩, h⟩

theorem Lang.alt_bind (L M : Lang α) (f : α → Lang β) :
    ((L <|> M) >>= f) = ((L >>= f) <|> (M >>= f)) := by
  funext ts w r
  apply propext
  constructor
  · rintro ⟨v, mid, h | h, h'⟩
    · exact .inl ⟨v, mid, h, h'⟩
    · exact .inr ⟨v, mid, h, h'⟩
  · rintro (⟨v, mid, h, h'⟩ | ⟨v, mid, h, h'⟩)
    · exact ⟨v, mid, .inl h, h'⟩
    · exact ⟨v, mid, .inr h, h'⟩

/-! ### Phrases read a prefix -/

/-- An `L` leaves a suffix. -/
def Suff (L : Lang β) : Prop := ∀ ts v r, L ts v r → r <:+ ts

/-- An `L` is not empty. -/
def Cons (L : Lang β) : Prop := ∀ ts v r, L ts v r → r <:+ ts ∧ r.length < ts.length

theorem Suff.pure (v : β) : Suff (pure v : Lang β) := by
  rintro ts w r ⟨_, rfl⟩; exact List.suffix_rfl

theorem Suff.bind {L : Lang α} {f : α → Lang β} (h : Suff L) (hf : ∀ v, Suff (f v)) :
    Suff (L >>= f) := by
  rintro ts w r ⟨v, mid, h1, h2⟩
  exact (hf v _ _ _ h2).trans (h _ _ _ h1)

theorem Suff.alt {L M : Lang β} (h : Suff L) (h' : Suff M) : Suff (L <|> M) := by
  rintro ts v r (hh | hh)
  · exact h _ _ _ hh
  · exact h' _ _ _ hh

theorem Suff.tok (P : Str → Prop) : Suff (tok P) := by
  rintro ts v r ⟨rfl, _⟩; exact ⟨[v], rfl⟩

theorem Suff.kw (ks : List String) : Suff (kw ks) := (Suff.tok _).bind fun _ => .pure _
theorem Suff.at (ks : List String) : Suff (at_ ks) := by
  rintro ts v r ⟨rfl, _⟩; exact List.suffix_rfl
theorem Suff.notAt (ks : List String) : Suff (notAt ks) := by
  rintro ts v r ⟨rfl, _⟩; exact List.suffix_rfl
theorem Suff.optKw (ks : List String) {L : Lang β} (h : Suff L) : Suff (optKw ks L) :=
  ((Suff.kw ks).bind fun _ => h.bind fun _ => .pure _).alt ((Suff.notAt ks).bind fun _ => .pure _)
theorem Suff.optWord (ks : List String) : Suff (optWord ks) :=
  ((Suff.kw ks).bind fun _ => .pure _).alt ((Suff.notAt ks).bind fun _ => .pure _)
theorem Suff.many {ks : List String} {L : Lang β} (h : Suff L) : Suff (Many ks L) := by
  intro ts v r hm
  induction hm with
  | nil _ => exact List.suffix_rfl
  | cons _ h1 _ ih => exact ih.trans (h _ _ _ h1)
theorem Suff.sep {L : Lang β} (h : Suff L) : Suff (Sep L) := by
  intro ts v r hm
  induction hm with
  | one h1 _ => exact h _ _ _ h1
  | cons h1 h2 _ ih => exact ih.trans (((Suff.kw _) _ _ _ h2).trans (h _ _ _ h1))
theorem Suff.such {L : Lang β} {P : β → Prop} (h : Suff L) : Suff (L.such P) :=
  fun _ _ _ hh => h _ _ _ hh.1
theorem Suff.parens : Suff parens := by
  rintro ts v r ⟨e, _, rfl, rfl⟩; exact ⟨_, rfl⟩
theorem Suff.name (d : Rdbms) : Suff (name d) := Suff.tok _
theorem Suff.posInt : Suff posInt := by
  rintro ts v r ⟨t, rfl, _⟩; exact ⟨[t], rfl⟩
theorem Suff.literal (isNum : Str → Bool) (d : Rdbms) : Suff (literal isNum d) := Suff.tok _
theorem Suff.string (d : Rdbms) : Suff (Spec.string d) := Suff.tok _

theorem Suff.body : Suff Body := by
  intro ts v r h
  induction h with
  | stop h => exact Suff.kw _ _ _ _ h
  | plain _ _ _ ih => exact ih.trans ⟨[_], rfl⟩
  | @block b inner e ts rest _ _ _ _ ih =>
    exact ih.trans ⟨b :: inner ++ [e], by simp⟩

theorem Suff.options {L : Lang Unit} (h : Suff L) : Suff (Options L) := by
  intro ts v r hm
  induction hm with
  | stop _ => exact List.suffix_rfl
  | more _ h2 h3 _ ih => exact ih.trans ((h _ _ _ h3).trans (Suff.optWord _ _ _ _ h2))

/-- Closes goals `Suff L` for phrases in `do` notation. -/
macro "suff" : tactic => `(tactic| repeat' (first
  | exact Suff.pure _ | exact Suff.tok _ | exact Suff.kw _ | exact Suff.at _
  | exact Suff.notAt _ | exact Suff.parens | exact Suff.name _ | exact Suff.posInt
  | exact Suff.literal _ _ | exact Suff.string _ | exact Suff.body | exact Suff.optWord _
  | assumption
  | apply Suff.alt | apply Suff.optKw | apply Suff.many | apply Suff.sep | apply Suff.such
  | apply Suff.options
  | (apply Suff.bind <;> intros)
  | split))

theorem Suff.qname (d : Rdbms) : Suff (qname d) := by unfold Spec.qname; suff
theorem Suff.nameList (d : Rdbms) : Suff (nameList d) := by unfold Spec.nameList names; suff
theorem Suff.ifNotExists : Suff ifNotExists := by unfold Spec.ifNotExists; suff
theorem Suff.conName (d : Rdbms) : Suff (conName d) := by unfold Spec.conName; suff
theorem Suff.defaultValue (isNum : Str → Bool) (d : Rdbms) : Suff (defaultValue isNum d) := by
  unfold Spec.defaultValue; suff
theorem Suff.onAction : Suff onAction := by unfold Spec.onAction; suff
theorem Suff.refClauses : Suff refClauses := by
  have := Suff.onAction
  unfold Spec.refClauses; suff
theorem Suff.colRef (d : Rdbms) : Suff (colRef d) := by
  have := Suff.qname d
  unfold Spec.colRef; suff
theorem Suff.foreignKey (d : Rdbms) (n : ConName) : Suff (foreignKey d n) := by
  have := Suff.qname d
  have := Suff.nameList d
  unfold Spec.foreignKey names; suff
theorem Suff.digitN : Suff digitN := by unfold Spec.digitN; suff
theorem Suff.digitPS : Suff digitPS := by unfold Spec.digitPS; suff
theorem Suff.other (kinds : List String) : Suff (other kinds) := by unfold Spec.other; suff
theorem Suff.colCons {first : List String} {L : Lang ColCon} (h : Suff L) :
    Suff (colCons first L) := by unfold Spec.colCons; suff
theorem Suff.createTable {d : Rdbms} {L : Lang Item} {O : Lang Unit} (h : Suff L) (h' : Suff O) :
    Suff (createTable d L O) := by
  have := Suff.qname d
  have := Suff.ifNotExists
  unfold Spec.createTable; suff

theorem Cons.tok_bind {P : Str → Prop} {f : Str → Lang β} (hf : ∀ t, Suff (f t)) :
    Cons (tok P >>= f) := by
  rintro ts w r ⟨t, mid, ⟨rfl, _⟩, h⟩
  have := hf t _ _ _ h
  exact ⟨this.trans ⟨[t], rfl⟩, by have := this.length_le; simp; omega⟩

theorem Cons.kw_bind {ks : List String} {f : Unit → Lang β} (hf : Suff (f ())) :
    Cons (kw ks >>= f) := by
  rw [Lang.kw_bind]; exact Cons.tok_bind fun _ => hf

theorem Cons.kw (ks : List String) : Cons (kw ks) := Cons.tok_bind fun _ => .pure _

theorem Cons.alt {L M : Lang β} (h : Cons L) (h' : Cons M) : Cons (L <|> M) := by
  rintro ts v r (hh | hh)
  · exact h _ _ _ hh
  · exact h' _ _ _ hh

theorem Cons.bind {L : Lang α} {f : α → Lang β} (h : Cons L) (hf : ∀ v, Suff (f v)) :
    Cons (L >>= f) := by
  rintro ts w r ⟨v, mid, h1, h2⟩
  have a := h _ _ _ h1
  have b := hf v _ _ _ h2
  exact ⟨b.trans a.1, Nat.lt_of_le_of_lt b.length_le a.2⟩

theorem Cons.suff {L : Lang α} (h : Cons L) : Suff L := fun _ _ _ hh => (h _ _ _ hh).1

/-! ### Names -/

/-- A name token from the lexer. -/
def NameTok (d : Rdbms) (t : Str) : Prop := Name d t ∧ Good t

theorem isAlpha__eq (c : Char) : isAlpha_ c = (c.isAlpha || c == '_') := by
  unfold isAlpha_ Char.isAlpha Char.isUpper Char.isLower
  have e1 : (decide ('a'.toNat ≤ c.toNat) && decide (c.toNat ≤ 'z'.toNat)) =
    (decide (c.val ≥ 'a'.val) && decide (c.val ≤ 'z'.val)) := rfl
  have e2 : (decide ('A'.toNat ≤ c.toNat) && decide (c.toNat ≤ 'Z'.toNat)) =
    (decide (c.val ≥ 'A'.val ∧ c.val ≤ 'Z'.val)) := by
    rw [Bool.decide_and]; rfl
  rw [e1, e2, Bool.or_comm (decide (c.val ≥ 'a'.val) && _)]

theorem isDig_eq (c : Char) : isDig c = c.isDigit := rfl

theorem matchIdent_iff (t : Str) : matchIdent t = true ↔ Ident t := by
  cases t with
  | nil => simp [matchIdent, Ident]
  | cons c r =>
    simp only [matchIdent, Ident, isAlpha__eq, isDig_eq, Bool.and_eq_true, Bool.or_eq_true,
      beq_iff_eq, List.all_eq_true, List.cons.injEq, Char.isAlphanum]
    constructor
    · rintro ⟨h1, h2⟩
      refine ⟨c, r, ⟨rfl, rfl⟩, h1, fun x hx => ?_⟩
      rcases h2 x hx with (h | h) | h
      · exact .inl (.inl h)
      · exact .inr h
      · exact .inl (.inr h)
    · rintro ⟨c', r', ⟨rfl, rfl⟩, h1, h2⟩
      refine ⟨h1, fun x hx => ?_⟩
      rcases h2 x hx with (h | h) | h
      · exact .inl (.inl h)
      · exact .inr h
      · exact .inl (.inr h)

theorem reserved_eq (d : Rdbms) : reserved d = reservedWords d := by cases d <;> rfl

theorem plainName_iff (d : Rdbms) (t : Str) : plainName d t = true ↔ PlainName d t := by
  simp only [plainName, PlainName, Bool.and_eq_true, matchIdent_iff, Bool.not_eq_true',
    contains, toUpper_eq, reserved_eq]
  constructor
  · rintro ⟨h1, h2⟩
    refine ⟨h1, fun w hw he => ?_⟩
    rw [List.any_eq_false] at h2
    exact h2 w.toList (List.mem_map.2 ⟨w, hw, rfl⟩) (by rw [beq_iff_eq]; exact he.symm)
  · rintro ⟨h1, h2⟩
    refine ⟨h1, ?_⟩
    rw [List.any_eq_false]
    intro x hx
    obtain ⟨w, hw, rfl⟩ := List.mem_map.1 hx
    rw [beq_iff_eq]
    exact fun he => h2 w hw he.symm

theorem isIdentifier_iff (d : Rdbms) (c : Char) : isIdentifier d c = true ↔ c ∈ nameQuotes d := by
  cases d <;> simp [isIdentifier, nameQuotes]

theorem isStringValue_iff (d : Rdbms) (c : Char) :
    V.isStringValue d c = true ↔ c ∈ stringQuotes d := by
  cases d <;> simp [V.isStringValue, stringQuotes]

theorem startsWith_cons {qs : List Char} {c : Char} {r : Str} :
    StartsWith qs (c :: r) ↔ c ∈ qs := by
  constructor
  · rintro ⟨c', r', h, hc⟩; cases h; exact hc
  · exact fun h => ⟨c, r, rfl, h⟩

theorem not_startsWith_nil {qs : List Char} : ¬ StartsWith qs [] := by
  rintro ⟨c', r', h, hc⟩; cases h

theorem plainName_EOF (d : Rdbms) : plainName d EOF = false := by
  have : matchIdent EOF = false := by decide
  simp [plainName, this]

theorem runA_cond (b : Bool) (p q : Prog α) (ts : List Str) :
    runA (cond b p q) ts = if b then runA p ts else runA q ts := by cases b <;> rfl

theorem runA_isValidName (d : Rdbms) (p q : Prog α) (ts : List Str) (c : Char) (r : Str)
    (h : hd ts = c :: r) :
    runA (ifM (isValidName d) p q) ts =
      if isIdentifier d c || plainName d (c :: r) then runA p ts else runA q ts := by
  simp only [ifM, isValidName, Prog.bind, runA]
  simp only [h]
  cases h1 : isIdentifier d c with
  | true => simp [Prog.bind]
  | false =>
    simp only [cond_false, Prog.bind, runA, h, Bool.false_or]
    exact runA_cond _ _ _ _

theorem EOF_cons : EOF = '<' :: S "EOF>" := by decide

theorem runA_validateName (d : Rdbms) (set : Bool) (ts : List Str) (hg : ∀ t ∈ ts, Good t) :
    runA (validateName d set) ts =
      match ts with
      | [] => .fail []
      | t :: r =>
        if isIdentifier d (t.headD ' ') || plainName d t then .ok () r (keep set t)
        else .fail (t :: r) := by
  unfold validateName
  cases ts with
  | nil =>
    rw [runA_isValidName d _ _ [] '<' (S "EOF>") EOF_cons, ← EOF_cons, plainName_EOF]
    have e1 : isIdentifier d '<' = false := by cases d <;> decide
    simp [e1, syntaxError, runA]
  | cons t r =>
    have ht := (hg t (by simp)).1
    cases t with
    | nil => exact absurd rfl ht
    | cons c cs =>
      rw [runA_isValidName d _ _ _ c cs rfl, runA_next]
      simp [syntaxError, runA]

theorem Name_iff (d : Rdbms) (t : Str) (ht : t ≠ []) :
    Name d t ↔ (isIdentifier d (t.headD ' ') || plainName d t) = true := by
  cases t with
  | nil => exact absurd rfl ht
  | cons c r =>
    simp [Name, startsWith_cons, isIdentifier_iff, plainName_iff]

/-- validateName -/
theorem name_impl (n : Nat) (d : Rdbms) (set : Bool) :
    Impls n (validateName d set) (name d) (tokE set (Name d)) := by
  intro ts hts
  refine Impl.tok_of ?_ ?_ ?_ hts.2
  · rintro rfl; exact ⟨[], by rw [runA_validateName _ _ _ hts.2]⟩
  · rintro t r rfl h
    rw [runA_validateName _ _ _ hts.2]
    simp only
    rw [if_pos ((Name_iff d t (hts.2 t (by simp)).1).1 h)]
  · rintro t r rfl h
    rw [runA_validateName _ _ _ hts.2]
    simp only
    rw [if_neg (fun hh => h ((Name_iff d t (hts.2 t (by simp)).1).2 hh))]
    exact ⟨_, rfl⟩

theorem name_implF (n : Nat) (d : Rdbms) : Impls n (validateName d false) (name d) nilE :=
  (name_impl n d false).conseq fun _ _ h => h.2.2

/-- The tokens of a possibly qualified name. -/
def QName.toks (q : QName) : List Str :=
  match q.schema with
  | none => [q.name]
  | some s => [s, S ".", q.name]

/-- A qualified name made of name tokens. -/
def QNameTok (d : Rdbms) (q : QName) : Prop :=
  NameTok d q.name ∧ ∀ s, q.schema = some s → NameTok d s

/-- Kept tokens of a qualified name. -/
def qnameE (d : Rdbms) (q : QName) (o : List Str) : Prop := QNameTok d q ∧ o = QName.toks q

theorem isKw_dot {t : Str} (h : isKw ["."] t = true) : t = S "." := by
  rw [isKw_mem] at h
  have : kwList ["."] = [S ".", S "."] := by decide
  rw [this] at h; simpa using h

theorem isKw_comma {t : Str} (h : isKw [","] t = true) : t = S "," := by
  rw [isKw_mem] at h
  have : kwList [","] = [S ",", S ","] := by decide
  rw [this] at h; simpa using h

theorem isKw_lpar {t : Str} : isKw ["("] t = true ↔ t = ['('] := by
  rw [isKw_mem]
  have : kwList ["("] = [['('], ['(']] := by decide
  rw [this]; simp

theorem isKw_rpar {t : Str} : isKw [")"] t = true ↔ t = [')'] := by
  rw [isKw_mem]
  have : kwList [")"] = [[')'], [')']] := by decide
  rw [this]; simp

theorem isKw_semi {t : Str} (h : isKw [";"] t = true) : t = S ";" := by
  rw [isKw_mem] at h
  have : kwList [";"] = [S ";", S ";"] := by decide
  rw [this] at h; simpa using h

/-- validateTableName -/
theorem qname_impl (n : Nat) (d : Rdbms) :
    Impls n (validateTableName d true) (qname d) (qnameE d) := by
  refine (name_impl n d true).bind fun a o ⟨h1, h2, ho⟩ => ?_
  subst ho
  refine (Impls.optKw (E := fun b o => match b with
      | none => o = []
      | some b => NameTok d b ∧ o = [S ".", b]) (by decide) (fun t ht => ?_) rfl).last ?_
  · refine (name_impl n d true).conseq fun b o ⟨h3, h4, h5⟩ => ?_
    rw [isKw_dot ht, h5]
    exact ⟨⟨h3, h4⟩, rfl⟩
  · intro b o h
    cases b with
    | none => cases h; exact .ret ⟨⟨⟨h1, h2⟩, by simp⟩, rfl⟩
    | some b =>
      obtain ⟨h3, rfl⟩ := h
      refine .ret ⟨⟨h3, ?_⟩, rfl⟩
      rintro s hs; cases hs; exact ⟨h1, h2⟩

theorem qname_implF (n : Nat) (d : Rdbms) :
    Impls n (validateTableName d false) (qname d) nilE := by
  refine (name_implF n d).bindF fun a => ?_
  refine (Impls.optKwF (by decide) (name_implF n d)).last ?_
  intro b o ho; cases ho
  cases b <;> exact .ret rfl

/-! ### Comma separated lists -/

/-- Lists separated by commas. -/
def joinComma : List (List Str) → List Str
  | [] => []
  | [x] => x
  | x :: y :: r => x ++ S "," :: joinComma (y :: r)

/-- Two lists related element by element. -/
inductive All2 (R : α → β → Prop) : List α → List β → Prop
  | nil : All2 R [] []
  | cons (h : R a b) (hs : All2 R as bs) : All2 R (a :: as) (b :: bs)

/-- Kept tokens of a comma separated list. -/
def sepE (E1 : β → List Str → Prop) (vs : List β) (o : List Str) : Prop :=
  vs ≠ [] ∧ ∃ os, All2 E1 vs os ∧ o = joinComma os

theorem Sep_iff {L : Lang β} {ts : List Str} {v : List β} {r : List Str} :
    Sep L ts v r ↔ (L >>= fun a => optKw [","] (Sep L) >>= fun b =>
      (match b with | none => pure [a] | some vs => pure (a :: vs) : Lang (List β))) ts v r := by
  constructor
  · intro h
    cases h with
    | one h hn => exact ⟨_, _, h, none, _, .inr ⟨(), _, hn, rfl, rfl⟩, rfl, rfl⟩
    | cons h hc hs => exact ⟨_, _, h, some _, _, .inl ⟨(), _, hc, _, _, hs, rfl, rfl⟩, rfl, rfl⟩
  · rintro ⟨a, mid, h1, b, mid', h2, h3⟩
    rcases h2 with ⟨_, m1, h4, vs, m2, h5, rfl, rfl⟩ | ⟨_, m1, h4, rfl, rfl⟩
    · obtain ⟨rfl, rfl⟩ := h3
      exact .cons h1 h4 h5
    · obtain ⟨rfl, rfl⟩ := h3
      obtain ⟨rfl, h4⟩ := h4
      exact .one h1 ⟨rfl, h4⟩

theorem sep_impl_aux {f item : Nat → Prog Unit} {set : Bool} {L : Lang β} {E1 : β → List Str → Prop}
    {E : List β → List Str → Prop}
    (hf : ∀ n, f (n + 1) = (item (n + 1) >>= fun _ =>
      ifM (matchTokenNext set [","]) (f n) (.ret ())))
    (hitem : ∀ n, Impls n (item n) L E1)
    (h1 : ∀ v o, E1 v o → E [v] o)
    (h2 : ∀ v o t vs o', E1 v o → isKw [","] t = true → E vs o' → E (v :: vs) (o ++ (keep set t ++ o')))
    (n : Nat) : Impls n (f n) (Sep L) E := by
  induction n with
  | zero => intro ts hts; exact absurd hts.1 (by omega)
  | succ n ih =>
    intro ts hts
    refine Impl.congr (fun v r => Sep_iff) ?_
    rw [hf]
    refine (hitem (n + 1) ts hts).bind fun a o rest ha _ hs => ?_
    have hrest := hts.suffix hs
    refine Impl.last (E1 := fun b o' => match b with
      | none => o' = []
      | some vs => ∃ t o'', isKw [","] t = true ∧ E vs o'' ∧ o' = keep set t ++ o'') ?_ ?_
    · rw [ifM_next]
      refine Impl.opt (by decide) (First.tok fun _ h => isKw_kw.2 h).bind (fun hk => ?_)
        (fun _ => .ret rfl)
      rw [Lang.kw_bind]
      refine Impl.adv (by decide) hk hrest.2 fun t r e hk _ => ?_
      subst e
      refine (ih r hrest.tail).last fun vs o' _ ho' _ => .ret ?_
      exact ⟨t, o', hk, ho', by simp⟩
    · intro b o' _ hb _
      cases b with
      | none => subst hb; exact .ret (by simpa using h1 _ _ ha)
      | some vs =>
        obtain ⟨t, o'', ht, hE, rfl⟩ := hb
        exact .ret (by simpa using h2 _ _ _ _ _ ha ht hE)

theorem sep_impl {f item : Nat → Prog Unit} {L : Lang β} {E1 : β → List Str → Prop}
    (hf : ∀ n, f (n + 1) = (item (n + 1) >>= fun _ =>
      ifM (matchTokenNext true [","]) (f n) (.ret ())))
    (hitem : ∀ n, Impls n (item n) L E1) (n : Nat) : Impls n (f n) (Sep L) (sepE E1) := by
  refine sep_impl_aux hf hitem ?_ ?_ n
  · intro v o h
    exact ⟨by simp, [o], .cons h .nil, rfl⟩
  · rintro v o t vs o' h ht ⟨hne, os, hos, rfl⟩
    refine ⟨by simp, o :: os, .cons h hos, ?_⟩
    cases hos with
    | nil => exact absurd rfl hne
    | cons a b => simp [joinComma, isKw_comma ht]

theorem sep_implF {f item : Nat → Prog Unit} {L : Lang β}
    (hf : ∀ n, f (n + 1) = (item (n + 1) >>= fun _ =>
      ifM (matchTokenNext false [","]) (f n) (.ret ())))
    (hitem : ∀ n, Impls n (item n) L nilE) (n : Nat) : Impls n (f n) (Sep L) nilE := by
  refine sep_impl_aux hf hitem ?_ ?_ n
  · intro v o h; exact h
  · rintro v o t vs o' h ht h'
    cases h; cases h'; rfl

/-- Kept tokens of a list of names. -/
def namesE (d : Rdbms) (ns : List Str) (o : List Str) : Prop :=
  ns ≠ [] ∧ (∀ t ∈ ns, NameTok d t) ∧ o = joinComma (ns.map fun t => [t])

/-- validateCommaSeparatedColumnNames -/
theorem names_impl (n : Nat) (d : Rdbms) :
    Impls n (validateCommaSeparatedColumnNames d true n) (names d) (namesE d) := by
  refine (sep_impl (item := fun _ => validateName d true) (fun n => rfl)
    (fun n => name_impl n d true) n).conseq ?_
  rintro ns o ⟨hne, os, hos, rfl⟩
  refine ⟨hne, ?_⟩
  clear hne
  induction hos with
  | nil => exact ⟨by simp, rfl⟩
  | @cons a b l₁ l₂ h hs ih =>
    obtain ⟨h1, h2, rfl⟩ := h
    refine ⟨?_, ?_⟩
    · intro t ht
      rcases List.mem_cons.1 ht with rfl | ht
      · exact ⟨h1, h2⟩
      · exact ih.1 t ht
    · cases hs with
      | nil => rfl
      | cons h hs => simp only [joinComma, List.map_cons, keep_true]; rw [ih.2]; rfl

theorem names_implF (n : Nat) (d : Rdbms) :
    Impls n (validateCommaSeparatedColumnNames d false n) (names d) nilE :=
  sep_implF (item := fun _ => validateName d false) (fun _ => rfl) (fun n => name_implF n d) n

/-- Tokens of a key list. -/
def KeyPart.toks : KeyPart → List Str
  | .col n => [n]
  | .expr => []

/-- The names in a key list are name tokens. -/
def KeysTok (d : Rdbms) (ks : List KeyPart) : Prop :=
  ks ≠ [] ∧ ∀ n, KeyPart.col n ∈ ks → NameTok d n

/-- Kept tokens of a key list, without the parentheses. -/
def keysE (d : Rdbms) (ks : List KeyPart) (o : List Str) : Prop :=
  KeysTok d ks ∧ o = joinComma (ks.map KeyPart.toks)

/-- Kept tokens of a key list with its parentheses. -/
def keyListE (d : Rdbms) (ks : List KeyPart) (o : List Str) : Prop :=
  KeysTok d ks ∧ o = ['('] :: joinComma (ks.map KeyPart.toks) ++ [[')']]

theorem namesE.keys {d : Rdbms} {ns o : List Str} (h : namesE d ns o) :
    keysE d (colKeys ns) o := by
  obtain ⟨h0, h1, rfl⟩ := h
  refine ⟨⟨by simpa [colKeys] using h0, ?_⟩, by simp [colKeys, KeyPart.toks, Function.comp_def]⟩
  intro n hn
  simp [colKeys] at hn
  exact h1 n hn

/-- The parenthesised list of names in constraints. -/
theorem nameList_impl (n : Nat) (d : Rdbms) {q : Prog Unit} {f : List KeyPart → Lang β}
    {E : β → List Str → Prop}
    (h : ∀ ks o, keyListE d ks o → Impls n q (f ks) (fun w o' => E w (o ++ o'))) :
    Impls n (do
      validateToken true ["("]
      validateCommaSeparatedColumnNames d true n
      validateToken true [")"]
      q) (nameList d >>= f) E := by
  unfold Spec.nameList
  simp only [Lang.bind_assoc, Lang.pure_bind]
  refine Impls.kwT fun t ht => ?_
  refine (names_impl n d).bind fun ns o hns => ?_
  refine Impls.kwT fun t' ht' => ?_
  have hk := hns.keys
  refine (h (colKeys ns) (t :: o ++ [t']) ⟨hk.1, ?_⟩).conseq ?_
  · rw [isKw_lpar.1 ht, isKw_rpar.1 ht', hk.2]
  · intro w o' hw; simpa using hw

theorem nameList_implF (n : Nat) (d : Rdbms) :
    Impls n (do
      validateToken false ["("]
      validateCommaSeparatedColumnNames d false n
      validateToken false [")"]) (nameList d) nilE := by
  unfold Spec.nameList
  refine Impls.kwF ?_
  refine (names_implF n d).bindF fun ns => ?_
  exact Impls.lastF (Impls.kwLast n _) rfl

/-! ### Parentheses -/

theorem bal_unique {e e' r r' : List Str} (h : Bal e) (h' : Bal e')
    (he : e ++ [')'] :: r = e' ++ [')'] :: r') : e = e' ∧ r = r' := by
  induction h generalizing e' r r' with
  | nil =>
    cases h' with
    | nil => simpa using he
    | plain t ts h1 h2 _ => simp at he; exact absurd he.1.symm h2
    | paren => simp at he
  | plain t ts h1 h2 _ ih =>
    cases h' with
    | nil => simp at he; exact absurd he.1 h2
    | plain t' ts' h1' h2' h' =>
      simp at he
      obtain ⟨rfl, he⟩ := he
      obtain ⟨rfl, rfl⟩ := ih h' he
      exact ⟨rfl, rfl⟩
    | paren => simp at he; exact absurd he.1 h1
  | paren a b ha hb iha ihb =>
    cases h' with
    | nil => simp at he
    | plain t' ts' h1' h2' h' => simp at he; exact absurd he.1.symm h1'
    | paren a' b' ha' hb' =>
      simp at he
      obtain ⟨rfl, he'⟩ := iha ha' he
      obtain ⟨rfl, rfl⟩ := ihb hb' he'
      exact ⟨rfl, rfl⟩

/-- Kept tokens of a token sequence. -/
def keepAll (set : Bool) (e : List Str) : List Str := if set then e else []

theorem keepAll_append (set : Bool) (a b : List Str) :
    keepAll set (a ++ b) = keepAll set a ++ keepAll set b := by cases set <;> rfl
theorem keepAll_one (set : Bool) (t : Str) : keepAll set [t] = keep set t := by
  cases set <;> rfl
theorem keepAll_cons (set : Bool) (t : Str) (b : List Str) :
    keepAll set (t :: b) = keep set t ++ keepAll set b := by cases set <;> rfl

@[simp] theorem keepAll_nil (set : Bool) : keepAll set [] = [] := by cases set <;> rfl

theorem runA_ifT {ks : List String} {p q : Prog α} {ts : List Str} (h : isKw ks (hd ts) = true) :
    runA (ifM (matchToken ks) p q) ts = runA p ts := by rw [runA_if, if_pos h]

theorem runA_ifF {ks : List String} {p q : Prog α} {ts : List Str} (h : isKw ks (hd ts) = false) :
    runA (ifM (matchToken ks) p q) ts = runA q ts := by
  rw [runA_if, if_neg (by simp only [h]; simp)]

theorem runA_tokT {ks : List String} {set : Bool} {t : Str} {r : List Str} (h : isKw ks t = true) :
    runA (validateToken set ks) (t :: r) = .ok () r (keep set t) := by
  rw [runA_validateToken]; simp only [h, if_true]

theorem runA_tokF {ks : List String} {set : Bool} {t : Str} {r : List Str} (h : isKw ks t = false) :
    runA (validateToken set ks) (t :: r) = .fail (t :: r) := by
  rw [runA_validateToken]; simp [h]

theorem not_lpar {t : Str} (h : t ≠ ['(']) : isKw ["("] t = false := by
  cases hh : isKw ["("] t with
  | false => rfl
  | true => exact absurd (isKw_lpar.1 hh) h

theorem not_rpar {t : Str} (h : t ≠ [')']) : isKw [")"] t = false := by
  cases hh : isKw [")"] t with
  | false => rfl
  | true => exact absurd (isKw_rpar.1 hh) h

theorem bracketsAux_nil (set : Bool) (n : Nat) : runA (validateBracketsAux set n) [] = .timeout := by
  induction n with
  | zero => rfl
  | succ n ih =>
    rw [validateBracketsAux, runA_ifF (by decide), runA_ifF (by decide), runA_seq, runA_next]
    simp [ResA.andThen, ih, ResA.pre]

theorem bracketsAux_spec (set : Bool) (n : Nat) (ts : List Str) (hn : ts.length < n) :
    (∃ e r, Bal e ∧ ts = e ++ [')'] :: r ∧
      runA (validateBracketsAux set n) ts = .ok () ([')'] :: r) (keepAll set e)) ∨
    (runA (validateBracketsAux set n) ts = .timeout ∧ ∀ e r, Bal e → ts ≠ e ++ [')'] :: r) := by
  induction n generalizing ts with
  | zero => omega
  | succ n ih =>
    cases ts with
    | nil =>
      right
      refine ⟨bracketsAux_nil set _, ?_⟩
      intro e r _ h; simp at h
    | cons t ts =>
      simp at hn
      rw [validateBracketsAux]
      by_cases h1 : t = [')']
      · left
        subst h1
        refine ⟨[], ts, .nil, rfl, ?_⟩
        rw [runA_ifT (isKw_rpar.2 rfl)]
        simp [runA]
      rw [runA_ifF (show isKw [")"] (hd (t :: ts)) = false from not_rpar h1)]
      by_cases h2 : t = ['(']
      · subst h2
        rw [runA_ifT (isKw_lpar.2 rfl), runA_seq, runA_tokT (isKw_lpar.2 rfl)]
        simp only [ResA.andThen, runA_seq]
        rcases ih ts (by omega) with ⟨e, r, hb, rfl, hr⟩ | ⟨hr, hno⟩
        · rw [hr]
          simp only [runA_tokT (isKw_rpar.2 rfl)]
          rcases ih r (by simp at hn; omega) with ⟨e', r', hb', rfl, hr'⟩ | ⟨hr', hno⟩
          · left
            refine ⟨['('] :: e ++ [')'] :: e', r', .paren _ _ hb hb', by simp, ?_⟩
            rw [hr']
            simp only [ResA.pre, ResA.ok.injEq, true_and]
            simp [keepAll_cons, keepAll_append]
          · right
            rw [hr']
            refine ⟨rfl, ?_⟩
            intro e2 r2 hb2 he
            cases hb2 with
            | nil => simp at he
            | plain t' ts' h1' h2' h' => simp at he; exact absurd he.1.symm h1'
            | paren a' b' ha' hb' =>
              simp at he
              obtain ⟨rfl, he'⟩ := bal_unique hb ha' he
              exact hno _ _ hb' he'
        · right
          rw [hr]
          refine ⟨rfl, ?_⟩
          intro e2 r2 hb2 he
          cases hb2 with
          | nil => simp at he
          | plain t' ts' h1' h2' h' => simp at he; exact absurd he.1.symm h1'
          | paren a' b' ha' hb' =>
            simp at he
            exact hno _ _ ha' he
      · rw [runA_ifF (show isKw ["("] (hd (t :: ts)) = false from not_lpar h2), runA_seq, runA_next]
        simp only [ResA.andThen, List.tail_cons, List.headD_cons]
        rcases ih ts (by omega) with ⟨e, r, hb, rfl, hr⟩ | ⟨hr, hno⟩
        · left
          refine ⟨t :: e, r, .plain _ _ h2 h1 hb, by simp, ?_⟩
          rw [hr]
          simp [ResA.pre, keepAll_cons]
        · right
          rw [hr]
          refine ⟨rfl, ?_⟩
          intro e2 r2 hb2 he
          cases hb2 with
          | nil => simp at he; exact h1 he.1
          | plain t' ts' h1' h2' h' =>
            simp at he
            exact hno _ _ h' he.2
          | paren a' b' ha' hb' => simp at he; exact h2 he.1

/-- A parenthesised token sequence. -/
def ParenToks (e : List Str) : Prop := ∃ e', Bal e' ∧ e = ['('] :: e' ++ [[')']]

theorem parens_unique {ts : List Str} {v v' r r' : List Str} (h : parens ts v r)
    (h' : parens ts v' r') : v' = v ∧ r' = r := by
  obtain ⟨e, hb, rfl, rfl⟩ := h
  obtain ⟨e', hb', rfl, he⟩ := h'
  simp at he
  obtain ⟨rfl, rfl⟩ := bal_unique hb hb' he
  exact ⟨rfl, rfl⟩

/-- validateBrackets, validateExpr -/
theorem parens_impl (n : Nat) (set : Bool) :
    Impls n (validateBrackets n set) parens (fun e o => ParenToks e ∧ o = keepAll set e) := by
  intro ts hts
  unfold Impl
  rw [validateBrackets, runA_seq]
  cases ts with
  | nil =>
    rw [runA_validateToken]
    simp only [ResA.andThen]
    rintro v r ⟨e, _, rfl, h⟩; simp at h
  | cons t ts =>
    by_cases h1 : t = ['(']
    · subst h1
      rw [runA_tokT (isKw_lpar.2 rfl)]
      simp only [ResA.andThen, runA_seq]
      have hlen := hts.1
      simp at hlen
      rcases bracketsAux_spec set n ts (by omega) with ⟨e, r, hb, rfl, hr⟩ | ⟨hr, hno⟩
      · rw [hr]
        simp only [runA_tokT (isKw_rpar.2 rfl), ResA.pre]
        have hp : parens (['('] :: (e ++ [')'] :: r)) (['('] :: e ++ [[')']]) r :=
          ⟨e, hb, rfl, by simp⟩
        refine ⟨_, hp, ⟨⟨e, hb, rfl⟩, ?_⟩, fun v' r' h => parens_unique hp h⟩
        simp [keepAll_cons, keepAll_append]
      · rw [hr]
        simp only [ResA.pre]
        constructor
        · rintro v r ⟨e, hb, rfl, h⟩
          simp at h
          exact hno e r hb h
        · exact ⟨[], ts, rfl, hno⟩
    · rw [runA_tokF (not_lpar h1)]
      simp only [ResA.andThen]
      rintro v r ⟨e, hb, rfl, h⟩
      simp at h; exact h1 h.1

theorem parens_implT (n : Nat) :
    Impls n (validateExpr n true) parens (fun e o => ParenToks e ∧ o = e) :=
  parens_impl n true

theorem parens_implF (n : Nat) : Impls n (validateBrackets n false) parens nilE :=
  (parens_impl n false).conseq fun _ _ h => h.2

theorem first_parens {P : Str → Prop} (h : P ['(']) : First P parens := by
  rintro ts v r ⟨e, _, rfl, rfl⟩
  exact ⟨_, _, rfl, h⟩

/-! ### Small phrases -/

/-- Kept tokens of IF NOT EXISTS. -/
def ineE (b : Bool) (o : List Str) : Prop :=
  if b then ∃ i t e, isKw ["IF"] i = true ∧ isKw ["NOT"] t = true ∧ isKw ["EXISTS"] e = true ∧
    o = [i, t, e] else o = []

/-- validateIfNotExists -/
theorem ifNotExists_impl (n : Nat) : Impls n validateIfNotExists ifNotExists ineE := by
  refine Impls.map ?_
  refine Impls.optKw (by decide) (fun i hi => ?_) rfl
  refine Impls.kwT fun t ht => ?_
  refine (Impls.kw n true ["EXISTS"]).conseq ?_
  rintro _ o ⟨e, he, rfl⟩
  exact ⟨i, t, e, hi, ht, he, rfl⟩

/-- Kept tokens of CONSTRAINT name. -/
def conNameE (d : Rdbms) : ConName → List Str → Prop
  | .absent, o => o = []
  | .anonymous, o => ∃ c, isKw ["CONSTRAINT"] c = true ∧ o = [c]
  | .named n, o => ∃ c, isKw ["CONSTRAINT"] c = true ∧ NameTok d n ∧ o = [c, n]

/-- `if matchTokenNext(true, "CONSTRAINT") { validateName(true) }` -/
theorem conName_impl (n : Nat) (d : Rdbms) :
    Impls n (ifM (matchTokenNext true ["CONSTRAINT"]) (validateName d true) (.ret ()))
      (conName d) (conNameE d) := by
  refine (Impls.optKw (E := fun b o => match b with
      | none => o = []
      | some b => ∃ c, isKw ["CONSTRAINT"] c = true ∧ NameTok d b ∧ o = [c, b])
      (by decide) (fun t ht => ?_) rfl).last ?_
  · refine (name_impl n d true).conseq fun b o ⟨h3, h4, h5⟩ => ?_
    rw [h5]
    exact ⟨t, ht, ⟨h3, h4⟩, rfl⟩
  · intro b o h
    cases b with
    | none => cases h; exact .ret rfl
    | some b => exact .ret (by simpa [conNameE] using h)

/-- A literal token from the lexer. -/
def LitTok (isNum : Str → Bool) (d : Rdbms) (t : Str) : Prop := Literal isNum d t ∧ Good t

theorem numOK_EOF {isNum : Str → Bool} (h : NumOK isNum) : isNum EOF = false := by
  cases he : isNum EOF with
  | false => rfl
  | true =>
    obtain ⟨c, r, e, hc⟩ := h _ he
    have : c = '<' := by
      have : EOF = '<' :: S "EOF>" := by decide
      rw [this] at e; cases e; rfl
    subst this
    revert hc; decide

theorem runA_lit {isNum : Str → Bool} (d : Rdbms) (set : Bool)
    (ts : List Str) (c : Char) (r : Str) (h : hd ts = c :: r) :
    runA (validateLiteralValue isNum d set) ts =
      if isNum (c :: r) || V.isStringValue d c then .ok () ts.tail (keep set (c :: r))
      else runA (validateToken set literalKeywords) ts := by
  simp only [validateLiteralValue, runA]
  simp only [h, runA_cond]
  cases isNum (c :: r) with
  | true => simp only [Bool.true_or, if_true, runA_next, h]
  | false =>
    simp only [Bool.false_eq_true, if_false, runA, h, runA_cond, runA_next, Bool.false_or]

theorem runA_validateLiteralValue {isNum : Str → Bool} (hN : NumOK isNum) (d : Rdbms) (set : Bool)
    (ts : List Str) (hg : ∀ t ∈ ts, Good t) :
    runA (validateLiteralValue isNum d set) ts =
      match ts with
      | [] => .fail []
      | t :: r =>
        if isNum t || V.isStringValue d (t.headD ' ') || isKw literalKeywords t then
          .ok () r (keep set t)
        else .fail (t :: r) := by
  cases ts with
  | nil =>
    have e1 : V.isStringValue d '<' = false := by cases d <;> decide
    rw [runA_lit d set [] '<' (S "EOF>") EOF_cons, ← EOF_cons, numOK_EOF hN, e1,
      runA_validateToken]
    rfl
  | cons t r =>
    have ht := (hg t (by simp)).1
    cases t with
    | nil => exact absurd rfl ht
    | cons c cs =>
      rw [runA_lit d set _ c cs rfl, runA_validateToken]
      simp only [List.tail_cons, List.headD_cons, Bool.or_eq_true]
      by_cases h1 : isNum (c :: cs) = true ∨ V.isStringValue d c = true
      · simp [h1]
      · simp [h1]

/-- validateLiteralValue -/
theorem literal_impl {isNum : Str → Bool} (hN : NumOK isNum) (n : Nat) (d : Rdbms) (set : Bool) :
    Impls n (validateLiteralValue isNum d set) (literal isNum d)
      (tokE set (Literal isNum d)) := by
  intro ts hts
  have key : ∀ t, t ≠ [] → (Literal isNum d t ↔
      (isNum t || V.isStringValue d (t.headD ' ') || isKw literalKeywords t) = true) := by
    intro t ht
    cases t with
    | nil => exact absurd rfl ht
    | cons c r =>
      simp only [Literal, startsWith_cons, Bool.or_eq_true, List.headD_cons, isStringValue_iff,
        isKw_kw, or_assoc]
      rfl
  refine Impl.tok_of ?_ ?_ ?_ hts.2
  · rintro rfl; exact ⟨[], by rw [runA_validateLiteralValue hN _ _ _ hts.2]⟩
  · rintro t r rfl h
    rw [runA_validateLiteralValue hN _ _ _ hts.2]
    simp only
    rw [if_pos ((key t (hts.2 t (by simp)).1).1 h)]
  · rintro t r rfl h
    rw [runA_validateLiteralValue hN _ _ _ hts.2]
    simp only
    rw [if_neg (fun hh => h ((key t (hts.2 t (by simp)).1).2 hh))]
    exact ⟨_, rfl⟩

theorem literal_implF {isNum : Str → Bool} (hN : NumOK isNum) (n : Nat) (d : Rdbms) :
    Impls n (validateLiteralValue isNum d false) (literal isNum d) nilE :=
  (literal_impl hN n d false).conseq fun _ _ h => h.2.2

/-- Kept tokens of a default value. -/
def dfltE (isNum : Str → Bool) (d : Rdbms) : Dflt → List Str → Prop
  | .lit t, o => LitTok isNum d t ∧ t ≠ ['('] ∧ o = [t]
  | .expr e, o => ParenToks e ∧ o = e

/-- `if matchToken("(") { validateExpr } else { validateLiteralValue }` -/
theorem defaultValue_impl {isNum : Str → Bool} (hN : NumOK isNum) (n : Nat) (d : Rdbms) :
    Impls n (ifM (matchToken ["("]) (validateExpr n true) (validateLiteralValue isNum d true))
      (defaultValue isNum d) (dfltE isNum d) := by
  intro ts hts
  refine Impl.opt (by decide) (First.at (by decide)) (fun hk => ?_) (fun hk => ?_)
  · have h := (parens_implT n).map (f := Dflt.expr) (E := dfltE isNum d) ts hts
    refine Impl.congr (fun v r => ?_) h
    constructor
    · rintro ⟨_, _, ⟨rfl, _⟩, h'⟩; exact h'
    · exact fun h => ⟨(), ts, (at_iff (by decide)).2 ⟨rfl, hk⟩, h⟩
  · refine ((literal_impl hN n d true) ts hts).last fun t o rest ⟨h1, h2, h3⟩ hl => .ret ?_
    refine ⟨⟨h1, h2⟩, ?_, by simpa using h3⟩
    rintro rfl
    obtain ⟨rfl, _⟩ := hl
    simp [isKw_lpar.2] at hk

/-! ### Integers and type digits -/

/-- `atoi` of a positive integer token. -/
theorem atoi_posInt {t : Str} {v : Nat} (h : PosInt t v) : atoi t = ((v : Int), true) := by
  obtain ⟨ds, ht, hne, hd, rfl, hp, hlt⟩ := h
  have hdig : ∀ (l : Str) (a : Nat), l.foldl (fun acc c => acc * 10 + (c.toNat - '0'.toNat)) a =
      l.foldl (fun a c => 10 * a + (c.toNat - '0'.toNat)) a := by
    intro l
    induction l with
    | nil => intro a; rfl
    | cons c l ih => intro a; simp only [List.foldl_cons]; rw [ih]; congr 1; omega
  have hval : digitsVal ds = decimal ds := hdig ds 0
  have hall : ds.all isDig = true := by
    rw [List.all_eq_true]; exact fun c hc => hd c hc
  have hemp : ds.isEmpty = false := by cases ds with
    | nil => exact absurd rfl hne
    | cons => rfl
  have hs : splitSign t = (false, ds) := by
    rcases ht with rfl | rfl
    · cases t with
      | nil => exact absurd rfl hne
      | cons c r =>
        have hc := hd c (by simp)
        have h1 : c ≠ '-' := by rintro rfl; exact absurd hc (by decide)
        have h2 : c ≠ '+' := by rintro rfl; exact absurd hc (by decide)
        unfold splitSign
        split
        · rename_i h; cases h; exact absurd rfl h1
        · rename_i h; cases h; exact absurd rfl h2
        · rfl
    · rfl
  simp only [atoi, hs, hemp, hall, hval]
  simp only [Bool.not_true, Bool.or_self, Bool.false_eq_true, if_false, if_pos hlt]

theorem posInt_of {t : Str} (h : isPositiveIntegerToken t = true) : ∃ v, PosInt t v := by
  unfold isPositiveIntegerToken at h
  have hdig : ∀ (l : Str) (a : Nat), l.foldl (fun acc c => acc * 10 + (c.toNat - '0'.toNat)) a =
      l.foldl (fun a c => 10 * a + (c.toNat - '0'.toNat)) a := by
    intro l
    induction l with
    | nil => intro a; rfl
    | cons c l ih => intro a; simp only [List.foldl_cons]; rw [ih]; congr 1; omega
  cases hs : splitSign t with
  | mk neg ds =>
    simp only [atoi, hs] at h
    by_cases hc : (ds.isEmpty || !ds.all isDig) = true
    · simp [hc] at h
    · rw [if_neg hc] at h
      simp at hc
      cases neg with
      | true =>
        exfalso
        by_cases h2 : digitsVal ds ≤ 2 ^ 63
        · rw [if_pos rfl, if_pos h2] at h
          simp at h
          omega
        · rw [if_pos rfl, if_neg h2] at h
          simp at h
      | false =>
        simp only [Bool.false_eq_true, if_false] at h
        by_cases h2 : digitsVal ds < 2 ^ 63
        · rw [if_pos h2] at h
          simp at h
          refine ⟨digitsVal ds, ds, ?_, hc.1, fun c hcc => hc.2 c hcc, hdig ds 0, h, h2⟩
          unfold splitSign at hs
          split at hs <;> simp at hs
          · exact .inr (by rw [hs])
          · exact .inl hs
        · rw [if_neg h2] at h
          simp at h

theorem isPositiveIntegerToken_iff (t : Str) :
    isPositiveIntegerToken t = true ↔ ∃ v, PosInt t v := by
  refine ⟨posInt_of, ?_⟩
  rintro ⟨v, h⟩
  have := atoi_posInt h
  obtain ⟨ds, _, _, _, _, hp, _⟩ := h
  simp only [isPositiveIntegerToken, this]
  simp; exact hp

theorem posInt_unique {t : Str} {v w : Nat} (h : PosInt t v) (h' : PosInt t w) : w = v := by
  have := (atoi_posInt h).symm.trans (atoi_posInt h')
  simp at this
  omega

/-- Kept tokens of an integer. -/
def posIntE (set : Bool) (v : Nat) (o : List Str) : Prop :=
  ∃ t, PosInt t v ∧ o = keep set t

/-- validatePositiveInteger -/
theorem posInt_impl (n : Nat) (set : Bool) :
    Impls n (validatePositiveInteger set) posInt (posIntE set) := by
  intro ts hts
  unfold Impl
  simp only [validatePositiveInteger, runA]
  cases ts with
  | nil =>
    have e : isPositiveIntegerToken EOF = false := by decide
    simp only [List.headD_nil]
    rw [e]
    simp only [cond, syntaxError, runA]
    rintro v r ⟨t, h, _⟩; cases h
  | cons t r =>
    simp only [List.headD_cons]
    cases h : isPositiveIntegerToken t with
    | true =>
      simp only [cond, runA_next]
      obtain ⟨v, hv⟩ := posInt_of h
      refine ⟨v, ⟨t, rfl, hv⟩, ⟨t, hv, rfl⟩, ?_⟩
      rintro v' r' ⟨t', h', hv'⟩
      cases h'
      exact ⟨posInt_unique hv hv', rfl⟩
    | false =>
      simp only [cond, syntaxError, runA]
      rintro v r' ⟨t', h', hv'⟩
      cases h'
      rw [(isPositiveIntegerToken_iff _).2 ⟨v, hv'⟩] at h
      cases h

/-- Kept tokens of type digits. -/
def digitsE : Option (Nat × Option Nat) → List Str → Prop
  | none, o => o = []
  | some (n, none), o => ∃ t, PosInt t n ∧ o = [['('], t, [')']]
  | some (n, some m), o => ∃ t u, PosInt t n ∧ PosInt u m ∧ o = [['('], t, S ",", u, [')']]

/-- validateTypeDigitN -/
theorem digitN_impl (n : Nat) : Impls n (validateTypeDigitN true) digitN digitsE := by
  refine Impls.optKw (by decide) (fun l hl => ?_) rfl
  refine (posInt_impl n true).bind fun v o ⟨t, ht, ho⟩ => ?_
  subst ho
  refine (Impls.kw n true [")"]).last fun _ o ⟨r, hr, ho⟩ => .ret ?_
  subst ho
  refine ⟨t, ht, ?_⟩
  rw [isKw_lpar.1 hl, isKw_rpar.1 hr]; rfl

theorem digitN_implF (n : Nat) : Impls n (validateTypeDigitN false) digitN nilE := by
  refine Impls.optKwF (by decide) ?_
  refine ((posInt_impl n false).conseq (E' := nilE) ?_).bindF fun v => ?_
  · rintro v o ⟨t, _, rfl⟩; rfl
  · exact Impls.lastF (Impls.kwLast n _) rfl

/-- validateTypeDigitPS -/
theorem digitPS_impl (n : Nat) : Impls n (validateTypeDigitPS true) digitPS digitsE := by
  refine Impls.optKw (by decide) (fun l hl => ?_) rfl
  refine (posInt_impl n true).bind fun v o ⟨t, ht, ho⟩ => ?_
  subst ho
  refine (Impls.optKw (E := fun b o => match b with
      | none => o = []
      | some m => ∃ u, PosInt u m ∧ o = [S ",", u]) (by decide) (fun c hc => ?_) rfl).bind ?_
  · refine (posInt_impl n true).conseq fun m o ⟨u, hu, ho⟩ => ?_
    subst ho
    rw [isKw_comma hc]
    exact ⟨u, hu, rfl⟩
  · intro m o hm
    refine (Impls.kw n true [")"]).last fun _ o' ⟨r, hr, ho⟩ => .ret ?_
    subst ho
    rw [isKw_lpar.1 hl, isKw_rpar.1 hr]
    cases m with
    | none => cases hm; exact ⟨t, ht, rfl⟩
    | some m =>
      obtain ⟨u, hu, rfl⟩ := hm
      exact ⟨t, u, ht, hu, rfl⟩

/-! ### Repetition -/

theorem Many_at {ks : List String} {L : Lang β} {ts : List Str} (heof : isKw ks EOF = false)
    (hk : isKw ks (hd ts) = true) (v : List β) (r : List Str) :
    Many ks L ts v r ↔
      (L >>= fun a => Many ks L >>= fun as => (pure (a :: as) : Lang (List β))) ts v r := by
  constructor
  · intro h
    cases h with
    | nil h => rw [((notAt_iff heof).1 h).2] at hk; cases hk
    | cons hk h hs => exact ⟨_, _, h, _, _, hs, rfl, rfl⟩
  · rintro ⟨a, m, h, as, m', h', rfl, rfl⟩
    exact .cons ((at_iff heof).2 ⟨rfl, hk⟩) h h'

theorem Many_notAt {ks : List String} {L : Lang β} {ts : List Str} (heof : isKw ks EOF = false)
    (hk : isKw ks (hd ts) = false) (v : List β) (r : List Str) :
    Many ks L ts v r ↔ (pure [] : Lang (List β)) ts v r := by
  constructor
  · intro h
    cases h with
    | nil h => exact ⟨rfl, rfl⟩
    | cons hk' h hs => rw [((at_iff heof).1 hk').2] at hk; cases hk
  · rintro ⟨rfl, rfl⟩
    exact .nil ((notAt_iff heof).2 ⟨rfl, hk⟩)

theorem Many_unfold {ks : List String} {L : Lang β} (heof : isKw ks EOF = false)
    (hL : First (fun t => isKw ks t = true) L) (ts : List Str) (v : List β) (r : List Str) :
    Many ks L ts v r ↔ ((L >>= fun a => Many ks L >>= fun as => (pure (a :: as) : Lang (List β)))
      <|> (notAt ks >>= fun _ => (pure [] : Lang (List β)))) ts v r := by
  constructor
  · intro h
    cases h with
    | nil h => exact .inr ⟨(), _, h, rfl, rfl⟩
    | cons hk h hs => exact .inl ⟨_, _, h, _, _, hs, rfl, rfl⟩
  · rintro (⟨a, m, h, as, m', h', rfl, rfl⟩ | ⟨_, m, h, rfl, rfl⟩)
    · obtain ⟨t, r', rfl, ht⟩ := hL _ _ _ h
      exact .cons ((at_iff heof).2 ⟨rfl, ht⟩) h h'
    · obtain ⟨rfl, _⟩ := (notAt_iff heof).1 h
      exact .nil h

theorem Lang.alt_assoc (A B C : Lang β) : ((A <|> B) <|> C) = (A <|> B <|> C) := by
  funext ts v r
  apply propext
  constructor
  · rintro ((h | h) | h)
    · exact .inl h
    · exact .inr (.inl h)
    · exact .inr (.inr h)
  · rintro (h | h | h)
    · exact .inl (.inl h)
    · exact .inl (.inr h)
    · exact .inr h

theorem Impl.notAt {ks : List String} {v : β} {E : β → List Str → Prop} {ts : List Str}
    (heof : isKw ks EOF = false) (hk : isKw ks (hd ts) = false) (h : E v []) :
    Impl (.ret ()) (Spec.notAt ks >>= fun _ => (pure v : Lang β)) E ts := by
  refine Impl.congr (L' := (pure v : Lang β)) (fun w r => ?_) (.ret h)
  constructor
  · rintro ⟨_, _, h, h'⟩
    obtain ⟨rfl, _⟩ := (notAt_iff heof).1 h
    exact h'
  · exact fun h => ⟨(), ts, (notAt_iff heof).2 ⟨rfl, hk⟩, h⟩

/-- A token is none of `ks ++ ks'`. -/
theorem isKw_append {ks ks' : List String} {t : Str} (h : isKw ks t = false)
    (h' : isKw ks' t = false) : isKw (ks ++ ks') t = false := by
  rw [isKw_not] at *
  rintro ⟨k, hk, e⟩
  rcases List.mem_append.1 hk with hk | hk
  · exact h ⟨k, hk, e⟩
  · exact h' ⟨k, hk, e⟩

/-- The alternatives of a loop body, each followed by the rest of the loop. -/
theorem Impl.loop {ks : List String} {p : Prog Unit} {L : Lang β} {E : List β → List Str → Prop}
    {ts : List Str} (heof : isKw ks EOF = false) (hL : First (fun t => isKw ks t = true) L)
    (h : ∀ M, M = Many ks L → Impl p ((L >>= fun a => M >>= fun as => (pure (a :: as) : Lang (List β)))
      <|> (Spec.notAt ks >>= fun _ => (pure [] : Lang (List β)))) E ts) :
    Impl p (Many ks L) E ts :=
  Impl.congr (Many_unfold heof hL ts) (h _ rfl)

/-- After `ON`: DELETE/UPDATE and the action, then the rest. -/
theorem onAction_impl {n : Nat} {q : Prog Unit} {f : Unit → Lang β} {E : β → List Str → Prop}
    (hq : Impls n q (f ()) E) :
    Impls n (do
      ifM (matchTokenNext false ["SET"])
        (validateToken false ["NULL", "DEFAULT"])
        (ifM (matchTokenNext false ["CASCADE", "RESTRICT"]) (.ret ())
          (ifM (matchTokenNext false ["NO"])
            (validateToken false ["ACTION"])
            syntaxError))
      q)
      (((do kw ["SET"]; kw ["NULL", "DEFAULT"]) <|>
        (do kw ["CASCADE", "RESTRICT"]) <|>
        (do kw ["NO"]; kw ["ACTION"]) : Lang Unit) >>= f) E := by
  refine Impls.bindF ?_ fun _ => hq
  refine Impls.altNextK (by decide) ?_ (Impls.kwLast n _) ?_
  · exact .alt (.kw' (by decide)) (.kw (by decide))
  · have e : (kw ["CASCADE", "RESTRICT"] : Lang Unit) =
        (kw ["CASCADE", "RESTRICT"] >>= fun _ => (pure () : Lang Unit)) := by
      funext ts v r; exact (propext (Lang.bind_pure _ ts v r)).symm
    rw [e]
    refine Impls.altNextK (by decide) (.kw (by decide)) (Impls.ret rfl) ?_
    exact Impls.altNextLastK (by decide) (Impls.kwLast n _)

/-- validateConstraintReferencesAux (PostgreSQL, MySQL) -/
theorem refClauses_many (n : Nat) :
    Impls n (validateConstraintReferencesAux n) (Many ["ON", "MATCH"]
      ((do kw ["ON"]; onAction) <|> (do kw ["MATCH"]; kw ["SIMPLE", "PARTIAL", "FULL"])))
      nilE := by
  induction n with
  | zero => intro ts hts; exact absurd hts.1 (by omega)
  | succ n ih =>
    intro ts hts
    refine Impl.loop (by decide) (.alt (.kw (by decide)) (.kw (by decide))) fun M hM => ?_
    rw [← hM] at ih
    clear hM
    have ih' : ∀ a, Impls n (validateConstraintReferencesAux n)
        (M >>= fun as => (pure (a :: as) : Lang (List Unit))) nilE :=
      fun a => Impls.lastN ih
    rw [validateConstraintReferencesAux]
    simp only [onAction, Lang.alt_bind, Lang.bind_assoc, Lang.alt_assoc, Lang.kw_bind ["ON"],
      Lang.kw_bind ["MATCH"]]
    refine Impl.altNext (by decide) (.alt (.tokKw (by decide)) (.notAt (by decide) (by decide)))
      hts.2 (fun t r e _ _ => ?_) (fun hk => ?_)
    · subst e
      refine Impls.kwF ?_ r hts.tail
      have := onAction_impl (f := fun a => M >>= fun as => (pure (a :: as) : Lang (List Unit)))
        (ih' ())
      simpa only [Lang.alt_bind, Lang.bind_assoc, keep_false, List.nil_append] using this
    · refine Impl.altNext (by decide) (.notAt (by decide) (by decide))
        hts.2 (fun t r e _ _ => ?_) (fun hk' => ?_)
      · subst e
        exact Impls.kwF (ih' ()) r hts.tail
      · exact .notAt (by decide) (isKw_append hk hk') rfl

theorem refClauses_impl (n : Nat) :
    Impls n (validateConstraintReferencesAux n) refClauses nilE :=
  Impls.lastF (refClauses_many n) rfl

/-! ### References -/

/-- Kept tokens of the columns of a reference. -/
def refColsE (d : Rdbms) : Option (List KeyPart) → List Str → Prop
  | none, o => o = []
  | some ks, o => keyListE d ks o

/-- Kept tokens of `REFERENCES table (columns)`. -/
def refE (d : Rdbms) (r : Ref) (o : List Str) : Prop :=
  ∃ k oc, isKw ["REFERENCES"] k = true ∧ QNameTok d r.table ∧ refColsE d r.cols oc ∧
    o = k :: (QName.toks r.table ++ oc)

/-- The columns of a reference in a column constraint. -/
theorem refCol_impl (n : Nat) (d : Rdbms) :
    Impls n (ifM (matchTokenNext true ["("])
      (do validateName d true
          validateToken true [")"])
      (.ret ()))
      (optKw ["("] (do let n ← name d; kw [")"]; return colKeys [n])) (refColsE d) := by
  refine Impls.optKw (by decide) (fun l hl => ?_) rfl
  refine (name_impl n d true).bind fun a o ⟨h1, h2, h3⟩ => ?_
  subst h3
  refine (Impls.kw n true [")"]).last fun _ o ⟨r, hr, ho⟩ => .ret ?_
  subst ho
  refine ⟨⟨by simp [colKeys], ?_⟩, ?_⟩
  · intro x hx
    simp [colKeys] at hx
    subst hx
    exact ⟨h1, h2⟩
  · rw [isKw_lpar.1 hl, isKw_rpar.1 hr]; rfl

/-- The columns of a reference in a table constraint. -/
theorem refCols_impl (n : Nat) (d : Rdbms) :
    Impls n (ifM (matchTokenNext true ["("])
      (do validateCommaSeparatedColumnNames d true n
          validateToken true [")"])
      (.ret ()))
      (optKw ["("] (do let ns ← names d; kw [")"]; return colKeys ns)) (refColsE d) := by
  refine Impls.optKw (by decide) (fun l hl => ?_) rfl
  refine (names_impl n d).bind fun ns o hns => ?_
  refine (Impls.kw n true [")"]).last fun _ o ⟨r, hr, ho⟩ => .ret ?_
  subst ho
  have hk := hns.keys
  refine ⟨hk.1, ?_⟩
  rw [isKw_lpar.1 hl, isKw_rpar.1 hr, hk.2]; rfl

/-- validateConstraintReferences, with the clauses `R` implemented by `aux`. -/
theorem colRef_impl {n : Nat} {d : Rdbms} {aux : Prog Unit} {R : Lang Unit} {f : Ref → β}
    {E : β → List Str → Prop} (hR : Impls n aux R nilE) (hE : ∀ r o, refE d r o → E (f r) o) :
    Impls n (do
      validateToken true ["REFERENCES"]
      validateTableName d true
      ifM (matchTokenNext true ["("])
        (do validateName d true
            validateToken true [")"])
        (.ret ())
      aux) (do let r ← colRef d; R; return f r) E := by
  unfold colRef
  simp only [Lang.bind_assoc, Lang.pure_bind]
  refine Impls.kwT fun k hk => ?_
  refine (qname_impl n d).bind fun q o ⟨h1, h2⟩ => ?_
  subst h2
  refine (refCol_impl n d).bind fun c oc hc => ?_
  refine Impls.lastF hR (hE _ _ ⟨k, oc, hk, h1, hc, by simp⟩)

/-- Kept tokens of FOREIGN KEY after the constraint name. -/
def fkE (d : Rdbms) (cols : List KeyPart) (r : Ref) (o : List Str) : Prop :=
  ∃ f k oc or, isKw ["FOREIGN"] f = true ∧ isKw ["KEY"] k = true ∧ keyListE d cols oc ∧
    refE d r or ∧ o = f :: k :: (oc ++ or)

/-- validateTableConstraintForeignKey, with the clauses `R` implemented by `aux`. -/
theorem foreignKey_impl {n : Nat} {d : Rdbms} {aux : Prog Unit} {R : Lang Unit} {c : ConName}
    {E : Item → List Str → Prop} (hR : Impls n aux R nilE)
    (hE : ∀ cols r o, fkE d cols r o → E (.foreignKey c cols r) o) :
    Impls n (do
      validateToken true ["FOREIGN"]
      validateToken true ["KEY"]
      validateToken true ["("]
      validateCommaSeparatedColumnNames d true n
      validateToken true [")"]
      validateToken true ["REFERENCES"]
      validateTableName d true
      ifM (matchTokenNext true ["("])
        (do validateCommaSeparatedColumnNames d true n
            validateToken true [")"])
        (.ret ())
      aux) (do let fk ← foreignKey d c; R; return fk) E := by
  unfold foreignKey
  simp only [Lang.bind_assoc, Lang.pure_bind]
  refine Impls.kwT fun t1 h1 => ?_
  refine Impls.kwT fun t2 h2 => ?_
  refine nameList_impl n d fun cs oc hcs => ?_
  refine Impls.kwT fun t3 h3 => ?_
  refine (qname_impl n d).bind fun q o ⟨h4, h5⟩ => ?_
  subst h5
  refine (refCols_impl n d).bind fun c or hc => ?_
  refine Impls.lastF hR (hE _ _ _ ⟨t1, t2, oc, _, h1, h2, hcs, ⟨t3, or, h3, h4, hc, rfl⟩, ?_⟩)
  simp

/-! ### Column constraints -/

/-- Every reading of `L` has a kind in `kinds` and starts with a word remembered under `code` of
the kind. -/
def KeyIs (key : Str → Str) (code : String → Str) (kinds : List String) (L : Lang ColCon) : Prop :=
  ∀ ts v r, L ts v r → v.kind ∈ kinds ∧ key (hd ts) = code v.kind

theorem KeyIs.alt {key : Str → Str} {code : String → Str} {kinds : List String}
    {L M : Lang ColCon} (h : KeyIs key code kinds L) (h' : KeyIs key code kinds M) :
    KeyIs key code kinds (L <|> M) := by
  rintro ts v r (hh | hh)
  · exact h _ _ _ hh
  · exact h' _ _ _ hh

/-- Every meaning of `L` satisfies `P`. -/
def Val (P : β → Prop) (L : Lang β) : Prop := ∀ ts v r, L ts v r → P v

theorem Val.pure {P : β → Prop} {v : β} (h : P v) : Val P (pure v : Lang β) := by
  rintro ts w r ⟨rfl, _⟩; exact h

theorem Val.bind {P : β → Prop} {L : Lang α} {f : α → Lang β} (h : ∀ a, Val P (f a)) :
    Val P (L >>= f) := by
  rintro ts w r ⟨v, mid, _, h'⟩; exact h v _ _ _ h'

theorem Val.alt {P : β → Prop} {L M : Lang β} (h : Val P L) (h' : Val P M) : Val P (L <|> M) := by
  rintro ts v r (hh | hh)
  · exact h _ _ _ hh
  · exact h' _ _ _ hh

theorem KeyIs.leaf {key : Str → Str} {code : String → Str} {kinds : List String}
    {L : Lang ColCon} (k : String) (hk : k ∈ kinds) (hF : First (fun t => key t = code k) L)
    (hV : Val (fun v => v.kind = k) L) : KeyIs key code kinds L := by
  intro ts v r h
  obtain ⟨t, r', rfl, ht⟩ := hF _ _ _ h
  have hv := hV _ _ _ h
  simp only [hv]
  exact ⟨hk, ht⟩

theorem contains_iff {ls : List Str} {t : Str} : contains ls t = true ↔ t ∈ ls := by
  simp [contains]

/-- Kept tokens of a list. -/
def manyE (E1 : β → List Str → Prop) (vs : List β) (o : List Str) : Prop :=
  ∃ os, All2 E1 vs os ∧ o = os.flatten

/-- validateColumnConstraintsAux -/
theorem colCons_impl {kindWords : List String} {key : Str → Str} {code : String → Str}
    {kinds : List String} {one : Nat → Prog Unit} {L : Lang ColCon}
    {E1 : ColCon → List Str → Prop} (heof : isKw kindWords EOF = false)
    (hone : ∀ n, Impls n (one n) L E1) (hL : Cons L)
    (hkey : KeyIs key code kinds L)
    (hinj : ∀ k ∈ kinds, ∀ k' ∈ kinds, code k = code k' → k = k')
    (n : Nat) (prev : List String) (hprev : ∀ k ∈ prev, k ∈ kinds) :
    Impls n (columnConstraintsAux kindWords key one n (prev.map code))
      ((Many kindWords L).such fun cs => (cs.map ColCon.kind).Nodup ∧
        ∀ c ∈ cs, c.kind ∉ prev) (manyE E1) := by
  induction n generalizing prev with
  | zero => intro ts hts; exact absurd hts.1 (by omega)
  | succ n ih =>
    intro ts hts
    rw [columnConstraintsAux]
    cases hk : isKw kindWords (hd ts) with
    | false =>
      refine Impl.congr (L' := (pure [] : Lang (List ColCon))) (fun v r => ?_) ?_
      · constructor
        · rintro ⟨h, _⟩
          exact (Many_notAt heof hk v r).1 h
        · rintro ⟨rfl, rfl⟩
          exact ⟨(Many_notAt heof hk [] r).2 ⟨rfl, rfl⟩, by simp⟩
      · unfold Impl
        rw [runA_ifF hk]
        exact Impl.ret (E := manyE E1) ⟨[], .nil, rfl⟩
    | true =>
      cases hc : contains (prev.map code) (key (hd ts)) with
      | true =>
        unfold Impl
        rw [runA_ifT hk]
        simp only [runA, hc, cond_true, syntaxError]
        rintro v r ⟨h, _, h'⟩
        rw [Many_at heof hk] at h
        obtain ⟨a, m, h1, as, m', h2, rfl, rfl⟩ := h
        obtain ⟨hka, hka'⟩ := hkey _ _ _ h1
        rw [hka', contains_iff] at hc
        obtain ⟨k, hk1, hk2⟩ := List.mem_map.1 hc
        have := hinj _ (hprev k hk1) _ hka hk2
        exact h' a (by simp) (this ▸ hk1)
      | false =>
        have hc' : ∀ k ∈ prev, code k ≠ key (hd ts) := by
          intro k hk1 hk2
          rw [← hk2] at hc
          have : contains (prev.map code) (code k) = true :=
            contains_iff.2 (List.mem_map.2 ⟨k, hk1, rfl⟩)
          rw [this] at hc; cases hc
        refine Impl.congr (L' := L >>= fun a => ((Many kindWords L).such fun cs =>
          (cs.map ColCon.kind).Nodup ∧ ∀ c ∈ cs, c.kind ∉ prev ++ [a.kind]) >>= fun as =>
            (pure (a :: as) : Lang (List ColCon))) (fun v r => ?_) ?_
        · constructor
          · rintro ⟨h, hd1, hd2⟩
            rw [Many_at heof hk] at h
            obtain ⟨a, m, h1, as, m', h2, rfl, rfl⟩ := h
            simp only [List.map_cons, List.nodup_cons] at hd1
            refine ⟨a, m, h1, as, _, ⟨h2, hd1.2, ?_⟩, rfl, rfl⟩
            intro c hc1 hc2
            rcases List.mem_append.1 hc2 with hc2 | hc2
            · exact hd2 c (by simp [hc1]) hc2
            · simp at hc2
              exact hd1.1 (List.mem_map.2 ⟨c, hc1, hc2⟩)
          · rintro ⟨a, m, h1, as, m', ⟨h2, h3, h4⟩, rfl, rfl⟩
            refine ⟨(Many_at heof hk _ _).2 ⟨a, m, h1, as, _, h2, rfl, rfl⟩, ?_, ?_⟩
            · simp only [List.map_cons, List.nodup_cons]
              refine ⟨?_, h3⟩
              intro hm
              obtain ⟨c, hc1, hc2⟩ := List.mem_map.1 hm
              exact h4 c hc1 (by simp [hc2])
            · intro c hc1 hc2
              rcases List.mem_cons.1 hc1 with rfl | hc1
              · exact hc' _ hc2 (hkey _ _ _ h1).2.symm
              · exact h4 c hc1 (by simp [hc2])
        · unfold Impl
          rw [runA_ifT hk]
          simp only [runA, hc, cond_false]
          refine Impl.bind (p := one (n + 1)) (E1 := E1) (E := manyE E1) (hone (n + 1) ts hts) ?_
          intro a o rest ha h1 hs
          obtain ⟨hka, hka'⟩ := hkey _ _ _ h1
          have hok := hts.of_lt (hL _ _ _ h1).1 (hL _ _ _ h1).2
          have hi := ih (prev ++ [a.kind]) (by
            intro k hk
            rcases List.mem_append.1 hk with hk | hk
            · exact hprev k hk
            · simp at hk; subst hk; exact hka) rest hok
          rw [hka']
          rw [List.map_append] at hi
          refine hi.last fun as o' rest' ⟨os, h3, h4⟩ _ => .ret ?_
          subst h4
          exact ⟨o :: os, .cons ha h3, by simp⟩

/-! ### Skipped statements -/

/-- Inside a `BEGIN` group. -/
def BodyIn (ts : List Str) (rest : List Str) : Prop :=
  ∃ inner e ts', ts = inner ++ e :: ts' ∧ (∀ t ∈ inner, ¬ Kw ["END"] t) ∧ Kw ["END"] e ∧
    Body ts' () rest

theorem Body_nil {r : List Str} : ¬ Body [] () r := by
  intro h
  cases h with
  | stop h => obtain ⟨t, m, ⟨h, _⟩, _⟩ := h; cases h

theorem isKw_false_of {ks : List String} {t : Str} (h : ¬ Kw ks t) : isKw ks t = false :=
  isKw_not.2 h

theorem Body_cons {t : Str} {ts r : List Str} : Body (t :: ts) () r ↔
    (if isKw ["BEGIN"] t then BodyIn ts r else if isKw [";"] t then r = ts else Body ts () r) := by
  constructor
  · intro h
    cases h with
    | stop h =>
      obtain ⟨t', m, ⟨h, hk⟩, _, rfl⟩ := h
      cases h
      have h1 : isKw [";"] t = true := isKw_kw.2 hk
      have h2 : isKw ["BEGIN"] t = false :=
        forall_kw (P := fun t => isKw ["BEGIN"] t = false) (by decide) h1
      simp [h1, h2]
    | plain ht hb h => simp [isKw_false_of ht, isKw_false_of hb, h]
    | @block b inner e ts rest hb hs he h =>
      simp only [isKw_kw.2 hb, if_true]
      exact ⟨_, _, _, rfl, hs, he, h⟩
  · intro h
    by_cases hb : isKw ["BEGIN"] t = true
    · rw [if_pos hb] at h
      obtain ⟨inner, e, ts', rfl, h1, h2, h3⟩ := h
      exact Body.block (isKw_kw.1 hb) h1 h2 h3
    · rw [if_neg hb] at h
      by_cases hs : isKw [";"] t = true
      · rw [if_pos hs] at h
        subst h
        exact .stop ⟨t, _, ⟨rfl, isKw_kw.1 hs⟩, rfl, rfl⟩
      · rw [if_neg hs] at h
        exact .plain (isKw_not.1 (by simpa using hs)) (isKw_not.1 (by simpa using hb)) h

theorem BodyIn_nil {r : List Str} : ¬ BodyIn [] r := by
  rintro ⟨inner, e, ts', h, _⟩; simp at h

theorem BodyIn_cons {t : Str} {ts r : List Str} : BodyIn (t :: ts) r ↔
    (if isKw ["END"] t then Body ts () r else BodyIn ts r) := by
  constructor
  · rintro ⟨inner, e, ts', h, h1, h2, h3⟩
    cases inner with
    | nil =>
      simp at h
      obtain ⟨rfl, rfl⟩ := h
      rw [if_pos (isKw_kw.2 h2)]; exact h3
    | cons x inner =>
      simp at h
      obtain ⟨rfl, rfl⟩ := h
      rw [if_neg (fun hh => h1 t (by simp) (isKw_kw.1 hh))]
      exact ⟨inner, e, ts', rfl, fun t ht => h1 t (by simp [ht]), h2, h3⟩
  · intro h
    by_cases he : isKw ["END"] t = true
    · rw [if_pos he] at h
      exact ⟨[], t, ts, rfl, by simp, isKw_kw.1 he, h⟩
    · rw [if_neg he] at h
      obtain ⟨inner, e, ts', rfl, h1, h2, h3⟩ := h
      refine ⟨t :: inner, e, ts', rfl, ?_, h2, h3⟩
      intro x hx
      rcases List.mem_cons.1 hx with rfl | hx
      · exact isKw_not.1 (by simpa using he)
      · exact h1 x hx

theorem runA_match (ks : List String) (f : Bool → Prog α) (ts : List Str) :
    runA (Prog.bind (matchToken ks) f) ts = runA (f (isKw ks (hd ts))) ts := rfl

/-- The loop of validateCreateOther. -/
theorem createOther_spec (n : Nat) (ts : List Str) (hn : ts.length < n) (b : Bool) :
    match runA (createOtherLoop n b) ts with
    | .ok _ rest out => out = [] ∧
        ∀ r, (if b then BodyIn ts r else Body ts () r) ↔ r = rest
    | .fail _ => ∀ r, ¬ (if b then BodyIn ts r else Body ts () r)
    | .panic => False
    | .timeout => False := by
  induction n generalizing ts b with
  | zero => omega
  | succ n ih =>
    cases ts with
    | nil =>
      rw [createOtherLoop, runA_oob]
      simp only [List.isEmpty_nil, if_true, syntaxError, runA]
      intro r
      cases b
      · simpa using Body_nil
      · simpa using BodyIn_nil
    | cons t ts =>
      simp at hn
      rw [createOtherLoop, runA_oob, if_neg (by simp), runA_match]
      simp only [runA_cond, List.headD_cons]
      cases hbb : (b || isKw ["BEGIN"] t) with
      | true =>
        simp only [if_true, runA_match, runA_seq, runA_next, ResA.andThen, List.tail_cons,
          keep_false, ResA.pre_nil, List.headD_cons]
        have := ih ts (by omega) (!isKw ["END"] t)
        have key : ∀ r, (if b then BodyIn (t :: ts) r else Body (t :: ts) () r) ↔
            (if (!isKw ["END"] t) = true then BodyIn ts r else Body ts () r) := by
          intro r
          cases b with
          | true =>
            simp only [if_true]
            rw [BodyIn_cons]
            cases isKw ["END"] t <;> simp
          | false =>
            simp at hbb
            have he : isKw ["END"] t = false :=
              forall_kw (P := fun t => isKw ["END"] t = false) (by decide) hbb
            simp [Body_cons, hbb, he]
        simp only [key]
        exact this
      | false =>
        simp only [Bool.or_eq_false_iff] at hbb
        obtain ⟨rfl, hb⟩ := hbb
        simp only [Bool.false_eq_true, if_false]
        cases hs : isKw [";"] t with
        | true =>
          rw [runA_ifT (show isKw [";"] (hd (t :: ts)) = true from hs), runA_tokT hs]
          simp [Body_cons, hb, hs]
        | false =>
          rw [runA_ifF (show isKw [";"] (hd (t :: ts)) = false from hs), runA_seq, runA_next]
          simp only [ResA.andThen, List.tail_cons, keep_false, ResA.pre_nil]
          have := ih ts (by omega) false
          simpa [Body_cons, hb, hs] using this

theorem body_impl (n : Nat) : Impls n (createOtherLoop n false) Body nilE := by
  intro ts hts
  have h := createOther_spec n ts hts.1 false
  unfold Impl
  cases hr : runA (createOtherLoop n false) ts with
  | ok a rest out =>
    rw [hr] at h
    obtain ⟨h1, h2⟩ := h
    simp at h2
    exact ⟨(), (h2 rest).2 rfl, h1, fun _ r hh => ⟨rfl, (h2 r).1 hh⟩⟩
  | fail r =>
    rw [hr] at h
    simp at h
    exact fun _ r => h r
  | panic => rw [hr] at h; exact h
  | timeout => rw [hr] at h; exact h.elim

/-- validateCreateOther -/
theorem other_impl {n : Nat} {kinds : List String} {E : Stmt → List Str → Prop}
    (h : E .other []) : Impls n (validateCreateOther kinds n) (other kinds) E :=
  Impls.kwF (Impls.lastF (body_impl n) h)

/-! ### Table options of PostgreSQL and MySQL -/

theorem Options_nil {L : Lang Unit} (hL : Cons L) {u : Unit} {r : List Str} :
    Options L [] u r ↔ r = [] := by
  constructor
  · intro h
    cases h with
    | stop _ => rfl
    | more hn hc h hs =>
      have h1 := (Suff.optWord _ _ _ _ hc).length_le
      have h2 := (hL _ _ _ h).2
      simp only [List.length_nil] at h1
      omega
  · rintro rfl; exact .stop (.inr rfl)

theorem Options_semi {L : Lang Unit} {ts : List Str} (hk : isKw [";"] (hd ts) = true)
    {u : Unit} {r : List Str} : Options L ts u r ↔ r = ts := by
  constructor
  · intro h
    cases h with
    | stop _ => rfl
    | more hn hc h hs => rw [((notAt_iff (by decide)).1 hn).2] at hk; cases hk
  · rintro rfl; exact .stop (.inl ((at_iff (by decide)).2 ⟨rfl, hk⟩))

theorem Options_more {L : Lang Unit} {ts : List Str} (hne : ts ≠ [])
    (hk : isKw [";"] (hd ts) = false) {u : Unit} {r : List Str} :
    Options L ts u r ↔
      (optWord [","] >>= fun _ => L >>= fun _ => Options L) ts u r := by
  constructor
  · intro h
    cases h with
    | stop h =>
      rcases h with h | h
      · rw [((at_iff (by decide)).1 h).2] at hk; cases hk
      · exact absurd h hne
    | more hn hc h hs => exact ⟨_, _, hc, _, _, h, hs⟩
  · rintro ⟨b, m, h1, ⟨⟩, m', h2, h3⟩
    exact .more ((notAt_iff (by decide)).2 ⟨rfl, hk⟩) h1 h2 h3

/-- validateTableOptions (PostgreSQL, MySQL) -/
theorem options_impl {f one : Nat → Prog Unit} {L : Lang Unit}
    (hf : ∀ n, f (n + 1) = ifM isOutOfRange (.ret ()) (ifM (matchToken [";"]) (.ret ())
      (do skipToken false [","]
          one (n + 1)
          f n)))
    (hone : ∀ n, Impls n (one n) L nilE) (hL : Cons L) (n : Nat) :
    Impls n (f n) (Options L) nilE := by
  induction n with
  | zero => intro ts hts; exact absurd hts.1 (by omega)
  | succ n ih =>
    intro ts hts
    rw [hf]
    by_cases hne : ts = []
    · subst hne
      refine Impl.congr (L' := (pure () : Lang Unit)) (fun v r => ?_) ?_
      · rw [Options_nil hL]
        exact ⟨fun h => ⟨rfl, h⟩, fun h => h.2⟩
      · unfold Impl
        rw [runA_oob, if_pos List.isEmpty_nil]
        exact Impl.ret (nilE.nil ())
    · have hemp : ts.isEmpty = false := by cases ts with
        | nil => exact absurd rfl hne
        | cons => rfl
      cases hk : isKw [";"] (hd ts) with
      | true =>
        refine Impl.congr (L' := (pure () : Lang Unit)) (fun v r => ?_) ?_
        · rw [Options_semi hk]
          exact ⟨fun h => ⟨rfl, h⟩, fun h => h.2⟩
        · unfold Impl
          rw [runA_oob, hemp, if_neg (by simp), runA_ifT hk]
          exact Impl.ret (nilE.nil ())
      | false =>
        refine Impl.congr (fun v r => Options_more hne hk) ?_
        unfold Impl
        rw [runA_oob, hemp, if_neg (by simp), runA_ifF hk]
        refine Impl.bind (E1 := nilE) (Impls.optWordF (by decide) ts hts) ?_
        intro b o rest ho hb hs
        cases ho
        refine Impl.bind (E1 := nilE) (hone (n + 1) rest (hts.suffix hs)) ?_
        intro u o rest' ho hu hs'
        cases ho
        have := hL _ _ _ hu
        exact ih rest' ((hts.suffix hs).of_lt this.1 this.2)

/-! ### CREATE TABLE -/

/-- Kept tokens of a CREATE TABLE statement. -/
def tableE (d : Rdbms) (itemE : Item → List Str → Prop) (t : TableAst) (o : List Str) : Prop :=
  ∃ tb oi oits, isKw ["TABLE"] tb = true ∧ ineE t.ifNotExists oi ∧ QNameTok d t.name ∧
    sepE itemE t.items oits ∧
    o = S "CREATE" :: tb :: (oi ++ (QName.toks t.name ++ (['('] :: (oits ++ [[')'], S ";"]))))

/-- Kept tokens of a statement. -/
def stmtE (d : Rdbms) (itemE : Item → List Str → Prop) : Stmt → List Str → Prop
  | .table t, o => tableE d itemE t o
  | .other, o => o = []

theorem Impl.emit {p : Prog Unit} {L : Lang β} {E : β → List Str → Prop} {t : Str}
    {ts : List Str} (h : Impl p L (fun v o => E v (t :: o)) ts) : Impl (.emit t p) L E ts := by
  unfold Impl at h ⊢
  simp only [runA]
  cases hr : runA p ts with
  | ok a rest out => rw [hr] at h; exact h
  | fail r => rw [hr] at h; exact h
  | panic => rw [hr] at h; exact h
  | timeout => rw [hr] at h; exact h

/-- validateCreateTable with validateTableDefinition -/
theorem createTable_impl {n : Nat} {d : Rdbms} {defs opts : Prog Unit} {item : Lang Item}
    {options : Lang Unit} {itemE : Item → List Str → Prop}
    (hd : Impls n defs (Sep item) (sepE itemE)) (ho : Impls n opts options nilE) :
    Impls n (do
      set (S "CREATE")
      validateToken true ["TABLE"]
      validateIfNotExists
      validateTableName d true
      (do validateToken true ["("]
          defs
          validateToken true [")"]
          opts)
      validateToken true [";"]) (createTable d item options) (stmtE d itemE) := by
  intro ts hts
  refine Impl.emit ?_
  revert ts hts
  show Impls n (do
      validateToken true ["TABLE"]
      validateIfNotExists
      validateTableName d true
      (do validateToken true ["("]
          defs
          validateToken true [")"]
          opts)
      validateToken true [";"]) _ _
  simp only [Prog.bind_eq, Prog.bind_assoc]
  refine Impls.kwT fun tb htb => ?_
  refine (ifNotExists_impl n).bind fun i oi hi => ?_
  refine (qname_impl n d).bind fun q o ⟨hq, hq'⟩ => ?_
  subst hq'
  refine Impls.kwT fun l hl => ?_
  refine hd.bind fun items oits hits => ?_
  refine Impls.kwT fun r hr => ?_
  refine ho.bindF fun _ => ?_
  refine (Impls.kw n true [";"]).last fun _ o ⟨s, hs, ho⟩ => .ret ?_
  subst ho
  refine ⟨tb, oi, oits, htb, hi, hq, hits, ?_⟩
  rw [isKw_lpar.1 hl, isKw_rpar.1 hr, isKw_semi hs]
  simp

/-! ### Scripts -/

/-- A script as a phrase. -/
def scriptL (stmt : Lang Stmt) : Lang (List Stmt) := fun ts v rest => rest = [] ∧ Script stmt ts v

/-- validate -/
theorem script_impl {f one : Nat → Prog Unit} {stmt : Lang Stmt}
    {E : Stmt → List Str → Prop}
    (hf : ∀ n, f (n + 1) = ifM isOutOfRange (.ret ())
      (do one (n + 1)
          f n))
    (hone : ∀ n, Impls n (one n) stmt E) (hL : Cons stmt) (n : Nat) :
    Impls n (f n) (scriptL stmt) (manyE E) := by
  induction n with
  | zero => intro ts hts; exact absurd hts.1 (by omega)
  | succ n ih =>
    intro ts hts
    rw [hf]
    cases ts with
    | nil =>
      refine Impl.congr (L' := (pure [] : Lang (List Stmt))) (fun v r => ?_) ?_
      · constructor
        · rintro ⟨rfl, h⟩
          cases h with
          | nil => exact ⟨rfl, rfl⟩
          | cons h hs => have := (hL _ _ _ h).2; simp at this
        · rintro ⟨rfl, rfl⟩; exact ⟨rfl, .nil⟩
      · unfold Impl
        rw [runA_oob, if_pos List.isEmpty_nil]
        exact Impl.ret (E := manyE E) ⟨[], .nil, rfl⟩
    | cons t ts =>
      refine Impl.congr (L' := stmt >>= fun s => scriptL stmt >>= fun ss =>
        (pure (s :: ss) : Lang (List Stmt))) (fun v r => ?_) ?_
      · constructor
        · rintro ⟨rfl, h⟩
          cases h with
          | cons h hs => exact ⟨_, _, h, _, _, ⟨rfl, hs⟩, rfl, rfl⟩
        · rintro ⟨s, m, h1, ss, m', ⟨rfl, h2⟩, rfl, rfl⟩
          exact ⟨rfl, .cons h1 h2⟩
      · unfold Impl
        rw [runA_oob, if_neg (by simp)]
        refine Impl.bind (E1 := E) (E := manyE E) (hone (n + 1) _ hts) ?_
        intro s o rest hs h1 hsuf
        have := hL _ _ _ h1
        refine (ih rest (hts.of_lt this.1 this.2)).last fun ss o' rest' ⟨os, h3, h4⟩ _ => .ret ?_
        subst h4
        exact ⟨o :: os, .cons hs h3, by simp⟩

end DDL
