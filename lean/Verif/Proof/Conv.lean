import Verif.Proof.SqliteImpl
import Verif.Spec.Denote
import Verif.Model.Converter
/-
The converter computes what the statements denote, from the tokens the validators keep.
-/

namespace DDL
open Spec

namespace Conv

/-- Tokens which `next` passes one at a time. -/
def Plain (t : Str) : Prop := t ≠ S ","

theorem nextRest_plain {t : Str} {r : List Str} (h : t ≠ S ",") : C.nextRest (t :: r) = r := by
  simp [C.nextRest, h]

theorem skip_cons {t : Str} {r : List Str} (h : t ≠ S ",") : C.skip (t :: r) = .ok () r := by
  simp [C.skip, nextRest_plain h]

theorem next_cons {t : Str} {r : List Str} (h : t ≠ S ",") : C.next (t :: r) = .ok t r := by
  simp [C.next, C.tok, nextRest_plain h]

theorem bind_ok {f : CM α} {g : α → CM β} {s s' : List Str} {a : α} (h : f s = .ok a s') :
    (f.bind g) s = g a s' := by simp [CM.bind, h]

theorem ifT {ks : List String} {p q : CM α} {t : Str} {r : List Str} (h : isKw ks t = true) :
    (C.ifM (C.matchToken ks) p q) (t :: r) = p (t :: r) := by
  simp [C.ifM, C.matchToken, CM.bind, C.tok, h]

theorem ifF {ks : List String} {p q : CM α} {t : Str} {r : List Str} (h : isKw ks t = false) :
    (C.ifM (C.matchToken ks) p q) (t :: r) = q (t :: r) := by
  simp [C.ifM, C.matchToken, CM.bind, C.tok, h]

theorem kw_plain {ks : List String} {t : Str} (h : isKw ks t = true)
    (hk : ∀ t ∈ kwList ks, t ≠ S ",") : t ≠ S "," := forall_kw hk h

/-- The validator's dialect for a dialect: `other` is checked as SQLite. -/
def vd : Rdbms → Rdbms
  | .other => .sqlite
  | d => d

/-! ### Names -/

theorem name_ne_sym {d : Rdbms} {t : Str} (h : Name d t) {c : Char} (hc : t = [c])
    (h1 : c ∉ nameQuotes d) (h2 : c.isAlpha = false) (h3 : c ≠ '_') : False := by
  subst hc
  rcases h with ⟨c', r, e, h⟩ | ⟨⟨c', r, e, h, _⟩, _⟩
  · cases e; exact h1 h
  · cases e
    rcases h with h | h
    · rw [h2] at h; cases h
    · exact h3 h

theorem name_ne_comma {d : Rdbms} {t : Str} (h : Name d t) : t ≠ S "," := fun e =>
  name_ne_sym h e (by cases d <;> decide) (by decide) (by decide)

theorem isIdentifier_eq (d : Rdbms) (c : Char) :
    C.isIdentifier d c = decide (c ∈ identQuotes d) := by
  cases d <;> simp [C.isIdentifier, identQuotes, nameQuotes] <;> rfl

theorem isStringValue_eq (d : Rdbms) (c : Char) :
    C.isStringValue d c = decide (c ∈ textQuotes d) := by
  cases d <;> simp [C.isStringValue, textQuotes, stringQuotes] <;> rfl

theorem quote_good {d : Rdbms} {c : Char} (h : c ∈ identQuotes d ∨ c ∈ textQuotes d) :
    c = '"' ∨ c = '\'' ∨ c = '`' := by
  cases d <;> simp [identQuotes, textQuotes, nameQuotes, stringQuotes] at h <;> grind

theorem convertName_ok {d : Rdbms} {t : Str} {r : List Str} (hg : Good t) (hc : t ≠ S ",") :
    C.convertName d (t :: r) = .ok (nameVal d t) r := by
  unfold C.convertName
  rw [bind_ok (next_cons hc)]
  obtain ⟨h1, h2⟩ := hg
  cases t with
  | nil => exact absurd rfl h1
  | cons c s =>
    rw [bind_ok (f := C.headChar (c :: s)) (s := r) (a := c) (s' := r) rfl]
    rw [isIdentifier_eq, nameVal, unquote]
    by_cases h : c ∈ identQuotes d
    · have hl : ¬ (c :: s).length < 2 := by
        have := h2 c s rfl (quote_good (.inl h)); omega
      simp [h, C.inner, content]
      simp at hl
      simp [hl]
    · simp [h, CM.pure]

theorem convertName_name {d d' : Rdbms} {t : Str} {r : List Str} (h : NameTok d' t) :
    C.convertName d (t :: r) = .ok (nameVal d t) r :=
  convertName_ok h.2 (name_ne_comma h.1)

/-! ### Expressions -/

theorem mergeCommas_cons_ne {t : Str} {e : List Str} (h : t ≠ S ",") :
    mergeCommas (t :: e) = t :: mergeCommas e := by simp [mergeCommas, h]

theorem mergeCommas_append {a : List Str} {t : Str} {b : List Str} (h : t ≠ S ",") :
    mergeCommas (a ++ t :: b) = mergeCommas a ++ t :: mergeCommas b := by
  induction a with
  | nil => simp [mergeCommas_cons_ne h, mergeCommas]
  | cons x a ih =>
    simp only [List.cons_append, mergeCommas]
    rw [ih]
    have : ((a ++ t :: b).head? = some (S ",")) ↔ (a.head? = some (S ",")) := by
      cases a with
      | nil => simp [h]
      | cons y a => simp
    simp only [this]
    split <;> rfl

theorem nextRest_comma {e : List Str} (hb : Bal e) (r : List Str) :
    ∃ e', Bal e' ∧ C.nextRest (S "," :: (e ++ [')'] :: r)) = e' ++ [')'] :: r ∧
      exprText (S "," :: e) = S "," ++ exprText e' ∧ e'.length ≤ e.length := by
  generalize hn : e.length = n
  induction n using Nat.strongRecOn generalizing e with
  | ind n ih =>
    by_cases hc : e.head? = some (S ",")
    · cases e with
      | nil => simp at hc
      | cons t e =>
        have ht : t = S "," := by simpa using hc
        subst ht
        have hb' : Bal e := by
          cases hb with
          | plain _ _ _ _ h => exact h
        obtain ⟨e', h1, h2, h3, h4⟩ := ih e.length (by simp at hn; omega) hb' rfl
        refine ⟨e', h1, ?_, ?_, by simp at hn; omega⟩
        · rw [List.cons_append, C.nextRest, if_pos ⟨rfl, rfl⟩]
          exact h2
        · rw [← h3]
          simp [exprText, mergeCommas]
    · refine ⟨e, hb, ?_, ?_, by omega⟩
      · rw [C.nextRest, if_neg]
        rintro ⟨_, h⟩
        cases e with
        | nil => exact absurd (show ([')'] : Str) = S "," from h) (by decide)
        | cons t e => simp [C.tok] at h; simp [h] at hc
      · simp [exprText, mergeCommas, hc]

theorem rpar_ne : ([')'] : Str) ≠ S "," := by decide
theorem lpar_ne : (['('] : Str) ≠ S "," := by decide

theorem exprText_cons_ne {t : Str} {e : List Str} (h : t ≠ S ",") :
    exprText (t :: e) = t ++ exprText e := by simp [exprText, mergeCommas_cons_ne h]

theorem isKw_rpar_iff {t : Str} : isKw [")"] t = true ↔ t = [')'] := isKw_rpar
theorem isKw_rpar_ne {t : Str} (h : t ≠ [')']) : isKw [")"] t = false := by
  cases hk : isKw [")"] t with
  | false => rfl
  | true => exact absurd (isKw_rpar.1 hk) h
theorem isKw_lpar_ne {t : Str} (h : t ≠ ['(']) : isKw ["("] t = false := by
  cases hk : isKw ["("] t with
  | false => rfl
  | true => exact absurd (isKw_lpar.1 hk) h

theorem exprAux_ok (n : Nat) {e : List Str} (hb : Bal e) (r : List Str) (hn : e.length < n) :
    C.convertExprAux n (e ++ [')'] :: r) = .ok (exprText e) ([')'] :: r) := by
  induction n generalizing e r with
  | zero => omega
  | succ n ih =>
    rw [C.convertExprAux]
    cases hb with
    | nil => rw [List.nil_append, ifT (isKw_rpar.2 rfl)]; rfl
    | plain t e h1 h2 hb =>
      rw [List.cons_append, ifF (isKw_rpar_ne h2), ifF (isKw_lpar_ne h1)]
      by_cases ht : t = S ","
      · subst ht
        obtain ⟨e', hb', h3, h4, h5⟩ := nextRest_comma hb r
        have hx : C.next (S "," :: (e ++ [')'] :: r)) = .ok (S ",") (e' ++ [')'] :: r) := by
          simp only [C.next, h3]; rfl
        rw [bind_ok hx, bind_ok (ih hb' r (by simp at hn; omega)), h4]
        rfl
      · rw [bind_ok (next_cons ht), bind_ok (ih hb r (by simp at hn; omega)), exprText_cons_ne ht]
        rfl
    | paren a b ha hb =>
      rw [List.append_assoc, List.cons_append, List.cons_append, ifF (by decide),
        ifT (isKw_lpar.2 rfl),
        bind_ok (next_cons lpar_ne), bind_ok (ih ha _ (by simp at hn; omega)),
        bind_ok (next_cons rpar_ne), bind_ok (ih hb r (by simp at hn; omega))]
      simp [CM.pure, exprText, mergeCommas_append rpar_ne, mergeCommas_cons_ne lpar_ne]

theorem expr_ok {n : Nat} {e : List Str} (hb : ParenToks e) (r : List Str) (hn : e.length < n) :
    C.convertExpr n (e ++ r) = .ok (exprText e) r := by
  obtain ⟨a, ha, rfl⟩ := hb
  unfold C.convertExpr
  rw [List.append_assoc, List.cons_append, bind_ok (next_cons lpar_ne)]
  simp only [List.singleton_append]
  rw [bind_ok (exprAux_ok n ha r (by simp at hn; omega)), bind_ok (next_cons rpar_ne)]
  simp [CM.pure, exprText, mergeCommas_append rpar_ne, mergeCommas_cons_ne lpar_ne, mergeCommas]

/-! ### Literals -/

theorem lit_ne_comma {isNum : Str → Bool} (hN : NumOK isNum) {d : Rdbms} {t : Str}
    (h : Literal isNum d t) : t ≠ S "," := by
  rintro rfl
  rcases h with h | ⟨c, r, e, h⟩ | h
  · obtain ⟨c, r, e, h⟩ := hN _ h
    have : c = ',' := by have := congrArg List.head? e; simpa [S] using this.symm
    subst this; revert h; decide
  · have : c = ',' := by have := congrArg List.head? e; simpa [S] using this.symm
    subst this; revert h; cases d <;> decide
  · rw [← isKw_kw] at h; revert h; decide

theorem ite_iff {p q : Prop} [Decidable p] [Decidable q] (h : p ↔ q) : (ite p : α → α → α) = ite q := by
  funext a b
  by_cases hp : p
  · rw [if_pos hp, if_pos (h.1 hp)]
  · rw [if_neg hp, if_neg fun x => hp (h.2 x)]

/-- Upper case of a literal, compared with a word: letters outside ASCII do not matter. -/
theorem up_literal [CaseMap] {isNum : Str → Bool} {d : Rdbms} {t w : Str} (hl : Literal isNum d t) (hn : isNum t = false)
    (hw : ∃ x ∈ w.head?, x ∉ ['"', '\'']) : upStr t = w ↔ toUpper t = w := by
  rcases hl with h | ⟨c, r, rfl, h⟩ | h
  · rw [hn] at h; exact nomatch h
  · obtain ⟨x, h1, h2⟩ := hw
    have hc : c = '"' ∨ c = '\'' := by cases d <;> simp [stringQuotes] at h <;> simp [h]
    have e : CaseMap.up c = c ∧ upC c = c := by
      rcases hc with rfl | rfl <;> exact ⟨CaseMap.up_ascii _ (by decide), by decide⟩
    have hx : x ≠ c := by rintro rfl; rcases hc with rfl | rfl <;> exact h2 (by decide)
    constructor <;> rintro rfl
    · exact absurd (by simpa [upStr, e.1] using h1) hx.symm
    · exact absurd (by simpa [toUpper, e.2] using h1) hx.symm
  · have : ∀ c ∈ t, c.toNat < 128 := forall_kw (P := fun t => ∀ c ∈ t, c.toNat < 128) (by decide) (isKw_kw.2 h)
    rw [show upStr t = toUpper t from List.map_congr_left fun c hc => CaseMap.up_ascii c (this c hc)]

theorem literal_ok [CaseMap] {isNum : Str → Bool} (hN : NumOK isNum) {d d' : Rdbms} {t : Str}
    {r : List Str} (h : LitTok isNum d' t) :
    C.convertLiteralValue isNum d (t :: r) = .ok (litVal isNum d t) r := by
  obtain ⟨hl, h1, h2⟩ := h
  unfold C.convertLiteralValue
  rw [bind_ok (next_cons (lit_ne_comma hN hl)), litVal]
  cases hn : isNum t with
  | true => rfl
  | false =>
    cases t with
    | nil => exact absurd rfl h1
    | cons c s =>
      simp only [cond_false, Bool.false_eq_true, if_false]
      rw [bind_ok (f := C.headChar (c :: s)) (s := r) (a := c) (s' := r) rfl]
      rw [isStringValue_eq]
      by_cases h : c ∈ textQuotes d
      · have hl : ¬ (c :: s).length < 2 := by
          have := h2 c s rfl (quote_good (.inr h)); omega
        simp only [h, decide_true, cond_true, List.head?_cons, Option.any_some, if_true]
        rw [bind_ok (f := C.inner (c :: s)) (a := content (c :: s)) (s' := r)]
        · rfl
        · simp only [C.inner, if_neg hl]; rfl
      · simp only [h, decide_false, cond_false, List.head?_cons, Option.any_some,
          Bool.false_eq_true, if_false]
        have h1 : ite (upStr (c :: s) = S "NULL") = ite (α := DefaultVal) (toUpper (c :: s) = S "NULL") := ite_iff (up_literal hl hn (by decide))
        have h2 : ite (upStr (c :: s) = S "TRUE") = ite (α := DefaultVal) (toUpper (c :: s) = S "TRUE") := ite_iff (up_literal hl hn (by decide))
        have h3 : ite (upStr (c :: s) = S "FALSE") = ite (α := DefaultVal) (toUpper (c :: s) = S "FALSE") := ite_iff (up_literal hl hn (by decide))
        rw [h1, h2, h3, toUpper_eq]
        rfl

theorem default_ok [CaseMap] {isNum : Str → Bool} (hN : NumOK isNum) {d d' : Rdbms} {n : Nat} {v : Dflt}
    {o r : List Str} (h : dfltE isNum d' v o) (hn : o.length < n) :
    C.convertDefaultValue isNum d n (o ++ r) = .ok (dfltVal isNum d v) r := by
  unfold C.convertDefaultValue
  cases v with
  | lit t =>
    obtain ⟨h1, h2, rfl⟩ := h
    rw [List.singleton_append, ifF (isKw_lpar_ne h2)]
    exact literal_ok hN h1
  | expr e =>
    obtain ⟨h1, rfl⟩ := h
    obtain ⟨a, ha, he⟩ := id h1
    have : ∃ x, o = ['('] :: x := ⟨_, he⟩
    obtain ⟨x, hx⟩ := this
    have e1 : C.ifM (C.matchToken ["("]) ((C.convertExpr n).bind fun s => CM.pure (.str s))
        (C.convertLiteralValue isNum d) (o ++ r) =
        ((C.convertExpr n).bind fun s => CM.pure (.str s)) (o ++ r) := by
      subst hx; exact ifT (isKw_lpar.2 rfl)
    rw [e1, bind_ok (expr_ok h1 r hn)]
    rfl

/-! ### Key lists and references -/

theorem nameTok_facts {d : Rdbms} {t : Str} (h : NameTok d t) :
    t ≠ S "," ∧ isKw [")"] t = false ∧ isKw [","] t = false := by
  refine ⟨name_ne_comma h.1, ?_, ?_⟩
  · cases hk : isKw [")"] t with
    | false => rfl
    | true => exact (name_ne_sym h.1 (isKw_rpar.1 hk) (by cases d <;> decide) (by decide) (by decide)).elim
  · cases hk : isKw [","] t with
    | false => rfl
    | true => exact (name_ne_comma h.1 (isKw_comma hk)).elim

/-- The rest of a key list after one entry. -/
def keyTail : List KeyPart → List Str
  | [] => []
  | k :: ks => S "," :: (KeyPart.toks k ++ keyTail ks)

theorem joinComma_keys (k : KeyPart) (ks : List KeyPart) :
    joinComma ((k :: ks).map KeyPart.toks) = KeyPart.toks k ++ keyTail ks := by
  induction ks generalizing k with
  | nil => simp [joinComma, keyTail]
  | cons k' ks ih =>
    have := ih k'
    simp only [List.map_cons] at this ⊢
    rw [joinComma, this]
    simp [keyTail]

theorem keyTail_ok {d : Rdbms} (n : Nat) {ks : List KeyPart} (hk : ∀ m, KeyPart.col m ∈ ks → NameTok d m)
    (acc : List Str) (r : List Str) (hn : (keyTail ks).length < n) :
    C.columnNamesLoop n acc (keyTail ks ++ [')'] :: r) =
      .ok (acc ++ keyCols ks) ([')'] :: r) := by
  induction ks generalizing n acc with
  | nil =>
    obtain ⟨n, rfl⟩ : ∃ m, n = m + 1 := ⟨n - 1, by omega⟩
    rw [keyTail, List.nil_append, C.columnNamesLoop, ifT (isKw_rpar.2 rfl)]
    simp [CM.pure, keyCols]
  | cons k ks ih =>
    obtain ⟨n, rfl⟩ : ∃ m, n = m + 1 := ⟨n - 1, by omega⟩
    have ihk := fun n acc hn => ih n (fun m hm => hk m (by simp [hm])) acc hn
    rw [keyTail, List.cons_append, C.columnNamesLoop, ifF (by decide), ifT (by decide)]
    cases k with
    | col m =>
      have hm := nameTok_facts (hk m (by simp))
      simp only [KeyPart.toks, keyTail, List.cons_append, List.nil_append,
        List.length_cons] at hn ⊢
      obtain ⟨n, rfl⟩ : ∃ m, n = m + 1 := ⟨n - 1, by omega⟩
      have hs : C.skip (S "," :: (m :: (keyTail ks ++ [')'] :: r))) =
          .ok () (m :: (keyTail ks ++ [')'] :: r)) := by
        simp [C.skip, C.nextRest, C.tok, hm.1]
      rw [bind_ok hs, C.columnNamesLoop, ifF hm.2.1, ifF hm.2.2,
        bind_ok (f := C.token) (a := m) (s' := m :: (keyTail ks ++ [')'] :: r)) rfl,
        bind_ok (skip_cons hm.1), ihk n _ (by omega)]
      simp [keyCols]
    | expr =>
      simp only [KeyPart.toks, List.nil_append, keyTail, List.length_cons] at hn ⊢
      have e2 : acc ++ keyCols (KeyPart.expr :: ks) = acc ++ keyCols ks := by simp [keyCols]
      rw [e2]
      cases ks with
      | nil =>
        have hs : C.skip (S "," :: (keyTail [] ++ [')'] :: r)) = .ok () ([')'] :: r) := rfl
        rw [bind_ok hs]
        exact ihk n acc (by omega)
      | cons k' ks =>
        have hs : C.skip (S "," :: (keyTail (k' :: ks) ++ [')'] :: r)) =
            C.skip (keyTail (k' :: ks) ++ [')'] :: r) := by
          simp [C.skip, C.nextRest, C.tok, keyTail]
        have h1 := ihk (n + 1) acc (by omega)
        rw [keyTail, List.cons_append, C.columnNamesLoop, ifF (by decide), ifT (by decide)] at h1
        rw [keyTail, List.cons_append] at hs ⊢
        rw [← h1]
        simp only [CM.bind, hs]

theorem keyList_ok {d : Rdbms} {n : Nat} {ks : List KeyPart} {o : List Str} (h : keyListE d ks o)
    (r : List Str) (hn : o.length < n) :
    C.convertCommaSeparatedColumnNames n (o ++ r) = .ok (keyCols ks) r := by
  obtain ⟨⟨hne, hk⟩, rfl⟩ := h
  unfold C.convertCommaSeparatedColumnNames
  rw [List.cons_append, List.cons_append, List.append_assoc, bind_ok (skip_cons lpar_ne)]
  have key : C.columnNamesLoop n [] (joinComma (ks.map KeyPart.toks) ++ [')'] :: r) =
      .ok (keyCols ks) ([')'] :: r) := by
    cases ks with
    | nil => exact absurd rfl hne
    | cons k ks =>
      rw [joinComma_keys] at hn ⊢
      have hks := fun m (hm : KeyPart.col m ∈ ks) => hk m (by simp [hm])
      cases k with
      | col m =>
        have hm := nameTok_facts (hk m (by simp))
        obtain ⟨n, rfl⟩ : ∃ m, n = m + 1 := ⟨n - 1, by omega⟩
        simp only [KeyPart.toks, List.cons_append, List.nil_append]
        rw [C.columnNamesLoop, ifF hm.2.1, ifF hm.2.2,
          bind_ok (f := C.token) (a := m) (s' := m :: (keyTail ks ++ [')'] :: r)) rfl,
          bind_ok (skip_cons hm.1), keyTail_ok n hks _ _ (by simp [KeyPart.toks] at hn; omega)]
        simp [keyCols]
      | expr =>
        simp only [KeyPart.toks, List.nil_append]
        rw [keyTail_ok n hks _ _ (by simp [KeyPart.toks] at hn; omega)]
        simp [keyCols]
  simp only [List.singleton_append]
  rw [bind_ok key, bind_ok (skip_cons rpar_ne)]
  rfl

/-- The tokens after a table entry; the dot follows the part of a qualified reference which the
converter reads. -/
def Stop (r : List Str) : Prop := ∃ t r', r = t :: r' ∧ (t = S "," ∨ t = [')'] ∨ t = S ".")

theorem reference_ok {d d' : Rdbms} {n : Nat} {r : Ref} {o rest : List Str} (h : refE d' r o)
    (hp : r.Plain) (hr : isKw ["("] (hd rest) = false) (hn : o.length ≤ n) :
    C.convertReference d n (o ++ rest) = .ok (refVal d r) rest := by
  obtain ⟨k, oc, hk, hq, hc, rfl⟩ := h
  have htoks : QName.toks r.table = [r.table.name] := by
    unfold QName.toks; rw [show r.table.schema = none from hp]
  rw [htoks] at hn ⊢
  unfold C.convertReference
  simp only [List.cons_append, List.nil_append]
  rw [bind_ok (skip_cons (kw_plain hk (by decide))), bind_ok (convertName_name hq.1), refVal]
  cases hcols : r.cols with
  | none =>
    rw [hcols] at hc
    cases hc
    rw [List.nil_append]
    cases rest with
    | nil => simp [C.ifM, C.matchToken, CM.bind, C.tok]; rfl
    | cons t rest => exact ifF (show isKw ["("] t = false from hr)
  | some ks =>
    rw [hcols] at hc
    have : ∃ x, oc = ['('] :: x := ⟨_, hc.2⟩
    obtain ⟨x, hx⟩ := this
    have e1 : ∀ (p q : CM Reference), C.ifM (C.matchToken ["("]) p q (oc ++ rest) =
        p (oc ++ rest) := by
      intro p q; subst hx; exact ifT (isKw_lpar.2 rfl)
    rw [e1, bind_ok (keyList_ok hc rest (by simp at hn; omega))]
    rfl

/-! ### Column constraints -/

/-- Tokens which may follow a column's type or one of its constraints. -/
def conHeads : List String :=
  ["CONSTRAINT", "PRIMARY", "AUTO_INCREMENT", "NOT", "UNIQUE", "CHECK", "DEFAULT", "COLLATE",
   "REFERENCES", ",", ")", "."]

/-- The next token is one of them. -/
def ConHead (s : List Str) : Prop := ∃ t r, s = t :: r ∧ isKw conHeads t = true

theorem kw_head {ks : List String} {t : Str} (h : isKw ks t = true)
    (hk : ∀ t ∈ kwList ks, isKw conHeads t = true) : isKw conHeads t = true := forall_kw hk h

theorem Stop.head {r : List Str} (h : Stop r) : ConHead r := by
  obtain ⟨t, r, rfl, rfl | rfl | rfl⟩ := h
  · exact ⟨_, _, rfl, by decide⟩
  · exact ⟨_, _, rfl, by decide⟩
  · exact ⟨_, _, rfl, by decide⟩

theorem ConHead.not {ks : List String} {s : List Str} (h : ConHead s)
    (hk : ∀ t ∈ kwList conHeads, isKw ks t = false) : isKw ks (hd s) = false := by
  obtain ⟨t, r, rfl, ht⟩ := h
  exact forall_kw hk ht

/-- What one constraint adds to the fields of a column. -/
def conStep (isNum : Str → Bool) (d : Rdbms) (con : Constraint) : ColCon → Constraint
  | .primaryKey a => { con with isPrimaryKey := true, isAutoincrement := a || con.isAutoincrement }
  | .autoIncrement => { con with isAutoincrement := true }
  | .notNull => { con with isNotNull := true }
  | .null => con
  | .unique => { con with isUnique := true }
  | .check e => { con with check := exprText e }
  | .default v => { con with default := dfltVal isNum d v }
  | .collate n => { con with collate := nameVal d n }
  | .references r => { con with references := refVal d r }
  | .other _ => con

theorem colConE_head {isNum : Str → Bool} {d : Rdbms} {c : ColCon} {o : List Str}
    (h : colConE isNum d c o) : o = [] ∨ ConHead o := by
  cases c with
  | primaryKey a => obtain ⟨p, k, oa, hp, _, _, rfl⟩ := h; exact .inr ⟨_, _, rfl, kw_head hp (by decide)⟩
  | autoIncrement => obtain ⟨t, ht, rfl⟩ := h; exact .inr ⟨_, _, rfl, kw_head ht (by decide)⟩
  | notNull => obtain ⟨a, b, ht, _, rfl⟩ := h; exact .inr ⟨_, _, rfl, kw_head ht (by decide)⟩
  | null => exact .inl h
  | unique => obtain ⟨t, ht, rfl⟩ := h; exact .inr ⟨_, _, rfl, kw_head ht (by decide)⟩
  | check e => obtain ⟨t, ht, _, rfl⟩ := h; exact .inr ⟨_, _, rfl, kw_head ht (by decide)⟩
  | default v => obtain ⟨t, od, ht, _, rfl⟩ := h; exact .inr ⟨_, _, rfl, kw_head ht (by decide)⟩
  | collate n => obtain ⟨t, ht, _, _, rfl⟩ := h; exact .inr ⟨_, _, rfl, kw_head ht (by decide)⟩
  | references r => obtain ⟨t, oc, ht, _, _, rfl⟩ := h; exact .inr ⟨_, _, rfl, kw_head ht (by decide)⟩
  | other k => exact .inl h

theorem ConHead.append {a b : List Str} (h : ConHead a) : ConHead (a ++ b) := by
  obtain ⟨t, r, rfl, h⟩ := h; exact ⟨t, r ++ b, rfl, h⟩

theorem cons_head {isNum : Str → Bool} {d : Rdbms} {cs : List ColCon} {os : List (List Str)}
    (h : All2 (colConE isNum d) cs os) {rest : List Str} (hr : ConHead rest) :
    ConHead (os.flatten ++ rest) := by
  induction h with
  | nil => exact hr
  | cons h _ ih =>
    rcases colConE_head h with rfl | h
    · simpa using ih
    · rw [List.flatten_cons, List.append_assoc]; exact h.append

/-- `x` starts with one of the words of the converter's `if` chain. -/
theorem kwF {ks ks' : List String} {t : Str} (h : isKw ks t = true)
    (hk : ∀ t ∈ kwList ks, isKw ks' t = false) : isKw ks' t = false := forall_kw hk h

theorem kwT {ks ks' : List String} {t : Str} (h : isKw ks t = true)
    (hk : ∀ t ∈ kwList ks, isKw ks' t = true) : isKw ks' t = true := forall_kw hk h

theorem skip_kw {ks : List String} {t : Str} {r : List Str} (h : isKw ks t = true)
    (hk : ∀ t ∈ kwList ks, t ≠ S ",") : C.skip (t :: r) = .ok () r := skip_cons (kw_plain h hk)

theorem constraintAux_ok [CaseMap] {isNum : Str → Bool} (hN : NumOK isNum) {d d' : Rdbms} {cs : List ColCon}
    {os : List (List Str)} (h : All2 (colConE isNum d') cs os)
    (hp : ∀ r, ColCon.references r ∈ cs → r.Plain) {rest : List Str} (hr : Stop rest)
    (con : Constraint) (n : Nat) (hn : os.flatten.length < n) :
    C.convertConstraintAux isNum d n con (os.flatten ++ rest) =
      .ok (cs.foldl (conStep isNum d) con) rest := by
  induction h generalizing con n with
  | nil =>
    obtain ⟨n, rfl⟩ : ∃ m, n = m + 1 := ⟨n - 1, by omega⟩
    obtain ⟨t, r, rfl, ht⟩ := hr
    rw [C.convertConstraintAux]
    rcases ht with rfl | rfl | rfl
    · exact ifT (by decide)
    · exact ifT (by decide)
    · rfl
  | @cons c o cs os h hs ih =>
    have ih := ih (fun r hr => hp r (by simp [hr]))
    have hp' := fun r (hr : c = .references r) => hp r (by simp [hr])
    have hh := cons_head hs hr.head
    rw [List.flatten_cons, List.append_assoc, List.foldl_cons]
    rw [List.flatten_cons, List.length_append] at hn
    generalize hx : os.flatten ++ rest = x at *
    obtain ⟨n, rfl⟩ : ∃ m, n = m + 1 := ⟨n - 1, by omega⟩
    cases c with
    | null => cases h; exact ih con (n + 1) (by omega)
    | other k => cases h; exact ih con (n + 1) (by omega)
    | primaryKey a =>
      obtain ⟨p, k, oa, h1, h2, ha, rfl⟩ := h
      simp only [List.cons_append, List.length_cons] at hn ⊢
      rw [C.convertConstraintAux, ifF (kwF h1 (by decide)), ifT h1,
        bind_ok (skip_kw h1 (by decide)), bind_ok (skip_kw h2 (by decide))]
      cases a with
      | false => cases ha; exact ih _ n (by omega)
      | true =>
        obtain ⟨t, ht, rfl⟩ := ha
        simp only [List.cons_append, List.nil_append, List.length_cons] at hn ⊢
        obtain ⟨n, rfl⟩ : ∃ m, n = m + 1 := ⟨n - 1, by omega⟩
        rw [C.convertConstraintAux, ifF (kwF ht (by decide)), ifF (kwF ht (by decide)),
          ifT (kwT ht (by decide)), bind_ok (skip_kw ht (by decide))]
        exact ih _ n (by omega)
    | autoIncrement =>
      obtain ⟨t, h1, rfl⟩ := h
      simp only [List.cons_append, List.nil_append, List.length_cons] at hn ⊢
      rw [C.convertConstraintAux, ifF (kwF h1 (by decide)), ifF (kwF h1 (by decide)),
        ifT (kwT h1 (by decide)), bind_ok (skip_kw h1 (by decide))]
      exact ih _ n (by omega)
    | notNull =>
      obtain ⟨t, k, h1, h2, rfl⟩ := h
      simp only [List.cons_append, List.nil_append, List.length_cons] at hn ⊢
      rw [C.convertConstraintAux, ifF (kwF h1 (by decide)), ifF (kwF h1 (by decide)),
        ifF (kwF h1 (by decide)), ifT h1, bind_ok (skip_kw h1 (by decide)),
        bind_ok (skip_kw h2 (by decide))]
      exact ih _ n (by omega)
    | unique =>
      obtain ⟨t, h1, rfl⟩ := h
      simp only [List.cons_append, List.nil_append, List.length_cons] at hn ⊢
      rw [C.convertConstraintAux, ifF (kwF h1 (by decide)), ifF (kwF h1 (by decide)),
        ifF (kwF h1 (by decide)), ifF (kwF h1 (by decide)), ifT h1,
        bind_ok (skip_kw h1 (by decide))]
      exact ih _ n (by omega)
    | default v =>
      obtain ⟨t, od, h1, h2, rfl⟩ := h
      simp only [List.cons_append, List.length_cons] at hn ⊢
      rw [C.convertConstraintAux, ifF (kwF h1 (by decide)), ifF (kwF h1 (by decide)),
        ifF (kwF h1 (by decide)), ifF (kwF h1 (by decide)), ifF (kwF h1 (by decide)), ifT h1,
        bind_ok (skip_kw h1 (by decide)), bind_ok (default_ok hN h2 (by omega))]
      exact ih _ n (by omega)
    | check e =>
      obtain ⟨t, h1, h2, rfl⟩ := h
      simp only [List.cons_append, List.length_cons] at hn ⊢
      rw [C.convertConstraintAux, ifF (kwF h1 (by decide)), ifF (kwF h1 (by decide)),
        ifF (kwF h1 (by decide)), ifF (kwF h1 (by decide)), ifF (kwF h1 (by decide)),
        ifF (kwF h1 (by decide)), ifT h1,
        bind_ok (skip_kw h1 (by decide)), bind_ok (expr_ok h2 _ (by omega))]
      exact ih _ n (by omega)
    | collate m =>
      obtain ⟨t, h1, h2, h3, rfl⟩ := h
      simp only [List.cons_append, List.nil_append, List.length_cons] at hn ⊢
      rw [C.convertConstraintAux, ifF (kwF h1 (by decide)), ifF (kwF h1 (by decide)),
        ifF (kwF h1 (by decide)), ifF (kwF h1 (by decide)), ifF (kwF h1 (by decide)),
        ifF (kwF h1 (by decide)), ifF (kwF h1 (by decide)), ifT h1,
        bind_ok (skip_kw h1 (by decide)), bind_ok (convertName_ok h2 h3)]
      exact ih _ n (by omega)
    | references r =>
      have hh' := ConHead.not (ks := ["("]) hh (by decide)
      have hl : 0 < o.length := by obtain ⟨_, _, _, _, _, rfl⟩ := h; simp
      have hrf := reference_ok (d := d) (n := n) h (hp' r rfl) hh' (by omega)
      obtain ⟨t, oc, h1, h2, h3, rfl⟩ := h
      simp only [List.cons_append] at hrf ⊢
      rw [C.convertConstraintAux, ifF (kwF h1 (by decide)), ifF (kwF h1 (by decide)),
        ifF (kwF h1 (by decide)), ifF (kwF h1 (by decide)), ifF (kwF h1 (by decide)),
        ifF (kwF h1 (by decide)), ifF (kwF h1 (by decide)), ifF (kwF h1 (by decide)), ifT h1,
        bind_ok hrf]
      exact ih _ n (by omega)

theorem foldl_find {f : ColCon → Option γ} {k : String} (hf : ∀ c v, f c = some v → c.kind = k)
    {cs : List ColCon} (hd : (cs.map ColCon.kind).Nodup) (g : γ → δ) (a : δ) :
    cs.foldl (fun a c => ((f c).map g).getD a) a = ((cs.findSome? f).map g).getD a := by
  induction cs generalizing a with
  | nil => rfl
  | cons c cs ih =>
    rw [List.map_cons, List.nodup_cons] at hd
    rw [List.foldl_cons, List.findSome?_cons]
    cases hc : f c with
    | none => exact ih hd.2 a
    | some v =>
      have : cs.findSome? f = none := by
        rw [List.findSome?_eq_none_iff]
        intro c' hc'
        cases h' : f c' with
        | none => rfl
        | some w =>
          refine absurd ?_ hd.1
          rw [hf c v hc, ← hf c' w h']
          exact List.mem_map.2 ⟨c', hc', rfl⟩
      rw [ih hd.2, this]
      rfl

theorem foldl_any {p : ColCon → Bool} (cs : List ColCon) (a : Bool) :
    cs.foldl (fun a c => p c || a) a = (cs.any p || a) := by
  induction cs generalizing a with
  | nil => rfl
  | cons c cs ih =>
    rw [List.foldl_cons, ih, List.any_cons]
    cases p c <;> simp

/-- A field of a folded structure is the fold of the field. -/
theorem foldl_field {α σ τ : Type} {f : σ → α → σ} {g : τ → α → τ} (π : σ → τ)
    (h : ∀ s a, π (f s a) = g (π s) a) (as : List α) (s : σ) :
    π (as.foldl f s) = as.foldl g (π s) := by
  induction as generalizing s with
  | nil => rfl
  | cons a as ih => rw [List.foldl_cons, List.foldl_cons, ih, h]

theorem conStep_name {isNum : Str → Bool} {d : Rdbms} (cs : List ColCon) (con : Constraint) :
    (cs.foldl (conStep isNum d) con).name = con.name := by
  induction cs generalizing con with
  | nil => rfl
  | cons c cs ih => rw [List.foldl_cons, ih]; cases c <;> rfl

theorem foldl_constraintVal {isNum : Str → Bool} {d : Rdbms} (cn : ConName) {cs : List ColCon}
    (hd : (cs.map ColCon.kind).Nodup) :
    cs.foldl (conStep isNum d) { name := conNameVal d cn } = constraintVal isNum d cn cs := by
  unfold constraintVal
  generalize hc : cs.foldl (conStep isNum d) { name := conNameVal d cn } = con
  have h1 : con.name = conNameVal d cn := by rw [← hc, conStep_name]
  have h2 := foldl_field (f := conStep isNum d) (g := fun b c => ColCon.isPrimaryKey c || b)
    (fun c => c.isPrimaryKey) (by intro s a; cases a <;> rfl) cs { name := conNameVal d cn }
  have h3 := foldl_field (f := conStep isNum d) (g := fun b c => ColCon.isUnique c || b)
    (fun c => c.isUnique) (by intro s a; cases a <;> rfl) cs { name := conNameVal d cn }
  have h4 := foldl_field (f := conStep isNum d) (g := fun b c => ColCon.isNotNull c || b)
    (fun c => c.isNotNull) (by intro s a; cases a <;> rfl) cs { name := conNameVal d cn }
  have h5 := foldl_field (f := conStep isNum d) (g := fun b c => ColCon.isAutoincrement c || b)
    (fun c => c.isAutoincrement) (by intro s a; cases a <;> rfl) cs { name := conNameVal d cn }
  have h6 := foldl_field (f := conStep isNum d) (g := fun b c => ((ColCon.dflt c).map (dfltVal isNum d)).getD b)
    (fun c => c.default) (by intro s a; cases a <;> rfl) cs { name := conNameVal d cn }
  have h7 := foldl_field (f := conStep isNum d) (g := fun b c => ((ColCon.checked c).map exprText).getD b)
    (fun c => c.check) (by intro s a; cases a <;> rfl) cs { name := conNameVal d cn }
  have h8 := foldl_field (f := conStep isNum d) (g := fun b c => ((ColCon.collation c).map (nameVal d)).getD b)
    (fun c => c.collate) (by intro s a; cases a <;> rfl) cs { name := conNameVal d cn }
  have h9 := foldl_field (f := conStep isNum d) (g := fun b c => ((ColCon.reference c).map (refVal d)).getD b)
    (fun c => c.references) (by intro s a; cases a <;> rfl) cs { name := conNameVal d cn }
  rw [hc, foldl_any, Bool.or_false] at h2 h3 h4 h5
  rw [hc, foldl_find (k := "DEFAULT") (by intro c v h; cases c <;> first | rfl | cases h) hd] at h6
  rw [hc, foldl_find (k := "CHECK") (by intro c v h; cases c <;> first | rfl | cases h) hd] at h7
  rw [hc, foldl_find (k := "COLLATE") (by intro c v h; cases c <;> first | rfl | cases h) hd] at h8
  rw [hc, foldl_find (k := "REFERENCES") (by intro c v h; cases c <;> first | rfl | cases h) hd]
    at h9
  cases con
  simp only at *
  rw [h1, h2, h3, h4, h5, h6, h7, h8, h9]

/-! ### Columns -/

/-- The dialects that have a grammar. -/
def Known (d : Rdbms) : Prop := d ≠ .other

theorem reserved_name {d : Rdbms} (hd : Known d) {t : Str} (h : NameTok d t) :
    isKw ["PRIMARY", "UNIQUE", "NOT", "DEFAULT", "CHECK", "REFERENCES", "COLLATE", "CONSTRAINT",
      "FOREIGN"] t = false := by
  cases d with
  | sqlite => exact not_name (by decide) h.1
  | postgres => exact not_name (by decide +kernel) h.1
  | mysql => exact not_name (by decide +kernel) h.1
  | other => exact absurd rfl hd

theorem isKw_sub {ks ks' : List String} {t : Str} (h : isKw ks t = false)
    (hs : ∀ k ∈ ks', k ∈ ks) : isKw ks' t = false := by
  cases hk : isKw ks' t with
  | false => rfl
  | true =>
    obtain ⟨k, hk', e⟩ := isKw_kw.1 hk
    rw [isKw_kw.2 ⟨k, hs k hk', e⟩] at h
    cases h

theorem isKw_or {ks ks' qs : List String} {t : Str} (h : isKw ks t = false) (h' : isKw ks' t = false)
    (hs : ∀ k ∈ qs, k ∈ ks ∨ k ∈ ks') : isKw qs t = false := by
  cases hk : isKw qs t with
  | false => rfl
  | true =>
    obtain ⟨k, hk', e⟩ := isKw_kw.1 hk
    rcases hs k hk' with hq | hq
    · rw [isKw_kw.2 ⟨k, hq, e⟩] at h; cases h
    · rw [isKw_kw.2 ⟨k, hq, e⟩] at h'; cases h'

theorem typeDigit_ok {g : Option (Nat × Option Nat)} {o rest : List Str} (h : digitsE g o)
    (hr : isKw ["("] (hd rest) = false) :
    C.convertTypeDigit (o ++ rest) = .ok
      (digitNVal g, digitMVal g) rest := by
  have pc : ∀ {t n}, PosInt t n → t ≠ S "," := by
    rintro t n h rfl
    have := atoi_posInt h
    revert this
    rw [show atoi (S ",") = (0, false) from by decide]
    intro h; cases h
  have pk : ∀ {t n}, PosInt t n → isKw [","] t = false := by
    intro t n h
    cases hk : isKw [","] t with
    | false => rfl
    | true => exact absurd (isKw_comma hk) (pc h)
  unfold C.convertTypeDigit
  match g with
  | none =>
    cases h
    cases rest with
    | nil => rfl
    | cons t rest => exact ifF (show isKw ["("] t = false from hr)
  | some (n, none) =>
    obtain ⟨t, ht, rfl⟩ := h
    simp only [List.cons_append, List.nil_append]
    rw [ifT (isKw_lpar.2 rfl), bind_ok (skip_cons lpar_ne), bind_ok (next_cons (pc ht))]
    rw [bind_ok (a := (0 : Int)) (s' := [')'] :: rest)]
    · rw [bind_ok (skip_cons rpar_ne), atoi_posInt ht]; rfl
    · exact ifF (by decide)
  | some (n, some m) =>
    obtain ⟨t, u, ht, hu, rfl⟩ := h
    simp only [List.cons_append, List.nil_append]
    have hs : C.skip (S "," :: u :: [')'] :: rest) = .ok () (u :: [')'] :: rest) := by
      simp [C.skip, C.nextRest, C.tok, pc hu]
    rw [ifT (isKw_lpar.2 rfl), bind_ok (skip_cons lpar_ne), bind_ok (next_cons (pc ht))]
    rw [bind_ok (a := (m : Int)) (s' := [')'] :: rest)]
    · rw [bind_ok (skip_cons rpar_ne), atoi_posInt ht]; rfl
    · rw [ifT (by decide), bind_ok hs, bind_ok (next_cons (pc hu)), atoi_posInt hu]; rfl

theorem type_ok [CaseMap] {τ : TypeAst} {o rest : List Str} (h : typeE τ o) (hr : ConHead rest) :
    C.convertDateType (o ++ rest) = .ok (typeVal τ) rest := by
  obtain ⟨ov, od, ⟨h1, ha⟩, h2, h3, rfl⟩ := h
  have h4 := typeDigit_ok h3 (ConHead.not (ks := ["("]) hr (by decide))
  unfold C.convertDateType
  have hu : upStr τ.name = toUpper τ.name := List.map_congr_left fun c hc => CaseMap.up_ascii c (ha c hc)
  rw [List.cons_append, List.append_assoc, bind_ok (next_cons h1), hu]
  have hname : ∀ (f : Str → CM DataType),
      ((C.ifM (C.matchToken ["VARYING"])
        (C.next.bind fun v => CM.pure (C.varyingName (toUpper τ.name) v))
        (CM.pure (toUpper τ.name))).bind f) (ov ++ (od ++ rest)) =
      f (typeName τ) (od ++ rest) := by
    intro f
    cases hv : τ.varying with
    | true =>
      rw [hv] at h2
      obtain ⟨hb, t, ht, rfl⟩ := h2
      rw [List.singleton_append, bind_ok (a := typeName τ) (s' := od ++ rest)]
      rw [ifT ht, bind_ok (next_cons (kw_plain ht (by decide)))]
      simp only [C.varyingName, typeName, hv, if_true, toUpper_eq]
      have : τ.name.map Char.toUpper = S "BIT" ∨ τ.name.map Char.toUpper = S "CHARACTER" :=
        forall_kw (P := fun t => t.map Char.toUpper = S "BIT" ∨ t.map Char.toUpper = S "CHARACTER")
          (by decide) hb
      rcases this with e | e <;> rw [e] <;> rfl
    | false =>
      rw [hv] at h2
      cases h2
      rw [List.nil_append, bind_ok (a := typeName τ) (s' := od ++ rest)]
      simp only [typeName, hv, Bool.false_eq_true, if_false, ← toUpper_eq]
      have hk : isKw ["VARYING"] (hd (od ++ rest)) = false := by
        match hg : τ.digits with
        | none =>
          rw [hg] at h3; cases h3; exact ConHead.not (ks := ["VARYING"]) hr (by decide)
        | some (n, none) =>
          rw [hg] at h3
          obtain ⟨t, ht, rfl⟩ := h3; exact show isKw ["VARYING"] ['('] = false by decide
        | some (n, some m) =>
          rw [hg] at h3
          obtain ⟨t, u, ht, hu, rfl⟩ := h3; exact show isKw ["VARYING"] ['('] = false by decide
      cases hs : od ++ rest with
      | nil => rfl
      | cons t r => rw [hs] at hk; exact ifF (show isKw ["VARYING"] t = false from hk)
  refine (hname _).trans ?_
  rw [bind_ok h4]
  rfl

/-- What the grammars guarantee about a column. -/
def ColOk (c : ColAst) : Prop :=
  (c.cons.map ColCon.kind).Nodup ∧ (c.conName = .anonymous → ∃ e cs, c.cons = .check e :: cs)

theorem column_ok [CaseMap] {isNum : Str → Bool} (hN : NumOK isNum) {d d' : Rdbms} (hd : Known d')
    {c : ColAst} {o rest : List Str} (h : colE isNum d' c o) (hok : ColOk c) (hf : c.Faithful)
    (hr : Stop rest) {n : Nat} (hn : o.length < n) :
    C.convertColumnDefinition isNum d n (o ++ rest) = .ok (columnVal isNum d c) rest := by
  obtain ⟨ot, on, oc, h1, h2, h3, ⟨os, h4, rfl⟩, rfl⟩ := h
  unfold C.convertColumnDefinition C.convertConstraint
  have hh := cons_head h4 hr.head
  have hh2 : ConHead (on ++ (os.flatten ++ rest)) := by
    cases hcn : c.conName with
    | absent => rw [hcn] at h3; cases h3; exact hh
    | anonymous =>
      rw [hcn] at h3; obtain ⟨k, hk, rfl⟩ := h3
      exact ⟨_, _, rfl, kw_head hk (by decide)⟩
    | named m =>
      rw [hcn] at h3; obtain ⟨k, hk, _, rfl⟩ := h3
      exact ⟨_, _, rfl, kw_head hk (by decide)⟩
  simp only [List.cons_append, List.append_assoc, List.length_cons, List.length_append] at hn ⊢
  rw [bind_ok (convertName_name h1), bind_ok (type_ok h2 hh2)]
  have hname : ∀ (f : Str → CM Constraint),
      ((C.ifM (C.matchToken ["CONSTRAINT"])
        (C.skip.bind fun _ =>
          C.ifM (C.matchToken C.notConstraintName) (CM.pure []) (C.convertName d))
        (CM.pure [])).bind f) (on ++ (os.flatten ++ rest)) =
      f (conNameVal d c.conName) (os.flatten ++ rest) := by
    intro f
    cases hcn : c.conName with
    | absent =>
      rw [hcn] at h3
      cases h3
      rw [List.nil_append]
      by_cases hc : isKw ["CONSTRAINT"] (DDL.hd (os.flatten ++ rest)) = false
      · cases hs : os.flatten ++ rest with
        | nil => rfl
        | cons t r => rw [hs] at hc; exact bind_ok (ifF (show isKw ["CONSTRAINT"] t = false from hc))
      · exfalso
        apply hc
        have hno : ∀ {cs os}, All2 (colConE isNum d') cs os →
            isKw ["CONSTRAINT"] (DDL.hd (os.flatten ++ rest)) = false := by
          intro cs os h
          induction h with
          | nil =>
            obtain ⟨t, r, rfl, rfl | rfl | rfl⟩ := hr
            · exact (by decide : isKw ["CONSTRAINT"] (S ",") = false)
            · exact (by decide : isKw ["CONSTRAINT"] [')'] = false)
            · exact (by decide : isKw ["CONSTRAINT"] (S ".") = false)
          | @cons c o cs os h _ ih =>
            cases c with
            | primaryKey a => obtain ⟨p, k, oa, hp, _, _, rfl⟩ := h; exact kwF hp (by decide)
            | autoIncrement => obtain ⟨t, ht, rfl⟩ := h; exact kwF ht (by decide)
            | notNull => obtain ⟨a, b, ht, _, rfl⟩ := h; exact kwF ht (by decide)
            | null => cases h; exact ih
            | unique => obtain ⟨t, ht, rfl⟩ := h; exact kwF ht (by decide)
            | check e => obtain ⟨t, ht, _, rfl⟩ := h; exact kwF ht (by decide)
            | default v => obtain ⟨t, od, ht, _, rfl⟩ := h; exact kwF ht (by decide)
            | collate n => obtain ⟨t, ht, _, _, rfl⟩ := h; exact kwF ht (by decide)
            | references r => obtain ⟨t, oc, ht, _, _, rfl⟩ := h; exact kwF ht (by decide)
            | other k => cases h; exact ih
        exact hno h4
    | anonymous =>
      rw [hcn] at h3
      obtain ⟨k, hk, rfl⟩ := h3
      obtain ⟨e, cs, he⟩ := hok.2 hcn
      rw [he] at h4
      cases h4 with
      | cons hc _ =>
        obtain ⟨x, hx, _, rfl⟩ := hc
        simp only [List.cons_append, List.nil_append, List.flatten_cons]
        refine bind_ok ?_
        rw [ifT hk, bind_ok (skip_kw hk (by decide)), ifT (kwT hx (by decide))]
        rfl
    | named m =>
      rw [hcn] at h3
      obtain ⟨k, hk, hm, rfl⟩ := h3
      simp only [List.cons_append, List.nil_append]
      refine bind_ok ?_
      rw [ifT hk, bind_ok (skip_kw hk (by decide)), ifF, convertName_name hm]
      · rfl
      · have h1 := reserved_name hd hm
        have h2 : isKw ["AUTOINCREMENT", "AUTO_INCREMENT"] m = false := by
          cases hx : isKw ["AUTOINCREMENT", "AUTO_INCREMENT"] m with
          | false => rfl
          | true => exact absurd (isKw_kw.1 hx) (hf.2 m hcn)
        exact isKw_or h1 h2 (by decide)
  have hcon : (((C.ifM (C.matchToken ["CONSTRAINT"])
        (C.skip.bind fun _ =>
          C.ifM (C.matchToken C.notConstraintName) (CM.pure []) (C.convertName d))
        (CM.pure [])).bind fun name => C.convertConstraintAux isNum d n { name := name }))
        (on ++ (os.flatten ++ rest)) =
      .ok (constraintVal isNum d c.conName c.cons) rest := by
    rw [hname, constraintAux_ok hN h4 hf.1 hr _ n (by omega), foldl_constraintVal _ hok.1]
  rw [bind_ok hcon]
  rfl

/-! ### Table constraints -/

/-- What the grammars guarantee about an entry. -/
def ItemOk : Item → Prop
  | .column c => ColOk c
  | .exclude n => n ≠ .anonymous
  | .index n => n ≠ .anonymous
  | .fulltext n _ => n ≠ .anonymous
  | _ => True

/-- What an entry adds to the columns and constraints of the table. -/
def addItem (isNum : Str → Bool) (d : Rdbms) (ct : List Column × TableConstraint) (i : Item) :
    List Column × TableConstraint :=
  (ct.1 ++ (i.column? isNum d).toList,
   { primaryKey := ct.2.primaryKey ++ (i.primaryKey? d).toList
     unique := ct.2.unique ++ (i.unique? d).toList
     check := ct.2.check ++ (i.check? d).toList
     foreignKey := ct.2.foreignKey ++ (i.foreignKey? d).toList })

/-- The converter's step for one entry. -/
def oneItem [CaseMap] (isNum : Str → Bool) (d : Rdbms) (n : Nat) (ct : List Column × TableConstraint) :
    CM (List Column × TableConstraint) :=
  C.ifM (C.matchToken ["CONSTRAINT", "PRIMARY", "UNIQUE", "CHECK", "FOREIGN"])
    ((C.convertTableConstraint d n ct.2).bind fun tc' => CM.pure (ct.1, tc'))
    ((C.convertColumnDefinition isNum d n).bind fun c => CM.pure (ct.1 ++ [c], ct.2))

theorem keyListE_pos {d : Rdbms} {ks : List KeyPart} {o : List Str} (h : keyListE d ks o) :
    2 ≤ o.length := by obtain ⟨_, rfl⟩ := h; simp

/-- A table constraint after its name. -/
theorem tableConBody_ok {d d' : Rdbms} {i : Item} {oi rest : List Str} (h : tableConE d' i oi)
    (hf : i.Faithful) (hr : Stop rest) (tc : TableConstraint) (n : Nat) (hn : oi.length < n) :
    (C.ifM (C.matchToken ["PRIMARY"])
      (C.skip.bind fun _ => C.skip.bind fun _ =>
        (C.convertCommaSeparatedColumnNames n).bind fun cs =>
        CM.pure { tc with primaryKey := tc.primaryKey ++ [⟨conNameVal d (Item.conName i), cs⟩] }) <|
    C.ifM (C.matchToken ["UNIQUE"])
      (C.skip.bind fun _ =>
        (C.convertCommaSeparatedColumnNames n).bind fun cs =>
        CM.pure { tc with unique := tc.unique ++ [⟨conNameVal d (Item.conName i), cs⟩] }) <|
    C.ifM (C.matchToken ["CHECK"])
      (C.skip.bind fun _ =>
        (C.convertExpr n).bind fun e =>
        CM.pure { tc with check := tc.check ++ [⟨conNameVal d (Item.conName i), e⟩] }) <|
    C.ifM (C.matchToken ["FOREIGN"])
      (C.skip.bind fun _ => C.skip.bind fun _ =>
        (C.convertCommaSeparatedColumnNames n).bind fun cs =>
        (C.convertReference d n).bind fun r =>
        CM.pure { tc with foreignKey := tc.foreignKey ++ [⟨conNameVal d (Item.conName i), cs, r⟩] })
    (CM.pure tc)) (oi ++ rest) = .ok (addItem isNum d (cols, tc) i).2 rest := by
  cases i with
  | column c => exact h.elim
  | primaryKey m ks =>
    obtain ⟨p, k, oc, h1, h2, h3, rfl⟩ := h
    simp only [List.cons_append, List.length_cons] at hn ⊢
    rw [ifT h1, bind_ok (skip_kw h1 (by decide)), bind_ok (skip_kw h2 (by decide)),
      bind_ok (keyList_ok h3 rest (by omega))]
    simp [CM.pure, addItem, Item.primaryKey?, Item.unique?, Item.check?, Item.foreignKey?,
      Item.conName]
  | unique m ks =>
    obtain ⟨p, oc, h1, h3, rfl⟩ := h
    simp only [List.cons_append, List.length_cons] at hn ⊢
    rw [ifF (kwF h1 (by decide)), ifT h1, bind_ok (skip_kw h1 (by decide)),
      bind_ok (keyList_ok h3 rest (by omega))]
    simp [CM.pure, addItem, Item.primaryKey?, Item.unique?, Item.check?, Item.foreignKey?,
      Item.conName]
  | check m e =>
    obtain ⟨p, h1, h3, rfl⟩ := h
    simp only [List.cons_append, List.length_cons] at hn ⊢
    rw [ifF (kwF h1 (by decide)), ifF (kwF h1 (by decide)), ifT h1,
      bind_ok (skip_kw h1 (by decide)), bind_ok (expr_ok h3 rest (by omega))]
    simp [CM.pure, addItem, Item.primaryKey?, Item.unique?, Item.check?, Item.foreignKey?,
      Item.conName]
  | foreignKey m ks r =>
    obtain ⟨p, k, oc, or, h1, h2, h3, h4, rfl⟩ := h
    simp only [List.cons_append, List.length_cons, List.append_assoc, List.length_append] at hn ⊢
    rw [ifF (kwF h1 (by decide)), ifF (kwF h1 (by decide)), ifF (kwF h1 (by decide)), ifT h1,
      bind_ok (skip_kw h1 (by decide)), bind_ok (skip_kw h2 (by decide)),
      bind_ok (keyList_ok h3 _ (by omega)),
      bind_ok (reference_ok h4 hf (ConHead.not (ks := ["("]) hr.head (by decide)) (by omega))]
    simp [CM.pure, addItem, Item.primaryKey?, Item.unique?, Item.check?, Item.foreignKey?,
      Item.conName]
  | exclude m =>
    cases h
    obtain ⟨t, r, rfl, ht⟩ := hr
    have h1 : ∀ ks, (isKw ks (S ",") = false ∧ isKw ks [')'] = false ∧ isKw ks (S ".") = false) →
        isKw ks t = false := by
      intro ks h; rcases ht with rfl | rfl | rfl
      · exact h.1
      · exact h.2.1
      · exact h.2.2
    rw [List.nil_append, ifF (h1 _ (by decide)), ifF (h1 _ (by decide)),
      ifF (h1 _ (by decide)), ifF (h1 _ (by decide))]
    simp [CM.pure, addItem, Item.primaryKey?, Item.unique?, Item.check?, Item.foreignKey?]
  | index m => exact hf.elim
  | fulltext m j => exact hf.elim

theorem tableConE_head {d : Rdbms} {i : Item} {o : List Str} (h : tableConE d i o)
    (hf : i.Faithful) :
    (o = [] ∧ ∃ n, i = .exclude n) ∨
      ∃ t r, o = t :: r ∧ isKw ["PRIMARY", "UNIQUE", "CHECK", "FOREIGN"] t = true := by
  cases i with
  | column c => exact h.elim
  | primaryKey m ks => obtain ⟨p, k, oc, h1, h2, h3, rfl⟩ := h; exact .inr ⟨_, _, rfl, kwT h1 (by decide)⟩
  | unique m ks => obtain ⟨p, oc, h1, h3, rfl⟩ := h; exact .inr ⟨_, _, rfl, kwT h1 (by decide)⟩
  | check m e => obtain ⟨p, h1, h3, rfl⟩ := h; exact .inr ⟨_, _, rfl, kwT h1 (by decide)⟩
  | foreignKey m ks r =>
    obtain ⟨p, k, oc, or, h1, h2, h3, h4, rfl⟩ := h; exact .inr ⟨_, _, rfl, kwT h1 (by decide)⟩
  | exclude m => exact .inl ⟨h, _, rfl⟩
  | index m => exact hf.elim
  | fulltext m j => exact hf.elim

/-- A table constraint. -/
theorem tableCon_ok [CaseMap] {isNum : Str → Bool} {d d' : Rdbms} (hd : Known d') {i : Item}
    {on oi rest : List Str} (hc : conNameE d' (Item.conName i) on) (h : tableConE d' i oi)
    (hok : ItemOk i) (hf : i.Faithful) (hr : Stop rest) (ct : List Column × TableConstraint)
    (n : Nat) (hn : (on ++ oi).length < n) (hne : on ++ oi ≠ []) :
    oneItem isNum d n ct (on ++ (oi ++ rest)) = .ok (addItem isNum d ct i) rest := by
  have hcol : (addItem isNum d ct i) = (ct.1, (addItem isNum d ct i).2) := by
    cases i with
    | column c => exact h.elim
    | _ => simp [addItem, Item.column?]
  rw [List.length_append] at hn
  have body := fun tc (hn : oi.length < n) =>
    tableConBody_ok (d := d) (isNum := isNum) (cols := ct.1) h hf hr tc n hn
  have key : C.convertTableConstraint d n ct.2 (on ++ (oi ++ rest)) =
      .ok (addItem isNum d ct i).2 rest := by
    unfold C.convertTableConstraint
    cases hcn : Item.conName i with
    | absent =>
      rw [hcn] at hc
      cases hc
      rw [List.nil_append, bind_ok (a := []) (s' := oi ++ rest)]
      · have := body ct.2 (by omega); rw [hcn] at this; exact this
      · rcases tableConE_head h hf with ⟨rfl, _⟩ | ⟨t, r, rfl, ht⟩
        · exact absurd rfl hne
        · exact ifF (kwF ht (by decide))
    | anonymous =>
      rw [hcn] at hc
      obtain ⟨k, hk, rfl⟩ := hc
      simp only [List.cons_append, List.nil_append, List.length_cons] at hn ⊢
      rw [bind_ok (a := []) (s' := oi ++ rest)]
      · have := body ct.2 (by omega); rw [hcn] at this; exact this
      · rw [ifT hk, bind_ok (skip_kw hk (by decide))]
        rcases tableConE_head h hf with ⟨rfl, m, rfl⟩ | ⟨t, r, rfl, ht⟩
        · exact absurd hcn hok
        · exact ifT ht
    | named m =>
      rw [hcn] at hc
      obtain ⟨k, hk, hm, rfl⟩ := hc
      simp only [List.cons_append, List.nil_append, List.length_cons] at hn ⊢
      rw [bind_ok (a := nameVal d m) (s' := oi ++ rest)]
      · have := body ct.2 (by omega); rw [hcn] at this; exact this
      · rw [ifT hk, bind_ok (skip_kw hk (by decide)),
          ifF (isKw_sub (reserved_name hd hm) (by decide)), convertName_name hm]
  unfold oneItem
  rw [show ∀ p q : CM (List Column × TableConstraint),
      C.ifM (C.matchToken ["CONSTRAINT", "PRIMARY", "UNIQUE", "CHECK", "FOREIGN"]) p q
        (on ++ (oi ++ rest)) = p (on ++ (oi ++ rest)) from ?_, bind_ok key, hcol]
  · rfl
  · intro p q
    cases hcn : Item.conName i with
    | absent =>
      rw [hcn] at hc
      cases hc
      rcases tableConE_head h hf with ⟨rfl, m, rfl⟩ | ⟨t, r, rfl, ht⟩
      · exact absurd rfl hne
      · exact ifT (kwT ht (by decide))
    | anonymous =>
      rw [hcn] at hc; obtain ⟨k, hk, rfl⟩ := hc; exact ifT (kwT hk (by decide))
    | named m =>
      rw [hcn] at hc; obtain ⟨k, hk, hm, rfl⟩ := hc; exact ifT (kwT hk (by decide))

/-- An entry that keeps any tokens. -/
theorem item_ok [CaseMap] {isNum : Str → Bool} (hN : NumOK isNum) {d d' : Rdbms} (hd : Known d')
    {i : Item} {o rest : List Str} (h : itemE isNum d' i o) (hok : ItemOk i) (hf : i.Faithful)
    (hr : Stop rest) (ct : List Column × TableConstraint) (n : Nat) (hn : o.length < n)
    (hne : o ≠ []) : oneItem isNum d n ct (o ++ rest) = .ok (addItem isNum d ct i) rest := by
  cases i with
  | column c =>
    have hc := column_ok (d := d) hN hd h hok hf hr hn
    obtain ⟨ot, on, oc, h1, h2, h3, h4, rfl⟩ := h
    unfold oneItem
    rw [List.cons_append] at hc ⊢
    rw [ifF (isKw_sub (reserved_name hd h1) (by decide)), bind_ok hc]
    simp [CM.pure, addItem, Item.column?, Item.primaryKey?, Item.unique?, Item.check?,
      Item.foreignKey?]
  | _ =>
    obtain ⟨on, oi, h1, h2, rfl⟩ := h
    rw [List.append_assoc]
    exact tableCon_ok hd h1 h2 hok hf hr ct n hn hne

/-- An entry keeps nothing only if it is an unnamed EXCLUDE; else its first token is neither a
comma nor a closing parenthesis. -/
theorem itemE_head {isNum : Str → Bool} {d : Rdbms} {i : Item} {o : List Str}
    (h : itemE isNum d i o) (hok : ItemOk i) (hf : i.Faithful) :
    (o = [] ∧ i = .exclude .absent) ∨
      ∃ t r, o = t :: r ∧ t ≠ S "," ∧ isKw [")"] t = false := by
  cases i with
  | column c =>
    obtain ⟨ot, on, oc, h1, h2, h3, h4, rfl⟩ := h
    exact .inr ⟨_, _, rfl, (nameTok_facts h1).1, (nameTok_facts h1).2.1⟩
  | _ =>
    obtain ⟨on, oi, h1, h2, rfl⟩ := h
    rename_i m
    rcases tableConE_head h2 hf with ⟨rfl, m', hm⟩ | ⟨t, r, rfl, ht⟩
    all_goals
      revert h1
      generalize hcn : Item.conName _ = cn
      intro h1
      cases cn with
      | absent =>
        cases h1
        first
        | exact .inr ⟨_, _, rfl, kw_plain ht (by decide), kwF ht (by decide)⟩
        | (cases hm; done)
        | (cases hm; cases hcn; exact .inl ⟨rfl, rfl⟩)
      | anonymous =>
        obtain ⟨k, hk, rfl⟩ := h1
        exact .inr ⟨_, _, rfl, kw_plain hk (by decide), kwF hk (by decide)⟩
      | named m =>
        obtain ⟨k, hk, _, rfl⟩ := h1
        exact .inr ⟨_, _, rfl, kw_plain hk (by decide), kwF hk (by decide)⟩

/-- The tokens of the entries after the first. -/
def itemTail : List (List Str) → List Str
  | [] => []
  | o :: os => S "," :: (o ++ itemTail os)

theorem joinComma_tail (o : List Str) (os : List (List Str)) :
    joinComma (o :: os) = o ++ itemTail os := by
  induction os generalizing o with
  | nil => simp [joinComma, itemTail]
  | cons o' os ih => rw [joinComma, ih o', itemTail]

theorem stop_tail (os : List (List Str)) (r : List Str) : Stop (itemTail os ++ [')'] :: r) := by
  cases os with
  | nil => exact ⟨_, _, rfl, .inr (.inl rfl)⟩
  | cons o os => exact ⟨_, _, rfl, .inl rfl⟩

/-- The converter between two entries. -/
def afterItem [CaseMap] (isNum : Str → Bool) (d : Rdbms) (n : Nat) (ct : List Column × TableConstraint) :
    CM (List Column × TableConstraint) :=
  C.ifM (C.matchToken [")"]) (CM.pure ct)
    (C.skip.bind fun _ => C.tableDefinitionLoop isNum d n ct.1 ct.2)

theorem loop_eq [CaseMap] (isNum : Str → Bool) (d : Rdbms) (n : Nat) (ct : List Column × TableConstraint) :
    C.tableDefinitionLoop isNum d (n + 1) ct.1 ct.2 =
      C.ifM (C.matchToken [")"]) (CM.pure (ct.1, ct.2))
        ((oneItem isNum d (n + 1) ct).bind fun ct => afterItem isNum d n ct) := rfl

/-- The entries after the first. -/
theorem after_ok [CaseMap] {isNum : Str → Bool} (hN : NumOK isNum) {d d' : Rdbms} (hd : Known d')
    {is : List Item} {os : List (List Str)} (h : All2 (itemE isNum d') is os)
    (hok : ∀ i ∈ is, ItemOk i) (hf : ∀ i ∈ is, i.Faithful) (r : List Str)
    (ct : List Column × TableConstraint) (n : Nat) (hn : (itemTail os).length < n + 1) :
    afterItem isNum d n ct (itemTail os ++ [')'] :: r) =
      .ok (is.foldl (addItem isNum d) ct) ([')'] :: r) := by
  induction h generalizing ct n with
  | nil => rw [itemTail, List.nil_append, afterItem, ifT (isKw_rpar.2 rfl)]; rfl
  | @cons i o is os h hs ih =>
    have ih := ih (fun i hi => hok i (by simp [hi])) (fun i hi => hf i (by simp [hi]))
    have hi := hok i (by simp)
    have hfi := hf i (by simp)
    rw [itemTail, List.length_cons, List.length_append] at hn
    obtain ⟨n, rfl⟩ : ∃ m, n = m + 1 := ⟨n - 1, by omega⟩
    rcases itemE_head h hi hfi with ⟨rfl, rfl⟩ | ⟨t, r', rfl, ht1, ht2⟩
    · have hadd : addItem isNum d ct (.exclude .absent) = ct := by
        simp [addItem, Item.column?, Item.primaryKey?, Item.unique?, Item.check?, Item.foreignKey?]
      rw [List.foldl_cons, hadd]
      cases hs with
      | nil =>
        simp only [itemTail, List.nil_append, List.cons_append]
        have hsk : C.skip (S "," :: [')'] :: r) = .ok () ([')'] :: r) := rfl
        rw [afterItem, ifF (by decide), bind_ok hsk, loop_eq,
          ifT (isKw_rpar.2 rfl)]
        rfl
      | @cons i' o' is os h' hs =>
        rw [← ih ct (n + 1) (by simp at hn; omega)]
        simp only [itemTail, List.nil_append, List.cons_append]
        rw [afterItem, ifF (by decide), ifF (by decide)]
        simp only [CM.bind, C.skip]
        rw [C.nextRest, if_pos ⟨rfl, rfl⟩]
    · have hit := item_ok (d := d) hN hd h hi hfi (stop_tail os r) ct (n + 1) (by omega) (by simp)
      rw [itemTail, List.cons_append, List.append_assoc, afterItem, ifF (by decide)]
      have hs : C.skip (S "," :: (t :: r' ++ (itemTail os ++ [')'] :: r))) =
          .ok () (t :: r' ++ (itemTail os ++ [')'] :: r)) := by
        simp [C.skip, C.nextRest, C.tok, ht1]
      rw [bind_ok hs, loop_eq]
      rw [List.cons_append] at hit ⊢
      rw [ifF ht2, bind_ok hit, List.foldl_cons]
      exact ih _ n (by simp at hn; omega)

theorem foldl_addItem {isNum : Str → Bool} {d : Rdbms} (is : List Item)
    (ct : List Column × TableConstraint) :
    is.foldl (addItem isNum d) ct =
      (ct.1 ++ is.filterMap (Item.column? isNum d),
       { primaryKey := ct.2.primaryKey ++ is.filterMap (Item.primaryKey? d)
         unique := ct.2.unique ++ is.filterMap (Item.unique? d)
         check := ct.2.check ++ is.filterMap (Item.check? d)
         foreignKey := ct.2.foreignKey ++ is.filterMap (Item.foreignKey? d) }) := by
  induction is generalizing ct with
  | nil => simp
  | cons i is ih =>
    have fm : ∀ {γ : Type} (f : Item → Option γ),
        (i :: is).filterMap f = (f i).toList ++ is.filterMap f := by
      intro γ f; rw [List.filterMap_cons]; cases f i <;> rfl
    rw [List.foldl_cons, ih]
    simp only [fm, addItem, List.append_assoc]

/-- What the grammars guarantee about a table. -/
def TableOk (t : TableAst) : Prop :=
  (∀ i ∈ t.items, ItemOk i) ∧
  (t.ifNotExists = false → ∀ x r, QName.toks t.name = x :: r → isKw ["IF"] x = false)

/-- A table definition. -/
theorem definition_ok [CaseMap] {isNum : Str → Bool} (hN : NumOK isNum) {d d' : Rdbms} (hd : Known d')
    {is : List Item} {o : List Str} (h : sepE (itemE isNum d') is o)
    (hok : ∀ i ∈ is, ItemOk i) (hf : ∀ i ∈ is, i.Faithful)
    (hx : ∀ i is', is = Item.exclude .absent :: i :: is' → False) (r : List Str)
    (n : Nat) (hn : o.length < n) :
    C.convertTableDefinition isNum d n (['('] :: (o ++ [')'] :: r)) =
      .ok (is.foldl (addItem isNum d) ([], {})) r := by
  obtain ⟨hne, os, hs, rfl⟩ := h
  unfold C.convertTableDefinition
  rw [bind_ok (skip_cons lpar_ne)]
  have key : C.tableDefinitionLoop isNum d n [] {} (joinComma os ++ [')'] :: r) =
      .ok (is.foldl (addItem isNum d) ([], {})) ([')'] :: r) := by
    cases hs with
    | nil => exact absurd rfl hne
    | @cons i o is os h hs =>
      obtain ⟨n, rfl⟩ : ∃ m, n = m + 1 := ⟨n - 1, by omega⟩
      have hi := hok i (by simp)
      have hfi := hf i (by simp)
      rw [joinComma_tail] at hn ⊢
      rw [List.length_append] at hn
      rw [List.append_assoc]
      have le := loop_eq isNum d n ([], {})
      simp only at le
      rw [le]
      rcases itemE_head h hi hfi with ⟨rfl, rfl⟩ | ⟨t, r', rfl, ht1, ht2⟩
      · cases hs with
        | nil =>
          simp only [itemTail, List.nil_append]
          rw [ifT (isKw_rpar.2 rfl)]
          simp [CM.pure, addItem, Item.column?, Item.primaryKey?, Item.unique?, Item.check?,
            Item.foreignKey?]
        | @cons i' o' is os h' hs => exact (hx _ _ rfl).elim
      · have hit := item_ok (d := d) hN hd h hi hfi (stop_tail os r) ([], {}) (n + 1)
          (by omega) (by simp)
        rw [List.cons_append] at hit ⊢
        rw [ifF ht2, bind_ok hit, List.foldl_cons]
        exact after_ok hN hd hs (fun i hi => hok i (by simp [hi])) (fun i hi => hf i (by simp [hi]))
          r _ n (by simp at hn; omega)
  rw [bind_ok key, bind_ok (skip_cons rpar_ne)]
  rfl

/-- A table. -/
theorem table_ok [CaseMap] {isNum : Str → Bool} (hN : NumOK isNum) {d d' : Rdbms} (hd : Known d')
    {t : TableAst} {o : List Str} (h : tableE d' (itemE isNum d') t o) (hok : TableOk t)
    (hf : t.Faithful) (r : List Str) (n : Nat) (hn : o.length < n) :
    C.convertTable isNum d n (o ++ r) = .ok (tableVal isNum d t) r := by
  obtain ⟨tb, oi, oits, h1, h2, h3, h4, rfl⟩ := h
  unfold C.convertTable C.convertTableName
  simp only [List.cons_append, List.append_assoc, List.nil_append, List.length_cons,
    List.length_append] at hn ⊢
  rw [bind_ok (skip_cons (by decide)), bind_ok (skip_kw h1 (by decide))]
  have hdef := definition_ok (d := d) hN hd h4 hok.1 hf.1 hf.2 (S ";" :: r) n (by omega)
  generalize hrest : ['('] :: (oits ++ [')'] :: S ";" :: r) = rest at hdef ⊢
  rw [bind_ok (a := t.ifNotExists) (s' := QName.toks t.name ++ rest)]
  · rw [bind_ok (a := ((t.name.schema.map (nameVal d)).getD [], nameVal d t.name.name))
      (s' := rest)]
    · rw [bind_ok hdef, bind_ok (a := ()) (s' := r), foldl_addItem]
      · simp [CM.pure, tableVal]
      · rw [ifT (by decide)]; exact skip_cons (by decide)
    · cases hs : t.name.schema with
      | none =>
        simp only [QName.toks, hs, List.cons_append, List.nil_append, Option.map_none,
          Option.getD_none]
        rw [bind_ok (convertName_name h3.1)]
        subst hrest
        exact ifF (by decide)
      | some s =>
        simp only [QName.toks, hs, List.cons_append, List.nil_append, Option.map_some,
          Option.getD_some]
        rw [bind_ok (convertName_name (h3.2 s hs)), ifT (by decide),
          bind_ok (skip_cons (by decide)), bind_ok (convertName_name h3.1)]
        rfl
  · cases hine : t.ifNotExists with
    | true =>
      rw [hine] at h2
      obtain ⟨i, x, e, hi, hx, he, rfl⟩ := h2
      simp only [List.cons_append, List.nil_append]
      rw [ifT hi, bind_ok (skip_kw hi (by decide)), bind_ok (skip_kw hx (by decide)),
        bind_ok (skip_kw he (by decide))]
      rfl
    | false =>
      rw [hine] at h2
      cases h2
      have := hok.2 hine
      rw [List.nil_append]
      cases hq : QName.toks t.name with
      | nil => unfold QName.toks at hq; split at hq <;> cases hq
      | cons x xs => exact ifF (this x xs hq)

/-- What the grammars guarantee about a script. -/
def ScriptOk (ss : List Stmt) : Prop := ∀ t, Stmt.table t ∈ ss → TableOk t

/-- The converter on what the validator kept. -/
theorem convert_ok [CaseMap] {isNum : Str → Bool} (hN : NumOK isNum) {d d' : Rdbms} (hd : Known d')
    {ss : List Stmt} {o : List Str} (h : scriptE isNum d' ss o) (hok : ScriptOk ss)
    (hf : Faithful ss) (acc : List Table) (n : Nat) (hn : o.length < n) :
    C.convert isNum d n acc o = .ok (acc ++ tablesVal isNum d ss) [] := by
  obtain ⟨os, h, rfl⟩ := h
  induction h generalizing acc n with
  | nil =>
    obtain ⟨n, rfl⟩ : ∃ m, n = m + 1 := ⟨n - 1, by omega⟩
    simp [C.convert, C.ifM, C.isOutOfRange, CM.bind, CM.pure, tablesVal]
  | @cons s o ss os h hs ih =>
    have ih := ih (fun t ht => hok t (by simp [ht])) (fun t ht => hf t (by simp [ht]))
    rw [List.flatten_cons, List.length_append] at hn
    obtain ⟨n, rfl⟩ : ∃ m, n = m + 1 := ⟨n - 1, by omega⟩
    cases s with
    | other =>
      cases h
      rw [List.flatten_cons, List.nil_append, ih acc (n + 1) (by omega)]
      simp [tablesVal]
    | table t =>
      have ht := table_ok (d := d) hN hd h (hok t (by simp)) (hf t (by simp)) os.flatten (n + 1)
        (by omega)
      have hl : 0 < o.length := by obtain ⟨_, _, _, _, _, _, _, rfl⟩ := h; simp
      have hne : (o ++ os.flatten).isEmpty = false := by
        cases o with
        | nil => simp at hl
        | cons x o => rfl
      rw [List.flatten_cons, C.convert]
      have : ∀ (p q : CM (List Table)), C.ifM C.isOutOfRange p q (o ++ os.flatten) =
          q (o ++ os.flatten) := by
        intro p q; simp only [C.ifM, C.isOutOfRange, CM.bind, hne, cond_false]
      rw [this, bind_ok ht, ih _ n (by omega)]
      simp [tablesVal]

end Conv
end DDL
