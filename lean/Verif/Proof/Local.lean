import Verif.Spec.Obs
/-
Every phrase of the grammars looks at no more than one token beyond its end; statements look at
none.
-/

namespace DDL
open Spec

/-- The phrase depends only on its own tokens and the next one. -/
class Loc (L : Lang β) : Prop where
  loc : ∀ {ts v r}, L ts v r → ∃ p, ts = p ++ r ∧ ∀ r', r'.head? = r.head? → L (p ++ r') v r'

/-- The phrase is not empty and depends only on its own tokens. -/
class LocE (L : Lang β) : Prop where
  locE : ∀ {ts v r}, L ts v r → ∃ p, p ≠ [] ∧ ts = p ++ r ∧ ∀ r', L (p ++ r') v r'

instance (L : Lang β) [h : LocE L] : Loc L where
  loc h' := by obtain ⟨p, _, h1, h2⟩ := h.locE h'; exact ⟨p, h1, fun r' _ => h2 r'⟩

instance (v : β) : Loc (pure v : Lang β) where
  loc := by rintro ts v' r ⟨rfl, rfl⟩; exact ⟨[], rfl, fun r' _ => ⟨rfl, rfl⟩⟩

theorem head_append {p r r' : List Str} (h : r'.head? = r.head?) :
    (p ++ r').head? = (p ++ r).head? := by cases p <;> simp [h]

instance Loc.bind (L : Lang α) (f : α → Lang β) [hL : Loc L] [hf : ∀ a, Loc (f a)] :
    Loc (L >>= f) where
  loc := by
    rintro ts w r ⟨v, mid, h1, h2⟩
    obtain ⟨p, rfl, h3⟩ := hL.loc h1
    obtain ⟨p', rfl, h4⟩ := (hf v).loc h2
    refine ⟨p ++ p', by simp, fun r' hr => ⟨v, p' ++ r', ?_, h4 r' hr⟩⟩
    have := h3 (p' ++ r') (head_append hr)
    simpa using this

instance LocE.bind (L : Lang α) (f : α → Lang β) [hL : Loc L] [hf : ∀ a, LocE (f a)] :
    LocE (L >>= f) where
  locE := by
    rintro ts w r ⟨v, mid, h1, h2⟩
    obtain ⟨p, rfl, h3⟩ := hL.loc h1
    obtain ⟨p', hp', rfl, h4⟩ := (hf v).locE h2
    refine ⟨p ++ p', by simp [hp'], by simp, fun r' => ⟨v, p' ++ r', ?_, h4 r'⟩⟩
    have := h3 (p' ++ r') (by cases p' with | nil => exact (hp' rfl).elim | cons => rfl)
    simpa using this

instance LocE.map (L : Lang α) (g : α → β) [hL : LocE L] :
    LocE (L >>= fun v => (pure (g v) : Lang β)) where
  locE := by
    rintro ts w r ⟨v, mid, h1, rfl, rfl⟩
    obtain ⟨p, hp, h2, h3⟩ := hL.locE h1
    exact ⟨p, hp, h2, fun r' => ⟨v, r', h3 r', rfl, rfl⟩⟩

instance Loc.alt (L M : Lang β) [hL : Loc L] [hM : Loc M] : Loc (L <|> M) where
  loc := by
    rintro ts v r (h | h)
    · obtain ⟨p, h1, h2⟩ := hL.loc h; exact ⟨p, h1, fun r' hr => .inl (h2 r' hr)⟩
    · obtain ⟨p, h1, h2⟩ := hM.loc h; exact ⟨p, h1, fun r' hr => .inr (h2 r' hr)⟩

instance LocE.alt (L M : Lang β) [hL : LocE L] [hM : LocE M] : LocE (L <|> M) where
  locE := by
    rintro ts v r (h | h)
    · obtain ⟨p, hp, h1, h2⟩ := hL.locE h; exact ⟨p, hp, h1, fun r' => .inl (h2 r')⟩
    · obtain ⟨p, hp, h1, h2⟩ := hM.locE h; exact ⟨p, hp, h1, fun r' => .inr (h2 r')⟩

instance Loc.such (L : Lang β) (P : β → Prop) [hL : Loc L] : Loc (L.such P) where
  loc := by
    rintro ts v r ⟨h, hp⟩
    obtain ⟨p, h1, h2⟩ := hL.loc h; exact ⟨p, h1, fun r' hr => ⟨h2 r' hr, hp⟩⟩

instance (P : Str → Prop) : LocE (tok P) where
  locE := by rintro ts v r ⟨rfl, h⟩; exact ⟨[v], by simp, rfl, fun r' => ⟨rfl, h⟩⟩

instance (ks : List String) : LocE (kw ks) where
  locE := by
    rintro ts v r ⟨t, m, ⟨rfl, h⟩, rfl, rfl⟩
    exact ⟨[t], by simp, rfl, fun r' => ⟨t, r', ⟨rfl, h⟩, rfl, rfl⟩⟩

instance (ks : List String) : Loc (at_ ks) where
  loc := by
    rintro ts v r ⟨rfl, t, r, rfl, h⟩
    refine ⟨[], rfl, fun r' hr => ⟨rfl, ?_⟩⟩
    cases r' with
    | nil => simp at hr
    | cons t' r' => simp at hr; subst hr; exact ⟨t', r', rfl, h⟩

instance (ks : List String) : Loc (notAt ks) where
  loc := by
    rintro ts v r ⟨rfl, h⟩
    refine ⟨[], rfl, fun r' hr => ⟨rfl, ?_⟩⟩
    rintro t r'' rfl
    cases r with
    | nil => simp at hr
    | cons t' r => simp at hr; subst hr; exact h t r rfl

instance (ks : List String) (L : Lang β) [Loc L] : Loc (optKw ks L) := by
  unfold optKw; infer_instance

instance (ks : List String) : Loc (optWord ks) := by unfold optWord; infer_instance

instance (ks : List String) (L : Lang β) [hL : Loc L] : Loc (Many ks L) where
  loc := by
    intro ts v r h
    induction h with
    | nil h =>
      obtain ⟨p, h1, h2⟩ := Loc.loc h
      refine ⟨[], rfl, fun r' hr => .nil ?_⟩
      have : p = [] := by simpa using h1
      subst this; exact h2 r' hr
    | @cons ts v mid vs rest hk h _ ih =>
      obtain ⟨p', rfl, h4⟩ := ih
      obtain ⟨p, rfl, h2⟩ := hL.loc h
      refine ⟨p ++ p', by simp, fun r' hr => ?_⟩
      have hm := h2 (p' ++ r') (head_append hr)
      rw [List.append_assoc]
      refine .cons ?_ hm (h4 r' hr)
      obtain ⟨q, e, h5⟩ := Loc.loc hk
      have : q = [] := by simpa using e
      subst this
      exact h5 _ (head_append (head_append hr))

instance (L : Lang β) [hL : Loc L] : Loc (Sep L) where
  loc := by
    intro ts v r h
    induction h with
    | one h hn =>
      obtain ⟨p, rfl, h2⟩ := hL.loc h
      refine ⟨p, rfl, fun r' hr => .one (h2 r' hr) ?_⟩
      obtain ⟨q, e, h5⟩ := Loc.loc hn
      have : q = [] := by simpa using e
      subst this
      exact h5 _ hr
    | @cons ts v mid mid' vs rest h hc _ ih =>
      obtain ⟨p', rfl, h4⟩ := ih
      obtain ⟨p, rfl, h2⟩ := hL.loc h
      obtain ⟨q, hq, rfl, h3⟩ := LocE.locE hc
      refine ⟨p ++ (q ++ p'), by simp, fun r' hr => ?_⟩
      have hm := h2 (q ++ (p' ++ r')) (head_append (head_append hr))
      rw [List.append_assoc, List.append_assoc]
      exact .cons hm (h3 _) (h4 r' hr)

instance : LocE parens where
  locE := by
    rintro ts v r ⟨e, h, rfl, rfl⟩
    exact ⟨_, by simp, rfl, fun r' => ⟨e, h, rfl, rfl⟩⟩

instance : LocE posInt where
  locE := by
    rintro ts v r ⟨t, rfl, h⟩
    exact ⟨[t], by simp, rfl, fun r' => ⟨t, rfl, h⟩⟩

instance : LocE Body where
  locE := by
    intro ts v r h
    induction h with
    | stop h =>
      obtain ⟨p, hp, h1, h2⟩ := LocE.locE h
      exact ⟨p, hp, h1, fun r' => .stop (h2 r')⟩
    | plain ht hb _ ih =>
      obtain ⟨p, _, rfl, h2⟩ := ih
      exact ⟨_ :: p, by simp, rfl, fun r' => .plain ht hb (h2 r')⟩
    | @block b inner e ts rest hb hs he _ ih =>
      obtain ⟨p, _, rfl, h2⟩ := ih
      refine ⟨b :: inner ++ e :: p, by simp, by simp, fun r' => ?_⟩
      have := Body.block hb hs he (h2 r')
      simpa using this

instance (L : Lang Unit) [hL : Loc L] : Loc (Options L) where
  loc := by
    intro ts v r h
    induction h with
    | @stop ts h =>
      refine ⟨[], rfl, fun r' hr => .stop ?_⟩
      rcases h with h | rfl
      · obtain ⟨q, e, h5⟩ := Loc.loc h
        have : q = [] := by simpa using e
        subst this
        exact .inl (h5 _ hr)
      · right; cases r' with
        | nil => rfl
        | cons => simp at hr
    | @more ts b mid mid' rest hn hc h _ ih =>
      obtain ⟨p3, rfl, h3⟩ := ih
      obtain ⟨p2, rfl, h2⟩ := hL.loc h
      obtain ⟨p1, rfl, h1⟩ := Loc.loc hc
      refine ⟨p1 ++ (p2 ++ p3), by simp, fun r' hr => ?_⟩
      rw [List.append_assoc, List.append_assoc]
      refine .more ?_ (h1 (p2 ++ (p3 ++ r')) (head_append (head_append hr)))
        (h2 (p3 ++ r') (head_append hr)) (h3 r' hr)
      obtain ⟨q, e, h5⟩ := Loc.loc hn
      have : q = [] := by simpa using e
      subst this
      exact h5 _ (head_append (head_append (head_append hr)))

set_option synthInstance.maxSize 4000
set_option synthInstance.maxHeartbeats 400000
set_option maxHeartbeats 800000

instance (d : Rdbms) : LocE (name d) := by unfold name; infer_instance
instance (isNum : Str → Bool) (d : Rdbms) : LocE (literal isNum d) := by
  unfold literal; infer_instance
instance (d : Rdbms) : LocE (string d) := by unfold string; infer_instance
instance (d : Rdbms) : Loc (qname d) where
  loc := by
    rintro ts w r ⟨a, m, h1, b, m', h2, h3⟩
    obtain ⟨p, _, rfl, g1⟩ := LocE.locE h1
    obtain ⟨p', rfl, g2⟩ := Loc.loc h2
    have e : r = m' := by cases b <;> exact h3.2
    subst e
    refine ⟨p ++ p', by simp, fun r' hr => ?_⟩
    rw [List.append_assoc]
    refine ⟨a, p' ++ r', g1 _, b, r', g2 r' hr, ?_⟩
    cases b <;> exact ⟨h3.1, rfl⟩
instance (d : Rdbms) : Loc (names d) := by unfold names; infer_instance
instance (d : Rdbms) : LocE (nameList d) := by unfold nameList; infer_instance
instance : Loc ifNotExists := by unfold ifNotExists; infer_instance
instance (d : Rdbms) : Loc (conName d) where
  loc := by
    rintro ts w r ⟨b, m', h2, h3⟩
    obtain ⟨p', rfl, g2⟩ := Loc.loc h2
    have e : r = m' := by cases b <;> exact h3.2
    subst e
    refine ⟨p', by simp, fun r' hr => ⟨b, r', g2 r' hr, ?_⟩⟩
    cases b <;> exact ⟨h3.1, rfl⟩
instance (isNum : Str → Bool) (d : Rdbms) : Loc (defaultValue isNum d) := by
  unfold defaultValue; infer_instance
instance : Loc onAction := by unfold onAction; infer_instance
instance : Loc refClauses := by unfold refClauses; infer_instance
instance (d : Rdbms) : Loc (colRef d) := by unfold colRef; infer_instance
instance (d : Rdbms) (n : ConName) : Loc (foreignKey d n) := by unfold foreignKey; infer_instance
instance (ks : List String) (L : Lang ColCon) [Loc L] : Loc (colCons ks L) := by
  unfold colCons; infer_instance
instance : Loc digitN := by unfold digitN; infer_instance
instance : Loc digitPS := by unfold digitPS; infer_instance
instance (kinds : List String) : LocE (other kinds) := by unfold other; infer_instance
instance (d : Rdbms) (item : Lang Item) (options : Lang Unit) [Loc item] [Loc options] :
    LocE (createTable d item options) := by unfold createTable; infer_instance

namespace Spec.Sqlite
instance : Loc conflict := by unfold conflict; infer_instance
instance : Loc refClauses := by unfold refClauses; infer_instance
instance (isNum : Str → Bool) : Loc (colCon isNum) := by unfold colCon; infer_instance
instance (isNum : Str → Bool) : Loc (column isNum) := by unfold column; infer_instance
instance (n : ConName) : Loc (tableCon n) := by unfold tableCon; infer_instance
instance (isNum : Str → Bool) : Loc (item isNum) := by unfold item; infer_instance
instance : Loc options := by unfold options; infer_instance
instance (isNum : Str → Bool) : LocE (stmt isNum) := by unfold stmt; infer_instance
end Spec.Sqlite

namespace Spec.Postgres
instance : Loc zone := by unfold zone; infer_instance
instance : Loc type := by unfold type; infer_instance
instance : Loc indexParams := by unfold indexParams; infer_instance
instance : Loc optParens := by unfold optParens; infer_instance
instance : Loc generated := by unfold generated; infer_instance
instance : Loc check := by unfold check; infer_instance
instance (isNum : Str → Bool) : Loc (colCon isNum) := by unfold colCon; infer_instance
instance (isNum : Str → Bool) : Loc (column isNum) := by unfold column; infer_instance
instance (n : ConName) : Loc (tableCon n) := by unfold tableCon; infer_instance
instance (isNum : Str → Bool) : Loc (item isNum) := by unfold item; infer_instance
instance : Loc option := by unfold option; infer_instance
instance (isNum : Str → Bool) : LocE (stmt isNum) := by unfold stmt; infer_instance
end Spec.Postgres

namespace Spec.Mysql
instance : Loc zone := by unfold zone; infer_instance
instance : Loc type := by unfold type; infer_instance
instance : Loc keyPart := by unfold keyPart; infer_instance
instance : Loc keyList := by unfold keyList; infer_instance
instance : Loc check := by unfold check; infer_instance
instance (isNum : Str → Bool) : Loc (colCon isNum) := by unfold colCon; infer_instance
instance (ks : List String) : Loc (conName ks) where
  loc := by
    rintro ts w r ⟨b, m', h2, h3⟩
    obtain ⟨p', rfl, g2⟩ := Loc.loc h2
    have e : r = m' := by match b with
      | none => exact h3.2
      | some none => exact h3.2
      | some (some _) => exact h3.2
    subst e
    refine ⟨p', by simp, fun r' hr => ⟨b, r', g2 r' hr, ?_⟩⟩
    match b with
      | none => exact ⟨h3.1, rfl⟩
      | some none => exact ⟨h3.1, rfl⟩
      | some (some _) => exact ⟨h3.1, rfl⟩
instance (isNum : Str → Bool) : Loc (column isNum) := by unfold column; infer_instance
instance : Loc indexType := by unfold indexType; infer_instance
instance (isNum : Str → Bool) : Loc (indexOptions isNum) := by unfold indexOptions; infer_instance
instance (ks : List String) : Loc (nameUnless ks) := by unfold nameUnless; infer_instance
instance (isNum : Str → Bool) (n : ConName) : Loc (tableCon isNum n) := by
  unfold tableCon; infer_instance
instance (isNum : Str → Bool) : Loc (item isNum) := by unfold item; infer_instance
instance (isNum : Str → Bool) : Loc (option isNum) := by unfold option; infer_instance
instance (isNum : Str → Bool) : LocE (stmt isNum) := by unfold stmt; infer_instance
end Spec.Mysql

instance (isNum : Str → Bool) (d : Rdbms) : LocE (stmtOf isNum d) := by
  cases d <;> simp only [stmtOf] <;> infer_instance

/-- Scripts can be put one after the other. -/
theorem Script.append {stmt : Lang Stmt} [h : LocE stmt] {a b : List Str} {sa sb : List Stmt}
    (ha : Script stmt a sa) (hb : Script stmt b sb) : Script stmt (a ++ b) (sa ++ sb) := by
  induction ha with
  | nil => exact hb
  | cons h1 _ ih =>
    obtain ⟨p, _, rfl, h2⟩ := h.locE h1
    rw [List.append_assoc, List.cons_append]
    exact .cons (h2 _) ih

end DDL
