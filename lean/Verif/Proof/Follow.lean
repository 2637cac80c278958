import Verif.Spec.Order
import Verif.Proof.AstFacts
import Verif.Proof.Local
/-
What may follow a phrase: the words a phrase looks for beyond its end.
-/

namespace DDL
open Spec Conv

/-- The next token is the same, or none of the words. -/
def Same (F : List String) (r r' : List Str) : Prop := r'.head? = r.head? ∨ notAt F r' () r'

theorem Same.mono {F G : List String} (h : ∀ k ∈ F, k ∈ G) {r r' : List Str} (hs : Same G r r') : Same F r r' :=
  hs.imp id fun h' => ⟨rfl, fun t x e hk => h'.2 t x e (Kw.mono h hk)⟩

theorem Same.left {F G : List String} {r r' : List Str} (h : Same (F ++ G) r r') : Same F r r' :=
  h.mono fun _ hk => List.mem_append_left _ hk

theorem Same.right {F G : List String} {r r' : List Str} (h : Same (F ++ G) r r') : Same G r r' :=
  h.mono fun _ hk => List.mem_append_right _ hk

theorem Same.append {F : List String} (p : List Str) {r r' : List Str} (h : Same F r r') : Same F (p ++ r) (p ++ r') := by
  cases p with
  | nil => exact h
  | cons => exact .inl rfl

theorem Same.ne {F : List String} {p : List Str} (hp : p ≠ []) {r r' : List Str} : Same F (p ++ r) (p ++ r') := by
  cases p with
  | nil => exact (hp rfl).elim
  | cons => exact .inl rfl

/-- The phrase depends only on its own tokens, the next one, and of that only whether it is one of
the words. -/
class Fol (L : Lang β) (F : outParam (List String)) : Prop where
  fol : ∀ {ts v r}, L ts v r → ∃ p, ts = p ++ r ∧ ∀ r', Same F r r' → L (p ++ r') v r'

instance (priority := 2000) folE (L : Lang β) [h : LocE L] : Fol L [] where
  fol h' := by obtain ⟨p, _, h1, h2⟩ := h.locE h'; exact ⟨p, h1, fun r' _ => h2 r'⟩

instance folPure (v : β) : Fol (pure v : Lang β) [] where
  fol := by rintro ts v' r ⟨rfl, rfl⟩; exact ⟨[], rfl, fun r' _ => ⟨rfl, rfl⟩⟩

instance folBind (L : Lang α) (f : α → Lang β) (F G : List String) [hL : Fol L F] [hf : ∀ a, Fol (f a) G] :
    Fol (L >>= f) (F ++ G) where
  fol := by
    rintro ts w r ⟨v, mid, h1, h2⟩
    obtain ⟨p, rfl, h3⟩ := hL.fol h1
    obtain ⟨p', rfl, h4⟩ := (hf v).fol h2
    refine ⟨p ++ p', by simp, fun r' hr => ⟨v, p' ++ r', ?_, h4 r' hr.right⟩⟩
    have := h3 (p' ++ r') (hr.left.append _)
    simpa using this

/-- A lookahead at a phrase that is not empty. -/
instance (priority := high) folAt (ks : List String) (M : Lang α) (f : α → Lang β) (G : List String) [hM : LocE M]
    [hf : ∀ a, Fol (f a) G] : Fol (at_ ks >>= fun _ => M >>= f) G where
  fol := by
    rintro ts w r ⟨_, _, ⟨rfl, t, x, e, ht⟩, v, mid, h1, h2⟩
    obtain ⟨p, hp, rfl, h3⟩ := hM.locE h1
    obtain ⟨p', rfl, h4⟩ := (hf v).fol h2
    refine ⟨p ++ p', by simp, fun r' hr => ⟨(), _, ⟨rfl, ?_⟩, v, p' ++ r', ?_, h4 r' hr⟩⟩
    · cases p with
      | nil => exact (hp rfl).elim
      | cons a p => cases e; exact ⟨_, _, rfl, ht⟩
    · have := h3 (p' ++ r')
      simpa using this

instance folAlt (L M : Lang β) (F G : List String) [hL : Fol L F] [hM : Fol M G] : Fol (L <|> M) (F ++ G) where
  fol := by
    rintro ts v r (h | h)
    · obtain ⟨p, h1, h2⟩ := hL.fol h; exact ⟨p, h1, fun r' hr => .inl (h2 r' hr.left)⟩
    · obtain ⟨p, h1, h2⟩ := hM.fol h; exact ⟨p, h1, fun r' hr => .inr (h2 r' hr.right)⟩

instance folNotAt (ks : List String) : Fol (notAt ks) ks where
  fol := by
    rintro ts v r ⟨rfl, h⟩
    refine ⟨[], rfl, fun r' hr => ⟨rfl, ?_⟩⟩
    rintro t r'' rfl
    rcases hr with hr | hr
    · cases r with
      | nil => simp at hr
      | cons t' r => simp at hr; subst hr; exact h t r rfl
    · exact hr.2 t r'' rfl

instance folOptKw (ks : List String) (L : Lang β) (F : List String) [hL : Fol L F] : Fol (optKw ks L) (F ++ ks) where
  fol := by
    intro ts v r h
    obtain ⟨p, h1, h2⟩ := Fol.fol (L := (do kw ks; let v ← L; return some v) <|> (do notAt ks; return none)) h
    exact ⟨p, h1, fun r' hr => h2 r' (hr.mono (by simp))⟩

instance folOptWord (ks : List String) : Fol (optWord ks) ks where
  fol := by
    intro ts v r h
    obtain ⟨p, h1, h2⟩ := Fol.fol (L := (do kw ks; return true) <|> (do notAt ks; return false)) h
    exact ⟨p, h1, fun r' hr => h2 r' (hr.mono (by simp))⟩

theorem fol_many {ks : List String} {L : Lang β} {F : List String} [hL : Fol L F] (hc : Cons L) :
    Fol (Many ks L) (ks ++ F) where
  fol := by
    intro ts v r h
    induction h with
    | nil h =>
      refine ⟨[], rfl, fun r' hr => .nil ?_⟩
      obtain ⟨p, h1, h2⟩ := Fol.fol h
      have : p = [] := by simpa using h1
      subst this; exact h2 r' hr.left
    | @cons ts v mid vs rest hk h _ ih =>
      obtain ⟨p', rfl, h4⟩ := ih
      have hlen := (hc _ _ _ h).2
      obtain ⟨p, rfl, h2⟩ := hL.fol h
      refine ⟨p ++ p', by simp, fun r' hr => ?_⟩
      have hm := h2 (p' ++ r') (hr.right.append _)
      rw [List.append_assoc]
      refine .cons ?_ hm (h4 r' hr)
      cases p with
      | nil => simp at hlen
      | cons a p =>
        obtain ⟨_, t, x, e, ht⟩ := hk
        cases e
        exact ⟨rfl, _, _, rfl, ht⟩

instance folQname (d : Rdbms) : Fol (qname d) ["."] where
  fol := by
    rintro ts w r ⟨a, m, h1, b, m', h2, h3⟩
    obtain ⟨p, _, rfl, g1⟩ := LocE.locE h1
    obtain ⟨p', rfl, g2⟩ := Fol.fol h2
    have e : r = m' := by cases b <;> exact h3.2
    subst e
    refine ⟨p ++ p', by simp, fun r' hr => ?_⟩
    rw [List.append_assoc]
    refine ⟨a, p' ++ r', g1 _, b, r', g2 r' hr, ?_⟩
    cases b <;> exact ⟨h3.1, rfl⟩

instance folConName (d : Rdbms) : Fol (conName d) ["CONSTRAINT"] where
  fol := by
    rintro ts w r ⟨b, m', h2, h3⟩
    obtain ⟨p', rfl, g2⟩ := Fol.fol h2
    have e : r = m' := by cases b <;> exact h3.2
    subst e
    refine ⟨p', by simp, fun r' hr => ⟨b, r', g2 r' hr, ?_⟩⟩
    cases b <;> exact ⟨h3.1, rfl⟩

/-- A phrase looks for no more words than its definition. -/
theorem Fol.unfold' {L M : Lang β} {F : List String} (e : L = M) [h : Fol M F] : Fol L F := e ▸ h

theorem Fol.mono {L : Lang β} {F G : List String} (h : Fol L F) (hk : ∀ k ∈ F, k ∈ G) : Fol L G where
  fol h' := by obtain ⟨p, h1, h2⟩ := h.fol h'; exact ⟨p, h1, fun r' hr => h2 r' (hr.mono hk)⟩

set_option synthInstance.maxSize 4000
set_option synthInstance.maxHeartbeats 400000

instance (isNum : Str → Bool) (d : Rdbms) : Fol (defaultValue isNum d) ["("] :=
  Fol.mono (by unfold defaultValue; infer_instance) (by decide)

instance : LocE onAction := by unfold onAction; infer_instance

instance folRef : Fol refClauses ["ON", "MATCH"] := by
  have hc : Cons ((do kw ["ON"]; onAction) <|> (do kw ["MATCH"]; kw ["SIMPLE", "PARTIAL", "FULL"]) : Lang Unit) :=
    .alt (.kw_bind .onAction) (.kw_bind (.kw _))
  have := fol_many (ks := ["ON", "MATCH"]) hc
  refine Fol.mono (F := ((["ON", "MATCH"] ++ ([] ++ [])) ++ [])) ?_ (by decide)
  unfold refClauses
  infer_instance

instance (d : Rdbms) : Fol (colRef d) [".", "("] :=
  Fol.mono (by unfold colRef; infer_instance) (by decide)

instance folDigitN : Fol digitN ["("] := Fol.mono (by unfold digitN; infer_instance) (by decide)
instance folDigitPS : Fol digitPS ["("] := Fol.mono (by unfold digitPS; infer_instance) (by decide)

/-! ### The constraints of a column -/

/-- The next token is a word that may follow. -/
theorem same_of {W F : List String} {r r' : List Str} {t : Str} {x : List Str} (e : r' = t :: x) (hW : Kw W t)
    (h : ∀ t ∈ kwList W, ¬ Kw F t) : Same F r r' :=
  .inr ⟨rfl, fun _ _ e' hk => by rw [e] at e'; cases e'; exact kw_disj hW h hk⟩

theorem same_but {W N F : List String} {r r' : List Str} {t : Str} {x : List Str} (e : r' = t :: x) (hW : Kw W t)
    (hN : ¬ Kw N t) (h : ∀ t ∈ kwList W, Kw F t → Kw N t) : Same F r r' :=
  .inr ⟨rfl, fun _ _ e' hk => by
    rw [e] at e'; cases e'
    exact hN (forall_kw (P := fun t => Kw F t → Kw N t) h (isKw_kw.2 hW) hk)⟩

theorem fol_at {L : Lang β} {F : List String} [hL : Fol L F] {x r r' : List Str} {v : β} (h : L (x ++ r) v r)
    (hs : Same F r r') : L (x ++ r') v r' := by
  obtain ⟨p, e, h2⟩ := hL.fol h
  cases List.append_cancel_right e
  exact h2 r' hs

namespace Spec.Sqlite
instance : Fol conflict ["ON"] := Fol.mono (by unfold conflict; infer_instance) (by decide)

instance folRef : Fol refClauses ["ON", "MATCH", "NOT", "DEFERRABLE", "INITIALLY"] := by
  have hc : Cons ((do kw ["ON"]; onAction) <|>
     (do kw ["MATCH"]; kw ["SIMPLE", "PARTIAL", "FULL"]) <|>
     (do let _ ← optWord ["NOT"]
         kw ["DEFERRABLE"]
         let _ ← optKw ["INITIALLY"] (kw ["DEFERRED", "IMMEDIATE"])
         return ()) : Lang Unit) := by
    refine .alt (.kw_bind .onAction) (.alt (.kw_bind (.kw _)) ?_)
    rintro ts v r ⟨_, m, h1, h2⟩
    have h3 := (Suff.optWord _) _ _ _ h1
    have h4 : Cons (do kw ["DEFERRABLE"]; let _ ← optKw ["INITIALLY"] (kw ["DEFERRED", "IMMEDIATE"]); return () : Lang Unit) :=
      .kw_bind ((Suff.optKw _ (.kw _)).bind fun _ => .pure _)
    have h5 := h4 _ _ _ h2
    exact ⟨h5.1.trans h3, Nat.lt_of_lt_of_le h5.2 h3.length_le⟩
  have := fol_many (ks := ["ON", "MATCH", "NOT", "DEFERRABLE"]) hc
  exact Fol.mono (by unfold refClauses; infer_instance) (by decide)
end Spec.Sqlite

namespace Spec.Postgres
instance : Fol indexParams ["INCLUDE", "WITH", "USING"] := Fol.mono (by unfold indexParams; infer_instance) (by decide)
instance : Fol optParens ["("] := Fol.mono (by unfold optParens; infer_instance) (by decide)
instance : Fol generated ["("] := Fol.mono (by unfold generated; infer_instance) (by decide)
instance : Fol check ["NO"] := Fol.mono (by unfold check; infer_instance) (by decide)
instance : Fol zone ["WITH", "WITHOUT"] := Fol.mono (by unfold zone; infer_instance) (by decide)
instance : Fol type ["VARYING", "(", "WITH", "WITHOUT"] := Fol.mono (by unfold type; infer_instance) (by decide)
end Spec.Postgres

namespace Spec.Mysql
instance : Fol zone ["WITH", "WITHOUT"] := Fol.mono (by unfold zone; infer_instance) (by decide)
instance : Fol type ["(", "WITH", "WITHOUT"] := Fol.mono (by unfold type; infer_instance) (by decide)
instance : Fol check ["NOT", "ENFORCED"] := Fol.mono (by unfold check; infer_instance) (by decide)
end Spec.Mysql

end DDL
