import Verif.Proof.ConvHang
/-
Fuel beyond the number of tokens makes no difference to the converter, not even when it times out.
-/

namespace DDL
open V Spec Conv C

/-- The converter does not put tokens back. -/
class CShort (f : CM α) : Prop where
  out : ∀ s a r, f s = .ok a r → r.length ≤ s.length

/-- The converter reads a token if there is one. -/
class CEat (f : CM α) : Prop where
  out : ∀ s a r, s ≠ [] → f s = .ok a r → r.length < s.length

/-- `f` and `g` agree on fewer than `k` tokens. -/
class CStab (k : Nat) (f g : CM α) : Prop where
  out : ∀ s, s.length < k → f s = g s

/-- `f` and `g` agree on fewer than `k` tokens, but at least one. -/
class CStab1 (k : Nat) (f g : CM α) : Prop where
  out : ∀ s, s ≠ [] → s.length < k → f s = g s

theorem nextRest_le (s : List Str) : (nextRest s).length ≤ s.length := by
  induction s with
  | nil => simp [nextRest]
  | cons a r ih => unfold nextRest; split <;> simp <;> omega

theorem nextRest_lt {s : List Str} (h : s ≠ []) : (nextRest s).length < s.length := by
  cases s with
  | nil => exact absurd rfl h
  | cons a r =>
    have := nextRest_le r
    unfold nextRest; split <;> simp <;> omega

theorem cbind_ok {f : CM α} {g : α → CM β} {s a r} (h : f.bind g s = .ok a r) :
    ∃ b m, f s = .ok b m ∧ g b m = .ok a r := by
  unfold CM.bind at h
  cases hf : f s with
  | ok b m => rw [hf] at h; exact ⟨b, m, rfl, h⟩
  | _ => rw [hf] at h; cases h

instance CShort.bind {f : CM α} {g : α → CM β} [hf : CShort f] [hg : ∀ a, CShort (g a)] :
    CShort (f.bind g) := ⟨fun s a r h => by
  obtain ⟨b, m, h1, h2⟩ := cbind_ok h
  exact Nat.le_trans ((hg b).out _ _ _ h2) (hf.out _ _ _ h1)⟩

instance CShort.cond {b : Bool} {p q : CM α} [CShort p] [CShort q] : CShort (cond b p q) := by
  cases b <;> assumption

instance CShort.ifM {c : CM Bool} {p q : CM α} [CShort c] [CShort p] [CShort q] :
    CShort (C.ifM c p q) := CShort.bind (hg := fun _ => CShort.cond)

instance CShort.pure (a : α) : CShort (CM.pure a) := ⟨by rintro s a r ⟨⟩; exact Nat.le_refl _⟩
instance CShort.zero : CShort (C.timeout : CM α) := ⟨by rintro s a r ⟨⟩⟩
instance : CShort C.skip := ⟨by rintro s a r ⟨⟩; exact nextRest_le _⟩
instance : CShort C.next := ⟨by rintro s a r ⟨⟩; exact nextRest_le _⟩
instance : CShort C.token := ⟨by rintro s a r ⟨⟩; exact Nat.le_refl _⟩
instance : CShort C.isOutOfRange := ⟨by rintro s a r ⟨⟩; exact Nat.le_refl _⟩
instance (ks : List String) : CShort (C.matchToken ks) := ⟨by rintro s a r ⟨⟩; exact Nat.le_refl _⟩
instance (t : Str) : CShort (C.headChar t) := ⟨by
  rintro s a r h
  unfold headChar at h
  split at h
  · cases h
  · cases h; exact Nat.le_refl _⟩
instance (t : Str) : CShort (C.inner t) := ⟨by
  rintro s a r h
  unfold inner at h
  split at h
  · cases h
  · cases h; exact Nat.le_refl _⟩

instance CEat.skip_bind {g : Unit → CM β} [hg : ∀ a, CShort (g a)] : CEat (C.skip.bind g) :=
  ⟨fun s a r hs h => by
    obtain ⟨b, m, h1, h2⟩ := cbind_ok h
    cases h1
    exact Nat.lt_of_le_of_lt ((hg _).out _ _ _ h2) (nextRest_lt hs)⟩

theorem CStab.zero (f g : CM α) : CStab 0 f g := ⟨fun _ h => absurd h (Nat.not_lt_zero _)⟩

instance (priority := low) CStab.refl (k : Nat) (f : CM α) : CStab k f f := ⟨fun _ _ => rfl⟩

instance CStab.bind {k : Nat} {f f' : CM α} {g g' : α → CM β} [CShort f] [hf : CStab k f f']
    [hg : ∀ a, CStab k (g a) (g' a)] : CStab k (f.bind g) (f'.bind g') := ⟨fun s hs => by
  unfold CM.bind
  rw [← hf.out s hs]
  cases h : f s with
  | ok a r => exact (hg a).out r (Nat.lt_of_le_of_lt (CShort.out s a r h) hs)
  | _ => rfl⟩

instance CStab.cond {k : Nat} {b : Bool} {p p' q q' : CM α} [CStab k p p'] [CStab k q q'] :
    CStab k (cond b p q) (cond b p' q') := by cases b <;> assumption

instance CStab.ifM {k : Nat} {c : CM Bool} {p p' q q' : CM α} [CShort c] [CStab k p p'] [CStab k q q'] :
    CStab k (C.ifM c p q) (C.ifM c p' q') := CStab.bind (hg := fun _ => CStab.cond)

instance (priority := low) CStab1.refl (k : Nat) (f : CM α) : CStab1 k f f := ⟨fun _ _ _ => rfl⟩

instance CStab1.skip {k : Nat} {g g' : Unit → CM β} [hg : ∀ a, CStab k (g a) (g' a)] :
    CStab1 (k + 1) (C.skip.bind g) (C.skip.bind g') := ⟨fun s hs hl =>
  (hg ()).out (nextRest s) (by have := nextRest_lt hs; omega)⟩

instance CStab1.next {k : Nat} {g g' : Str → CM β} [hg : ∀ a, CStab k (g a) (g' a)] :
    CStab1 (k + 1) (C.next.bind g) (C.next.bind g') := ⟨fun s hs hl =>
  (hg (tok s)).out (nextRest s) (by have := nextRest_lt hs; omega)⟩

instance CStab1.token {k : Nat} {g g' : Str → CM β} [hg : ∀ a, CStab1 k (g a) (g' a)] :
    CStab1 k (C.token.bind g) (C.token.bind g') := ⟨fun s hs hl => (hg (tok s)).out s hs hl⟩

instance CStab1.ifM {k : Nat} {ks : List String} {p p' q q' : CM α} [hp : CStab1 k p p'] [hq : CStab1 k q q'] :
    CStab1 k (C.ifM (C.matchToken ks) p q) (C.ifM (C.matchToken ks) p' q') := ⟨fun s hs hl => by
  show (cond (isKw ks (tok s)) p q) s = (cond (isKw ks (tok s)) p' q') s
  cases isKw ks (tok s)
  · exact hq.out s hs hl
  · exact hp.out s hs hl⟩

theorem CStab1.bindEat {k : Nat} {f f' : CM α} {g g' : α → CM β} (he : CEat f) (hf : CStab1 (k + 1) f f')
    (hg : ∀ a, CStab k (g a) (g' a)) : CStab1 (k + 1) (f.bind g) (f'.bind g') := ⟨fun s hs hl => by
  unfold CM.bind
  rw [← hf.out s hs hl]
  cases h : f s with
  | ok a r => exact (hg a).out r (by have := he.out s a r hs h; omega)
  | _ => rfl⟩

/-- Agreement without tokens, and with some. -/
theorem CStab.of1 {k : Nat} {f g : CM α} (h0 : f [] = g []) (h : CStab1 k f g) : CStab k f g := ⟨fun s hs => by
  cases s with
  | nil => exact h0
  | cons a r => exact h.out _ (by simp) hs⟩

namespace C

set_option synthInstance.maxHeartbeats 200000
set_option synthInstance.maxSize 1024

instance (d : Rdbms) : CShort (convertName d) := by unfold convertName; infer_instance
instance (d : Rdbms) : CShort (convertTableName d) := by unfold convertTableName; infer_instance
instance : CShort convertTypeDigit := by unfold convertTypeDigit; infer_instance
instance [CaseMap] : CShort convertDateType := by unfold convertDateType; infer_instance
instance [CaseMap] (isNum : Str → Bool) (d : Rdbms) : CShort (convertLiteralValue isNum d) := by
  unfold convertLiteralValue; infer_instance

instance convertExprAux_short (n : Nat) : CShort (convertExprAux n) := by
  induction n with
  | zero => exact CShort.zero
  | succ n ih => unfold convertExprAux; infer_instance

theorem convertExprAux_nil (n : Nat) : convertExprAux n [] = .timeout := by
  induction n with
  | zero => rfl
  | succ n ih =>
    show ((convertExprAux n).bind fun b => CM.pure (EOF ++ b)) [] = _
    unfold CM.bind
    rw [ih]

instance convertExprAux_stab (n : Nat) : CStab n (convertExprAux n) (convertExprAux (n + 1)) := by
  induction n with
  | zero => exact CStab.zero _ _
  | succ n ih =>
    refine CStab.of1 (by rw [convertExprAux_nil, convertExprAux_nil]) ?_
    rw [convertExprAux, convertExprAux]
    infer_instance

instance (n : Nat) : CShort (convertExpr n) := by unfold convertExpr; infer_instance
instance (n : Nat) : CStab n (convertExpr n) (convertExpr (n + 1)) := by unfold convertExpr; infer_instance
instance [CaseMap] (isNum : Str → Bool) (d : Rdbms) (n : Nat) : CShort (convertDefaultValue isNum d n) := by
  unfold convertDefaultValue; infer_instance
instance [CaseMap] (isNum : Str → Bool) (d : Rdbms) (n : Nat) :
    CStab n (convertDefaultValue isNum d n) (convertDefaultValue isNum d (n + 1)) := by
  unfold convertDefaultValue; infer_instance

instance columnNamesLoop_short (n : Nat) (ls : List Str) : CShort (columnNamesLoop n ls) := by
  induction n generalizing ls with
  | zero => exact CShort.zero
  | succ n ih => unfold columnNamesLoop; infer_instance

theorem columnNamesLoop_nil (n : Nat) (ls : List Str) : columnNamesLoop n ls [] = .timeout := by
  induction n generalizing ls with
  | zero => rfl
  | succ n ih => exact ih _

instance columnNamesLoop_stab (n : Nat) (ls : List Str) :
    CStab n (columnNamesLoop n ls) (columnNamesLoop (n + 1) ls) := by
  induction n generalizing ls with
  | zero => exact CStab.zero _ _
  | succ n ih =>
    refine CStab.of1 (by rw [columnNamesLoop_nil, columnNamesLoop_nil]) ?_
    rw [columnNamesLoop, columnNamesLoop]
    infer_instance

instance (n : Nat) : CShort (convertCommaSeparatedColumnNames n) := by
  unfold convertCommaSeparatedColumnNames; infer_instance
instance (n : Nat) : CStab n (convertCommaSeparatedColumnNames n) (convertCommaSeparatedColumnNames (n + 1)) := by
  unfold convertCommaSeparatedColumnNames; infer_instance
instance (d : Rdbms) (n : Nat) : CShort (convertReference d n) := by
  unfold convertReference; infer_instance
instance convertReference_eat (d : Rdbms) (n : Nat) : CEat (convertReference d n) := by
  unfold convertReference; infer_instance
instance (d : Rdbms) (n : Nat) : CStab n (convertReference d n) (convertReference d (n + 1)) := by
  unfold convertReference; infer_instance
instance convertReference_stab1 (d : Rdbms) (n : Nat) :
    CStab1 (n + 1) (convertReference d n) (convertReference d (n + 1)) := by
  unfold convertReference; infer_instance

instance convertConstraintAux_short [CaseMap] (isNum : Str → Bool) (d : Rdbms) (n : Nat) (con : Constraint) :
    CShort (convertConstraintAux isNum d n con) := by
  induction n generalizing con with
  | zero => exact CShort.zero
  | succ n ih => unfold convertConstraintAux; infer_instance

theorem convertConstraintAux_nil [CaseMap] (isNum : Str → Bool) (d : Rdbms) (n : Nat) (con : Constraint) :
    convertConstraintAux isNum d (n + 1) con [] = .ok con [] := rfl

instance convertConstraintAux_stab [CaseMap] (isNum : Str → Bool) (d : Rdbms) (n : Nat) (con : Constraint) :
    CStab n (convertConstraintAux isNum d n con) (convertConstraintAux isNum d (n + 1) con) := by
  induction n generalizing con with
  | zero => exact CStab.zero _ _
  | succ n ih =>
    refine CStab.of1 rfl ?_
    rw [convertConstraintAux, convertConstraintAux]
    have : CStab1 (n + 1)
        ((convertReference d n).bind fun r => convertConstraintAux isNum d n { con with references := r })
        ((convertReference d (n + 1)).bind fun r => convertConstraintAux isNum d (n + 1) { con with references := r }) :=
      CStab1.bindEat (convertReference_eat d n) (convertReference_stab1 d n) fun _ => ih _
    infer_instance

instance [CaseMap] (isNum : Str → Bool) (d : Rdbms) (n : Nat) : CShort (convertConstraint isNum d n) := by
  unfold convertConstraint; infer_instance
instance [CaseMap] (isNum : Str → Bool) (d : Rdbms) (n : Nat) :
    CStab n (convertConstraint isNum d n) (convertConstraint isNum d (n + 1)) := by
  unfold convertConstraint; infer_instance
instance [CaseMap] (isNum : Str → Bool) (d : Rdbms) (n : Nat) : CShort (convertColumnDefinition isNum d n) := by
  unfold convertColumnDefinition; infer_instance
instance [CaseMap] (isNum : Str → Bool) (d : Rdbms) (n : Nat) :
    CStab n (convertColumnDefinition isNum d n) (convertColumnDefinition isNum d (n + 1)) := by
  unfold convertColumnDefinition; infer_instance
instance (d : Rdbms) (n : Nat) (tc : TableConstraint) : CShort (convertTableConstraint d n tc) := by
  unfold convertTableConstraint; infer_instance
instance (d : Rdbms) (n : Nat) (tc : TableConstraint) :
    CStab n (convertTableConstraint d n tc) (convertTableConstraint d (n + 1) tc) := by
  unfold convertTableConstraint; infer_instance

instance tableDefinitionLoop_short [CaseMap] (isNum : Str → Bool) (d : Rdbms) (n : Nat) (cols : List Column)
    (tc : TableConstraint) : CShort (tableDefinitionLoop isNum d n cols tc) := by
  induction n generalizing cols tc with
  | zero => exact CShort.zero
  | succ n ih => unfold tableDefinitionLoop; infer_instance

theorem skip_stab {k : Nat} {f f' : CM α} (h : CStab (k + 1) f f') {g g' : α → Unit → CM β}
    {q : α → CM β} (hf : CShort f)
    (hg : ∀ a b, CStab k (g a b) (g' a b)) : CStab1 (k + 1)
      (f.bind fun a => ifM (matchToken [")"]) (q a) (skip.bind (g a)))
      (f'.bind fun a => ifM (matchToken [")"]) (q a) (skip.bind (g' a))) := ⟨fun s hs hl => by
  unfold CM.bind
  rw [← h.out s hl]
  cases hr : f s with
  | ok a r =>
    show (cond (isKw [")"] (tok r)) (q a) (skip.bind (g a))) r = (cond (isKw [")"] (tok r)) (q a) (skip.bind (g' a))) r
    cases isKw [")"] (tok r) with
    | true => rfl
    | false =>
      refine (hg a ()).out (nextRest r) ?_
      have h1 := hf.out _ _ _ hr
      have h2 := List.length_pos_iff.2 hs
      by_cases hn : r = []
      · subst hn; show 0 < k; omega
      · have := nextRest_lt hn; omega
  | _ => rfl⟩

instance tableDefinitionLoop_stab [CaseMap] (isNum : Str → Bool) (d : Rdbms) (n : Nat) (cols : List Column)
    (tc : TableConstraint) : CStab n (tableDefinitionLoop isNum d n cols tc)
      (tableDefinitionLoop isNum d (n + 1) cols tc) := by
  induction n generalizing cols tc with
  | zero => exact CStab.zero _ _
  | succ n ih =>
    refine CStab.of1 (by rw [loop_nil, loop_nil]) ?_
    rw [tableDefinitionLoop, tableDefinitionLoop]
    exact @CStab1.ifM _ _ _ _ _ _ _ _ (skip_stab inferInstance inferInstance fun _ _ => ih _ _)

instance [CaseMap] (isNum : Str → Bool) (d : Rdbms) (n : Nat) : CShort (convertTableDefinition isNum d n) := by
  unfold convertTableDefinition; infer_instance
instance [CaseMap] (isNum : Str → Bool) (d : Rdbms) (n : Nat) :
    CStab n (convertTableDefinition isNum d n) (convertTableDefinition isNum d (n + 1)) := by
  unfold convertTableDefinition; infer_instance
instance [CaseMap] (isNum : Str → Bool) (d : Rdbms) (n : Nat) : CShort (convertTable isNum d n) := by
  unfold convertTable; infer_instance
instance [CaseMap] (isNum : Str → Bool) (d : Rdbms) (n : Nat) : CEat (convertTable isNum d n) := by
  unfold convertTable; infer_instance
instance convertTable_stab [CaseMap] (isNum : Str → Bool) (d : Rdbms) (n : Nat) :
    CStab n (convertTable isNum d n) (convertTable isNum d (n + 1)) := by
  unfold convertTable; infer_instance

theorem convert_nil [CaseMap] (isNum : Str → Bool) (d : Rdbms) (n : Nat) (acc : List Table) :
    convert isNum d (n + 1) acc [] = .ok acc [] := by rw [convert]; rfl

theorem convert_stab [CaseMap] (isNum : Str → Bool) (d : Rdbms) (n : Nat) (acc : List Table) :
    CStab n (convert isNum d n acc) (convert isNum d (n + 1) acc) := by
  induction n generalizing acc with
  | zero => exact CStab.zero _ _
  | succ n ih =>
    refine CStab.of1 (by rw [convert_nil, convert_nil]) ⟨fun s hs hl => ?_⟩
    have e : s.isEmpty = false := by cases s <;> simp_all
    have : ∀ m, convert isNum d (m + 1) acc s = ((convertTable isNum d (m + 1)).bind fun t => convert isNum d m (acc ++ [t])) s := by
      intro m
      rw [convert]
      show (cond s.isEmpty (CM.pure acc) _) s = _
      rw [e]; rfl
    rw [this, this]
    exact (CStab1.bindEat inferInstance ⟨fun s _ h => (convertTable_stab isNum d (n + 1)).out s h⟩ fun _ => ih _).out s hs hl

/-- With as much fuel as tokens, a timeout is final. -/
theorem convert_final [CaseMap] (isNum : Str → Bool) (d : Rdbms) {n m : Nat} (h : n ≤ m) (s : List Str) (hs : s.length < n) :
    convert isNum d n [] s = convert isNum d m [] s := by
  induction h with
  | refl => rfl
  | step hm ih => rw [ih]; exact (convert_stab isNum d _ []).out s (Nat.lt_of_lt_of_le hs hm)

end C
end DDL
