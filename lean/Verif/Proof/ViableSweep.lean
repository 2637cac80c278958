import Verif.Proof.Viable
import Lean.Elab.Tactic
/-
Every function of the three validators stops only where the tokens read so far cannot be completed.
-/

namespace DDL
open V Spec Via

/-- Close `a = b` by computation in the kernel. -/
elab "krfl" : tactic => do
  let g ← Lean.Elab.Tactic.getMainGoal
  g.withContext do
    let t ← Lean.instantiateMVars (← g.getType)
    if t.hasExprMVar then throwError "krfl: metavariables in {t}"
    let some (_, a, b) := t.eq? | throwError "krfl: not an equation"
    match Lean.Kernel.isDefEq (← Lean.getEnv) (← Lean.getLCtx) a b with
    | .ok true => g.assign (← Lean.Meta.mkEqRefl a)
    | _ => throwError "krfl: {t}"

/-- Extended after each definition below. -/
syntax "via_lem" : tactic
macro_rules | `(tactic| via_lem) => `(tactic| fail)

macro "via_step" : tactic => `(tactic| first
  | with_reducible exact ret
  | with_reducible exact fail
  | with_reducible exact set _
  | with_reducible refine tok _ _ ?_
  | with_reducible refine skip _ _ ?_
  | with_reducible exact validateName_via _ _ _
  | with_reducible exact validateLiteralValue_via (by assumption) _ _ _
  | with_reducible exact validatePositiveInteger_via _ _
  | via_lem
  | with_reducible apply altStep
  | with_reducible (apply altNextS; case hp => assumption)
  | with_reducible apply altNext
  | with_reducible apply alt
  | with_reducible (apply seqS (tok _ _ ?_); apply seq; rotate_left; assumption)
  | with_reducible (apply seqS; case hq => assumption)
  | with_reducible apply seq)

/-- Prove `Via` for an unfolded program. -/
macro "via" : tactic => `(tactic| ((try simp only [Prog.bind_eq, Prog.pure_eq]); (repeat' via_step); all_goals krfl))

/-- A family of programs and its information. -/
abbrev Fam (P : Nat → Prog Unit) := {i : Info // ∀ n, Via n (P n) P i}

/-- Information about loops, which are followed by one of `l`. -/
abbrev loopI (ne : Bool) (d : List Str) (l : List Str) : Info := ⟨ne, some d, fun t => l.contains t⟩

theorem Ev.ret {z : List Str} : Ev (fun _ => .ret ()) z z := ⟨0, fun _ _ => ⟨[], rfl⟩⟩

theorem Ev.no_match {P Q : Nat → Prog Unit} {ks : List String} {z r : List Str} {t : Str} (hz : hd z = t)
    (hk : isKw ks t = false) (h : Ev Q z r) : Ev (fun n => ifM (matchToken ks) (P n) (Q n)) z r :=
  h.congr fun n => by rw [runA_if, if_neg (by rw [hz, hk]; decide)]

theorem Ev.no_next {P Q : Nat → Prog Unit} {set : Bool} {ks : List String} {z r : List Str} {t : Str} (hz : hd z = t)
    (hk : isKw ks t = false) (h : Ev Q z r) : Ev (fun n => ifM (matchTokenNext set ks) (P n) (Q n)) z r := by
  simp only [ifM_next]
  exact h.congr fun n => by rw [runA_if, if_neg (by rw [hz, hk]; decide)]

/-- A name that may be left out in front of some words, after a word that may be left out as well. -/
theorem optName (set : Bool) (ks ks' : List String) (a r : Prog Unit) :
    ((ifM (matchTokenNext set ks) (ifM (matchToken ks') (.ret ()) a) (.ret ())).bind fun _ => r) =
      ifM (matchTokenNext set ks) (ifM (matchToken ks') r (a.bind fun _ => r)) r := by
  unfold ifM
  rw [Prog.bind_assoc]
  congr 1
  funext b
  cases b
  · rfl
  · simp only [_root_.cond]
    rw [Prog.bind_assoc]
    congr 1
    funext b
    cases b <;> rfl

/-- A choice, where the first program reads something in front of the words. -/
theorem Via.altNe {k : Nat} {p q : Prog Unit} {P Q : Nat → Prog Unit} {i j : Info} (ks : List String)
    (hp : Via k p P i) (hq : Via k q Q j)
    (h : ∀ ts r o, GoodL ts → isKw ks (hd ts) = true → runA p ts = .ok () r o → r.length < ts.length) :
    Via k (ifM (matchToken ks) p q) (fun n => ifM (matchToken ks) (P n) (Q n))
      ⟨j.ne, (altI ks i j).d, (altI ks i j).f⟩ := by
  refine { alt ks hp hq with ne := fun hi ts r o hg e => ?_ }
  rw [runA_if] at e
  split at e
  · rename_i hk; exact h _ _ _ hg hk e
  · exact hq.ne hi _ _ _ hg e

/-- A list with commas. -/
theorem commaLoop {one X : Nat → Prog Unit} (set : Bool) (h0 : X 0 = .timeout)
    (hX : ∀ n, X (n + 1) = (one (n + 1)).bind fun _ => ifM (matchTokenNext set [","]) (X n) (.ret ()))
    (v : Fam one) (d : List Str) (ok : (v.1.d == some d && (v.1.ne && v.1.f (S ")"))) = true)
    (okd : (!d.isEmpty) = true) (n : Nat) :
    Via n (X n) X (loopI true d [S ")"]) := by
  simp only [Bool.and_eq_true, beq_iff_eq] at ok
  induction n with
  | zero =>
    rw [h0]
    refine zero ?_
    rintro d' ⟨⟩
    obtain ⟨h1, h2⟩ := (v.2 0).dflt d ok.1
    refine ⟨h1, fun z hz hf => Ev.shift ?_⟩
    have hz' := hd_only hf
    simp only [hX]
    exact ((h2 z hz (by rw [hz']; exact ok.2.2)).unshift).bind (Ev.no_next hz' (by decide) Ev.ret)
  | succ n ih =>
    refine Via.shift ?_
    simp only [hX]
    have hseq : seqOk (tokI [","]) (loopI true d [S ")"]) = true := by
      cases d with
      | nil => simp at okd
      | cons a l => rfl
    have hn := altNextS (k := n) set [","] ih ret (by
      unfold nextOk
      rw [hseq]; decide)
    have ha : altI [","] (seqI (tokI [","]) (loopI true d [S ")"])) retI =
        ⟨false, some [], fun t => (loopI true d [S ")"]).f t && true && !isKw [","] t⟩ := by
      cases d with
      | nil => simp at okd
      | cons a l => rfl
    rw [ha] at hn
    refine (seq (v.2 (n + 1)).unshift hn rfl).weaken (fun _ => ?_) ?_ ?_
    · simp only [seqI, ok.2.1, Bool.true_or]
    · rintro d' ⟨⟩
      simp only [seqI, ok.1, List.append_nil]
    · intro t ht
      have : t = S ")" := by simpa using ht
      subst this
      simp only [seqI, ok.2.2]
      decide

namespace V

def validateBrackets_v (set : Bool) : Fam fun n => validateBrackets n set := ⟨parenI, validateBrackets_via set⟩
macro_rules | `(tactic| via_lem) => `(tactic| with_reducible first
  | exact (validateBrackets_v _).2 _ | exact Via.unshift ((validateBrackets_v _).2 _))

def validateExpr_v (set : Bool) : Fam fun n => validateExpr n set := by
  constructor; intro n; unfold validateExpr; via
macro_rules | `(tactic| via_lem) => `(tactic| with_reducible first
  | exact (validateExpr_v _).2 _ | exact Via.unshift ((validateExpr_v _).2 _))

def validateTableName_v (d : Rdbms) (set : Bool) : Fam fun _ => validateTableName d set := by
  constructor; intro n; unfold validateTableName; via
macro_rules | `(tactic| via_lem) => `(tactic| with_reducible exact (validateTableName_v _ _).2 _)

def validateCommaSeparatedColumnNames_v (d : Rdbms) (set : Bool) :
    Fam fun n => validateCommaSeparatedColumnNames d set n :=
  ⟨_, fun n => commaLoop (one := fun _ => validateName d set) set rfl (fun _ => rfl)
    ⟨_, validateName_via d set⟩ [S "cc"] (by krfl) (by krfl) n⟩
macro_rules | `(tactic| via_lem) => `(tactic| with_reducible first
  | exact (validateCommaSeparatedColumnNames_v _ _).2 _ | exact Via.unshift ((validateCommaSeparatedColumnNames_v _ _).2 _))

def validateIfNotExists_v : Fam fun _ => validateIfNotExists := by
  constructor; intro n; unfold validateIfNotExists; via
macro_rules | `(tactic| via_lem) => `(tactic| with_reducible exact validateIfNotExists_v.2 _)

def validateTypeDigitN_v (set : Bool) : Fam fun _ => validateTypeDigitN set := by
  constructor; intro n; unfold validateTypeDigitN; via
macro_rules | `(tactic| via_lem) => `(tactic| with_reducible exact (validateTypeDigitN_v _).2 _)

def validateTypeDigitPS_v (set : Bool) : Fam fun _ => validateTypeDigitPS set := by
  constructor; intro n; unfold validateTypeDigitPS; via
macro_rules | `(tactic| via_lem) => `(tactic| with_reducible exact (validateTypeDigitPS_v _).2 _)

theorem nullZero {X : Nat → Prog Unit} (h : ∀ z, hd z = S ")" → Ev (fun n => X (n + 1)) z z) :
    Via 0 .timeout X (loopI false [] [S ")"]) := by
  refine zero ?_
  rintro d ⟨⟩
  exact ⟨by simp, fun z _ hf => Ev.shift (h z (hd_only hf))⟩

/-- Evaluate a loop in front of `)`. -/
macro "null_all" : tactic => `(tactic| repeat first
  | with_reducible refine Ev.no_next (by assumption) (by decide) ?_
  | with_reducible refine Ev.no_match (by assumption) (by decide) ?_
  | with_reducible exact Ev.ret)

def validateConstraintReferencesAux_v : Fam fun n => validateConstraintReferencesAux n := by
  refine ⟨loopI false [] [S ")"], fun n => ?_⟩
  induction n with
  | zero => refine nullZero fun z hz => ?_; unfold validateConstraintReferencesAux; null_all
  | succ n ih =>
    refine Via.shift ?_
    unfold validateConstraintReferencesAux
    apply Via.fix
    all_goals via
macro_rules | `(tactic| via_lem) => `(tactic| with_reducible first
  | exact validateConstraintReferencesAux_v.2 _ | exact Via.unshift (validateConstraintReferencesAux_v.2 _))

theorem columnConstraintsAux_via {isKind : List String} {key : Str → Str} {one : Nat → Prog Unit} (v : Fam one)
    (ok : (v.1.ne && v.1.f (S ")") && !isKw isKind (S ")")) = true) (n : Nat) (ls : List Str) :
    Via n (columnConstraintsAux isKind key one n ls) (fun n => columnConstraintsAux isKind key one n ls)
      (loopI false [] [S ")"]) := by
  simp only [Bool.and_eq_true, Bool.not_eq_true'] at ok
  induction n generalizing ls with
  | zero =>
    refine nullZero fun z hz => ?_
    unfold columnConstraintsAux
    exact Ev.no_match hz ok.2 Ev.ret
  | succ n ih =>
    refine Via.shift ?_
    unfold columnConstraintsAux
    simp only [Prog.bind_eq]
    have hb : Via (n + 1) (.token fun t => _root_.cond (contains ls (key t)) syntaxError
        ((one (n + 1)).bind fun _ => columnConstraintsAux isKind key one n (ls ++ [key t])))
        (fun n => .token fun t => _root_.cond (contains ls (key t)) syntaxError
        ((one (n + 1)).bind fun _ => columnConstraintsAux isKind key one n (ls ++ [key t])))
        ⟨true, none, fun t => [S ")"].contains t⟩ := by
      refine Via.token fun t => Via.cond _ (fail.weaken (fun e => e) (fun _ e => e) fun _ _ => rfl) ?_
      refine (seqS (v.2 (n + 1)).unshift (ih _) ok.1.1 rfl).weaken (fun _ => ?_) (fun _ e => ?_) (fun t ht => ?_)
      · simp only [seqI, ok.1.1, Bool.true_or]
      · cases e
      · have : t = S ")" := by simpa using ht
        subst this
        simp only [seqI, ok.1.2]
        decide
    refine (alt isKind hb ret).weaken (fun e => ?_) (fun _ e => e) (fun t ht => ?_)
    · cases e
    · have : t = S ")" := by simpa using ht
      subst this
      show ([S ")"].contains (S ")") && true && !isKw isKind (S ")")) = true
      rw [ok.2]; rfl

theorem kwSub {ks ks' : List String} {t : Str} (h : ∀ k ∈ ks, k ∈ ks') (ht : isKw ks t = true) :
    isKw ks' t = true := by
  simp only [isKw, contains, List.any_eq_true, List.mem_append, List.mem_map, beq_iff_eq] at ht ⊢
  obtain ⟨s, ⟨k, hk, e⟩ | ⟨k, hk, e⟩, rfl⟩ := ht
  · exact ⟨s, .inl ⟨k, h k hk, e⟩, rfl⟩
  · exact ⟨s, .inr ⟨k, h k hk, e⟩, rfl⟩

theorem columnConstraintsAux_eats {isKind ks : List String} {key : Str → Str} {one : Nat → Prog Unit} (v : Fam one)
    (ok : v.1.ne = true) (hk : ∀ k ∈ ks, k ∈ isKind) (n : Nat) (ls : List Str)
    (ts r o : List Str) (hg : GoodL ts) (hd' : isKw ks (hd ts) = true)
    (h : runA (columnConstraintsAux isKind key one n ls) ts = .ok () r o) : r.length < ts.length := by
  cases n with
  | zero => cases h
  | succ n =>
    unfold columnConstraintsAux at h
    rw [runA_if, if_pos (kwSub hk hd')] at h
    replace h : runA (_root_.cond (contains ls (key (hd ts))) syntaxError ((one (n + 1)).bind fun _ =>
      columnConstraintsAux isKind key one n (ls ++ [key (hd ts)]))) ts = .ok () r o := h
    cases hc : contains ls (key (hd ts)) with
    | true => rw [hc] at h; cases h
    | false =>
      rw [hc] at h
      obtain ⟨⟨⟩, m, o1, o2, h1, h2, rfl⟩ := Cost.of_bind h
      have l1 := (v.2 (n + 1)).ne ok _ _ _ hg h1
      have l2 := ((runA_suffix _ _).1 _ _ _ h2).length_le
      omega

/-- Information about the body of a statement other than `CREATE TABLE`. -/
def otherI (b : Bool) : Info := ⟨true, some (if b then [S "END", S ";"] else [S ";"]), fun _ => true⟩

theorem createOther_nil (n : Nat) (b : Bool) : runA (createOtherLoop (n + 1) b) [] = .fail [] := by
  rw [createOtherLoop, runA_oob]
  simp only [List.isEmpty_nil, if_true, syntaxError, runA]

theorem createOther_cons (n : Nat) (b : Bool) (t : Str) (ts : List Str) :
    runA (createOtherLoop (n + 1) b) (t :: ts) =
      if (b || isKw ["BEGIN"] t) = true then runA (createOtherLoop n (!isKw ["END"] t)) ts
      else if isKw [";"] t = true then .ok () ts [] else runA (createOtherLoop n false) ts := by
  rw [createOtherLoop, runA_oob, if_neg (by simp), runA_match]
  simp only [runA_cond, List.headD_cons]
  cases hbb : (b || isKw ["BEGIN"] t) with
  | true =>
    simp only [if_true, runA_match, runA_seq, runA_next, ResA.andThen, List.tail_cons,
      keep_false, ResA.pre_nil, List.headD_cons]
  | false =>
    rw [if_neg (by simp), if_neg (by simp), runA_if]
    show (if isKw [";"] t = true then _ else _) = _
    by_cases h : isKw [";"] t = true
    · rw [if_pos h, if_pos h, runA_validateToken]; simp only [if_pos h]; rfl
    · rw [if_neg h, if_neg h]
      simp only [runA_seq, runA_next, ResA.andThen, List.tail_cons, keep_false, ResA.pre_nil]

theorem createOtherLoop_via (n : Nat) (b : Bool) :
    Via n (createOtherLoop n b) (fun n => createOtherLoop n b) (otherI b) := by
  -- accepting an end
  have dfl : ∀ b z, Ev (fun n => createOtherLoop n b) ((if b then [S "END", S ";"] else [S ";"]) ++ z) z := by
    intro b z
    cases b
    · refine ⟨1, fun n hn => ⟨[], ?_⟩⟩
      obtain ⟨m, rfl⟩ : ∃ m, n = m + 1 := ⟨n - 1, by omega⟩
      show runA (createOtherLoop (m + 1) false) (S ";" :: z) = _
      rw [createOther_cons, if_neg (by decide), if_pos (by decide)]
    · refine ⟨2, fun n hn => ⟨[], ?_⟩⟩
      obtain ⟨m, rfl⟩ : ∃ m, n = m + 2 := ⟨n - 2, by omega⟩
      show runA (createOtherLoop (m + 1 + 1) true) (S "END" :: S ";" :: z) = _
      rw [createOther_cons, if_pos (by decide), createOther_cons, if_neg (by decide), if_pos (by decide)]
  -- one step
  have step : ∀ b t ts r, Ev (fun n => createOtherLoop n (if (b || isKw ["BEGIN"] t) = true then !isKw ["END"] t else false)) ts r →
      ¬ ((b || isKw ["BEGIN"] t) = false ∧ isKw [";"] t = true) → Ev (fun n => createOtherLoop n b) (t :: ts) r := by
    intro b t ts r h hn
    obtain ⟨N, h⟩ := h
    refine Ev.shift ⟨N, fun n hN => ?_⟩
    obtain ⟨o, h⟩ := h n hN
    refine ⟨o, ?_⟩
    show runA (createOtherLoop (n + 1) b) (t :: ts) = _
    rw [← h]
    rw [createOther_cons]
    split
    · rfl
    · rename_i hb
      rw [if_neg (fun h => hn ⟨by simpa using hb, h⟩)]
  have stop' : ∀ b t z, (b || isKw ["BEGIN"] t) = false → isKw [";"] t = true →
      Ev (fun n => createOtherLoop n b) (t :: z) z := by
    intro b t z hb h
    refine ⟨1, fun n hn => ⟨[], ?_⟩⟩
    obtain ⟨m, rfl⟩ : ∃ m, n = m + 1 := ⟨n - 1, by omega⟩
    show runA (createOtherLoop (m + 1) b) (t :: z) = _
    rw [createOther_cons, if_neg (by simp [hb]), if_pos h]
  -- every answer is explained by what was read
  have main : ∀ n b ts, (∀ r o, runA (createOtherLoop n b) ts = .ok () r o → ∃ p, p ≠ [] ∧ ts = p ++ r ∧
        ∀ z, Ev (fun n => createOtherLoop n b) (p ++ z) z) ∧
      (∀ r, runA (createOtherLoop n b) ts = .fail r → r = [] ∧ ∃ b', ∀ z r, Ev (fun n => createOtherLoop n b') z r →
        Ev (fun n => createOtherLoop n b) (ts ++ z) r) ∧
      (ts.length < n → runA (createOtherLoop n b) ts ≠ .timeout) := by
    intro n
    induction n with
    | zero => exact fun b ts => ⟨fun _ _ h => (by cases h), fun _ h => (by cases h), fun h => (by omega)⟩
    | succ n ih =>
      intro b ts
      cases ts with
      | nil =>
        rw [createOther_nil]
        refine ⟨fun _ _ h => (by cases h), fun r h => ?_, fun _ h => (by cases h)⟩
        cases h
        exact ⟨rfl, b, fun z r h => h⟩
      | cons t ts =>
        by_cases hs : (b || isKw ["BEGIN"] t) = false ∧ isKw [";"] t = true
        · rw [createOther_cons, if_neg (by simp [hs.1]), if_pos hs.2]
          refine ⟨fun r o h => ?_, fun _ h => (by cases h), fun _ h => (by cases h)⟩
          cases h
          exact ⟨[t], by simp, rfl, fun z => stop' b t z hs.1 hs.2⟩
        · have e : runA (createOtherLoop (n + 1) b) (t :: ts) =
              runA (createOtherLoop n (if (b || isKw ["BEGIN"] t) = true then !isKw ["END"] t else false)) ts := by
            rw [createOther_cons]
            split
            · rfl
            · rename_i hb
              rw [if_neg (fun h => hs ⟨by simpa using hb, h⟩)]
          rw [e]
          obtain ⟨h1, h2, h3⟩ := ih (if (b || isKw ["BEGIN"] t) = true then !isKw ["END"] t else false) ts
          refine ⟨fun r o h => ?_, fun r h => ?_, fun hl => h3 (by simpa using hl)⟩
          · obtain ⟨p, _, rfl, hp⟩ := h1 r o h
            exact ⟨t :: p, by simp, rfl, fun z => step b t _ _ (hp z) hs⟩
          · obtain ⟨rfl, b', hb'⟩ := h2 r h
            exact ⟨rfl, b', fun z r hz => step b t _ _ (hb' z r hz) hs⟩
  refine ⟨?_, ?_, ?_, ?_, ?_, ?_⟩
  · intro ts r o _ h
    obtain ⟨p, _, rfl, hp⟩ := (main n b ts).1 r o h
    exact hp r
  · intro pre m o _ h _ z _ _
    obtain ⟨p, _, e, hp⟩ := (main n b _).1 m o h
    rw [List.append_cancel_right e]
    exact hp z
  · intro pre m _ h _
    obtain ⟨rfl, b', hb'⟩ := (main n b _).2.1 m h
    refine ⟨if b' then [S "END", S ";"] else [S ";"], by cases b' <;> decide, fun z _ _ => ?_⟩
    rw [List.append_nil] at hb'
    exact hb' _ _ (dfl b' z)
  · intro ts _ hl h
    exact absurd h ((main n b ts).2.2 hl)
  · rintro - ts r o _ h
    obtain ⟨p, hp, rfl, _⟩ := (main n b ts).1 r o h
    cases p with
    | nil => exact absurd rfl hp
    | cons => simp only [List.length_append, List.length_cons]; omega
  · rintro d ⟨⟩
    exact ⟨by cases b <;> decide, fun z _ _ => dfl b z⟩

macro_rules | `(tactic| via_lem) => `(tactic| with_reducible exact createOtherLoop_via _ _)

end V
end DDL
