import Verif.Proof.ParseFacts
import Verif.Spec.Alike
/-
Tokens that the validator and the converter cannot tell apart, and the primitive steps on them.
-/

namespace DDL
open V Spec

/-! ### Letter case -/

theorem toNat_inj {a b : Char} (h : a.toNat = b.toNat) : a = b :=
  Char.ext (UInt32.toNat.inj h)

theorem toNat_ofNat {n : Nat} (h : n < 0xd800) : (Char.ofNat n).toNat = n := by
  have hv : Nat.isValidChar n := .inl h
  unfold Char.ofNat
  rw [dif_pos hv]
  rfl

theorem upC_nat (c : Char) :
    (upC c).toNat = if 97 ≤ c.toNat ∧ c.toNat ≤ 122 then c.toNat - 32 else c.toNat := by
  unfold upC
  show (if 97 ≤ c.toNat ∧ c.toNat ≤ 122 then _ else _ : Char).toNat = _
  split
  · exact toNat_ofNat (by omega)
  · rfl

theorem lowC_nat (c : Char) :
    (lowC c).toNat = if 65 ≤ c.toNat ∧ c.toNat ≤ 90 then c.toNat + 32 else c.toNat := by
  unfold lowC
  show (if 65 ≤ c.toNat ∧ c.toNat ≤ 90 then _ else _ : Char).toNat = _
  split
  · exact toNat_ofNat (by omega)
  · rfl

theorem upC_upC (c : Char) : upC (upC c) = upC c := by
  apply toNat_inj; rw [upC_nat, upC_nat]; repeat' split
  all_goals omega

theorem upC_lowC (c : Char) : upC (lowC c) = upC c := by
  apply toNat_inj; rw [upC_nat, upC_nat, lowC_nat]; repeat' split
  all_goals omega

theorem lowC_upC (c : Char) : lowC (upC c) = lowC c := by
  apply toNat_inj; rw [lowC_nat, lowC_nat, upC_nat]; repeat' split
  all_goals omega

theorem toUpper_toUpper (t : Str) : toUpper (toUpper t) = toUpper t := by
  simp only [toUpper, List.map_map]; exact List.map_congr_left fun c _ => upC_upC c

theorem toUpper_toLower (t : Str) : toUpper (toLower t) = toUpper t := by
  simp only [toUpper, toLower, List.map_map]; exact List.map_congr_left fun c _ => upC_lowC c

theorem toLower_toUpper (t : Str) : toLower (toUpper t) = toLower t := by
  simp only [toUpper, toLower, List.map_map]; exact List.map_congr_left fun c _ => lowC_upC c

/-! ### Tokens -/

/-- What the validator and the converter of dialect `d` look at in a token. -/
structure AlikeV (d : Rdbms) (isNum : Str → Bool) (T : Str → Str → Prop) : Prop where
  eof : T EOF EOF
  lit : ∀ k ∈ grammarWords d, T (S k) (S k)
  kw : ∀ k ∈ grammarWords d, ∀ t t', T t t' → isKw [k] t = isKw [k] t'
  up : ∀ k ∈ grammarWords d, ∀ t t', T t t' → (toUpper t = S k ↔ toUpper t' = S k)
  nl : ∀ t t', T t t' → (t = nl ↔ t' = nl)
  num : ∀ t t', T t t' → isNum t = isNum t'
  int : ∀ t t', T t t' → atoi t = atoi t'
  nil : ∀ t t', T t t' → (t = [] ↔ t' = [])
  head : ∀ c r c' r', T (c :: r) (c' :: r') → ∀ q ∈ ['"', '\'', '`'], (c = q ↔ c' = q)
  plain : ∀ t t', T t t' → plainName d t = plainName d t'
  short : ∀ q ∈ ['"', '\'', '`'], ∀ r r', T (q :: r) (q :: r') → (r = [] ↔ r' = [])

theorem isKw_any {ks : List String} {t : Str} : isKw ks t = ks.any (fun k => isKw [k] t) := by
  induction ks with
  | nil => rfl
  | cons k ks ih =>
    rw [List.any_cons, ← ih]
    rw [Bool.eq_iff_iff, Bool.or_eq_true, isKw_kw, isKw_kw, isKw_kw]
    simp [Kw]

namespace AlikeV
variable {d : Rdbms} {isNum : Str → Bool} {T : Str → Str → Prop}

theorem kws (hT : AlikeV d isNum T) {ks : List String} (hk : ∀ k ∈ ks, k ∈ grammarWords d)
    {t t' : Str} (h : T t t') : isKw ks t = isKw ks t' := by
  rw [isKw_any, isKw_any]
  induction ks with
  | nil => rfl
  | cons k ks ih =>
    rw [List.any_cons, List.any_cons, hT.kw k (hk k (List.mem_cons_self ..)) _ _ h,
      ih fun x hx => hk x (List.mem_cons_of_mem _ hx)]

/-- Keywords have the same upper-case form. -/
theorem upper (hT : AlikeV d isNum T) {ks : List String}
    (hk : ∀ k ∈ ks, k ∈ grammarWords d ∧ toUpper (S k) = S k)
    {t t' : Str} (h : T t t') (hkw : isKw ks t = true) : toUpper t = toUpper t' := by
  rw [isKw_any, List.any_eq_true] at hkw
  obtain ⟨k, hm, hkw⟩ := hkw
  have hu : toUpper t = S k := by
    rw [← (hk k hm).2]
    obtain ⟨w, hw, h⟩ := isKw_kw.1 hkw
    rw [List.mem_singleton] at hw; subst hw
    rcases h with rfl | rfl
    · rw [← toUpper_eq]; exact toUpper_toUpper _
    · rw [← toLower_eq]; exact toUpper_toLower _
  rw [hu, (hT.up k (hk k hm).1 _ _ h).1 hu]

end AlikeV

/-- States with corresponding tokens. -/
structure VRel (T : Str → Str → Prop) (s s' : VS) : Prop where
  rest : Each T s.rest s'.rest
  line : s.line = s'.line
  result : Each T s.result s'.result

/-- Corresponding outcomes. -/
inductive ORel (T : Str → Str → Prop) : Res VS α → Res VS α → Prop
  | ok (h : VRel T s s') : ORel T (.ok a s) (.ok a s')
  | fail (hl : e.line = e'.line) (hn : T e.near e'.near) : ORel T (.fail e s) (.fail e' s')
  | panic : ORel T .panic .panic
  | timeout : ORel T .timeout .timeout

/-- Two programs act alike. -/
def PSim (T : Str → Str → Prop) (p q : Prog α) : Prop :=
  ∀ s s', VRel T s s' → ORel T (run p s) (run q s')


theorem _root_.DDL.Spec.Each.append {R : α → β → Prop} {as as' : List α} {bs bs' : List β} (h : Each R as bs)
    (h' : Each R as' bs') : Each R (as ++ as') (bs ++ bs') := by
  induction h with
  | nil => exact h'
  | cons h1 _ ih => exact .cons h1 ih

theorem VRel.token {T : Str → Str → Prop} (he : T EOF EOF) {s s' : VS} (h : VRel T s s') :
    T s.token s'.token := by
  unfold VS.token
  have := h.rest
  revert this
  generalize s.rest = a; generalize s'.rest = b
  intro h
  cases h with
  | nil => exact he
  | cons h _ => exact h

theorem skipNl_rel {T : Str → Str → Prop} (hn : ∀ t t', T t t' → (t = nl ↔ t' = nl))
    {ts ts' : List Str} (h : Each T ts ts') (l : Nat) :
    Each T (VS.skipNl ts l).1 (VS.skipNl ts' l).1 ∧ (VS.skipNl ts l).2 = (VS.skipNl ts' l).2 := by
  induction h generalizing l with
  | nil => exact ⟨.nil, rfl⟩
  | @cons t t' ts ts' h hs ih =>
    unfold VS.skipNl
    by_cases e : t = nl
    · rw [if_pos e, if_pos ((hn _ _ h).1 e)]; exact ih _
    · rw [if_neg e, if_neg (fun x => e ((hn _ _ h).2 x))]; exact ⟨.cons h hs, rfl⟩

theorem VRel.next {T : Str → Str → Prop} (hn : ∀ t t', T t t' → (t = nl ↔ t' = nl)) {s s' : VS}
    (h : VRel T s s') : VRel T s.next s'.next := by
  obtain ⟨a, l, r⟩ := s
  obtain ⟨a', l', r'⟩ := s'
  obtain ⟨h1, h2, h3⟩ := h
  simp only at h1 h2 h3
  subst h2
  cases h1 with
  | nil => exact ⟨.nil, rfl, h3⟩
  | cons h hs => exact ⟨(skipNl_rel hn hs _).1, (skipNl_rel hn hs _).2, h3⟩

theorem VRel.set {T : Str → Str → Prop} {s s' : VS} (h : VRel T s s') {t t' : Str} (ht : T t t') :
    VRel T (s.set t) (s'.set t') :=
  ⟨h.rest, h.line, h.result.append (.cons ht .nil)⟩

theorem run_bind (p : Prog α) (f : α → Prog β) (s : VS) :
    run (p.bind f) s = (match run p s with
      | .ok a s' => run (f a) s'
      | .fail e s' => .fail e s'
      | .panic => .panic
      | .timeout => .timeout) := by
  induction p generalizing s with
  | ret a => rfl
  | token k ih => exact ih _ s
  | oob k ih => exact ih _ s
  | head k ih =>
    simp only [Prog.bind, run]
    cases s.token with
    | nil => rfl
    | cons c r => exact ih c s
  | adv b k ih => cases b <;> exact ih _
  | emit t k ih => exact ih _
  | fail => rfl
  | timeout => rfl

namespace PSim
variable {d : Rdbms} {isNum : Str → Bool} {T : Str → Str → Prop}

theorem timeout : PSim T (.timeout : Prog α) .timeout := fun _ _ _ => .timeout

theorem fail (hT : AlikeV d isNum T) : PSim T (.fail : Prog α) .fail :=
  fun _ _ h => .fail h.line (h.token hT.eof)

theorem syntaxError (hT : AlikeV d isNum T) : PSim T (V.syntaxError : Prog α) V.syntaxError := fail hT

theorem ret (a : α) : PSim T (.ret a) (.ret a) := fun _ _ h => .ok h

theorem bind {p q : Prog α} {f g : α → Prog β} (h : PSim T p q) (hf : ∀ a, PSim T (f a) (g a)) :
    PSim T (p.bind f) (q.bind g) := by
  intro s s' hs
  rw [run_bind, run_bind]
  have := h s s' hs
  revert this
  generalize run p s = x; generalize run q s' = y
  intro h
  cases h with
  | ok h => exact hf _ _ _ h
  | fail hl hn => exact .fail hl hn
  | panic => exact .panic
  | timeout => exact .timeout

theorem cond {b : Bool} {p p' q q' : Prog α} (h : PSim T p p') (h' : PSim T q q') :
    PSim T (cond b p q) (cond b p' q') := by
  cases b
  · exact h'
  · exact h

theorem ifM {c c' : Prog Bool} {p p' q q' : Prog α} (hc : PSim T c c') (h : PSim T p p')
    (h' : PSim T q q') : PSim T (V.ifM c p q) (V.ifM c' p' q') :=
  bind hc fun _ => cond h h'

theorem oob : PSim T V.isOutOfRange V.isOutOfRange := by
  intro s s' h
  show ORel T (.ok _ s) (.ok _ s')
  have : s.rest.isEmpty = s'.rest.isEmpty := by
    have := h.rest
    revert this
    generalize s.rest = a; generalize s'.rest = b
    intro h
    cases h <;> rfl
  rw [this]
  exact .ok h

theorem matchToken (hT : AlikeV d isNum T) {ks : List String} (hk : ∀ k ∈ ks, k ∈ grammarWords d) :
    PSim T (V.matchToken ks) (V.matchToken ks) := by
  intro s s' h
  show ORel T (.ok _ s) (.ok _ s')
  rw [hT.kws hk (h.token hT.eof)]
  exact .ok h

theorem token_ {f g : Str → Prog α} (hT : AlikeV d isNum T)
    (h : ∀ t t', T t t' → PSim T (f t) (g t')) : PSim T (.token f) (.token g) :=
  fun _ _ hs => h _ _ (hs.token hT.eof) _ _ hs

theorem head_ {f g : Char → Prog α} (hT : AlikeV d isNum T)
    (h : ∀ c c', (∀ q ∈ ['"', '\'', '`'], (c = q ↔ c' = q)) → PSim T (f c) (g c')) :
    PSim T (.head f) (.head g) := by
  intro s s' hs
  have ht := hs.token hT.eof
  simp only [run]
  revert ht
  generalize hx : s.token = x; generalize hy : s'.token = y
  intro ht
  cases x with
  | nil => rw [(hT.nil _ _ ht).1 rfl]; exact .panic
  | cons c r =>
    cases y with
    | nil => cases (hT.nil _ _ ht).2 rfl
    | cons c' r' => exact h c c' (hT.head _ _ _ _ ht) _ _ hs

theorem adv (hT : AlikeV d isNum T) {k : Bool} {p q : Prog α} (h : PSim T p q) :
    PSim T (.adv k p) (.adv k q) := by
  intro s s' hs
  cases k with
  | false => exact h _ _ (hs.next hT.nl)
  | true => exact h _ _ ((hs.next hT.nl).set (hs.token hT.eof))

theorem next (hT : AlikeV d isNum T) {k : Bool} : PSim T (V.next k) (V.next k) := adv hT (ret _)

theorem set (hT : AlikeV d isNum T) {k : String} (hk : k ∈ grammarWords d) :
    PSim T (V.set (S k)) (V.set (S k)) :=
  fun _ _ hs => .ok (hs.set (hT.lit k hk))

theorem matchTokenNext (hT : AlikeV d isNum T) {b : Bool} {ks : List String}
    (hk : ∀ k ∈ ks, k ∈ grammarWords d) : PSim T (V.matchTokenNext b ks) (V.matchTokenNext b ks) :=
  ifM (matchToken hT hk) (adv hT (ret _)) (ret _)

theorem skipToken (hT : AlikeV d isNum T) {b : Bool} {ks : List String}
    (hk : ∀ k ∈ ks, k ∈ grammarWords d) : PSim T (V.skipToken b ks) (V.skipToken b ks) :=
  bind (matchTokenNext hT hk) fun _ => ret _

theorem validateToken (hT : AlikeV d isNum T) {b : Bool} {ks : List String}
    (hk : ∀ k ∈ ks, k ∈ grammarWords d) : PSim T (V.validateToken b ks) (V.validateToken b ks) :=
  ifM oob (syntaxError hT) (ifM (matchToken hT hk) (next hT) (syntaxError hT))

theorem _root_.DDL.identifier_alike (d : Rdbms) {c c' : Char}
    (h : ∀ q ∈ ['"', '\'', '`'], (c = q ↔ c' = q)) : V.isIdentifier d c = V.isIdentifier d c' := by
  have h1 := h '"' (by simp)
  have h2 := h '`' (by simp)
  rw [Bool.eq_iff_iff, isIdentifier_iff, isIdentifier_iff]
  cases d <;> simp [nameQuotes, h1, h2]

theorem _root_.DDL.stringValue_alike (d : Rdbms) {c c' : Char}
    (h : ∀ q ∈ ['"', '\'', '`'], (c = q ↔ c' = q)) : V.isStringValue d c = V.isStringValue d c' := by
  have h1 := h '"' (by simp)
  have h2 := h '\'' (by simp)
  rw [Bool.eq_iff_iff, isStringValue_iff, isStringValue_iff]
  cases d <;> simp [stringQuotes, h1, h2]

theorem validateName (hT : AlikeV d isNum T) {b : Bool} :
    PSim T (V.validateName d b) (V.validateName d b) := by
  refine ifM (head_ hT fun c c' h => ?_) (next hT) (syntaxError hT)
  rw [identifier_alike d h]
  refine cond (ret _) (token_ hT fun t t' h => ?_)
  rw [hT.plain _ _ h]
  exact ret _

theorem validateStringValue (hT : AlikeV .mysql isNum T) {b : Bool} :
    PSim T (Mysql.validateStringValue b) (Mysql.validateStringValue b) := by
  refine head_ hT fun c c' h => ?_
  rw [stringValue_alike _ h]
  exact cond (next hT) (syntaxError hT)

theorem validateLiteralValue (hT : AlikeV d isNum T) {b : Bool} :
    PSim T (V.validateLiteralValue isNum d b) (V.validateLiteralValue isNum d b) := by
  refine token_ hT fun t t' h => ?_
  rw [hT.num _ _ h]
  refine cond (next hT) (head_ hT fun c c' h => ?_)
  rw [stringValue_alike d h]
  exact cond (next hT) (validateToken hT (by cases d <;> decide +kernel))

theorem validatePositiveInteger (hT : AlikeV d isNum T) {b : Bool} :
    PSim T (V.validatePositiveInteger b) (V.validatePositiveInteger b) := by
  refine token_ hT fun t t' h => ?_
  have : isPositiveIntegerToken t = isPositiveIntegerToken t' := by
    unfold isPositiveIntegerToken; rw [hT.int _ _ h]
  rw [this]
  exact cond (next hT) (syntaxError hT)

theorem createOtherLoop (hT : AlikeV d isNum T) (n : Nat) (b : Bool) :
    PSim T (V.createOtherLoop n b) (V.createOtherLoop n b) := by
  induction n generalizing b with
  | zero => exact timeout
  | succ n ih =>
    unfold V.createOtherLoop
    refine ifM oob (syntaxError hT) (bind (matchToken hT (by cases d <;> decide +kernel)) fun x =>
      cond (bind (matchToken hT (by cases d <;> decide +kernel)) fun e => bind (next hT) fun _ => ih _)
        (ifM (matchToken hT (by cases d <;> decide +kernel))
          (validateToken hT (by cases d <;> decide +kernel)) (bind (next hT) fun _ => ih _)))

theorem validateCreateOther (hT : AlikeV d isNum T) {ks : List String}
    (hk : ∀ k ∈ ks, k ∈ grammarWords d) (n : Nat) :
    PSim T (V.validateCreateOther ks n) (V.validateCreateOther ks n) :=
  bind (validateToken hT hk) fun _ => createOtherLoop hT n _

theorem columnConstraintsAux (hT : AlikeV d isNum T) {ks : List String} {key : Str → Str}
    (hk : ∀ k ∈ ks, k ∈ grammarWords d ∧ toUpper (S k) = S k)
    (hkey : ∀ t t', T t t' → toUpper t = toUpper t' → key t = key t')
    {one : Nat → Prog Unit} (h1 : ∀ n, PSim T (one n) (one n)) (n : Nat) (ls : List Str) :
    PSim T (V.columnConstraintsAux ks key one n ls) (V.columnConstraintsAux ks key one n ls) := by
  induction n generalizing ls with
  | zero => exact timeout
  | succ n ih =>
    intro s s' hs
    have ht := hs.token hT.eof
    unfold V.columnConstraintsAux
    have e : ∀ (f : Str → Prog Unit) (z : VS), run (V.ifM (V.matchToken ks) (.token f) (.ret ())) z =
        run (_root_.cond (isKw ks z.token) (f z.token) (.ret ())) z := by
      intro f z
      show run (_root_.cond _ _ _) z = _
      cases isKw ks z.token <;> rfl
    rw [e, e, hT.kws (fun k h => (hk k h).1) ht]
    cases hkw : isKw ks s'.token with
    | false => exact .ok hs
    | true =>
      have hkw' := hkw
      rw [← hT.kws (fun k h => (hk k h).1) ht] at hkw'
      rw [hkey _ _ ht (hT.upper hk ht hkw')]
      exact cond (syntaxError hT) (bind (h1 _) fun _ => ih _) _ _ hs

end PSim

/-! ### Automation for the sweep -/

/-- Extended after each lemma of `AlikeSweep`. -/
syntax "alike_lem" : tactic
macro_rules | `(tactic| alike_lem) => `(tactic| fail)

macro "alike_words" : tactic => `(tactic| first
  | decide +kernel
  | (cases ‹Rdbms› <;> decide +kernel))

macro "alike_step" : tactic => `(tactic| first
  | assumption
  | alike_lem
  | with_reducible exact PSim.ret _
  | with_reducible exact PSim.timeout
  | with_reducible exact PSim.syntaxError (by assumption)
  | with_reducible exact PSim.fail (by assumption)
  | with_reducible exact PSim.oob
  | with_reducible exact PSim.next (by assumption)
  | with_reducible exact PSim.validateName (by assumption)
  | with_reducible exact PSim.validateLiteralValue (by assumption)
  | with_reducible exact PSim.validatePositiveInteger (by assumption)
  | with_reducible exact PSim.validateStringValue (by assumption)
  | with_reducible exact PSim.matchToken (by assumption) (by alike_words)
  | with_reducible exact PSim.matchTokenNext (by assumption) (by alike_words)
  | with_reducible exact PSim.skipToken (by assumption) (by alike_words)
  | with_reducible exact PSim.validateToken (by assumption) (by alike_words)
  | with_reducible exact PSim.set (by assumption) (by alike_words)
  | with_reducible exact PSim.validateCreateOther (by assumption) (by alike_words) _
  | with_reducible apply PSim.ifM
  | with_reducible apply PSim.cond
  | with_reducible refine PSim.bind ?_ (fun _ => ?_))

macro "alike_all" : tactic =>
  `(tactic| ((try simp only [Prog.bind_eq, Prog.pure_eq]); repeat' alike_step))

end DDL
