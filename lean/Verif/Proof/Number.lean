import Verif.Spec.Number
import Verif.Proof.Output
/-
The strings that `strconv.ParseFloat` accepts are the numbers of the specification.
-/

namespace DDL.Go
open Spec Spec.Num

/-- The digits of the specification, chosen by base. -/
def dig (h : Bool) (c : Char) : Option Nat := if h then hex c else dec c

theorem digit_eq (h : Bool) (c : Char) : digit h c = dig h c := by
  by_cases hc : c.toNat < 128
  · have key : ∀ h : Bool, ∀ n : Fin 128, digit h (Char.ofNat n) = dig h (Char.ofNat n) := by decide +kernel
    have := key h ⟨c.toNat, hc⟩
    simpa [Char.ofNat_toNat] using this
  · have h1 : digit h c = none := by
      unfold digit
      have a : isDig c = false := by
        simp only [isDig, Bool.and_eq_false_iff, decide_eq_false_iff_not]
        right
        have : ('9' : Char).toNat = 57 := rfl
        omega
      have e : (lowC c).toNat = c.toNat := by rw [lowC_nat]; split <;> omega
      have b : ¬ (lowC c).toNat ≤ 'f'.toNat := by
        have : ('f' : Char).toNat = 102 := rfl
        omega
      simp only [a, Bool.false_eq_true, if_false, b, decide_false, Bool.and_false]
    have h2 : dig h c = none := by
      have n : ∀ x : Char, x.toNat < 128 → x ≠ c := by rintro x hx rfl; exact hc hx
      unfold dig
      cases h
      · simp only [Bool.false_eq_true, if_false, dec, List.findIdx?_eq_none_iff, beq_eq_false_iff_ne]
        intro x hx
        refine n x ?_
        revert x; decide
      · simp only [if_true, hex, List.findIdx?_eq_none_iff, Bool.or_eq_false_iff, beq_eq_false_iff_ne]
        intro x hx
        have : x.toNat < 128 ∧ x.toUpper.toNat < 128 := by revert x; decide
        exact ⟨n _ this.1, n _ this.2⟩
    rw [h1, h2]

theorem digit_under (h : Bool) : digit h '_' = none := by cases h <;> decide
theorem digit_dot (h : Bool) : digit h '.' = none := by cases h <;> decide

/-- A digit or an underscore. -/
def du (h : Bool) (c : Char) : Bool := c == '_' || (digit h c).isSome

theorem run_filterMap {h : Bool} {a : Str} {vs : List Nat} (hr : Run (digit h) a vs) :
    vs = a.filterMap (digit h) ∧ (∀ c ∈ a, du h c = true) ∧ vs ≠ [] := by
  induction hr with
  | one h1 => simp [h1, du]
  | next h1 _ ih =>
    rw [List.filterMap_cons_some h1, ← ih.1]
    refine ⟨rfl, ?_, by simp⟩
    intro c hc
    rcases List.mem_cons.1 hc with rfl | hc
    · simp [du, h1]
    · exact ih.2.1 c hc
  | under h1 _ ih =>
    rw [List.filterMap_cons_some h1, List.filterMap_cons_none (digit_under h), ← ih.1]
    refine ⟨rfl, ?_, by simp⟩
    intro c hc
    simp only [List.mem_cons] at hc
    rcases hc with rfl | rfl | hc
    · simp [du, h1]
    · rfl
    · exact ih.2.1 c hc

/-- The rest after the digits. -/
def Stops (h : Bool) (b : Str) : Prop := ∀ c r, b = c :: r → du h c = false

theorem readMant_eq {h : Bool} (a b : Str) (ha : ∀ c ∈ a, du h c = true) (hb : Stops h b) (hd : '.' ∉ b)
    (m f : Nat) (sd : Bool) :
    readMant h false m f sd (a ++ b) =
      ⟨(a.filterMap (digit h)).foldl (fun n v => n * (if h then 16 else 10) + v) m, f,
        sd || !(a.filterMap (digit h)).isEmpty, b⟩ := by
  induction a generalizing m sd with
  | nil =>
    cases b with
    | nil => simp [readMant]
    | cons c r =>
      have := hb c r rfl
      simp only [du, Bool.or_eq_false_iff] at this
      have h2 : digit h c = none := by simpa using this.2
      have h3 : (c == '.') = false := by
        simp only [beq_eq_false_iff_ne]; rintro rfl; exact hd (by simp)
      simp [readMant, this.1, h2, h3]
  | cons c a ih =>
    have ih := ih (fun c hc => ha c (by simp [hc]))
    have hc := ha c (by simp)
    cases hu : c == '_' with
    | true =>
      have e : c = '_' := by simpa using hu
      subst e
      rw [List.cons_append, readMant, if_pos hu, ih, List.filterMap_cons_none (digit_under h)]
    | false =>
      simp only [du, hu, Bool.false_or] at hc
      obtain ⟨v, hv⟩ := Option.isSome_iff_exists.1 hc
      have h3 : (c == '.') = false := by
        simp only [beq_eq_false_iff_ne]; rintro rfl; rw [digit_dot] at hv; cases hv
      rw [List.cons_append, readMant, if_neg (by simp [hu]), if_neg (by simp [h3]), hv]
      simp only [Bool.false_eq_true, if_false, ih, List.filterMap_cons_some hv]
      simp

/-- After the digits and underscores. -/
def afterRun (h : Bool) (saw : Char) : Str → Bool
  | [] => saw != '_'
  | _ :: r => saw != '_' && underscoreLoop h '!' r

theorem loop_stop {h : Bool} {saw : Char} {b : Str} (hb : Stops h b) :
    underscoreLoop h saw b = afterRun h saw b := by
  cases b with
  | nil => rfl
  | cons c r =>
    have := hb c r rfl
    simp only [du, Bool.or_eq_false_iff] at this
    simp only [underscoreLoop, this.1, this.2, Bool.false_eq_true, if_false, afterRun]
    cases hs : saw == '_' <;> simp [hs, bne]

theorem loop_run {h : Bool} {b : Str} (hb : Stops h b) (a : Str) (ha : ∀ c ∈ a, du h c = true) :
    (underscoreLoop h '_' (a ++ b) = true ↔ (∃ vs, Run (digit h) a vs) ∧ afterRun h '0' b = true) ∧
    (underscoreLoop h '0' (a ++ b) = true ↔ (a = [] ∨ (∃ vs, Run (digit h) a vs) ∨
      ∃ a' vs, a = '_' :: a' ∧ Run (digit h) a' vs) ∧ afterRun h '0' b = true) := by
  induction a with
  | nil =>
    rw [List.nil_append, loop_stop hb, loop_stop hb]
    refine ⟨⟨fun h' => ?_, ?_⟩, by simp⟩
    · cases b <;> simp [afterRun] at h'
    · rintro ⟨⟨vs, h'⟩, _⟩; cases h'
  | cons c a ih =>
    have ih := ih (fun c hc => ha c (by simp [hc]))
    have hc := ha c (by simp)
    have key : ∀ v, digit h c = some v → ((a = [] ∨ (∃ vs, Run (digit h) a vs) ∨
      ∃ a' vs, a = '_' :: a' ∧ Run (digit h) a' vs) ↔ ∃ vs, Run (digit h) (c :: a) vs) := by
      intro v hv
      constructor
      · rintro (rfl | ⟨vs, hr⟩ | ⟨a', vs, rfl, hr⟩)
        · exact ⟨_, .one hv⟩
        · exact ⟨_, .next hv hr⟩
        · exact ⟨_, .under hv hr⟩
      · rintro ⟨vs, hr⟩
        cases hr with
        | one => exact .inl rfl
        | next _ hr => exact .inr (.inl ⟨_, hr⟩)
        | under _ hr => exact .inr (.inr ⟨_, _, rfl, hr⟩)
    cases hv : digit h c with
    | some v =>
      have e : ∀ saw, underscoreLoop h saw (c :: a ++ b) = underscoreLoop h '0' (a ++ b) := by
        intro saw; rw [List.cons_append, underscoreLoop, if_pos (by simp [hv])]
      have hne : c ≠ '_' := by rintro rfl; rw [digit_under] at hv; cases hv
      rw [e, e, ih.2, key v hv]
      refine ⟨Iff.rfl, and_congr_left' ?_⟩
      constructor
      · intro h; exact .inr (.inl h)
      · rintro (h | h | ⟨a', vs, h, _⟩)
        · cases h
        · exact h
        · exact absurd (List.cons.inj h).1 hne
    | none =>
      have hu : c = '_' := by simpa [du, hv] using hc
      subst hu
      have e1 : underscoreLoop h '_' ('_' :: a ++ b) = false := by
        rw [List.cons_append, underscoreLoop, if_neg (by simp [hv])]; rfl
      have e2 : underscoreLoop h '0' ('_' :: a ++ b) = underscoreLoop h '_' (a ++ b) := by
        rw [List.cons_append, underscoreLoop, if_neg (by simp [hv])]; rfl
      have nr : ¬ ∃ vs, Run (digit h) ('_' :: a) vs := by
        rintro ⟨vs, hr⟩
        cases hr with
        | one h1 => rw [hv] at h1; cases h1
        | next h1 => rw [hv] at h1; cases h1
        | under h1 => rw [hv] at h1; cases h1
      rw [e1, e2, ih.1]
      refine ⟨by simp [nr], and_congr_left' ?_⟩
      constructor
      · rintro ⟨vs, h⟩; exact .inr (.inr ⟨_, _, rfl, h⟩)
      · rintro (h | h | ⟨a', vs, h, hr⟩)
        · cases h
        · exact absurd h nr
        · obtain ⟨_, rfl⟩ := List.cons.inj h; exact ⟨vs, hr⟩

/-- At the start and after another character a digit must come first. -/
theorem loop_start {h : Bool} {b : Str} (hb : Stops h b) (a : Str) (ha : ∀ c ∈ a, du h c = true)
    (hne : a ≠ []) {saw : Char} (hs : saw = '^' ∨ saw = '!') :
    underscoreLoop h saw (a ++ b) = true ↔ (∃ vs, Run (digit h) a vs) ∧ afterRun h '0' b = true := by
  cases a with
  | nil => exact absurd rfl hne
  | cons c a =>
    have hl := (loop_run hb (c :: a) ha).1
    have hc := ha c (by simp)
    cases hv : digit h c with
    | some v =>
      rw [← hl, List.cons_append, underscoreLoop, if_pos (by simp [hv]), underscoreLoop, if_pos (by simp [hv])]
    | none =>
      have hu : c = '_' := by simpa [du, hv] using hc
      subst hu
      rw [← hl]
      have e : ∀ saw, saw ≠ '0' → underscoreLoop h saw ('_' :: a ++ b) = false := by
        intro saw hs; rw [List.cons_append, underscoreLoop, if_neg (by simp [hv])]; simp [hs]
      rw [e '_' (by decide), e saw (by rcases hs with rfl | rfl <;> decide)]

theorem loop_none {h : Bool} {saw : Char} (hs : saw ≠ '_') {t : Str} (ht : '_' ∉ t) :
    underscoreLoop h saw t = true := by
  induction t generalizing saw with
  | nil => simpa [underscoreLoop] using hs
  | cons c r ih =>
    have hc : (c == '_') = false := by simp only [beq_eq_false_iff_ne]; rintro rfl; exact ht (by simp)
    have hr : '_' ∉ r := fun h => ht (by simp [h])
    have hs' : (saw == '_') = false := by simpa using hs
    simp only [underscoreLoop, hc, hs', Bool.false_eq_true, if_false]
    split
    · exact ih (by decide) hr
    · exact ih (by decide) hr

/-! ### Exponents -/

/-- The exponent as it is read. -/
def cap (k : Nat) (vs : List Nat) : Nat := vs.foldl (fun e v => if e < 10000 then e * 10 + v else e) k

theorem exponent_iff {vs : List Nat} (hv : ∀ v ∈ vs, v ≤ 9) (e : Nat) : Exponent vs e ↔ e = cap 0 vs := by
  suffices H : ∀ ws : List Nat, (∀ v ∈ ws, v ≤ 9) → ∀ e, Exponent ws.reverse e ↔ e = cap 0 ws.reverse by
    have := H vs.reverse (fun v h => hv v (by simpa using h)) e
    simpa using this
  intro ws
  induction ws with
  | nil =>
    intro _ e
    constructor
    · rintro (⟨h, _⟩ | ⟨p, s, h, rfl, h2, _⟩)
      · exact h
      · have : p = [] := by
          have := congrArg List.length h
          simp only [List.reverse_nil, List.length_nil, List.length_append] at this
          exact List.eq_nil_of_length_eq_zero (by omega)
        subst this
        simp [value] at h2
    · rintro rfl; exact .inl ⟨rfl, by decide⟩
  | cons v ws ih =>
    intro hv e
    have ih := ih (fun v h => hv v (by simp [h]))
    have hv := hv v (by simp)
    rw [List.reverse_cons]
    generalize ws.reverse = vs at ih
    have ec : cap 0 (vs ++ [v]) = if cap 0 vs < 10000 then cap 0 vs * 10 + v else cap 0 vs := by
      unfold cap; rw [List.foldl_append]; rfl
    have ev : value 10 (vs ++ [v]) = value 10 vs * 10 + v := by simp [value]
    have sp : ∀ p s, vs ++ [v] = p ++ s → (s = [] ∧ p = vs ++ [v]) ∨ ∃ s', vs = p ++ s' ∧ s = s' ++ [v] := by
      intro p s h
      rcases List.eq_nil_or_concat s with rfl | ⟨s', x, rfl⟩
      · exact .inl ⟨rfl, by simpa using h.symm⟩
      · rw [List.concat_eq_append] at h ⊢
        rw [← List.append_assoc] at h
        obtain ⟨h1, h2⟩ := List.append_inj' h rfl
        cases h2
        exact .inr ⟨s', h1, rfl⟩
    have self := (ih (cap 0 vs)).2 rfl
    by_cases hc : cap 0 vs < 10000
    · have hval : cap 0 vs = value 10 vs := by
        rcases self with ⟨h, _⟩ | ⟨_, _, _, _, h, _⟩
        · exact h
        · omega
      rw [ec, if_pos hc]
      constructor
      · rintro (⟨h, _⟩ | ⟨p, s, h, h1, h2, h3⟩)
        · omega
        · rcases sp p s h with ⟨rfl, rfl⟩ | ⟨s', h', rfl⟩
          · omega
          · have := (ih e).1 (.inr ⟨p, s', h', h1, h2, h3⟩)
            omega
      · intro h
        by_cases he : e < 10000
        · exact .inl ⟨by omega, he⟩
        · exact .inr ⟨vs ++ [v], [], by simp, by omega, by omega, by omega⟩
    · have big : ¬ value 10 vs < 10000 := fun h => by
        have := (ih _).1 (.inl ⟨rfl, h⟩)
        omega
      rw [ec, if_neg hc]
      constructor
      · rintro (⟨h, h'⟩ | ⟨p, s, h, h1, h2, h3⟩)
        · omega
        · rcases sp p s h with ⟨rfl, rfl⟩ | ⟨s', h', rfl⟩
          · omega
          · exact (ih e).1 (.inr ⟨p, s', h', h1, h2, h3⟩)
      · rintro rfl
        rcases self with ⟨h, h'⟩ | ⟨p, s, h, h1, h2, h3⟩
        · omega
        · exact .inr ⟨p, s ++ [v], by rw [h]; simp, h1, h2, h3⟩

theorem digit_le {c : Char} {v : Nat} (h : digit false c = some v) : v ≤ 9 := by
  unfold digit at h
  split at h
  · rename_i hd
    simp only [isDig, Bool.and_eq_true, decide_eq_true_eq] at hd
    cases h
    have : ('9' : Char).toNat = 57 := rfl
    have : ('0' : Char).toNat = 48 := rfl
    omega
  · simp at h

theorem digit_isDig {c : Char} : (digit false c).isSome = isDig c := by
  unfold digit; cases isDig c <;> simp

theorem expDigits_iff {k e : Nat} {t : Str} : expDigits k t = some e ↔
    (∀ c ∈ t, du false c = true) ∧ e = cap k (t.filterMap (digit false)) := by
  induction t generalizing k with
  | nil =>
    rw [expDigits, Option.some.injEq]
    exact ⟨fun h => ⟨by simp, h.symm⟩, fun h => h.2.symm⟩
  | cons c r ih =>
    rw [expDigits]
    cases hu : c == '_' with
    | true =>
      have e : c = '_' := by simpa using hu
      subst e
      rw [if_pos rfl, ih, List.filterMap_cons_none (digit_under false)]
      simp [du]
    | false =>
      cases hd : isDig c with
      | true =>
        have : digit false c = some (c.toNat - '0'.toNat) := by simp [digit, hd]
        rw [if_neg (by simp), if_pos rfl, ih, List.filterMap_cons_some this]
        simp [du, this, cap]
      | false =>
        have : digit false c = none := by
          have := digit_isDig (c := c)
          rw [hd] at this
          simpa using this
        rw [if_neg (by simp), if_neg (by simp)]
        refine ⟨fun h => (by cases h), fun h => ?_⟩
        have := h.1 c (by simp)
        simp [du, hu, digit_isDig, hd] at this

theorem run_weaken {h : Bool} {a : Str} {vs : List Nat} (hr : Run (digit false) a vs) : Run (digit h) a vs := by
  have e : ∀ {c v}, digit false c = some v → digit h c = some v := by
    intro c v hc
    unfold digit at hc ⊢
    split at hc
    · rename_i hd; rw [if_pos hd]; exact hc
    · simp at hc
  induction hr with
  | one h1 => exact .one (e h1)
  | next h1 _ ih => exact .next (e h1) ih
  | under h1 _ ih => exact .under (e h1) ih

theorem run_strong {h : Bool} {a : Str} {vs : List Nat} (hr : Run (digit h) a vs)
    (ha : ∀ c ∈ a, du false c = true) : Run (digit false) a vs := by
  have e : ∀ {c v}, digit h c = some v → du false c = true → digit false c = some v := by
    intro c v hc hd
    have hu : c ≠ '_' := by rintro rfl; rw [digit_under] at hc; cases hc
    have hd : isDig c = true := by
      rw [← digit_isDig]; simpa [du, hu] using hd
    unfold digit at hc ⊢
    rw [if_pos hd] at hc ⊢
    exact hc
  induction hr with
  | one h1 => exact .one (e h1 (ha _ (by simp)))
  | next h1 _ ih => exact .next (e h1 (ha _ (by simp))) (ih fun c hc => ha c (by simp [hc]))
  | under h1 _ ih => exact .under (e h1 (ha _ (by simp))) (ih fun c hc => ha c (by simp [hc]))

theorem run_head {h : Bool} {a : Str} {vs : List Nat} (hr : Run (digit h) a vs) :
    ∃ c r, a = c :: r ∧ (digit h c).isSome = true := by
  cases hr with
  | one h1 => exact ⟨_, _, rfl, by simp [h1]⟩
  | next h1 _ => exact ⟨_, _, rfl, by simp [h1]⟩
  | under h1 _ => exact ⟨_, _, rfl, by simp [h1]⟩

theorem splitSign_digit {h : Bool} {c : Char} {r : Str} (hc : (digit h c).isSome = true) :
    splitSign (c :: r) = (false, c :: r) := by
  unfold splitSign
  split
  · rename_i e; cases e; exact absurd hc (by cases h <;> decide)
  · rename_i e; cases e; exact absurd hc (by cases h <;> decide)
  · rfl

/-- The sign that is read. -/
theorem splitSign_spec (t : Str) : ∃ sign, Sign sign ∧ t = sign ++ (splitSign t).2 ∧
    ((splitSign t).1 = true ↔ sign = ['-']) := by
  unfold splitSign
  split
  · exact ⟨['-'], .inr (.inr rfl), rfl, by simp⟩
  · exact ⟨['+'], .inr (.inl rfl), rfl, by simp⟩
  · exact ⟨[], .inl rfl, rfl, by simp⟩

theorem splitSign_append {h : Bool} {sign r : Str} (hs : Sign sign)
    (hr : ∃ c r', r = c :: r' ∧ (digit h c).isSome = true) :
    (splitSign (sign ++ r)).2 = r ∧ ((splitSign (sign ++ r)).1 = true ↔ sign = ['-']) := by
  obtain ⟨c, r', rfl, hc⟩ := hr
  rcases hs with rfl | rfl | rfl
  · rw [List.nil_append, splitSign_digit hc]; simp
  · simp [splitSign]
  · simp [splitSign]

theorem exp_iff {h : Bool} {r : Str} {e : Nat} {neg : Bool} :
    (readExp r = some (neg, e) ∧ underscoreLoop h '!' r = true) ↔
    ∃ sign ds es, Sign sign ∧ r = sign ++ ds ∧ (neg = true ↔ sign = ['-']) ∧ Run (digit false) ds es ∧
      Exponent es e := by
  have loopSign : ∀ {sign ds : Str}, Sign sign → underscoreLoop h '!' (sign ++ ds) = underscoreLoop h '!' ds := by
    rintro sign ds (rfl | rfl | rfl)
    · rfl
    · rw [List.singleton_append, underscoreLoop]; cases h <;> rfl
    · rw [List.singleton_append, underscoreLoop]; cases h <;> rfl
  have stop : Stops h [] := by rintro c r ⟨⟩
  constructor
  · rintro ⟨h1, h2⟩
    obtain ⟨sign, hs, ht, hn⟩ := splitSign_spec r
    unfold readExp at h1
    simp only at h1
    split at h1
    · cases h1
    · rename_i c r' hr'
      split at h1
      · rename_i hd
        obtain ⟨e', he, h1⟩ := Option.map_eq_some_iff.1 h1
        cases h1
        obtain ⟨h3, h4⟩ := expDigits_iff.1 he
        rw [hr'] at ht
        rw [ht, loopSign hs] at h2
        have hdu : ∀ x ∈ c :: r', du h x = true := by
          intro x hx
          have := h3 x (by rw [hr']; exact hx)
          simp only [du, Bool.or_eq_true] at this ⊢
          rcases this with h | h'
          · exact .inl h
          · right
            rw [digit_isDig] at h'
            exact digit_dig h'
        have h2' := (loop_start stop (c :: r') hdu (by simp) (.inr rfl)).1 (by rw [List.append_nil]; exact h2)
        obtain ⟨⟨vs, hrun⟩, _⟩ := h2'
        have hrun := run_strong hrun (fun x hx => h3 x (by rw [hr']; exact hx))
        refine ⟨sign, c :: r', vs, hs, ht, hn, hrun, ?_⟩
        have := (run_filterMap hrun).1
        rw [exponent_iff, this, ← hr']
        · exact h4
        · intro v hv
          rw [this] at hv
          obtain ⟨x, _, hx⟩ := List.mem_filterMap.1 hv
          exact digit_le hx
      · cases h1
  · rintro ⟨sign, ds, es, hs, rfl, hn, hrun, he⟩
    have h1 := run_head hrun
    obtain ⟨hsp, hneg⟩ := splitSign_append hs h1
    obtain ⟨c, r', rfl, hc⟩ := h1
    obtain ⟨hes, hdu, _⟩ := run_filterMap hrun
    refine ⟨?_, ?_⟩
    · unfold readExp
      have hb : (splitSign (sign ++ c :: r')).1 = neg := by
        rw [Bool.eq_iff_iff, hneg, hn]
      simp only [hsp, hb]
      rw [digit_isDig] at hc
      rw [if_pos hc]
      have : expDigits 0 (c :: r') = some e := by
        rw [expDigits_iff]
        refine ⟨hdu, ?_⟩
        rw [← hes]
        refine (exponent_iff ?_ e).1 he
        intro v hv
        rw [hes] at hv
        obtain ⟨x, _, hx⟩ := List.mem_filterMap.1 hv
        exact digit_le hx
      rw [this]; rfl
    · rw [loopSign hs]
      have hrun' := run_weaken (h := h) hrun
      have := (loop_start stop (c :: r') (run_filterMap hrun').2.1 (by simp) (.inr rfl)).2 ⟨⟨_, hrun'⟩, rfl⟩
      rwa [List.append_nil] at this

/-! ### Numbers -/

set_option exponentiation.threshold 2000 in
theorem overflows_iff {base m e : Nat} {neg : Bool} {sign : Str} (hn : neg = true ↔ sign = ['-']) (hb : 0 < base) :
    overflows base m 0 neg e = false ↔ InRange base m sign e := by
  have hl : 0 < limit := Nat.sub_pos_of_lt (Nat.pow_lt_pow_right (by decide) (by decide))
  have htl : tooLarge = limit := rfl
  unfold overflows InRange
  rw [htl]
  have hp : 0 < base ^ e := Nat.pow_pos hb
  by_cases hm : m = 0
  · subst hm
    rw [if_pos rfl]
    split
    · simp [Nat.mul_pos hl hp]
    · simp [hl]
  · rw [if_neg hm]
    cases neg with
    | true => rw [if_pos rfl, if_pos (hn.1 rfl)]; simp
    | false =>
      rw [if_neg (by simp), if_neg (fun h => by cases hn.2 h)]; simp

theorem lowC_eq {c q : Char} (hq : 97 ≤ q.toNat ∧ q.toNat ≤ 122) : lowC c = q ↔ c = q ∨ c = upC q := by
  have inj : ∀ a b : Char, a = b ↔ a.toNat = b.toNat := fun a b => ⟨fun h => by rw [h], toNat_inj⟩
  rw [inj, inj, inj, lowC_nat, upC_nat, if_pos hq]
  split <;> omega

/-- The digits and what follows. -/
theorem span_du (h : Bool) (t : Str) : ∃ a b, t = a ++ b ∧ (∀ c ∈ a, du h c = true) ∧ Stops h b := by
  refine ⟨t.takeWhile (du h), t.dropWhile (du h), List.takeWhile_append_dropWhile.symm, ?_, ?_⟩
  · intro c hc
    exact (List.all_takeWhile (p := du h) (l := t) |> List.all_eq_true.1) c hc
  · intro c r hb
    have := List.head?_dropWhile_not (du h) t
    rw [hb] at this
    simpa using this

/-- The letter in front of the exponent. -/
def letter (h : Bool) : Char := if h then 'p' else 'e'

theorem letter_stops {h : Bool} {c : Char} {r : Str} (hc : lowC c = letter h) : Stops h (c :: r) := by
  rintro x y ⟨⟩
  cases h
  · rcases (lowC_eq (by decide)).1 hc with rfl | rfl <;> decide
  · rcases (lowC_eq (by decide)).1 hc with rfl | rfl <;> decide

/-- What follows the digits of a number. -/
def Tail (h : Bool) (m : Nat) (b : Str) : Prop :=
  (b = [] ∧ h = false ∧ m < limit) ∨
  ∃ c sign ds es e, b = c :: (sign ++ ds) ∧ lowC c = letter h ∧ Sign sign ∧ Run (digit false) ds es ∧ Exponent es e ∧
    InRange (if h then 2 else 10) m sign e

theorem readNumber_iff {h : Bool} {a b : Str} (ha : ∀ c ∈ a, du h c = true) (hb : Stops h b) (hd : '.' ∉ b) :
    (readNumber h (a ++ b) = true ∧ afterRun h '0' b = true) ↔ a.filterMap (digit h) ≠ [] ∧
      Tail h (value (if h then 16 else 10) (a.filterMap (digit h))) b := by
  unfold readNumber
  rw [readMant_eq a b ha hb hd]
  simp only [Bool.false_or, Bool.not_not]
  by_cases hz : a.filterMap (digit h) = []
  · simp [hz]
  rw [if_neg (by rw [List.isEmpty_iff]; exact hz)]
  simp only [ne_eq, hz, not_false_iff, true_and]
  rw [show (a.filterMap (digit h)).foldl (fun n v => n * (if h then 16 else 10) + v) 0 =
    value (if h then 16 else 10) (a.filterMap (digit h)) from rfl]
  generalize value (if h then 16 else 10) (a.filterMap (digit h)) = m
  cases b with
  | nil =>
    simp only [Bool.and_eq_true, Bool.not_eq_true', Tail]
    rw [overflows_iff (sign := []) (by simp) (by decide)]
    simp [InRange, afterRun]
  | cons c r =>
    simp only
    by_cases hc : lowC c = letter h
    · have hc' : (lowC c == if h = true then 'p' else 'e') = true := by rw [beq_iff_eq]; exact hc
      rw [if_pos hc']
      have har : afterRun h '0' (c :: r) = underscoreLoop h '!' r := by simp [afterRun]
      rw [har]
      constructor
      · rintro ⟨h1, h2⟩
        split at h1
        · cases h1
        · rename_i neg e hre
          obtain ⟨sign, ds, es, hs, rfl, hn, hrun, hex⟩ := exp_iff.1 ⟨hre, h2⟩
          refine .inr ⟨c, sign, ds, es, e, rfl, hc, hs, hrun, hex, ?_⟩
          cases h
          · simp only [Bool.false_eq_true, if_false, Bool.not_eq_true'] at h1 ⊢
            exact (overflows_iff hn (by decide)).1 h1
          · simp only [if_true, Bool.not_eq_true'] at h1 ⊢
            exact (overflows_iff hn (by decide)).1 h1
      · rintro (⟨h1, _⟩ | ⟨c', sign, ds, es, e, h1, _, hs, hrun, hex, hin⟩)
        · cases h1
        · obtain ⟨rfl, rfl⟩ := List.cons.inj h1
          have := (exp_iff (h := h) (r := sign ++ ds) (neg := decide (sign = ['-'])) (e := e)).2
            ⟨sign, ds, es, hs, rfl, by simp, hrun, hex⟩
          refine ⟨?_, this.2⟩
          rw [this.1]
          cases h
          · simp only [Bool.false_eq_true, if_false, Bool.not_eq_true'] at hin ⊢
            exact (overflows_iff (by simp) (by decide)).2 hin
          · simp only [if_true, Bool.not_eq_true'] at hin ⊢
            exact (overflows_iff (by simp) (by decide)).2 hin
    · have hc' : ¬ (lowC c == if h = true then 'p' else 'e') = true := by rw [beq_iff_eq]; exact hc
      rw [if_neg hc']
      constructor
      · rintro ⟨h1, _⟩; cases h1
      · rintro (⟨h1, _⟩ | ⟨c', sign, ds, es, e, h1, h2, _⟩)
        · cases h1
        · obtain ⟨rfl, _⟩ := List.cons.inj h1; exact absurd h2 hc

theorem digit_false_eq : digit false = dec := by funext c; exact digit_eq false c
theorem digit_true_eq : digit true = hex := by funext c; exact digit_eq true c

theorem tail_exp {h : Bool} {m : Nat} {b : Str} {ls : List Char} (hl : ∀ c, lowC c = letter h ↔ c ∈ ls) :
    Tail h m b ↔ (b = [] ∧ h = false ∧ m < limit) ∨
      ∃ sign e, Exp ls b sign e ∧ InRange (if h then 2 else 10) m sign e := by
  unfold Tail
  refine or_congr Iff.rfl ?_
  constructor
  · rintro ⟨c, sign, ds, es, e, rfl, hc, hs, hr, he, hi⟩
    exact ⟨sign, e, ⟨c, ds, es, (hl c).1 hc, hs, rfl, digit_false_eq ▸ hr, he⟩, hi⟩
  · rintro ⟨sign, e, ⟨c, ds, es, hc, hs, rfl, hr, he⟩, hi⟩
    exact ⟨c, sign, ds, es, e, rfl, (hl c).2 hc, hs, digit_false_eq ▸ hr, he, hi⟩

theorem letters_false (c : Char) : lowC c = letter false ↔ c ∈ ['e', 'E'] := by
  rw [show letter false = 'e' from rfl, lowC_eq (by decide)]
  simp only [List.mem_cons, List.not_mem_nil, or_false]
  rfl

theorem letters_true (c : Char) : lowC c = letter true ↔ c ∈ ['p', 'P'] := by
  rw [show letter true = 'p' from rfl, lowC_eq (by decide)]
  simp only [List.mem_cons, List.not_mem_nil, or_false]
  rfl

theorem tail_stops {h : Bool} {m : Nat} {b : Str} (ht : Tail h m b) : Stops h b := by
  rcases ht with ⟨rfl, _⟩ | ⟨c, sign, ds, es, e, rfl, hc, _⟩
  · rintro c r ⟨⟩
  · exact letter_stops hc

/-- Decimal numbers. -/
theorem decimal_iff {r : Str} (hd : '.' ∉ r) :
    (readNumber false r = true ∧ underscoreLoop false '^' r = true) ↔ Decimal r := by
  constructor
  · rintro ⟨h1, h2⟩
    obtain ⟨a, b, rfl, ha, hb⟩ := span_du false r
    have hd' : '.' ∉ b := fun h => hd (by simp [h])
    have hne : a ≠ [] := by
      rintro rfl
      unfold readNumber at h1
      rw [readMant_eq [] b (by simp) hb hd'] at h1
      simp at h1
    obtain ⟨⟨vs, hrun⟩, h3⟩ := (loop_start hb a ha hne (.inl rfl)).1 h2
    obtain ⟨_, ht⟩ := (readNumber_iff ha hb hd').1 ⟨h1, h3⟩
    obtain ⟨hvs, _⟩ := run_filterMap hrun
    refine ⟨a, vs, b, rfl, digit_false_eq ▸ hrun, ?_⟩
    rw [← hvs] at ht
    rcases (tail_exp letters_false).1 ht with ⟨h, _, h'⟩ | h
    · exact .inl ⟨h, h'⟩
    · exact .inr h
  · rintro ⟨a, vs, b, rfl, hrun, hx⟩
    have hrun : Run (digit false) a vs := digit_false_eq ▸ hrun
    obtain ⟨hvs, ha, hne⟩ := run_filterMap hrun
    have hd' : '.' ∉ b := fun h => hd (by simp [h])
    have ht : Tail false (value 10 vs) b := by
      refine (tail_exp letters_false).2 ?_
      rcases hx with ⟨h, h'⟩ | h
      · exact .inl ⟨h, rfl, h'⟩
      · exact .inr h
    have hb := tail_stops ht
    have h1 := (readNumber_iff ha hb hd').2 ⟨by rw [← hvs]; exact hne, by rw [← hvs]; exact ht⟩
    refine ⟨h1.1, ?_⟩
    have hane : a ≠ [] := by rintro rfl; exact hne hvs
    exact (loop_start hb a ha hane (.inl rfl)).2 ⟨⟨vs, hrun⟩, h1.2⟩

/-- Hexadecimal numbers, after the prefix. -/
theorem hexadecimal_iff {r : Str} (hd : '.' ∉ r) :
    (readNumber true r = true ∧ underscoreLoop true '0' r = true) ↔
    ∃ u m vs x sign e, (u = [] ∨ u = ['_']) ∧ r = u ++ m ++ x ∧
      Run hex m vs ∧ Exp ['p', 'P'] x sign e ∧ InRange 2 (value 16 vs) sign e := by
  constructor
  · rintro ⟨h1, h2⟩
    obtain ⟨a, b, rfl, ha, hb⟩ := span_du true r
    have hd' : '.' ∉ b := fun h => hd (by simp [h])
    have hne : a ≠ [] := by
      rintro rfl
      unfold readNumber at h1
      rw [readMant_eq [] b (by simp) hb hd'] at h1
      simp at h1
    obtain ⟨h4, h3⟩ := (loop_run hb a ha).2.1 h2
    obtain ⟨_, ht⟩ := (readNumber_iff ha hb hd').1 ⟨h1, h3⟩
    rcases (tail_exp letters_true).1 ht with ⟨_, h, _⟩ | ⟨sign, e, he, hi⟩
    · cases h
    rcases h4 with h4 | ⟨vs, hrun⟩ | ⟨m, vs, rfl, hrun⟩
    · exact absurd h4 hne
    · refine ⟨[], a, vs, b, sign, e, .inl rfl, rfl, digit_true_eq ▸ hrun, he, ?_⟩
      rw [(run_filterMap hrun).1]; exact hi
    · refine ⟨['_'], m, vs, b, sign, e, .inr rfl, rfl, digit_true_eq ▸ hrun, he, ?_⟩
      rw [List.filterMap_cons_none (digit_under true)] at hi
      rw [(run_filterMap hrun).1]; exact hi
  · rintro ⟨u, m, vs, b, sign, e, hu, rfl, hrun, he, hi⟩
    have hrun : Run (digit true) m vs := digit_true_eq ▸ hrun
    obtain ⟨hvs, hm, hne⟩ := run_filterMap hrun
    have hd' : '.' ∉ b := fun h => hd (by simp [h])
    have ht : Tail true (value 16 vs) b := (tail_exp letters_true).2 (.inr ⟨sign, e, he, hi⟩)
    have hb := tail_stops ht
    have ha : ∀ c ∈ u ++ m, du true c = true := by
      intro c hc
      rcases List.mem_append.1 hc with hc | hc
      · rcases hu with rfl | rfl
        · cases hc
        · rw [List.mem_singleton.1 hc]; rfl
      · exact hm c hc
    have hf : (u ++ m).filterMap (digit true) = vs := by
      rw [hvs]
      rcases hu with rfl | rfl
      · rfl
      · rw [List.singleton_append, List.filterMap_cons_none (digit_under true)]
    have h1 := (readNumber_iff ha hb hd').2 ⟨by rw [hf]; exact hne, by rw [hf]; exact ht⟩
    refine ⟨h1.1, (loop_run hb (u ++ m) ha).2.2 ⟨?_, h1.2⟩⟩
    rcases hu with rfl | rfl
    · exact .inr (.inl ⟨vs, hrun⟩)
    · exact .inr (.inr ⟨m, vs, rfl, hrun⟩)

/-- After the sign. -/
theorem body_iff {r : Str} (hd : '.' ∉ r) :
    ((match hexPrefix r with
      | some r => readNumber true r
      | none => readNumber false r) = true ∧ underscoreBase r = true) ↔ Decimal r ∨ Hexadecimal r := by
  have lx : ∀ x : Char, lowC x = 'x' ↔ x ∈ ['x', 'X'] := by
    intro x
    rw [lowC_eq (by decide)]
    simp only [List.mem_cons, List.not_mem_nil, or_false]; rfl
  -- a decimal number has no base prefix
  have hdec : ∀ x r', Decimal ('0' :: x :: r') → lowC x ≠ 'b' ∧ lowC x ≠ 'o' ∧ lowC x ≠ 'x' := by
    rintro x r' ⟨m, vs, y, hm, hrun, hy⟩
    have hrun : Run (digit false) m vs := digit_false_eq ▸ hrun
    have key : x = '_' ∨ isDig x = true ∨ x = 'e' ∨ x = 'E' := by
      obtain ⟨_, hdu, _⟩ := run_filterMap hrun
      cases m with
      | nil => cases hrun
      | cons c m =>
        obtain ⟨rfl, hm'⟩ := List.cons.inj hm
        cases m with
        | cons c m =>
          obtain ⟨rfl, _⟩ := List.cons.inj hm'
          have := hdu x (by simp)
          simp only [du, Bool.or_eq_true, beq_iff_eq, digit_isDig] at this
          rcases this with h | h
          · exact .inl h
          · exact .inr (.inl h)
        | nil =>
          rcases hy with ⟨rfl, _⟩ | ⟨sign, e, ⟨c, ds, es, hc, _, rfl, _⟩, _⟩
          · cases hm'
          · obtain ⟨rfl, _⟩ := List.cons.inj hm'
            simp only [List.mem_cons, List.not_mem_nil, or_false] at hc
            exact .inr (.inr hc)
    rcases key with rfl | h | rfl | rfl
    · decide
    · have hn : (lowC x).toNat = x.toNat ∧ x.toNat ≤ 57 := by
        simp only [isDig, Bool.and_eq_true, decide_eq_true_eq] at h
        have : ('9' : Char).toNat = 57 := rfl
        rw [lowC_nat]; split <;> omega
      refine ⟨?_, ?_, ?_⟩ <;>
      · intro he
        rw [he] at hn
        exact absurd (show (_ : Nat) ≤ 57 by rw [← hn.1] at hn; exact hn.2) (by decide)
    · decide
    · decide
  -- a base prefix that is not that of a hexadecimal number
  have hbad : ∀ x r', '.' ∉ r' → (lowC x = 'b' ∨ lowC x = 'o' ∨ lowC x = 'x') → readNumber false ('0' :: x :: r') = false := by
    intro x r' _ hx
    have h0 : du false '0' = true := rfl
    have hxd : x ≠ '.' ∧ digit false x = none ∧ x ≠ '_' ∧ lowC x ≠ 'e' := by
      rcases hx with h | h | h <;> rcases (lowC_eq (by decide)).1 h with rfl | rfl <;> decide
    unfold readNumber
    have : readMant false false 0 0 false ('0' :: x :: r') = ⟨0, 0, true, x :: r'⟩ := by
      have e1 : (x == '_') = false := by simpa using hxd.2.2.1
      have e2 : (x == '.') = false := by simpa using hxd.1
      rw [readMant]
      simp only [show digit false '0' = some 0 from rfl, show ('0' == '_') = false from rfl,
        show ('0' == '.') = false from rfl, Bool.false_eq_true, if_false]
      rw [readMant]
      simp only [e1, e2, hxd.2.1, Bool.false_eq_true, if_false]
    rw [this]
    have e3 : (lowC x == 'e') = false := by simpa using hxd.2.2.2
    simp [e3]
  constructor
  · rintro ⟨h1, h2⟩
    cases hp : hexPrefix r with
    | some r1 =>
      rw [hp] at h1
      unfold hexPrefix at hp
      split at hp
      · rename_i x c r2
        split at hp
        · rename_i hx
          cases hp
          have hx' : lowC x = 'x' := by simpa using hx
          have hd' : '.' ∉ c :: r2 := fun h => hd (by simp at h; simp [h])
          have h2' : underscoreLoop true '0' (c :: r2) = true := by
            simpa [underscoreBase, hx'] using h2
          obtain ⟨u, m, vs, y, sign, e, hu, hr, hrun, he, hi⟩ := (hexadecimal_iff hd').1 ⟨h1, h2'⟩
          refine .inr ⟨x, u, m, vs, y, sign, e, (lx x).1 hx', hu, ?_, hrun, he, hi⟩
          rw [hr]; simp
        · cases hp
      · cases hp
    | none =>
      rw [hp] at h1
      refine .inl ((decimal_iff hd).1 ⟨h1, ?_⟩)
      unfold underscoreBase at h2
      split at h2
      · rename_i x r'
        split at h2
        · rename_i hx
          rw [hbad x r' (fun h => hd (by simp [h])) (by simpa [or_assoc] using hx)] at h1
          cases h1
        · exact h2
      · exact h2
  · rintro (h | h)
    · have hp : hexPrefix r = none := by
        unfold hexPrefix
        split
        · rename_i x c r2
          rw [if_neg]
          have := (hdec _ _ h).2.2
          simpa using this
        · rfl
      obtain ⟨h1, h2⟩ := (decimal_iff hd).2 h
      refine ⟨by rw [hp]; exact h1, ?_⟩
      unfold underscoreBase
      split
      · rename_i x r'
        obtain ⟨a, b, c⟩ := hdec _ _ h
        rw [if_neg (by simp [a, b, c])]; exact h2
      · exact h2
    · obtain ⟨z, u, m, vs, x, sign, e, hz, hu, rfl, hrun, he, hi⟩ := h
      have hz' := (lx z).2 hz
      have hd' : '.' ∉ u ++ m ++ x := fun h => hd (by
        simp only [List.cons_append, List.mem_cons]; exact .inr (.inr h))
      obtain ⟨h1, h2⟩ := (hexadecimal_iff hd').2 ⟨u, m, vs, x, sign, e, hu, rfl, hrun, he, hi⟩
      have hne : ∃ c r, u ++ m ++ x = c :: r := by
        obtain ⟨_, _, hne⟩ := run_filterMap (h := true) (digit_true_eq ▸ hrun)
        cases hc : u ++ m ++ x with
        | nil =>
          rw [hc] at h1; cases h1
        | cons c r => exact ⟨c, r, rfl⟩
      obtain ⟨c, r, hc⟩ := hne
      have e0 : ('0' :: z :: u ++ m ++ x : Str) = '0' :: z :: c :: r := by
        rw [← hc]; simp
      rw [hc] at h1 h2
      rw [e0]
      refine ⟨?_, ?_⟩
      · simp only [hexPrefix, hz', beq_self_eq_true, if_true]; exact h1
      · simp only [underscoreBase, hz', beq_self_eq_true, Bool.or_true, if_true]; exact h2

/-- The numbers of Go without a decimal point. -/
theorem isNumeric_iff {t : Str} (hd : '.' ∉ t) : isNumeric t = true ↔ Number t := by
  have hu : underscoreBase (splitSign t).2 = true ∨ '_' ∈ t := by
    by_cases h : '_' ∈ t
    · exact .inr h
    · left
      obtain ⟨sign, _, ht, _⟩ := splitSign_spec t
      have h' : '_' ∉ (splitSign t).2 := fun h' => h (by rw [ht]; simp [h'])
      generalize (splitSign t).2 = r at h'
      unfold underscoreBase
      split
      · split
        · exact loop_none (by decide) (fun h => h' (by simp [h]))
        · exact loop_none (by decide) h'
      · exact loop_none (by decide) h'
  obtain ⟨sign, hs, ht, hn⟩ := splitSign_spec t
  have hd' : '.' ∉ (splitSign t).2 := fun h => hd (by rw [ht]; simp [h])
  unfold isNumeric Number
  rw [Bool.or_eq_true, special_iff, Bool.and_eq_true]
  refine or_congr Iff.rfl ?_
  have hc : ((!t.contains '_' || underscoreOK t) = true) ↔ underscoreBase (splitSign t).2 = true := by
    unfold underscoreOK
    rcases hu with hu | hu
    · simp [hu]
    · have : t.contains '_' = true := by simpa using hu
      simp [hu]
  rw [hc]
  refine (body_iff hd').trans ?_
  constructor
  · intro h; exact ⟨sign, _, hs, ht, h⟩
  · rintro ⟨sign', r', hs', rfl, h⟩
    have hr : ∃ c r, r' = c :: r ∧ (digit true c).isSome = true := by
      rcases h with ⟨m, vs, x, rfl, hrun, _⟩ | ⟨z, u, m, vs, x, sign, e, _, _, rfl, _⟩
      · have hrun : Run (digit false) m vs := digit_false_eq ▸ hrun
        obtain ⟨c, r, rfl, hc⟩ := run_head hrun
        exact ⟨c, _, rfl, digit_dig (digit_isDig ▸ ‹(digit false c).isSome = true›)⟩
      · exact ⟨'0', _, rfl, rfl⟩
    rw [(splitSign_append hs' hr).1]; exact h

end DDL.Go
