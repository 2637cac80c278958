import Verif.Proof.Number
import Verif.Proof.Round
/-
The value of a number.
-/

namespace DDL.Go
open DDL Spec Spec.Num

/-- Mantissa and exponent as a fraction. -/
def frac (h : Bool) (m : Nat) (neg : Bool) (e : Nat) : Nat × Nat :=
  if neg then (m, (if h then 2 else 10) ^ e) else (m * (if h then 2 else 10) ^ e, 1)

theorem fraction_nil {h : Bool} {a : Str} (ha : ∀ c ∈ a, du h c = true) :
    fraction h a = (value (if h then 16 else 10) (a.filterMap (digit h)), 1) := by
  have := readMant_eq (h := h) a [] ha (by rintro c r ⟨⟩) (by simp) 0 0 false
  rw [List.append_nil] at this
  unfold fraction
  rw [this]
  cases h <;> simp [value]

theorem fraction_exp {h : Bool} {a : Str} (ha : ∀ c ∈ a, du h c = true) {c : Char} {sign ds : Str} {es : List Nat}
    {e : Nat} {neg : Bool} (hc : lowC c = letter h) (hs : Sign sign) (hn : neg = true ↔ sign = ['-'])
    (hr : Run (digit false) ds es) (he : Exponent es e) :
    fraction h (a ++ c :: (sign ++ ds)) = frac h (value (if h then 16 else 10) (a.filterMap (digit h))) neg e := by
  have hd : '.' ∉ c :: (sign ++ ds) := by
    intro hm
    rcases List.mem_cons.1 hm with rfl | hm
    · revert hc; cases h <;> decide
    rcases List.mem_append.1 hm with hm | hm
    · rcases hs with rfl | rfl | rfl <;> revert hm <;> decide
    · exact absurd ((run_filterMap hr).2.1 _ hm) (by decide)
  have h1 := readMant_eq (h := h) a _ ha (letter_stops hc) hd 0 0 false
  have h2 := ((exp_iff (h := h) (r := sign ++ ds) (e := e) (neg := neg)).2 ⟨sign, ds, es, hs, rfl, hn, hr, he⟩).1
  unfold fraction
  rw [h1]
  simp only [h2]
  unfold frac
  cases h <;> cases neg <;> simp [value]

/-- A number that is read is below the limit. -/
theorem fraction_range {h : Bool} {t : Str} (hr : readNumber h t = true) :
    0 < (fraction h t).2 ∧ (fraction h t).1 < limit * (fraction h t).2 := by
  have key : ∀ base m scale neg e, 0 < base → overflows base m scale neg e = false →
      0 < (if neg then (m, base ^ (scale + e)) else (m * base ^ e, base ^ scale)).2 ∧
      (if neg then (m, base ^ (scale + e)) else (m * base ^ e, base ^ scale)).1 <
        limit * (if neg then (m, base ^ (scale + e)) else (m * base ^ e, base ^ scale)).2 := by
    intro base m scale neg e hb ho
    have hl : 0 < limit := limit_pos
    have hp : ∀ n, 0 < base ^ n := fun n => Nat.pow_pos hb
    unfold overflows at ho
    rw [show tooLarge = limit from rfl] at ho
    cases neg with
    | true =>
      simp only [if_true] at ho ⊢
      refine ⟨hp _, ?_⟩
      by_cases hm : m = 0
      · rw [hm]; exact Nat.mul_pos hl (hp _)
      · rw [if_neg hm] at ho; simpa using ho
    | false =>
      simp only [Bool.false_eq_true, if_false] at ho ⊢
      refine ⟨hp _, ?_⟩
      by_cases hm : m = 0
      · rw [hm, Nat.zero_mul]; exact Nat.mul_pos hl (hp _)
      · rw [if_neg hm] at ho; simpa using ho
  unfold readNumber at hr
  unfold fraction
  generalize readMant h false 0 0 false t = m at *
  simp only at hr ⊢
  cases hs : m.sawdigits with
  | false => rw [hs] at hr; cases hr
  | true =>
    rw [hs] at hr
    simp only [Bool.not_true, Bool.false_eq_true, if_false] at hr
    cases hm : m.rest with
    | nil =>
      rw [hm] at hr
      simp only at hr ⊢
      cases h with
      | true => cases hr
      | false =>
        have := key 10 m.mantissa m.frac false 0 (by decide) (by simpa using hr)
        simpa using this
    | cons c r =>
      rw [hm] at hr
      simp only at hr ⊢
      by_cases hc : (lowC c == if h = true then 'p' else 'e') = true
      · rw [if_pos hc] at hr
        cases hx : readExp r with
        | none => rw [hx] at hr; cases hr
        | some w =>
          obtain ⟨neg, e⟩ := w
          rw [hx] at hr
          simp only at hr ⊢
          cases h with
          | true => exact key 2 _ _ _ _ (by decide) (by simpa using hr)
          | false => exact key 10 _ _ _ _ (by decide) (by simpa using hr)
      · rw [if_neg hc] at hr; cases hr

/-! ### Digits -/

/-- The base of the digits. -/
def dbase (h : Bool) : Nat := if h then 16 else 10

theorem digit_lt {h : Bool} {c : Char} {v : Nat} (hd : digit h c = some v) : v < dbase h := by
  rw [digit_eq] at hd
  unfold dig at hd
  cases h
  · have hd : dec c = some v := hd
    exact (List.findIdx?_eq_some_iff_findIdx_eq.1 hd).1
  · have hd : hex c = some v := hd
    exact (List.findIdx?_eq_some_iff_findIdx_eq.1 hd).1

theorem run_bound {h : Bool} {a : Str} {vs : List Nat} (hr : Run (digit h) a vs) :
    vs.length ≤ a.length ∧ ∀ v ∈ vs, v < dbase h := by
  induction hr with
  | one h1 => exact ⟨Nat.le_refl _, fun v hv => by rw [List.mem_singleton.1 hv]; exact digit_lt h1⟩
  | next h1 _ ih =>
    refine ⟨Nat.succ_le_succ ih.1, fun v hv => ?_⟩
    rcases List.mem_cons.1 hv with rfl | hv
    · exact digit_lt h1
    · exact ih.2 v hv
  | under h1 _ ih =>
    refine ⟨Nat.le_succ_of_le (Nat.succ_le_succ ih.1), fun v hv => ?_⟩
    rcases List.mem_cons.1 hv with rfl | hv
    · exact digit_lt h1
    · exact ih.2 v hv

theorem foldl_lt {b : Nat} (vs : List Nat) (hv : ∀ v ∈ vs, v < b) (n : Nat) :
    vs.foldl (fun n v => n * b + v) n < (n + 1) * b ^ vs.length := by
  induction vs generalizing n with
  | nil => simp
  | cons v vs ih =>
    have h1 := ih (fun v h => hv v (by simp [h])) (n * b + v)
    have h2 : n * b + v + 1 ≤ (n + 1) * b := by
      have := hv v (by simp)
      rw [Nat.succ_mul]; omega
    have h3 := Nat.mul_le_mul_right (b ^ vs.length) h2
    rw [List.foldl_cons, List.length_cons, Nat.pow_succ, Nat.mul_comm (b ^ vs.length) b, ← Nat.mul_assoc]
    omega

theorem value_lt {b : Nat} {vs : List Nat} (hv : ∀ v ∈ vs, v < b) : value b vs < b ^ vs.length := by
  have := foldl_lt vs hv 0
  rwa [Nat.zero_add, Nat.one_mul] at this

theorem le_foldl {b : Nat} (hb : 0 < b) (vs : List Nat) (n : Nat) : n ≤ vs.foldl (fun n v => n * b + v) n := by
  induction vs generalizing n with
  | nil => exact Nat.le_refl _
  | cons v vs ih =>
    refine Nat.le_trans ?_ (ih (n * b + v))
    exact Nat.le_trans (Nat.le_mul_of_pos_right _ hb) (Nat.le_add_right _ _)

/-- The exponent that is read, and the one that is written. -/
theorem exponent_cases {es : List Nat} {e : Nat} (h : Exponent es e) :
    e = value 10 es ∨ (10000 ≤ e ∧ 10000 ≤ value 10 es) := by
  rcases h with ⟨h, _⟩ | ⟨p, s, rfl, h, h1, _⟩
  · exact .inl h
  · refine .inr ⟨h1, ?_⟩
    unfold value
    rw [List.foldl_append]
    exact Nat.le_trans (by rw [h] at h1; exact h1) (le_foldl (by decide) _ _)

/-! ### The parts of a number -/

theorem hexPrefix_decimal {m x : Str} {vs : List Nat} (hrun : Run (digit false) m vs)
    (hx : ∀ c r, x = c :: r → c ∈ ['e', 'E']) : hexPrefix (m ++ x) = none := by
  unfold hexPrefix
  split
  · rename_i z c r2 he
    rw [if_neg]
    obtain ⟨_, hdu, _⟩ := run_filterMap hrun
    have key : du false z = true ∨ z ∈ ['e', 'E'] := by
      cases m with
      | nil => cases hrun
      | cons a m =>
        obtain ⟨_, he⟩ := List.cons.inj he
        cases m with
        | nil => exact .inr (hx _ _ he)
        | cons b m =>
          obtain ⟨rfl, _⟩ := List.cons.inj he
          exact .inl (hdu _ (by simp))
    intro hz
    have hz : lowC z = 'x' := by simpa using hz
    rcases (lowC_eq (by decide)).1 hz with rfl | rfl <;> revert key <;> decide
  · rfl

theorem special_digit {sign r : Str} (hs : Sign sign)
    (hr : ∃ c r', r = c :: r' ∧ (digit false c).isSome = true) : special (sign ++ r) = false := by
  obtain ⟨c, r, rfl, hc⟩ := hr
  have hne : ∀ q ∈ ['i', 'n'], lowC c ≠ q := by
    intro q hq he
    simp only [List.mem_cons, List.not_mem_nil, or_false] at hq
    rcases hq with rfl | rfl <;> rcases (lowC_eq (by decide)).1 he with rfl | rfl <;> revert hc <;> decide
  have hcs : c ≠ '-' ∧ c ≠ '+' := by
    constructor <;> · rintro rfl; revert hc; decide
  rw [Bool.eq_false_iff]
  have inf : ∀ p : Str, p.head? = some 'i' → equalIgnoreCase (c :: r) p ≠ true := by
    intro p hp he
    obtain ⟨qs, rfl⟩ := equalIgnoreCase_head he
    exact hne 'i' (by simp) (by simpa using hp)
  have inf' : ¬ (equalIgnoreCase (c :: r) (S "inf") || equalIgnoreCase (c :: r) (S "infinity")) = true := by
    rw [Bool.or_eq_true]
    rintro (h | h)
    · exact inf _ (by decide) h
    · exact inf _ (by decide) h
  rcases hs with rfl | rfl | rfl
  · intro h
    rcases special_head hcs.1 hcs.2 h with h | h
    · exact hne 'i' (by simp) h
    · exact hne 'n' (by simp) h
  · exact inf'
  · exact inf'

/-- How a number is read. -/
theorem denotes_parts {t : Str} {neg : Bool} {p q : Nat} (hd : Denotes t neg p q) :
    ∃ h r body V, special t = false ∧ splitSign t = (neg, r) ∧
      hexPrefix r = (if h then some body else none) ∧ (h = false → body = r) ∧ V < dbase h ^ t.length ∧
      ((fraction h body = (V, 1) ∧ p = V ∧ q = 1) ∨
        ∃ sn es e, Exponent es e ∧ fraction h body = frac h V sn e ∧ (p, q) = frac h V sn (value 10 es)) := by
  obtain ⟨sign, r, hs, rfl, hn, hv⟩ := hd
  have split : (∃ c r', r = c :: r' ∧ (digit false c).isSome = true) → splitSign (sign ++ r) = (neg, r) := by
    intro h
    obtain ⟨h1, h2⟩ := splitSign_append hs h
    refine Prod.ext ?_ h1
    rw [Bool.eq_iff_iff, h2, hn]
  -- the exponent
  have expo : ∀ (h : Bool) (a x : Str) (ls : List Char) (sg : Str) (es : List Nat) (P Q : Nat),
      (∀ c ∈ a, du h c = true) → (∀ c, lowC c = letter h ↔ c ∈ ls) → ExpDigits ls x sg es →
      Power (if h then 2 else 10) (value (dbase h) (a.filterMap (digit h))) sg (value 10 es) P Q →
      ∃ sn es e, Exponent es e ∧ fraction h (a ++ x) = frac h (value (dbase h) (a.filterMap (digit h))) sn e ∧
        (P, Q) = frac h (value (dbase h) (a.filterMap (digit h))) sn (value 10 es) := by
    rintro h a x ls sg es P Q ha hl ⟨c, ds, hc, hsg, rfl, hrun⟩ hp
    have hrun : Run (digit false) ds es := digit_false_eq ▸ hrun
    have hle : ∀ v ∈ es, v ≤ 9 := fun v hv => Nat.le_of_lt_succ ((run_bound hrun).2 v hv)
    have he : Exponent es (cap 0 es) := (exponent_iff hle _).2 rfl
    refine ⟨decide (sg = ['-']), es, cap 0 es, he,
      fraction_exp ha ((hl c).2 hc) hsg (by simp) hrun he, ?_⟩
    unfold Power at hp
    unfold frac
    by_cases hsg' : sg = ['-']
    · rw [if_pos hsg'] at hp
      rw [if_pos (by simpa using hsg'), hp.1, hp.2]
    · rw [if_neg hsg'] at hp
      rw [if_neg (by simpa using hsg'), hp.1, hp.2]
  rcases hv with ⟨m, vs, x, rfl, hrun, hx⟩ | ⟨z, u, m, vs, x, sg, es, hz, hu, rfl, hrun, hx, hp⟩
  · have hrun : Run (digit false) m vs := digit_false_eq ▸ hrun
    obtain ⟨hvs, hdu, _⟩ := run_filterMap hrun
    obtain ⟨hlen, hlt⟩ := run_bound hrun
    have hhead : ∃ c r', m ++ x = c :: r' ∧ (digit false c).isSome = true := by
      obtain ⟨c, r, rfl, hc⟩ := run_head hrun
      exact ⟨c, _, rfl, hc⟩
    refine ⟨false, m ++ x, m ++ x, value 10 vs, special_digit hs hhead, split hhead, ?_,
      fun _ => rfl, ?_, ?_⟩
    · refine hexPrefix_decimal hrun ?_
      rintro c r rfl
      rcases hx with ⟨h, _⟩ | ⟨sg, es, ⟨c', ds, hc, _, he, _⟩, _⟩
      · cases h
      · obtain ⟨rfl, _⟩ := List.cons.inj he
        exact hc
    · refine Nat.lt_of_lt_of_le (value_lt hlt) (Nat.pow_le_pow_right (by decide) ?_)
      simp only [List.length_append]; omega
    · rcases hx with ⟨rfl, h1, h2⟩ | ⟨sg, es, hx, hp⟩
      · left
        rw [List.append_nil]
        refine ⟨?_, h1, h2⟩
        rw [fraction_nil hdu, ← hvs]; rfl
      · right
        have := expo false m x _ sg es p q hdu letters_false hx (by rw [← hvs]; exact hp)
        rw [← hvs] at this
        exact this
  · have hrun : Run (digit true) m vs := digit_true_eq ▸ hrun
    obtain ⟨hvs, hdu, _⟩ := run_filterMap hrun
    obtain ⟨hlen, hlt⟩ := run_bound hrun
    have hhead : ∃ c r', '0' :: z :: (u ++ m ++ x) = c :: r' ∧ (digit false c).isSome = true := ⟨_, _, rfl, rfl⟩
    have hdu' : ∀ c ∈ u ++ m, du true c = true := by
      intro c hc
      rcases List.mem_append.1 hc with hc | hc
      · rcases hu with rfl | rfl
        · cases hc
        · rw [List.mem_singleton.1 hc]; rfl
      · exact hdu c hc
    have hvs' : vs = (u ++ m).filterMap (digit true) := by
      rw [List.filterMap_append, ← hvs]
      rcases hu with rfl | rfl
      · rfl
      · rfl
    refine ⟨true, _, u ++ m ++ x, value 16 vs, special_digit hs hhead, split hhead, ?_, nofun, ?_, ?_⟩
    · have hz' : lowC z = 'x' := by
        rw [lowC_eq (by decide)]
        simp only [List.mem_cons, List.not_mem_nil, or_false] at hz
        exact hz
      obtain ⟨c, r', hc⟩ : ∃ c r', u ++ m ++ x = c :: r' := by
        obtain ⟨c, r', rfl, _⟩ := run_head hrun
        rcases hu with rfl | rfl
        · exact ⟨_, _, rfl⟩
        · exact ⟨_, _, rfl⟩
      rw [hc]
      simp only [hexPrefix, hz', beq_self_eq_true, if_true]
    · refine Nat.lt_of_lt_of_le (value_lt hlt) (Nat.pow_le_pow_right (by decide) ?_)
      simp only [List.length_append, List.length_cons]; omega
    · right
      have := expo true (u ++ m) x _ sg es p q hdu' letters_true hx (by rw [← hvs']; exact hp)
      rw [← hvs'] at this
      exact this

theorem pow_ten (n : Nat) : 2 ^ n ≤ 10 ^ n := Nat.pow_le_pow_left (by decide) n

/-- `m / base ^ e` is rounded to 0 if the exponent is large and the digits are few. -/
theorem frac_small {h : Bool} {m l e : Nat} (hm : m < dbase h ^ l) (hl : l ≤ 2000) (he : 10000 ≤ e) {a : Nat}
    (ha : a = 1074) : 2 * (m * 2 ^ a) < (if h then 2 else 10) ^ e := by
  have h1 : 2 * (m * 2 ^ a) = m * 2 ^ (a + 1) := by rw [Nat.pow_succ]; generalize 2 ^ a = x; grind
  have h2 : m * 2 ^ (a + 1) < dbase h ^ l * 2 ^ (a + 1) := Nat.mul_lt_mul_of_pos_right hm (Nat.two_pow_pos _)
  have h3 : dbase h ^ l * 2 ^ (a + 1) ≤ (if h then 2 else 10) ^ e := by
    cases h with
    | true =>
      show 16 ^ l * 2 ^ (a + 1) ≤ 2 ^ e
      rw [show (16 : Nat) = 2 ^ 4 from rfl, ← Nat.pow_mul, ← Nat.pow_add]
      exact Nat.pow_le_pow_right (by decide) (by omega)
    | false =>
      show 10 ^ l * 2 ^ (a + 1) ≤ 10 ^ e
      refine Nat.le_trans (Nat.mul_le_mul_left _ (pow_ten _)) ?_
      rw [← Nat.pow_add]
      exact Nat.pow_le_pow_right (by decide) (by omega)
  omega

set_option exponentiation.threshold 3000 in
/-- With an exponent of 10000 only zero is below the limit. -/
theorem frac_zero {h : Bool} {m e : Nat} (he : 10000 ≤ e) (hm : m * (if h then 2 else 10) ^ e < limit * 1) : m = 0 := by
  have lim : ∀ {a b l : Nat}, l = 2 ^ a - 2 ^ b → a = 1024 → l ≤ 2 ^ e := by
    rintro a b l rfl rfl
    exact Nat.le_trans (Nat.sub_le _ _) (Nat.pow_le_pow_right (by decide) (by omega))
  have h1 : limit ≤ 2 ^ e := lim (a := 1024) (b := 970) rfl rfl
  have h2 : 2 ^ e ≤ (if h then 2 else 10) ^ e := Nat.pow_le_pow_left (by cases h <;> decide) _
  rcases Nat.eq_zero_or_pos m with h0 | h0
  · exact h0
  · have := Nat.le_mul_of_pos_left ((if h then 2 else 10) ^ e) h0
    omega

set_option exponentiation.threshold 3000 in
/-- The value is the float64 nearest to the number that is written. -/
theorem parseFloat_nearest {t : Str} {neg : Bool} {p q : Nat} (hn : isNumeric t = true) (hlen : t.length ≤ 2000)
    (hd : Denotes t neg p q) : ∃ x, parseFloat t = .finite neg x ∧ Nearest p q x := by
  obtain ⟨h, r, body, V, hsp, hss, hpre, hbody, hV, hcase⟩ := denotes_parts hd
  have hread : readNumber h body = true := by
    unfold isNumeric at hn
    rw [hsp, Bool.false_or, Bool.and_eq_true] at hn
    have := hn.1
    rw [hss] at this
    simp only [hpre] at this
    cases h with
    | true => exact this
    | false => rw [hbody rfl]; exact this
  have hpf : parseFloat t = .finite neg (toUnits (fraction h body).1 (fraction h body).2) := by
    unfold parseFloat
    rw [hsp, hss]
    simp only [hpre, Bool.false_eq_true, if_false]
    cases h with
    | true => rfl
    | false => rw [hbody rfl]; rfl
  obtain ⟨hq, hr⟩ := fraction_range hread
  have hnear := toUnits_nearest hq hr
  refine ⟨_, hpf, ?_⟩
  rcases hcase with ⟨hf, rfl, rfl⟩ | ⟨sn, es, e, he, hf, hpq⟩
  · rw [hf] at hnear ⊢; exact hnear
  · rcases exponent_cases he with heq | ⟨h1, h2⟩
    · rw [← heq, ← hf] at hpq
      rw [show p = (fraction h body).1 by rw [← hpq], show q = (fraction h body).2 by rw [← hpq]]
      rw [← hpq] at hnear ⊢
      exact hnear
    · cases sn with
      | true =>
        have hf' : fraction h body = (V, (if h then 2 else 10) ^ e) := hf
        have hpq' : (p, q) = (V, (if h then 2 else 10) ^ value 10 es) := hpq
        obtain ⟨rfl, rfl⟩ := Prod.mk.inj hpq'
        rw [hf'] at hnear hq ⊢
        have h0 := nearest_unique hq hnear (nearest_zero (frac_small hV hlen h1 rfl))
        rw [h0]
        exact nearest_zero (frac_small hV hlen h2 rfl)
      | false =>
        have hf' : fraction h body = (V * (if h then 2 else 10) ^ e, 1) := hf
        have hpq' : (p, q) = (V * (if h then 2 else 10) ^ value 10 es, 1) := hpq
        obtain ⟨rfl, rfl⟩ := Prod.mk.inj hpq'
        rw [hf'] at hr hnear ⊢
        have h0 := frac_zero h1 hr
        subst h0
        rw [Nat.zero_mul] at hnear ⊢
        rw [Nat.zero_mul]
        exact hnear

/-- A number has a value. -/
theorem number_denotes {t : Str} (h : Number t) : NotFinite t ∨ ∃ neg p q, Denotes t neg p q := by
  have pow : ∀ base m sign e, ∃ p q, Power base m sign e p q := by
    intro base m sign e
    unfold Power
    by_cases hs : sign = ['-']
    · exact ⟨m, base ^ e, by rw [if_pos hs]; exact ⟨rfl, rfl⟩⟩
    · exact ⟨m * base ^ e, 1, by rw [if_neg hs]; exact ⟨rfl, rfl⟩⟩
  rcases h with h | ⟨sign, r, hs, rfl, h⟩
  · exact .inl h
  right
  rcases h with ⟨m, vs, x, rfl, hrun, hx⟩ | ⟨z, u, m, vs, x, sg, e, hz, hu, rfl, hrun, ⟨c, ds, es, hc, hsg, rfl, hr, _⟩, _⟩
  · rcases hx with ⟨rfl, _⟩ | ⟨sg, e, ⟨c, ds, es, hc, hsg, rfl, hr, _⟩, _⟩
    · exact ⟨decide (sign = ['-']), value 10 vs, 1, sign, _, hs, rfl, by simp, .inl ⟨m, vs, [], rfl, hrun, .inl ⟨rfl, rfl, rfl⟩⟩⟩
    · obtain ⟨p, q, hp⟩ := pow 10 (value 10 vs) sg (value 10 es)
      exact ⟨decide (sign = ['-']), p, q, sign, _, hs, rfl, by simp,
        .inl ⟨m, vs, _, rfl, hrun, .inr ⟨sg, es, ⟨c, ds, hc, hsg, rfl, hr⟩, hp⟩⟩⟩
  · obtain ⟨p, q, hp⟩ := pow 2 (value 16 vs) sg (value 10 es)
    exact ⟨decide (sign = ['-']), p, q, sign, _, hs, rfl, by simp,
      .inr ⟨z, u, m, vs, _, sg, es, hz, hu, by simp, hrun, ⟨c, ds, hc, hsg, rfl, hr⟩, hp⟩⟩

theorem denotes_pos {t : Str} {neg : Bool} {p q : Nat} (h : Denotes t neg p q) : 0 < q := by
  have pow : ∀ {base m sign e}, 0 < base → Power base m sign e p q → 0 < q := by
    intro base m sign e hb h
    unfold Power at h
    split at h
    · rw [h.2]; exact Nat.pow_pos hb
    · rw [h.2]; decide
  obtain ⟨sign, r, _, _, _, h⟩ := h
  rcases h with ⟨_, _, _, _, _, ⟨_, _, h⟩ | ⟨_, _, _, h⟩⟩ | ⟨_, _, _, _, _, _, _, _, _, _, _, _, h⟩
  · rw [h]; decide
  · exact pow (by decide) h
  · exact pow (by decide) h

/-- Infinities and NaN. -/
theorem parseFloat_special {t : Str} (h : NotFinite t) :
    parseFloat t = if upper t = S "NAN" then .nan else .inf (t.head? == some '-') := by
  unfold parseFloat
  rw [if_pos ((special_iff t).2 h)]
  have e1 : equalIgnoreCase t (S "nan") = true ↔ upper t = S "NAN" := by
    rw [equalIgnoreCase_iff, toLower_eq_iff (by decide), upper_eq]; rfl
  by_cases hn : upper t = S "NAN"
  · rw [if_pos (e1.2 hn), if_pos hn]
  · rw [if_neg (fun h => hn (e1.1 h)), if_neg hn]
    congr 1
    unfold splitSign
    split
    · rfl
    · rfl
    · rename_i h1 h2
      cases t with
      | nil => rfl
      | cons c r =>
        have hc : c ≠ '-' := fun h => h1 r (by rw [h])
        simp [hc]

theorem lt_limit {n : Nat} (h : n ≤ 2 ^ 53) : n < limit := by
  have key : ∀ {a b l : Nat}, l = 2 ^ a - 2 ^ b → a = 1024 → b = 970 → 2 ^ 54 ≤ l := by
    rintro a b l rfl ha hb
    have h1 : 2 ^ b ≤ 2 ^ (a - 1) := Nat.pow_le_pow_right (by decide) (by omega)
    have h2 : 2 ^ 54 ≤ 2 ^ (a - 1) := Nat.pow_le_pow_right (by decide) (by omega)
    have h3 : 2 ^ a = 2 ^ (a - 1) * 2 := by rw [← Nat.pow_succ]; congr 1; omega
    omega
  have := key (l := limit) rfl rfl rfl
  omega

theorem double_int {n : Nat} (h : n ≤ 2 ^ 53) : IsDouble (n * 2 ^ 1074) := by
  rcases Nat.lt_or_ge n (2 ^ 53) with h' | h'
  · exact ⟨n, 1074, h', by omega, rfl⟩
  · have hn : n = 2 ^ 52 * 2 := by omega
    have key : ∀ a b, b = a + 1 → n * 2 ^ a = 2 ^ 52 * 2 ^ b := by
      rintro a b rfl
      rw [hn, Nat.pow_succ 2 a, Nat.mul_comm (2 ^ a) 2, Nat.mul_assoc]
    exact ⟨2 ^ 52, 1075, by decide, by omega, key 1074 1075 rfl⟩

end DDL.Go
