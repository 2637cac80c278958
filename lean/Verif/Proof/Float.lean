import Verif.Model.Float
import Verif.Proof.LexCase
import Verif.Proof.Num
/-
The number test of the Go library satisfies what the theorems assume of number tests, and ignores
letter case.
-/

namespace DDL.Go
open DDL

theorem digit_dig {hex : Bool} {c : Char} (h : isDig c = true) : (digit hex c).isSome = true := by
  unfold digit; rw [if_pos h]; rfl

theorem digit_upC (hex : Bool) (c : Char) : digit hex (upC c) = digit hex c := by
  unfold digit
  rw [isDig_upC, lowC_upC]
  split
  · rename_i h
    have : upC c = c := by
      have := digits_upC (t := [c]) (by simp [h])
      simpa using this
    rw [this]
  · rfl

theorem equalIgnoreCase_upC (t p : Str) : equalIgnoreCase (toUpper t) p = equalIgnoreCase t p := by
  induction t generalizing p with
  | nil => rfl
  | cons c cs ih =>
    cases p with
    | nil => rfl
    | cons q qs =>
      show (lowC (upC c) == q && equalIgnoreCase (toUpper cs) qs) = (lowC c == q && equalIgnoreCase cs qs)
      rw [lowC_upC, ih]

/-- A character that is no letter. -/
theorem upC_beq {q : Char} (hq : ¬ (65 ≤ q.toNat ∧ q.toNat ≤ 90) ∧ ¬ (97 ≤ q.toNat ∧ q.toNat ≤ 122)) (c : Char) :
    (upC c == q) = (c == q) := by
  have := upC_fix hq (c := c)
  rw [Bool.eq_iff_iff, beq_iff_eq, beq_iff_eq]
  exact this

theorem special_upC (t : Str) : special (toUpper t) = special t := by
  cases t with
  | nil => rfl
  | cons c r =>
    have e : toUpper (c :: r) = upC c :: toUpper r := rfl
    unfold special
    rw [e]
    simp only [upC_beq (q := '+') (by decide), upC_beq (q := '-') (by decide)]
    rw [← e, equalIgnoreCase_upC, equalIgnoreCase_upC, equalIgnoreCase_upC, equalIgnoreCase_upC,
      equalIgnoreCase_upC]

theorem readMant_upC (hex dot : Bool) (m f : Nat) (sd : Bool) (t : Str) :
    readMant hex dot m f sd (toUpper t) =
      { readMant hex dot m f sd t with rest := toUpper (readMant hex dot m f sd t).rest } := by
  induction t generalizing dot m f sd with
  | nil => rfl
  | cons c cs ih =>
    have e : toUpper (c :: cs) = upC c :: toUpper cs := rfl
    rw [e]
    simp only [readMant, upC_beq (q := '_') (by decide), upC_beq (q := '.') (by decide), digit_upC]
    repeat' split
    all_goals first | exact ih .. | rw [← e]

theorem expDigits_upC (n : Nat) (t : Str) : expDigits n (toUpper t) = expDigits n t := by
  induction t generalizing n with
  | nil => rfl
  | cons c cs ih =>
    have e : toUpper (c :: cs) = upC c :: toUpper cs := rfl
    rw [e]
    simp only [expDigits, upC_beq (q := '_') (by decide), isDig_upC]
    split
    · exact ih _
    · split
      · rename_i h
        have : upC c = c := by simpa using digits_upC (t := [c]) (by simp [h])
        rw [this, ih]
      · rfl

theorem readExp_upC (t : Str) : readExp (toUpper t) = readExp t := by
  unfold readExp
  rw [splitSign_upC]
  generalize splitSign t = p
  obtain ⟨neg, r⟩ := p
  cases r with
  | nil => rfl
  | cons c r =>
    have e : toUpper (c :: r) = upC c :: toUpper r := rfl
    show (if isDig (upC c) = true then (expDigits 0 (toUpper (c :: r))).map _ else none) = _
    rw [isDig_upC, expDigits_upC]

theorem underscoreLoop_upC (hex : Bool) (saw : Char) (t : Str) :
    underscoreLoop hex saw (toUpper t) = underscoreLoop hex saw t := by
  induction t generalizing saw with
  | nil => rfl
  | cons c cs ih =>
    have e : toUpper (c :: cs) = upC c :: toUpper cs := rfl
    rw [e]
    simp only [underscoreLoop, upC_beq (q := '_') (by decide), digit_upC, ih]

theorem upC_zero {c : Char} : upC c = '0' ↔ c = '0' := upC_fix (by decide)

theorem underscoreBase_upC (r : Str) : underscoreBase (toUpper r) = underscoreBase r := by
  by_cases h : ∃ x s, r = '0' :: x :: s
  · obtain ⟨x, s, rfl⟩ := h
    have e : toUpper ('0' :: x :: s) = '0' :: upC x :: toUpper s := rfl
    have r1 : ∀ x s, underscoreBase ('0' :: x :: s) =
        if lowC x == 'b' || lowC x == 'o' || lowC x == 'x' then underscoreLoop (lowC x == 'x') '0' s
        else underscoreLoop false '^' ('0' :: x :: s) := fun _ _ => rfl
    rw [e, r1, r1, lowC_upC, underscoreLoop_upC, ← e, underscoreLoop_upC]
  · have r2 : ∀ r, (¬ ∃ x s, r = '0' :: x :: s) → underscoreBase r = underscoreLoop false '^' r := by
      intro r h
      unfold underscoreBase
      split
      · exact absurd ⟨_, _, rfl⟩ h
      · rfl
    rw [r2 _ h, r2, underscoreLoop_upC]
    rintro ⟨x, s, hr⟩
    match r with
    | [] => cases hr
    | [c] => exact absurd (congrArg List.length hr) (by simp [toUpper])
    | c :: y :: s' =>
      have : upC c = '0' := (List.cons.inj hr).1
      rw [upC_zero] at this
      subst this
      exact h ⟨_, _, rfl⟩

theorem underscoreOK_upC (t : Str) : underscoreOK (toUpper t) = underscoreOK t := by
  unfold underscoreOK
  rw [splitSign_upC]
  exact underscoreBase_upC _

theorem readNumber_upC (hex : Bool) (t : Str) : readNumber hex (toUpper t) = readNumber hex t := by
  unfold readNumber
  rw [readMant_upC]
  generalize readMant hex false 0 0 false t = m
  obtain ⟨m, f, sd, r⟩ := m
  cases r with
  | nil => rfl
  | cons c r =>
    have e : toUpper (c :: r) = upC c :: toUpper r := rfl
    simp only [e, lowC_upC, readExp_upC]

theorem hexPrefix_upC (t : Str) : hexPrefix (toUpper t) = (hexPrefix t).map toUpper := by
  by_cases h : ∃ x c s, t = '0' :: x :: c :: s
  · obtain ⟨x, c, s, rfl⟩ := h
    have e : toUpper ('0' :: x :: c :: s) = '0' :: upC x :: upC c :: toUpper s := rfl
    rw [e]
    simp only [hexPrefix, lowC_upC]
    split <;> rfl
  · have h1 : hexPrefix t = none := by
      unfold hexPrefix
      split
      · exact absurd ⟨_, _, _, rfl⟩ h
      · rfl
    rw [h1]
    unfold hexPrefix
    split
    · rename_i hr
      exfalso
      match t with
      | [] => cases hr
      | [c] => exact absurd (congrArg List.length hr) (by simp [toUpper])
      | [c, y] => exact absurd (congrArg List.length hr) (by simp [toUpper])
      | c :: y :: z :: s' =>
        have : upC c = '0' := (List.cons.inj hr).1
        rw [upC_zero] at this
        subst this
        exact h ⟨_, _, _, rfl⟩
    · rfl

theorem contains_upC (t : Str) : (toUpper t).contains '_' = t.contains '_' := by
  induction t with
  | nil => rfl
  | cons c cs ih =>
    have e : toUpper (c :: cs) = upC c :: toUpper cs := rfl
    rw [e, List.contains_cons, List.contains_cons, ih, Bool.beq_comm, upC_beq (by decide), Bool.beq_comm]

/-- `strconv.ParseFloat` ignores letter case. -/
theorem isNumeric_upC (t : Str) : isNumeric (toUpper t) = isNumeric t := by
  unfold isNumeric
  rw [special_upC, contains_upC, underscoreOK_upC, splitSign_upC]
  dsimp only
  rw [hexPrefix_upC, readNumber_upC]
  cases hexPrefix (splitSign t).2 with
  | none => rfl
  | some r =>
    show (special t || readNumber true (toUpper r) && _) = _
    rw [readNumber_upC]

theorem isNumeric_case (t t' : Str) (h : Spec.upper t = Spec.upper t') : isNumeric t = isNumeric t' := by
  rw [upper_eq, upper_eq] at h
  have h : toUpper t = toUpper t' := h
  rw [← isNumeric_upC, h, isNumeric_upC]

theorem equalIgnoreCase_head {c : Char} {r p : Str} (h : equalIgnoreCase (c :: r) p = true) :
    ∃ qs, p = lowC c :: qs := by
  cases p with
  | nil => cases h
  | cons q qs =>
    have h : (lowC c == q && equalIgnoreCase r qs) = true := h
    rw [Bool.and_eq_true, beq_iff_eq] at h
    exact ⟨qs, by rw [h.1]⟩

theorem special_head {c : Char} {r : Str} (h1 : c ≠ '-') (h2 : c ≠ '+')
    (h : special (c :: r) = true) : lowC c = 'i' ∨ lowC c = 'n' := by
  have e : special (c :: r) = if c == '+' || c == '-' then _ else
      ((equalIgnoreCase (c :: r) (S "inf") || equalIgnoreCase (c :: r) (S "infinity"))
        || equalIgnoreCase (c :: r) (S "nan")) := rfl
  rw [e, if_neg (by simp [h1, h2]), Bool.or_eq_true, Bool.or_eq_true] at h
  rcases h with (h | h) | h
  · obtain ⟨qs, hq⟩ := equalIgnoreCase_head h
    exact .inl (List.cons.inj (show 'i' :: S "nf" = _ from hq)).1.symm
  · obtain ⟨qs, hq⟩ := equalIgnoreCase_head h
    exact .inl (List.cons.inj (show 'i' :: S "nfinity" = _ from hq)).1.symm
  · obtain ⟨qs, hq⟩ := equalIgnoreCase_head h
    exact .inr (List.cons.inj (show 'n' :: S "an" = _ from hq)).1.symm

/-- A string that starts with none of these is no number. -/
theorem isNumeric_ok : NumOK isNumeric := by
  intro t h
  match t with
  | [] => exact absurd h (by decide +kernel)
  | c :: r =>
    refine ⟨c, r, rfl, ?_⟩
    by_cases h1 : c = '-' ∨ c = '+'
    · rcases h1 with rfl | rfl <;> simp
    simp only [not_or] at h1
    by_cases hd : isDig c = true
    · exact .inl hd
    by_cases hdot : c = '.'
    · subst hdot; simp
    have hu : ¬ c = '_' → readNumber false (c :: r) = false := by
      intro hu
      simp [readNumber, readMant, hu, hdot, digit, hd]
    have hx : hexPrefix (c :: r) = none := by
      unfold hexPrefix
      split
      · rename_i heq; cases heq; exact absurd (by decide) hd
      · rfl
    unfold isNumeric at h
    rw [splitSign_other h1.1 h1.2, hx] at h
    dsimp only at h
    by_cases hus : c = '_'
    · subst hus
      have h2 : underscoreOK ('_' :: r) = false := rfl
      rw [h2] at h
      have h3 : ('_' :: r).contains '_' = true := by simp
      have h4 : special ('_' :: r) = false := by
        rw [← Bool.not_eq_true]
        intro hs
        exact absurd (special_head (by decide) (by decide) hs) (by decide)
      rw [h3, h4] at h
      simp at h
    · rw [hu hus] at h
      right
      have hs : special (c :: r) = true := by simpa using h
      have hc := special_head h1.1 h1.2 hs
      have : c.toNat = 105 ∨ c.toNat = 73 ∨ c.toNat = 110 ∨ c.toNat = 78 := by
        unfold lowC at hc
        split at hc
        · rename_i hr
          have hval : (Char.ofNat (c.toNat + 32)).toNat = c.toNat + 32 := by
            have : 'A'.toNat = 65 ∧ 'Z'.toNat = 90 := by decide
            rw [Char.ofNat, dif_pos (by left; omega)]
            rfl
          rcases hc with hc | hc
          · have := congrArg Char.toNat hc
            have e : 'i'.toNat = 105 := by decide
            omega
          · have := congrArg Char.toNat hc
            have e : 'n'.toNat = 110 := by decide
            omega
        · rcases hc with hc | hc
          · subst hc; simp
          · subst hc; simp
      rcases this with h | h | h | h
      · have : c = 'i' := Char.toNat_inj.1 h
        subst this; simp
      · have : c = 'I' := Char.toNat_inj.1 h
        subst this; simp
      · have : c = 'n' := Char.toNat_inj.1 h
        subst this; simp
      · have : c = 'N' := Char.toNat_inj.1 h
        subst this; simp

end DDL.Go
