import Verif.Proof.LexMore
/-
Errors of the syntax check: where they are reported, and what they depend on.
-/

namespace DDL
open V Spec

theorem init_online (pre : List Str) (t : Str) (ht : t ≠ nl) :
    ∃ pre' k, ∀ r, VS.init (pre ++ t :: r) = ⟨pre' ++ t :: r, k, []⟩ := by
  cases pre with
  | nil => exact ⟨[], 1, fun r => by simp [VS.init, VS.token, ht]⟩
  | cons x p =>
    by_cases hx : x = nl
    · obtain ⟨pre', k, h⟩ := skipNl_append p t 1 ht
      refine ⟨pre', k, fun r => ?_⟩
      simp [VS.init, VS.token, hx, VS.next, h r]
    · exact ⟨x :: p, 1, fun r => by simp [VS.init, VS.token, hx]⟩

theorem clean_nil_of_strip {rest : List Str} (hc : Clean rest) (h : strip rest = []) : rest = [] := by
  cases rest with
  | nil => rfl
  | cons t r =>
    have : t ≠ nl := by intro e; apply hc; simp [e]
    rw [strip_cons _ _ this] at h; cases h

/-- Where a rejection is reported, and what is left of the tokens then. -/
theorem validateN_err_at {isNum : Str → Bool} {d : Rdbms} {n : Nat} {toks : List Str} {e : VErr}
    (h : validateN isNum d n toks = .err e) :
    (∃ pre t r, toks = pre ++ t :: r ∧ t ≠ nl ∧
      e = ⟨1 + nls pre - (if toks.head? = some nl then 1 else 0), t⟩ ∧
      runA (validateProg isNum d n) (strip toks) = .fail (t :: strip r) ∧
      ∀ r', validateN isNum d n (pre ++ t :: r') = .err e) ∨
    e = ⟨1 + nls toks - (if toks.head? = some nl then 1 else 0), EOF⟩ ∧
      runA (validateProg isNum d n) (strip toks) = .fail [] := by
  have hc := validateN_cases isNum d n toks
  cases hr : runA (validateProg isNum d n) (strip toks) with
  | fail q =>
    rw [hr] at hc
    obtain ⟨pre, rest, h1, h2, h3, h4⟩ := hc
    rw [h] at h4
    cases h4
    cases hrest : rest with
    | nil =>
      rw [hrest] at h2 h1
      simp only [strip_nil] at h2
      refine .inr ⟨?_, by rw [← h2]⟩
      rw [← h2, h1]; simp
    | cons t r =>
      refine .inl ⟨pre, t, r, by rw [h1, hrest], ?_, ?_, ?_, ?_⟩
      · intro e; apply h3; simp [hrest, e]
      · have ht : t ≠ nl := by intro e; apply h3; simp [hrest, e]
        rw [← h2, hrest, strip_cons _ _ ht]; rfl
      · have ht : t ≠ nl := by intro e; apply h3; simp [hrest, e]
        rw [← h2, hrest, strip_cons _ _ ht]
      · intro r'
        have ht : t ≠ nl := by intro e; apply h3; simp [hrest, e]
        obtain ⟨pre', k, hi⟩ := init_online pre t ht
        unfold validateN at h ⊢
        rw [h1, hrest, hi r] at h
        rw [hi r']
        have hrun := run_online (validateProg isNum d n) pre' t r r' k [] ht
        cases hx : run (validateProg isNum d n) ⟨pre' ++ t :: r, k, []⟩ with
        | ok a s' => rw [hx] at h; cases h
        | panic => rw [hx] at h; cases h
        | timeout => rw [hx] at h; cases h
        | fail e' s' =>
          have hs : Sim (α := Unit) ⟨pre' ++ t :: r, k, []⟩ (.fail e' s') (.fail q) := by
            have hcl : Clean (pre' ++ t :: r) := by
              obtain ⟨_, _, _, h, _⟩ := init_spec (pre ++ t :: r)
              rw [hi r] at h; exact h
            have := run_sim (validateProg isNum d n) ⟨pre' ++ t :: r, k, []⟩ hcl
            rw [hx] at this
            have hst : strip (pre' ++ t :: r) = strip toks := by
              obtain ⟨_, _, _, _, _, _, h⟩ := init_spec (pre ++ t :: r)
              rw [hi r] at h
              rw [h1, hrest]; exact h
            simp only [hst, hr] at this
            exact this
          obtain ⟨hq, _, hcl', pre2, hp2, _⟩ := hs
          -- both remainders are suffixes of the same list with the same stripped tail
          have hrest' : s'.rest = t :: r := by
            have e1 : strip s'.rest = strip (t :: r) := by rw [← hq, ← h2, hrest]
            have hsuf1 : s'.rest <:+ pre' ++ t :: r := ⟨pre2, hp2.symm⟩
            have hsuf2 : (t :: r) <:+ pre' ++ t :: r := ⟨pre', rfl⟩
            have hclt : Clean (t :: r) := by rw [← hrest]; exact h3
            have hlen : (strip s'.rest).length = (strip (t :: r)).length := by rw [e1]
            rcases Nat.le_total s'.rest.length (t :: r).length with hle | hle
            · obtain ⟨x, hx⟩ := List.suffix_of_suffix_length_le hsuf1 hsuf2 hle
              cases x with
              | nil => simpa using hx
              | cons y ys =>
                have hy : y = t := by simp at hx; exact hx.1
                have := congrArg (fun l => (strip l).length) hx
                simp only [List.cons_append] at this
                rw [hy, strip_cons _ _ ht, strip_append] at this
                simp only [List.length_cons, List.length_append] at this
                rw [← hlen] at this
                omega
            · obtain ⟨x, hx⟩ := List.suffix_of_suffix_length_le hsuf2 hsuf1 hle
              cases x with
              | nil => simpa using hx.symm
              | cons y ys =>
                have hy : y ≠ nl := by intro e; apply hcl'; rw [← hx]; simp [e]
                have := congrArg (fun l => (strip l).length) hx
                simp only [List.cons_append] at this
                rw [strip_cons _ _ hy, strip_append] at this
                simp only [List.length_cons, List.length_append] at this
                rw [hlen] at this
                omega
          rw [hx] at h
          cases h
          rw [hrun.2 _ s' hx hrest', h1, hrest]
  | ok a r o => rw [hr] at hc; rw [hc] at h; cases h
  | panic => rw [hr] at hc; rw [hc] at h; cases h
  | timeout => rw [hr] at hc; rw [hc] at h; cases h

/-- Where a rejection is reported. -/
theorem validateN_err {isNum : Str → Bool} {d : Rdbms} {n : Nat} {toks : List Str} {e : VErr}
    (h : validateN isNum d n toks = .err e) :
    (∃ pre t r, toks = pre ++ t :: r ∧ t ≠ nl ∧
      e = ⟨1 + nls pre - (if toks.head? = some nl then 1 else 0), t⟩ ∧
      ∀ r', validateN isNum d n (pre ++ t :: r') = .err e) ∨
    e = ⟨1 + nls toks - (if toks.head? = some nl then 1 else 0), EOF⟩ := by
  rcases validateN_err_at h with ⟨pre, t, r, h1, h2, h3, _, h4⟩ | ⟨h1, _⟩
  · exact .inl ⟨pre, t, r, h1, h2, h3, h4⟩
  · exact .inr h1

theorem strip_head_nls {toks pre rest : List Str} (h : toks = pre ++ rest) (hc : Clean rest)
    (hh : toks.head? = some nl) : 1 ≤ nls pre := by
  cases pre with
  | nil => simp at h; rw [h] at hh; exact absurd hh hc
  | cons a p => rw [h] at hh; simp at hh; simp [nls, hh]

/-- Lines of rejections are positive. -/
theorem validateN_err_line {isNum : Str → Bool} {d : Rdbms} {n : Nat} {toks : List Str} {e : VErr}
    (h : validateN isNum d n toks = .err e) : 1 ≤ e.line := by
  rcases validateN_err h with ⟨pre, t, r, h1, h2, rfl, _⟩ | rfl
  · simp only
    split
    · have := strip_head_nls h1 (by simp [Clean, h2]) (by assumption); omega
    · omega
  · simp only
    split
    · have := strip_head_nls (toks := toks) (pre := toks) (rest := []) (by simp) (by simp [Clean])
        (by assumption); omega
    · omega

/-- Only the tokens other than newlines matter. -/
theorem validateN_strip {isNum : Str → Bool} {d : Rdbms} {n : Nat} {ta tb : List Str}
    (h : strip ta = strip tb) :
    (∀ o, validateN isNum d n ta = .ok o → validateN isNum d n tb = .ok o) ∧
    (∀ e, validateN isNum d n ta = .err e → ∃ l, validateN isNum d n tb = .err ⟨l, e.near⟩) ∧
    (validateN isNum d n ta = .timeout → validateN isNum d n tb = .timeout) := by
  have ha := validateN_cases isNum d n ta
  have hb := validateN_cases isNum d n tb
  rw [← h] at hb
  cases hr : runA (validateProg isNum d n) (strip ta) with
  | ok a r o => rw [hr] at ha hb; simp only at ha hb; rw [ha, hb]; simp
  | fail r =>
    rw [hr] at ha hb; obtain ⟨_, _, _, _, _, ea⟩ := ha; obtain ⟨_, _, _, _, _, eb⟩ := hb
    rw [ea, eb]; simp
  | panic => rw [hr] at ha hb; simp only at ha hb; rw [ha, hb]; simp
  | timeout => rw [hr] at ha hb; simp only at ha hb; rw [ha, hb]; simp

theorem sameOutcome_half [CaseMap] {isNum : Str → Bool} {d : Rdbms} {a b : List Char} {ta tb : List Str}
    (ha : Lexes d a ta) (hb : Lexes d b tb) (h : strip ta = strip tb) :
    (∀ r, Returns isNum a d (r, none) → Returns isNum b d (r, none)) ∧
    (∀ r x, (∃ l, Returns isNum a d (r, some ⟨l, x⟩)) → ∃ l, Returns isNum b d (r, some ⟨l, x⟩)) := by
  constructor
  · intro r hr
    obtain ⟨t, o, h1, ⟨n, h2⟩, h3⟩ := returns_ok_iff.1 hr
    cases Lexes.unique ha h1
    exact returns_ok_iff.2 ⟨tb, o, hb, ⟨n, (validateN_strip h).1 o h2⟩, h3⟩
  · rintro r x ⟨l, hr⟩
    obtain ⟨h0, h1 | ⟨t, h1, n, h2⟩⟩ := returns_err_iff.1 hr
    · exact (lex_not_both ha h1).elim
    · cases Lexes.unique ha h1
      obtain ⟨l', h3⟩ := (validateN_strip h).2.1 _ h2
      exact ⟨l', returns_err_iff.2 ⟨h0, .inr ⟨tb, hb, n, h3⟩⟩⟩

/-- Texts with the same tokens apart from newlines have the same outcome. -/
theorem sameOutcome_of_strip [CaseMap] {isNum : Str → Bool} {d : Rdbms} {a b : List Char} {ta tb : List Str}
    (ha : Lexes d a ta) (hb : Lexes d b tb) (h : strip ta = strip tb) :
    SameOutcome isNum d a b := by
  have h1 := sameOutcome_half (isNum := isNum) ha hb h
  have h2 := sameOutcome_half (isNum := isNum) hb ha h.symm
  have hh : ∀ {a b : List Char}, (∀ r, Returns isNum a d (r, none) → Returns isNum b d (r, none)) →
      (∀ r x, (∃ l, Returns isNum a d (r, some ⟨l, x⟩)) → ∃ l, Returns isNum b d (r, some ⟨l, x⟩)) →
      Hangs isNum b d → Hangs isNum a d := by
    intro a b h1 h2 hb
    rcases returns_or_hangs isNum a d with ⟨⟨r, e⟩, h⟩ | h
    · cases e with
      | none => exact (not_returns_and_hangs (h1 r h) hb).elim
      | some e =>
        obtain ⟨l, h⟩ := h2 r e.near ⟨e.line, h⟩
        exact (not_returns_and_hangs h hb).elim
    · exact h
  exact ⟨fun r => ⟨h1.1 r, h2.1 r⟩, fun r x => ⟨h1.2 r x, h2.2 r x⟩,
    ⟨hh h2.1 h2.2, hh h1.1 h1.2⟩⟩

end DDL
