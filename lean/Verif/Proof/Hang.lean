import Verif.Proof.Pick
/-
Texts on which `Parse` never returns.
-/

namespace DDL
open V Spec Conv

/-! ### Unclosed expressions -/

theorem Bal.plain_append {x y : List Str} (hx : ∀ t ∈ x, PlainTok t) (hy : Bal y) :
    Bal (x ++ y) := by
  induction x with
  | nil => exact hy
  | cons t x ih =>
    exact .plain t _ (hx t (by simp)).1 (hx t (by simp)).2.1 (ih fun u hu => hx u (by simp [hu]))

theorem Bal.count {e : List Str} (h : Bal e) : e.count [')'] = e.count ['('] := by
  induction h with
  | nil => rfl
  | plain t ts h1 h2 _ ih =>
    rw [List.count_cons_of_ne h1, List.count_cons_of_ne h2]; exact ih
  | paren ts us _ _ ih ih' =>
    rw [List.count_append, List.count_append, List.count_cons_self, List.count_cons_self,
      List.count_cons_of_ne (by decide), List.count_cons_of_ne (by decide)]
    omega

/-- A way to see that nothing is closed: no prefix has more closing than opening parentheses. -/
theorem unclosed_of_count {b : List Str}
    (h : ∀ n, n ≤ b.length → (b.take n).count [')'] ≤ (b.take n).count ['(']) :
    ∀ e r, Bal e → b ≠ e ++ [')'] :: r := by
  rintro e r he rfl
  have := h (e.length + 1) (by simp)
  rw [List.take_length_add_append] at this
  rw [show List.take 1 ([')'] :: r) = [[')']] from rfl, List.count_append, List.count_append,
    Bal.count he, List.count_cons_self, List.count_cons_of_ne (by decide)] at this
  simp at this
  omega

/-- What is never closed can be closed after any plain tokens. -/
theorem close_unclosed (b : List Str) (hu : ∀ e r, Bal e → b ≠ e ++ [')'] :: r) :
    ∃ k, ∀ x, (∀ t ∈ x, PlainTok t) → Bal (b ++ x ++ List.replicate k [')']) := by
  match b with
  | [] => exact ⟨0, fun x hx => by simpa using Bal.plain_append hx .nil⟩
  | t :: b =>
    by_cases h1 : t = [')']
    · exact absurd (by rw [h1]; rfl) (hu [] b .nil)
    by_cases h2 : t = ['(']
    · subst h2
      by_cases hc : ∃ e r, Bal e ∧ b = e ++ [')'] :: r
      · obtain ⟨e, r, he, rfl⟩ := hc
        obtain ⟨k, hk⟩ := close_unclosed r (by
          rintro e' r' he' rfl
          exact hu (['('] :: e ++ [')'] :: e') r' (.paren _ _ he he') (by simp))
        refine ⟨k, fun x hx => ?_⟩
        have := Bal.paren e _ he (hk x hx)
        simpa using this
      · obtain ⟨k, hk⟩ := close_unclosed b (fun e r he h => hc ⟨e, r, he, h⟩)
        refine ⟨k + 1, fun x hx => ?_⟩
        have := Bal.paren _ _ (hk x hx) .nil
        rw [List.replicate_succ']
        simpa using this
    · obtain ⟨k, hk⟩ := close_unclosed b (by
        rintro e r he rfl
        exact hu (t :: e) r (.plain t e h2 h1 he) rfl)
      exact ⟨k, fun x hx => .plain t _ h2 h1 (hk x hx)⟩
termination_by b.length
decreasing_by all_goals subst_vars; simp <;> omega

theorem timeout_unclosed {isNum : Str → Bool} (hN : NumOK isNum) {d : Rdbms}
    {toks pre b r : List Str} (hg : ∀ t ∈ toks, Good t) (hs : strip toks = pre ++ ['('] :: b)
    (hu : ∀ e r, Bal e → b ≠ e ++ [')'] :: r) (hr : ∀ t ∈ r, Good t)
    (H : ∀ e, Bal e → (∀ t ∈ e, Good t) → ∃ ss, script isNum d (pre ++ ['('] :: e ++ [')'] :: r) ss) :
    ∀ n, validateN isNum d n toks = .timeout := by
  obtain ⟨k, hk⟩ := close_unclosed b hu
  have hgood := strip_good hg
  rw [hs] at hgood
  have gp : ∀ c, c = '(' ∨ c = ')' → Good [c] := by
    rintro c (rfl | rfl) <;> exact ⟨by decide, by rintro c r h hc; cases h; revert hc; decide⟩
  -- the completed script is accepted
  have hok : ∀ x, (∀ t ∈ x, PlainTok t) → ∃ c, c = List.replicate k [')'] ++ [')'] :: r ∧ ∀ m,
      (pre ++ ['('] :: b ++ x ++ c).length < m →
      ∃ a r o, runA (validateProg isNum d m) (pre ++ ['('] :: b ++ x ++ c) = .ok a r o := by
    intro x hx
    refine ⟨_, rfl, fun m hm => ?_⟩
    obtain ⟨ss, hss⟩ := H _ (hk x hx) (by
      intro t ht
      simp only [List.mem_append, List.mem_replicate] at ht
      rcases ht with (h | h) | h
      · exact hgood t (by simp [h])
      · exact (hx t h).2.2
      · rw [h.2]; exact gp _ (.inr rfl))
    have e : pre ++ ['('] :: (b ++ x ++ List.replicate k [')']) ++ [')'] :: r =
      pre ++ ['('] :: b ++ x ++ (List.replicate k [')'] ++ [')'] :: r) := by simp
    rw [e] at hss
    generalize hT : pre ++ ['('] :: b ++ x ++ (List.replicate k [')'] ++ [')'] :: r) = T at *
    have hI := script_impl_of hN d m T ⟨hm, by
      intro t ht
      rw [← hT] at ht
      simp only [List.mem_append, List.mem_replicate, List.mem_cons] at ht
      rcases ht with ((h | h) | h) | h | h | h
      · exact hgood t (by simp [h])
      · exact hgood t (by simp; exact .inr h)
      · exact (hx t h).2.2
      · rw [h.2]; exact gp _ (.inr rfl)
      · rw [h]; exact gp _ (.inr rfl)
      · exact hr t h⟩
    unfold Impl at hI
    cases hrun : runA (validateProg isNum d m) T with
    | ok a r o => exact ⟨a, r, o, rfl⟩
    | fail r => rw [hrun] at hI; exact absurd ⟨rfl, hss⟩ (hI ss [])
    | panic => rw [hrun] at hI; exact hI.elim
    | timeout => rw [hrun] at hI; exact absurd ⟨rfl, hss⟩ (hI.1 ss [])
  have hval : ∀ n, runA (validateProg isNum d n) (pre ++ ['('] :: b) = .panic ∨
      runA (validateProg isNum d n) (pre ++ ['('] :: b) = .timeout := by
    intro n
    cases hrun : runA (validateProg isNum d n) (pre ++ ['('] :: b) with
    | panic => exact .inl rfl
    | timeout => exact .inr rfl
    | ok a r' o =>
      exfalso
      obtain ⟨_, hc⟩ := validateProg_concat hrun
      obtain ⟨c, _, hm⟩ := hok [EOF] (by simpa using plainTok_eof)
      generalize hM : (pre ++ ['('] :: b ++ [EOF] ++ c).length + 1 = M at hm
      obtain ⟨j, _, e⟩ := hc M ([EOF] ++ c)
      obtain ⟨a, r'', o', h⟩ := hm (n + M) (by omega)
      rw [List.append_assoc, e] at h
      refine NotOk.pre (x := runA (validateProg isNum d j) ([EOF] ++ c)) ?_ _ _ _ h
      cases j with
      | zero => cases d <;> exact .timeout
      | succ j => cases d <;> exact .fail _
    | fail r' =>
      exfalso
      obtain ⟨N, hN'⟩ := fail_extend _ _ _ hrun
      generalize hm : (pre ++ ['('] :: b).length + N + k + r.length + n + 5 = m
      obtain ⟨x, h1, h2, h3⟩ := hN' _ (validateProg_le isNum d (by omega : n ≤ m))
        (validateProg_pick isNum d m)
      obtain ⟨c, hc, hx⟩ := hok (EOF :: x) (by
        intro t ht
        rcases List.mem_cons.1 ht with rfl | ht
        · exact plainTok_eof
        · exact h2 t ht)
      obtain ⟨a, r'', o', h⟩ := hx m (by
        rw [hc, ← hm]
        simp only [List.length_append, List.length_cons, List.length_replicate]
        omega)
      exact h3 c _ _ _ h
  intro n
  have hc := validateN_cases isNum d n toks
  rw [hs] at hc
  rcases hval n with e | e
  · rw [e] at hc; exact absurd hc (validateN_ne_panic hg)
  · rw [e] at hc; exact hc

theorem hangs_of_timeout [CaseMap] {isNum : Str → Bool} {d : Rdbms} {ddl : List Char} {toks : List Str}
    (hl : Lexes d ddl toks) (hv : ∀ n, validateN isNum d n toks = .timeout) : Hangs isNum ddl d := by
  intro n
  cases hp : parseN isNum n ddl d with
  | timeout => rfl
  | panic => exact absurd hp (parseN_ne_panic _ _ _ _)
  | err e => exact absurd hp (parseN_ne_err _ _ _ _ _)
  | ok res =>
    exfalso
    obtain ⟨ts, e⟩ := res
    cases e with
    | none =>
      obtain ⟨toks', out, hl', ⟨m, hm⟩, _⟩ := returns_ok_iff.1 ⟨n, hp⟩
      rw [← Lexes.unique hl hl', hv m] at hm
      cases hm
    | some e =>
      rcases (returns_err_iff.1 ⟨n, hp⟩).2 with h | ⟨toks', hl', ⟨m, hm⟩⟩
      · exact lex_not_both hl h
      · rw [← Lexes.unique hl hl', hv m] at hm
        cases hm

theorem hangs_unclosed [CaseMap] {isNum : Str → Bool} (hN : NumOK isNum) {d : Rdbms} {ddl : List Char}
    {toks pre b r : List Str} (hl : Lexes d ddl toks) (hs : strip toks = pre ++ ['('] :: b)
    (hu : ∀ e r, Bal e → b ≠ e ++ [')'] :: r) (hr : ∀ t ∈ r, Good t)
    (H : ∀ e, Bal e → (∀ t ∈ e, Good t) → ∃ ss, script isNum d (pre ++ ['('] :: e ++ [')'] :: r) ss) :
    Hangs isNum ddl d :=
  hangs_of_timeout hl (timeout_unclosed hN (Lexes.good hl) hs hu hr H)

end DDL
