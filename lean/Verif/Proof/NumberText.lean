import Verif.Proof.Number
import Verif.Proof.PrintScript
/-
Numbers are words: they can be written as they are.
-/

namespace DDL.Go
open DDL Spec Spec.Num

/-- The characters of numbers, except the sign. -/
def NumChar (c : Char) : Prop :=
  c = '_' ∨ (48 ≤ c.toNat ∧ c.toNat ≤ 57) ∨ (65 ≤ c.toNat ∧ c.toNat ≤ 90) ∨ (97 ≤ c.toNat ∧ c.toNat ≤ 122)

instance (c : Char) : Decidable (NumChar c) := inferInstanceAs (Decidable (_ ∨ _))

theorem numChar_clean {c : Char} (h : NumChar c) (d : Rdbms) :
    c ∉ nonWord d ∧ c ≠ '.' ∧ ∀ x, (c, x) ∉ marks ∧ (x, c) ∉ marks := by
  have h1 : ∀ d, ∀ c ∈ nonWord d, ¬ NumChar c := by
    intro d; cases d <;> decide
  have h2 : c ≠ '.' ∧ c ≠ '-' ∧ c ≠ '/' ∧ c ≠ '*' := by
    refine ⟨?_, ?_, ?_, ?_⟩ <;> · rintro rfl; exact absurd h (by decide)
  obtain ⟨e, f, g, i⟩ := h2
  refine ⟨fun hc => h1 d c hc h, e, fun x => ⟨?_, ?_⟩⟩ <;> simp [marks, f, g, i]

theorem sign_clean {s : Str} (h : Sign s) (d : Rdbms) : ∀ c ∈ s, c ∉ nonWord d ∧ c ≠ '.' := by
  rcases h with rfl | rfl | rfl <;> cases d <;> decide

theorem noMark_append {a b : Str} (ha : ∀ c ∈ a, NumChar c) (hb : NoMark b) : NoMark (a ++ b) := by
  induction a with
  | nil => exact hb
  | cons c a ih =>
    have := ih (fun c hc => ha c (by simp [hc]))
    show NoMark (c :: (a ++ b))
    cases h : a ++ b with
    | nil => trivial
    | cons x r =>
      rw [h] at this
      exact ⟨((numChar_clean (ha c (by simp)) .mysql).2.2 x).1, this⟩

theorem noMark_sign {s b : Str} (hs : Sign s) (hb : ∀ c r, b = c :: r → NumChar c) (h : NoMark b) :
    NoMark (s ++ b) := by
  have key : ∀ x, NoMark (x :: b) := by
    intro x
    cases b with
    | nil => trivial
    | cons c r => exact ⟨((numChar_clean (hb c r rfl) .mysql).2.2 _).2, h⟩
  rcases hs with rfl | rfl | rfl
  · exact h
  · exact key _
  · exact key _

/-- Sign, digits, and perhaps an exponent. -/
theorem isWord_parts {s a b c : Str} (d : Rdbms) (hs : Sign s) (ha : ∀ x ∈ a, NumChar x) (hne : a ≠ [])
    (hb : Sign b) (hc : ∀ x ∈ c, NumChar x) : IsWord d (s ++ (a ++ (b ++ c))) ∧ '.' ∉ s ++ (a ++ (b ++ c)) := by
  have hall : ∀ x ∈ s ++ (a ++ (b ++ c)), x ∉ nonWord d ∧ x ≠ '.' := by
    intro x hx
    simp only [List.mem_append] at hx
    rcases hx with hx | hx | hx | hx
    · exact sign_clean hs d x hx
    · exact ⟨(numChar_clean (ha x hx) d).1, (numChar_clean (ha x hx) d).2.1⟩
    · exact sign_clean hb d x hx
    · exact ⟨(numChar_clean (hc x hx) d).1, (numChar_clean (hc x hx) d).2.1⟩
  refine ⟨⟨by simp [hne], fun x hx => (hall x hx).1, ?_⟩, fun h => (hall _ h).2 rfl⟩
  refine noMark_sign hs ?_ (noMark_append ha (noMark_sign hb ?_ ?_))
  · intro x r h
    cases a with
    | nil => exact absurd rfl hne
    | cons y a => obtain ⟨rfl, _⟩ := List.cons.inj h; exact ha _ (by simp)
  · rintro x r rfl; exact hc x (by simp)
  · have := noMark_append (b := []) hc trivial
    rwa [List.append_nil] at this

theorem digit_numChar {h : Bool} {c : Char} (hc : du h c = true) : NumChar c := by
  unfold du at hc
  rw [Bool.or_eq_true, beq_iff_eq] at hc
  rcases hc with rfl | hc
  · exact .inl rfl
  · unfold digit at hc
    split at hc
    · rename_i hd
      simp only [isDig, Bool.and_eq_true, decide_eq_true_eq] at hd
      have h9 : ('9' : Char).toNat = 57 := rfl
      have h0 : ('0' : Char).toNat = 48 := rfl
      exact .inr (.inl ⟨by omega, by omega⟩)
    · split at hc
      · rename_i hd
        simp only [Bool.and_eq_true, decide_eq_true_eq] at hd
        have hl := lowC_nat c
        have h9 : ('a' : Char).toNat = 97 := rfl
        have h0 : ('f' : Char).toNat = 102 := rfl
        unfold NumChar
        split at hl <;> omega
      · cases hc

theorem run_numChar {h : Bool} {a : Str} {vs : List Nat} (hr : Run (digit h) a vs) :
    (∀ c ∈ a, NumChar c) ∧ a ≠ [] := by
  obtain ⟨h1, h2, h3⟩ := run_filterMap hr
  exact ⟨fun c hc => digit_numChar (h2 c hc), by rintro rfl; exact h3 h1⟩

theorem notFinite_parts {t : Str} (h : NotFinite t) :
    ∃ s a, Sign s ∧ t = s ++ a ∧ a ≠ [] ∧ ∀ c ∈ a, NumChar c := by
  have key : ∀ w ∈ [S "INF", S "+INF", S "-INF", S "INFINITY", S "+INFINITY", S "-INFINITY", S "NAN"],
      ∃ s ∈ [S "", S "+", S "-"], ∃ a ∈ [S "INF", S "INFINITY", S "NAN"], w = s ++ a := by decide
  obtain ⟨s, hs, a, ha, hw⟩ := key _ h
  rw [upper_eq] at hw
  obtain ⟨t1, t2, rfl, h1, h2⟩ := List.map_eq_append_iff.1 hw
  refine ⟨t1, t2, ?_, rfl, ?_, ?_⟩
  · simp only [List.mem_cons, List.not_mem_nil, or_false] at hs
    have one : ∀ q, (¬ (65 ≤ q.toNat ∧ q.toNat ≤ 90) ∧ ¬ (97 ≤ q.toNat ∧ q.toNat ≤ 122)) →
        t1.map upC = [q] → t1 = [q] := by
      intro q hq he
      obtain ⟨c, rfl, hc⟩ := List.map_eq_singleton_iff.1 he
      rw [(upC_fix hq).1 hc]
    rcases hs with rfl | rfl | rfl
    · exact .inl (List.map_eq_nil_iff.1 h1)
    · exact .inr (.inl (one '+' (by decide) h1))
    · exact .inr (.inr (one '-' (by decide) h1))
  · rintro rfl
    rw [← h2] at ha
    exact absurd ha (by decide)
  · intro c hc
    have hm : upC c ∈ a := h2 ▸ List.mem_map_of_mem hc
    have hall : ∀ a ∈ [S "INF", S "INFINITY", S "NAN"], ∀ x ∈ a, 65 ≤ x.toNat ∧ x.toNat ≤ 90 := by decide
    have := hall a ha _ hm
    have hn := upC_nat c
    unfold NumChar
    split at hn <;> omega

theorem number_parts {t : Str} (h : Number t) :
    ∃ s a b c, Sign s ∧ (∀ x ∈ a, NumChar x) ∧ a ≠ [] ∧ Sign b ∧ (∀ x ∈ c, NumChar x) ∧ t = s ++ (a ++ (b ++ c)) := by
  rcases h with h | ⟨s, r, hs, rfl, h⟩
  · obtain ⟨s, a, hs, rfl, ha, hc⟩ := notFinite_parts h
    exact ⟨s, a, [], [], hs, hc, ha, .inl rfl, by simp, by simp⟩
  have hexp : ∀ {ls x sign e}, (∀ c ∈ ls, NumChar c) → Exp ls x sign e →
      ∃ l ds, NumChar l ∧ Sign sign ∧ x = l :: (sign ++ ds) ∧ ∀ c ∈ ds, NumChar c := by
    rintro ls x sign e hl ⟨c, ds, es, hc, hs, rfl, hrun, _⟩
    exact ⟨c, ds, hl c hc, hs, rfl, (run_numChar (h := false) (digit_false_eq ▸ hrun)).1⟩
  rcases h with ⟨m, vs, x, rfl, hrun, hx⟩ | ⟨z, u, m, vs, x, sign, e, hz, hu, rfl, hrun, he, _⟩
  · obtain ⟨h1, h2⟩ := run_numChar (h := false) (digit_false_eq ▸ hrun)
    rcases hx with ⟨rfl, _⟩ | ⟨sign, e, he, _⟩
    · exact ⟨s, m, [], [], hs, h1, h2, .inl rfl, by simp, by simp⟩
    · obtain ⟨l, ds, hl, hs', rfl, hds⟩ := hexp (by decide) he
      refine ⟨s, m ++ [l], sign, ds, hs, ?_, by simp, hs', hds, by simp⟩
      intro c hc
      rcases List.mem_append.1 hc with hc | hc
      · exact h1 c hc
      · rw [List.mem_singleton.1 hc]; exact hl
  · obtain ⟨h1, h2⟩ := run_numChar (h := true) (digit_true_eq ▸ hrun)
    obtain ⟨l, ds, hl, hs', rfl, hds⟩ := hexp (by decide) he
    refine ⟨s, '0' :: z :: u ++ m ++ [l], sign, ds, hs, ?_, by simp, hs', hds, by simp⟩
    intro c hc
    simp only [List.cons_append, List.mem_append, List.mem_cons, List.not_mem_nil, or_false] at hc
    rcases hc with rfl | rfl | (hc | hc) | rfl
    · decide
    · simp only [List.mem_cons, List.not_mem_nil, or_false] at hz
      rcases hz with rfl | rfl <;> decide
    · rcases hu with rfl | rfl
      · cases hc
      · rw [List.mem_singleton.1 hc]; decide
    · exact h1 c hc
    · exact hl

/-- A number is one word, without a decimal point. -/
theorem isWord_number {t : Str} (h : Number t) (d : Rdbms) : IsWord d t ∧ '.' ∉ t := by
  obtain ⟨s, a, b, c, h1, h2, h3, h4, h5, rfl⟩ := number_parts h
  exact isWord_parts d h1 h2 h3 h4 h5

theorem number_isNumeric {t : Str} (h : Number t) : isNumeric t = true :=
  (isNumeric_iff (isWord_number h .sqlite).2).2 h

end DDL.Go
