import Verif.Proof.ConvStab
import Verif.Proof.Cost
/-
How much fuel is enough.
-/

namespace DDL
open V Conv

namespace Lex

/-- At most this many tokens are still to come from what was read already. -/
def Mode.pending : Mode → Nat
  | .top t => t.length
  | .p2 t => t.length
  | .hyphen t => t.length + 1
  | .slash t => t.length + 1
  | .star t => t.length + 1
  | .line => 0
  | .sharp => 0
  | .block => 0
  | .blockStar => 0
  | .blockSlash => 0
  | .str _ _ _ => 0
  | .drop _ _ _ => 0

theorem flush_le (t : Str) : (flush t).length ≤ t.length := by
  unfold flush; split
  · simp
  · rename_i h; have := List.length_pos_iff.2 h; simp; omega

theorem step2_le {d : Rdbms} {tok : Str} {c : Char} {m : Mode} {o : List Str} (h : step2 d tok c = .go m o) :
    o.length + m.pending ≤ tok.length + 1 := by
  have := flush_le tok
  unfold step2 at h
  repeat' split at h
  all_goals first
    | (cases h; simp only [Mode.pending, List.length_append, List.length_cons, List.length_nil]; omega)
    | cases h

theorem close_le (st : List Char) (acc : Str) : (close st acc).2.length + (close st acc).1.pending ≤ 0 + 1 := by
  cases st <;> simp [close, Mode.pending]

theorem step_le {d : Rdbms} {m m' : Mode} {c : Char} {o : List Str} (h : step d m c = .go m' o) :
    o.length + m'.pending ≤ m.pending + 1 := by
  unfold step at h
  split at h
  all_goals
    rename_i t
    repeat' split at h
  all_goals first
    | (have := step2_le h; simp only [Mode.pending, List.length_append, List.length_cons, List.length_nil] at this ⊢; omega)
    | (have := flush_le t
       cases h
       simp only [Mode.pending, List.length_cons, List.length_nil]
       omega)
    | (cases h
       simp only [Mode.pending, List.length_cons, List.length_nil]
       omega)
    | (cases h; done)
    | (cases h; exact close_le _ _)

theorem final_le {m : Mode} {o : List Str} (h : final m = some o) : o.length ≤ m.pending := by
  unfold final at h
  split at h
  all_goals first
    | (cases h; first | exact flush_le _ | (refine Nat.le_trans (flush_le _) ?_; simp [Mode.pending]) | exact Nat.le_refl 0)
    | cases h

theorem scan_le {d : Rdbms} {m : Mode} {cs : List Char} {l : Nat} {r o : List Str} (h : scan d m cs l r = .ok o) :
    o.length ≤ r.length + m.pending + cs.length := by
  induction cs generalizing m l r with
  | nil =>
    unfold scan at h
    split at h
    · rename_i o' ho
      have := final_le ho
      cases h
      simp; omega
    · cases h
  | cons c cs ih =>
    unfold scan at h
    split at h
    · rename_i m' o' hs
      have h1 := step_le hs
      have h2 := ih h
      rw [List.length_append] at h2
      rw [List.length_cons]; omega
    · cases h

theorem lexN_le {d : Rdbms} {n : Nat} {ddl : List Char} {o : List Str} (hn : ddl.length < n)
    (h : lexN d n ddl = .ok o) : o.length ≤ ddl.length := by
  rw [lexN_eq_scan d n ddl hn] at h
  have := scan_le h
  simpa [Mode.pending] using this

theorem lexN_final (d : Rdbms) {n m : Nat} {ddl : List Char} (hn : ddl.length < n) (hm : ddl.length < m) :
    lexN d n ddl = lexN d m ddl := by
  rw [lexN_eq_scan d n ddl hn, lexN_eq_scan d m ddl hm]

end Lex

theorem validateProg_stab {isNum : Str → Bool} (hN : NumOK isNum) (d : Rdbms) (n : Nat) :
    Stab n (validateProg isNum d n) (validateProg isNum d (n + 1)) := by
  cases d
  · exact Sqlite.validate_st0 hN n
  · exact Postgres.validate_st0 hN n
  · exact Mysql.validate_st0 hN n
  · exact Sqlite.validate_st0 hN n

theorem validateProg_cost {isNum : Str → Bool} (hN : NumOK isNum) (d : Rdbms) (n : Nat) :
    Cost (validateProg isNum d n) := by
  cases d
  · exact Sqlite.validate_cost hN n
  · exact Postgres.validate_cost hN n
  · exact Mysql.validate_cost hN n
  · exact Sqlite.validate_cost hN n

/-- With more fuel than tokens, the answer of a validator is final. -/
theorem validateN_final {isNum : Str → Bool} (hN : NumOK isNum) (d : Rdbms) {n m : Nat} {toks : List Str}
    (ht : ∀ t ∈ toks, Good t) (hl : toks.length < n) (hnm : n ≤ m) :
    validateN isNum d n toks = validateN isNum d m toks := by
  have hs : ∀ k, n ≤ k → Ok k (strip toks) := fun k hk =>
    ⟨Nat.lt_of_le_of_lt (List.length_filter_le _ _) (Nat.lt_of_lt_of_le hl hk), strip_good ht⟩
  have e : runA (validateProg isNum d n) (strip toks) = runA (validateProg isNum d m) (strip toks) := by
    induction hnm with
    | refl => rfl
    | step hm ih => rw [ih]; exact validateProg_stab hN d _ _ (hs _ hm)
  rcases validateN_mono isNum d hnm toks with h | h
  · have h1 := validateN_cases isNum d n toks
    have h2 := validateN_cases isNum d m toks
    rw [← e] at h2
    cases hr : runA (validateProg isNum d n) (strip toks) with
    | timeout => rw [hr] at h1 h2; exact h1.trans h2.symm
    | ok a r o => rw [hr] at h1; rw [h] at h1; cases h1
    | fail r => rw [hr] at h1; obtain ⟨_, _, _, _, _, h1⟩ := h1; rw [h] at h1; cases h1
    | panic => rw [hr] at h1; rw [h] at h1; cases h1
  · exact h

/-- The validated tokens are at most twice as many as the tokens. -/
theorem validateN_le {isNum : Str → Bool} (hN : NumOK isNum) {d : Rdbms} {n : Nat} {toks out : List Str}
    (ht : ∀ t ∈ toks, Good t) (h : validateN isNum d n toks = .ok out) : out.length ≤ 2 * toks.length := by
  obtain ⟨a, r, h⟩ := validateN_ok_iff.1 h
  have h1 := (validateProg_cost hN d n _ (strip_good ht) _ _ _ h).1
  have h2 : (strip toks).length ≤ toks.length := List.length_filter_le _ _
  omega

/-- The validated tokens are tokens of the text, or inserted ones. -/
theorem validateN_mem {isNum : Str → Bool} (hN : NumOK isNum) {d : Rdbms} {n : Nat} {toks out : List Str}
    (ht : ∀ t ∈ toks, Good t) (h : validateN isNum d n toks = .ok out) :
    ∀ t ∈ out, (t ∈ toks ∧ t ≠ nl) ∨ Inserted t := by
  obtain ⟨a, r, h⟩ := validateN_ok_iff.1 h
  intro t hm
  rcases (validateProg_cost hN d n _ (strip_good ht) _ _ _ h).2 t hm with h | h
  · have := List.mem_filter.1 h
    exact .inl ⟨this.1, of_decide_eq_true this.2⟩
  · exact .inr h

theorem convertN_final [CaseMap] (isNum : Str → Bool) (d : Rdbms) {n m : Nat} {toks : List Str} (hl : toks.length < n)
    (hnm : n ≤ m) : convertN isNum d n toks = convertN isNum d m toks := by
  unfold convertN
  rw [C.convert_final isNum d hnm toks hl]

/-- With fuel `2 * length + 1` the answer of `Parse` is final. -/
theorem parseN_final [CaseMap] {isNum : Str → Bool} (hN : NumOK isNum) (d : Rdbms) (ddl : List Char) {n : Nat}
    (h : 2 * ddl.length + 1 ≤ n) : parseN isNum n ddl d = parseN isNum (2 * ddl.length + 1) ddl d := by
  unfold parseN
  rw [Lex.lexN_final d (n := n) (m := 2 * ddl.length + 1) (by omega) (by omega)]
  cases hl : Lex.lexN d (2 * ddl.length + 1) ddl with
  | ok toks =>
    have hlen := Lex.lexN_le (by omega) hl
    have hg := lexN_good hl
    dsimp only
    rw [← validateN_final hN d hg (by omega) h]
    cases hv : validateN isNum d (2 * ddl.length + 1) toks with
    | ok out =>
      have hle := validateN_le hN hg hv
      dsimp only
      rw [convertN_final isNum d (by omega) h]
    | _ => rfl
  | _ => rfl

theorem parseForceLoop_mono [CaseMap] (isNum : Str → Bool) (ds : List Rdbms) {n m : Nat} (h : n ≤ m) (ddl : List Char) :
    parseForceLoop isNum n ddl ds = .timeout ∨
      parseForceLoop isNum n ddl ds = parseForceLoop isNum m ddl ds := by
  induction ds with
  | nil => exact .inr rfl
  | cons d ds ih =>
    unfold parseForceLoop
    rcases parseN_mono isNum d h ddl with e | e
    · rw [e]; exact .inl rfl
    · rw [← e]
      cases parseN isNum n ddl d with
      | ok r =>
        obtain ⟨t, o⟩ := r
        cases o
        · exact .inr rfl
        · exact ih
      | _ => exact .inr rfl

theorem parseForceLoop_final [CaseMap] {isNum : Str → Bool} (hN : NumOK isNum) (ds : List Rdbms) (ddl : List Char) {n : Nat}
    (h : 2 * ddl.length + 1 ≤ n) :
    parseForceLoop isNum n ddl ds = parseForceLoop isNum (2 * ddl.length + 1) ddl ds := by
  induction ds with
  | nil => rfl
  | cons d ds ih =>
    unfold parseForceLoop
    rw [parseN_final hN d ddl h, ih]

end DDL
