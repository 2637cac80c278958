import Verif.Proof.ViableSqlite
import Verif.Proof.ViablePostgres
import Verif.Proof.ViableMysql
import Verif.Proof.ErrFacts
import Verif.Proof.Hang
/-
Whole scripts: what has been read when the syntax check stops is the beginning of a script.
-/

namespace DDL
open V Spec

/-- In `ts` a parenthesis is opened and never closed, and `X` accepts what comes before, a balanced text in
parentheses, and some completion. -/
def OpenAll (X : Nat → Prog Unit) (ts : List Str) : Prop :=
  ∃ a b w, ts = a ++ ['('] :: b ∧ (∀ e r, Bal e → b ≠ e ++ [')'] :: r) ∧ (∀ t ∈ w, filler t = true) ∧
    ∀ e, Bal e → GoodL e → Ev X (a ++ ['('] :: (e ++ [')'] :: w)) []

theorem good_lpar : Good ['('] := ⟨by decide, by rintro c r h hc; cases h; revert hc; decide⟩
theorem good_rpar : Good [')'] := ⟨by decide, by rintro c r h hc; cases h; revert hc; decide⟩

section Loop
variable {D X : Nat → Prog Unit} {i : Info}

theorem scriptLoop_nil (hX : ∀ n, X (n + 1) = ifM isOutOfRange (.ret ()) ((D (n + 1)).bind fun _ => X n)) (n : Nat) :
    runA (X (n + 1)) [] = .ok () [] [] := by
  rw [hX]; rfl

theorem scriptLoop_cons (hX : ∀ n, X (n + 1) = ifM isOutOfRange (.ret ()) ((D (n + 1)).bind fun _ => X n)) (n : Nat)
    {ts : List Str} (h : ts ≠ []) : runA (X (n + 1)) ts = runA ((D (n + 1)).bind fun _ => X n) ts := by
  rw [hX]; cases ts with
  | nil => exact absurd rfl h
  | cons t r => rfl

theorem scriptLoop_ev_nil (hX : ∀ n, X (n + 1) = ifM isOutOfRange (.ret ()) ((D (n + 1)).bind fun _ => X n)) : Ev X [] [] := by
  refine ⟨1, fun n hn => ?_⟩
  obtain ⟨m, rfl⟩ : ∃ m, n = m + 1 := ⟨n - 1, by omega⟩
  exact ⟨[], scriptLoop_nil hX m⟩

theorem scriptLoop_ev (hX : ∀ n, X (n + 1) = ifM isOutOfRange (.ret ()) ((D (n + 1)).bind fun _ => X n))
    {ts m r : List Str} (hne : ts ≠ []) (h : Ev D ts m) (h' : Ev X m r) : Ev X ts r := by
  obtain ⟨N, h⟩ := h
  obtain ⟨M, h'⟩ := h'
  refine ⟨max N M + 1, fun n hn => ?_⟩
  obtain ⟨k, rfl⟩ : ∃ k, n = k + 1 := ⟨n - 1, by omega⟩
  obtain ⟨o, e⟩ := h (k + 1) (by omega)
  obtain ⟨o', e'⟩ := h' k (by omega)
  exact ⟨o ++ o', by rw [scriptLoop_cons hX k hne, runA_bind, e]; simp only [ResA.andThen, e', ResA.pre]⟩

/-- The rest of the tokens is a suffix. -/
theorem rest_split {p : Prog Unit} {ts m o : List Str} (h : runA p ts = .ok () m o) : ∃ q, ts = q ++ m := by
  obtain ⟨q, hq⟩ := (runA_suffix p ts).1 _ _ _ h
  exact ⟨q, hq.symm⟩

theorem scriptLoop_viable (hX0 : X 0 = .timeout)
    (hX : ∀ n, X (n + 1) = ifM isOutOfRange (.ret ()) ((D (n + 1)).bind fun _ => X n))
    (hne : i.ne = true) (hf : i.f = fun _ => true) (hv : ∀ n, Via n (D n) D i) (n : Nat) :
    (∀ pre r, GoodL (pre ++ r) → runA (X n) (pre ++ r) = .fail r →
      ∃ w, (∀ t ∈ w, filler t = true) ∧ Ev X (pre ++ w) []) ∧
    (∀ ts, GoodL ts → ts.length < n → runA (X n) ts = .timeout → OpenAll X ts) := by
  have hall : ∀ s, i.f s = true := fun s => by rw [hf]
  have hnil : GoodL [] := fun _ h => nomatch h
  induction n with
  | zero =>
    refine ⟨fun pre r _ h => ?_, fun ts _ h => absurd h (Nat.not_lt_zero _)⟩
    rw [hX0] at h; cases h
  | succ n ih =>
    constructor
    · intro pre r hg h
      by_cases h0 : pre = []
      · exact ⟨[], by simp, by rw [h0]; exact scriptLoop_ev_nil hX⟩
      have hp : pre ++ r ≠ [] := by simp [h0]
      rw [scriptLoop_cons hX n hp] at h
      rcases runA_bind_fail h with h1 | ⟨m, o, h1, h2⟩
      · obtain ⟨w, hw, hz⟩ := (hv (n + 1)).comp pre r hg h1 h0
        have := hz [] hnil (hall _)
        rw [List.append_nil] at this
        exact ⟨w, hw, scriptLoop_ev hX (by simp [h0]) this (scriptLoop_ev_nil hX)⟩
      · obtain ⟨q, hq⟩ := rest_split h1
        obtain ⟨p2, hp2⟩ : ∃ p2, m = p2 ++ r := by
          obtain ⟨p2, e⟩ := (runA_suffix (X n) m).2 _ h2
          exact ⟨p2, e.symm⟩
        subst hp2
        have hpre : pre = q ++ p2 := by
          rw [← List.append_assoc] at hq
          exact List.append_cancel_right hq
        subst hpre
        have hl := (hv (n + 1)).ne hne _ _ _ hg h1
        have hq0 : q ≠ [] := by
          rintro rfl; simp at hl
        rw [List.append_assoc] at hg h1
        obtain ⟨w, hw, he⟩ := ih.1 p2 r (goodL_right hg) h2
        refine ⟨w, hw, ?_⟩
        rw [List.append_assoc]
        exact scriptLoop_ev hX (by simp [hq0]) ((hv (n + 1)).stop q _ o hg h1 hq0 (p2 ++ w)
          (goodL_append (goodL_left (goodL_right hg)) (goodL_filler hw)) (hall _)) he
    · intro ts hg hlen h
      by_cases h0 : ts = []
      · rw [h0, scriptLoop_nil hX] at h; cases h
      rw [scriptLoop_cons hX n h0] at h
      rcases runA_bind_timeout h with h1 | ⟨m, o, h1, h2⟩
      · obtain ⟨a, b, w, rfl, hu, hw, hz⟩ := (hv (n + 1)).hang ts hg hlen h1
        refine ⟨a, b, w, rfl, hu, hw, fun e he hge => ?_⟩
        have := hz e he hge [] hnil (hall _)
        rw [List.append_nil] at this
        exact scriptLoop_ev hX (by simp) this (scriptLoop_ev_nil hX)
      · obtain ⟨q, rfl⟩ := rest_split h1
        have hl := (hv (n + 1)).ne hne _ _ _ hg h1
        have hq0 : q ≠ [] := by
          rintro rfl; simp at hl
        obtain ⟨a, b, w, rfl, hu, hw, hz⟩ := ih.2 m (goodL_right hg) (by omega) h2
        refine ⟨q ++ a, b, w, by simp, hu, hw, fun e he hge => ?_⟩
        rw [List.append_assoc]
        refine scriptLoop_ev hX (by simp) ((hv (n + 1)).stop q _ o hg h1 hq0 _ ?_ (hall _)) (hz e he hge)
        have hga := goodL_left (goodL_right hg)
        intro t ht
        simp only [List.mem_append, List.mem_cons] at ht
        rcases ht with h | rfl | h | rfl | h
        · exact hga t h
        · exact good_lpar
        · exact hge t h
        · exact good_rpar
        · exact filler_good (hw t h)

end Loop

theorem prog_viable {isNum : Str → Bool} (hN : NumOK isNum) (d : Rdbms) (n : Nat) :
    (∀ pre r, GoodL (pre ++ r) → runA (validateProg isNum d n) (pre ++ r) = .fail r →
      ∃ w, (∀ t ∈ w, filler t = true) ∧ Ev (fun n => validateProg isNum d n) (pre ++ w) []) ∧
    (∀ ts, GoodL ts → ts.length < n → runA (validateProg isNum d n) ts = .timeout →
      OpenAll (fun n => validateProg isNum d n) ts) := by
  have hs := Sqlite.ddl_info hN
  have hp := Postgres.ddl_info hN
  have hm := Mysql.ddl_info hN
  cases d
  · obtain ⟨i, h1, _, h2, h3⟩ := hs
    exact scriptLoop_viable (X := fun n => Sqlite.validate isNum n) rfl (fun _ => rfl) h1 h2 h3 n
  · obtain ⟨i, h1, _, h2, h3⟩ := hp
    exact scriptLoop_viable (X := fun n => Postgres.validate isNum n) rfl (fun _ => rfl) h1 h2 h3 n
  · obtain ⟨i, h1, _, h2, h3⟩ := hm
    exact scriptLoop_viable (X := fun n => Mysql.validate isNum n) rfl (fun _ => rfl) h1 h2 h3 n
  · obtain ⟨i, h1, _, h2, h3⟩ := hs
    exact scriptLoop_viable (X := fun n => Sqlite.validate isNum n) rfl (fun _ => rfl) h1 h2 h3 n

theorem filler_ne_nl {t : Str} (h : filler t = true) : t ≠ nl := by
  rintro rfl; revert h; decide

theorem filler_shape {d : Rdbms} {t : Str} (h : filler t = true) : TokenShape d t := by
  unfold filler at h
  simp only [Bool.or_eq_true, Bool.and_eq_true] at h
  rcases h with ⟨h1, h2⟩ | h
  · have hne : t ≠ [] := by cases t <;> simp_all
    refine .inr (.inr (.inr ⟨hne, fun c hc hm => ?_⟩))
    have h3 := List.all_eq_true.1 h2 c hc
    have hb : ∀ x ∈ nonWord d, ¬ (x.isAlphanum || x == '_') = true := by cases d <;> decide
    exact hb c hm h3
  · simp only [List.contains_eq_mem, List.mem_cons, List.not_mem_nil, or_false, decide_eq_true_eq] at h
    have hp : ∀ c ∈ puncts, TokenShape d [c] := fun c hc => .inr (.inl ⟨c, hc, rfl⟩)
    rcases h with rfl | rfl | rfl | rfl | rfl | rfl | rfl
    · exact hp '(' (by decide)
    · exact hp ')' (by decide)
    · exact hp ',' (by decide)
    · exact hp ';' (by decide)
    · exact hp '.' (by decide)
    · exact .inr (.inr (.inr ⟨by decide, by cases d <;> decide⟩))
    · exact .inr (.inr (.inl ⟨'\'', by decide, [], by simp, rfl⟩))

theorem strip_filler {w : List Str} (h : ∀ t ∈ w, filler t = true) : strip w = w := by
  unfold strip
  rw [List.filter_eq_self]
  intro t ht
  simpa using filler_ne_nl (h t ht)

theorem ev_script {isNum : Str → Bool} (hN : NumOK isNum) {d : Rdbms} {ts : List Str} (hg : GoodL ts)
    (h : Ev (fun n => validateProg isNum d n) ts []) : ∃ ss, script isNum d ts ss := by
  obtain ⟨N, h⟩ := h
  obtain ⟨o, e⟩ := h (max N (ts.length + 1)) (by omega)
  have hI := script_impl_of hN d (max N (ts.length + 1)) ts ⟨by omega, hg⟩
  unfold Impl at hI
  rw [e] at hI
  obtain ⟨ss, ⟨_, h1⟩, _⟩ := hI
  exact ⟨ss, h1⟩

/-- Where the syntax check reports an error, what comes before can be completed. -/
theorem err_viable {isNum : Str → Bool} (hN : NumOK isNum) {d : Rdbms} {n : Nat} {toks pre r : List Str}
    (hg : GoodL toks) (hs : strip toks = strip pre ++ r)
    (hr : runA (validateProg isNum d n) (strip toks) = .fail r) :
    ∃ w ss, (∀ t ∈ w, filler t = true) ∧ script isNum d (strip pre ++ w) ss := by
  have hgs := strip_good hg
  rw [hs] at hr hgs
  obtain ⟨w, hw, he⟩ := (prog_viable hN d n).1 _ _ hgs hr
  obtain ⟨ss, hss⟩ := ev_script hN (goodL_append (goodL_left hgs) (goodL_filler hw)) he
  exact ⟨w, ss, hw, hss⟩

/-- If the syntax check does not return, a parenthesis is never closed, and closing it gives a script. -/
theorem timeout_open {isNum : Str → Bool} (hN : NumOK isNum) {d : Rdbms} {n : Nat} {toks : List Str}
    (hg : GoodL toks) (hn : toks.length < n) (h : validateN isNum d n toks = .timeout) :
    ∃ a b w, strip toks = a ++ ['('] :: b ∧ (∀ e r, Bal e → b ≠ e ++ [')'] :: r) ∧ (∀ t ∈ w, filler t = true) ∧
      ∀ e, Bal e → GoodL e → ∃ ss, script isNum d (a ++ ['('] :: e ++ [')'] :: w) ss := by
  have hc := validateN_cases isNum d n toks
  cases hr : runA (validateProg isNum d n) (strip toks) with
  | timeout =>
    have hgs := strip_good hg
    have hl : (strip toks).length ≤ toks.length := List.length_filter_le _ _
    obtain ⟨a, b, w, e1, hu, hw, he⟩ := (prog_viable hN d n).2 _ hgs (by omega) hr
    refine ⟨a, b, w, e1, hu, hw, fun e hb hge => ?_⟩
    rw [e1] at hgs
    have := ev_script hN (ts := a ++ ['('] :: (e ++ [')'] :: w)) ?_ (he e hb hge)
    · simpa using this
    · intro t ht
      simp only [List.mem_append, List.mem_cons] at ht
      rcases ht with h | rfl | h | rfl | h
      · exact hgs t (by simp [h])
      · exact good_lpar
      · exact hge t h
      · exact good_rpar
      · exact filler_good (hw t h)
  | ok a r o => rw [hr] at hc; simp only at hc; rw [hc] at h; cases h
  | panic => rw [hr] at hc; simp only at hc; rw [hc] at h; cases h
  | fail r => rw [hr] at hc; obtain ⟨_, _, _, _, _, hc⟩ := hc; rw [hc] at h; cases h

/-- If the syntax check does not return, the tokens can be completed. -/
theorem timeout_viable {isNum : Str → Bool} (hN : NumOK isNum) {d : Rdbms} {n : Nat} {toks : List Str}
    (hg : GoodL toks) (hn : toks.length < n) (h : validateN isNum d n toks = .timeout) :
    ∃ w ss, (∀ t ∈ w, filler t = true) ∧ script isNum d (strip toks ++ w) ss := by
  obtain ⟨a, b, w, e1, hu, hw, H⟩ := timeout_open hN hg hn h
  obtain ⟨k, hk⟩ := close_unclosed b hu
  have hgs := strip_good hg
  rw [e1] at hgs
  have hr : ∀ t ∈ List.replicate k ([')'] : Str), t = [')'] := fun t ht => (List.mem_replicate.1 ht).2
  obtain ⟨ss, hss⟩ := H _ (hk [] (by simp)) (by
    intro t ht
    simp only [List.mem_append, List.not_mem_nil, or_false] at ht
    rcases ht with h | h
    · exact hgs t (by simp [h])
    · rw [hr t h]; exact good_rpar)
  refine ⟨List.replicate k [')'] ++ [')'] :: w, ss, ?_, ?_⟩
  · intro t ht
    simp only [List.mem_append, List.mem_cons] at ht
    rcases ht with h | rfl | h
    · rw [hr t h]; decide
    · decide
    · exact hw t h
  · rw [e1]; simpa using hss

end DDL
