import Verif.Proof.LexMore
import Verif.Proof.ErrFacts
/-
A text can be cut in front of any of its tokens.
-/

namespace DDL.Lex
open DDL DDL.Spec

/-- Some beginning of `x` has the tokens `S`, newlines aside. -/
def Cut (d : Rdbms) (x : List Char) (S : List Str) : Prop :=
  ∃ a b A, x = a ++ b ∧ Lexes d a A ∧ strip A = S

theorem Cut.more {d : Rdbms} {x : List Char} {S : List Str} (h : Cut d x S) (y : List Char) : Cut d (x ++ y) S := by
  obtain ⟨a, b, A, rfl, h1, h2⟩ := h
  exact ⟨a, b ++ y, A, by simp, h1, h2⟩

theorem Cut.whole {d : Rdbms} {x : List Char} {A : List Str} (h : Lexes d x A) : Cut d x (strip A) :=
  ⟨x, [], A, by simp, h, rfl⟩

/-- Having read `x`: the mode is `m`, the tokens `o`; `x` can be cut where the token begins that is being read,
and in front of each token. -/
structure Inv (d : Rdbms) (x : List Char) (m : Mode) (o : List Str) : Prop where
  fed : feed d (.top []) x = .go m o
  here : Cut d x (strip o)
  mark : ∀ t, m = .hyphen t ∨ m = .slash t → Cut d x (strip (o ++ flush t))
  each : ∀ pre u post, strip o = pre ++ u :: post → Cut d x pre

theorem fed_lexes {d : Rdbms} {x : List Char} {m : Mode} {o f : List Str} (h : feed d (.top []) x = .go m o)
    (hf : final m = some f) : Lexes d x (o ++ f) := by
  rw [lexes_iff, scan_all, h]
  simp [scan, hf]

theorem split_append {a b pre post : List Str} {u : Str} (h : a ++ b = pre ++ u :: post) :
    (∃ post', a = pre ++ u :: post') ∨ ∃ p, pre = a ++ p ∧ b = p ++ u :: post := by
  rcases List.append_eq_append_iff.1 h with ⟨p, h1, h2⟩ | ⟨p, h1, h2⟩
  · exact .inr ⟨p, h1, h2⟩
  · cases p with
    | nil => exact .inr ⟨[], by simpa using h1.symm, by simpa using h2.symm⟩
    | cons v p =>
      rw [List.cons_append, List.cons.injEq] at h2
      exact .inl ⟨p, by rw [h1, h2.1]⟩

/-- Each token, given one more piece of output. -/
theorem each_more {d : Rdbms} {x : List Char} {m : Mode} {o o' : List Str} {c : Char} (h : Inv d x m o)
    (h' : ∀ p u post, strip o' = p ++ u :: post → Cut d x (strip o ++ p)) :
    ∀ pre u post, strip (o ++ o') = pre ++ u :: post → Cut d (x ++ [c]) pre := by
  intro pre u post he
  rw [strip_append] at he
  rcases split_append he with ⟨post', h1⟩ | ⟨p, h1, h2⟩
  · exact (h.each _ _ _ h1).more _
  · rw [h1]; exact (h' _ _ _ h2).more _

theorem strip_flush_len (t : Str) : (strip (flush t)).length ≤ 1 := by
  refine Nat.le_trans (List.length_filter_le _ _) ?_
  unfold flush; split <;> simp

theorem short_split {l p post : List Str} {u : Str} (h : l.length ≤ 1) (e : l = p ++ u :: post) : p = [] := by
  rw [e] at h
  cases p with
  | nil => rfl
  | cons v p => simp at h

/-- At most one token is produced. -/
theorem each_one {d : Rdbms} {x : List Char} {m : Mode} {o o' : List Str} (h : Inv d x m o)
    (hl : (strip o').length ≤ 1) : ∀ p u post, strip o' = p ++ u :: post → Cut d x (strip o ++ p) := by
  intro p u post e
  rw [short_split hl e, List.append_nil]
  exact h.here

theorem inv_step2 {d : Rdbms} {x : List Char} {m m' : Mode} {o o' : List Str} {t : Str} {c : Char} (h : Inv d x m o)
    (hm : final m = some (flush t)) (hs : step d m c = step2 d t c) (e : step2 d t c = .go m' o') :
    Inv d (x ++ [c]) m' (o ++ o') := by
  have hfed : feed d (.top []) (x ++ [c]) = .go m' (o ++ o') := by
    rw [feed_append, h.fed]; simp [feed, hs, e, Fed.pre]
  have hx : Cut d x (strip (o ++ flush t)) := Cut.whole (fed_lexes h.fed hm)
  have hxf : strip (o ++ flush t) = strip o ++ strip (flush t) := strip_append _ _
  -- what kind of step
  have key : (o' = [] ∧ ∃ t', m' = .top t') ∨ (o' = flush t ∧ ((∃ q, m' = .str q [] [q]) ∨ m' = .sharp ∨ m' = .top [])) ∨
      (∃ u, o' = flush t ++ [u] ∧ m' = .top []) := by
    unfold step2 at e
    repeat' split at e
    all_goals cases e
    all_goals simp
  refine ⟨hfed, ?_, ?_, ?_⟩
  · rcases key with ⟨rfl, _⟩ | ⟨rfl, _⟩ | ⟨u, rfl, rfl⟩
    · rw [List.append_nil]; exact h.here.more _
    · exact hx.more _
    · have := Cut.whole (fed_lexes hfed rfl)
      simpa [flush] using this
  · intro t' ht'
    rcases key with ⟨rfl, _, rfl⟩ | ⟨rfl, ⟨q, rfl⟩ | rfl | rfl⟩ | ⟨u, rfl, rfl⟩ <;> rcases ht' with ht' | ht' <;> cases ht'
  · apply each_more h
    rcases key with ⟨rfl, _⟩ | ⟨rfl, _⟩ | ⟨u, rfl, rfl⟩
    · exact each_one h (by simp [strip])
    · exact each_one h (strip_flush_len t)
    · intro p v post e
      rw [strip_append] at e
      rcases split_append e with ⟨post', h1⟩ | ⟨p', h1, h2⟩
      · rw [short_split (strip_flush_len t) h1, List.append_nil]; exact h.here
      · have hp' : p' = [] := short_split (Nat.le_trans (List.length_filter_le _ _) (by simp)) h2
        rw [h1, hp', List.append_nil, ← hxf]; exact hx

theorem inv_step {d : Rdbms} {x : List Char} {m m' : Mode} {o o' : List Str} {c : Char} (h : Inv d x m o)
    (e : step d m c = .go m' o') : Inv d (x ++ [c]) m' (o ++ o') := by
  have hfed : feed d (.top []) (x ++ [c]) = .go m' (o ++ o') := by
    rw [feed_append, h.fed]; simp [feed, e, Fed.pre]
  -- nothing produced but newlines, and no comment mark read
  have quiet : strip o' = [] → (∀ t, ¬ (m' = .hyphen t ∨ m' = .slash t)) → Inv d (x ++ [c]) m' (o ++ o') := by
    intro h1 h2
    refine ⟨hfed, ?_, fun t ht => absurd ht (h2 t), each_more h (each_one h (by simp [h1]))⟩
    rw [strip_append, h1, List.append_nil]; exact h.here.more _
  have pend : ∀ t, final m = some (flush t) → o' = [] → ((∃ s, m' = .star s) ∨ m' = .hyphen t ∨ m' = .slash t) →
      Inv d (x ++ [c]) m' (o ++ o') := by
    intro t hf h1 h2
    subst h1
    rw [List.append_nil] at hfed ⊢
    refine ⟨hfed, h.here.more _, ?_, fun p u q hq => (h.each p u q hq).more _⟩
    intro t' ht'
    have : t' = t := by
      rcases h2 with ⟨s, rfl⟩ | rfl | rfl <;> rcases ht' with ht' | ht' <;> cases ht' <;> rfl
    subst this
    exact (Cut.whole (fed_lexes h.fed hf)).more _
  have comment : ∀ t, (m = .hyphen t ∨ m = .slash t) → o' = flush t → (m' = .line ∨ m' = .block) →
      Inv d (x ++ [c]) m' (o ++ o') := by
    intro t h1 h2 h3
    subst h2
    refine ⟨hfed, (h.mark t h1).more _, ?_, each_more h (each_one h (strip_flush_len t))⟩
    intro t' ht'
    rcases h3 with rfl | rfl <;> rcases ht' with ht' | ht' <;> cases ht'
  have nomode : ∀ {m'' : Mode}, (∀ t, m'' ≠ .hyphen t) → (∀ t, m'' ≠ .slash t) → ∀ t, ¬ (m'' = .hyphen t ∨ m'' = .slash t) :=
    fun a b t ht => ht.elim (a t) (b t)
  cases m with
  | top t =>
    have e0 := e
    simp only [step] at e
    split at e
    · cases e; exact pend t rfl rfl (.inr (.inl rfl))
    · split at e
      · cases e; exact pend t rfl rfl (.inr (.inr rfl))
      · split at e
        · cases e; exact pend t rfl rfl (.inl ⟨_, rfl⟩)
        · exact inv_step2 h rfl (e0.trans e.symm) e
  | p2 t => exact inv_step2 h rfl rfl e
  | hyphen t =>
    have e0 := e
    simp only [step] at e
    split at e
    · cases e; exact comment t (.inl rfl) rfl (.inl rfl)
    · exact inv_step2 h rfl (e0.trans e.symm) e
  | slash t =>
    have e0 := e
    simp only [step] at e
    split at e
    · cases e; exact comment t (.inr rfl) rfl (.inr rfl)
    · exact inv_step2 h rfl (e0.trans e.symm) e
  | star t =>
    have e0 := e
    simp only [step] at e
    split at e
    · cases e
    · exact inv_step2 h rfl (e0.trans e.symm) e
  | str q st acc =>
    simp only [step] at e
    split at e
    · cases e; exact quiet (by simp [strip]) (nomode (by simp) (by simp))
    · split at e
      · cases st with
        | nil =>
          cases e
          refine ⟨hfed, ?_, ?_, each_more h (each_one h (Nat.le_trans (List.length_filter_le _ _) (by simp [close])))⟩
          · have := Cut.whole (fed_lexes hfed rfl)
            simpa [flush] using this
          · intro t ht; rcases ht with ht | ht <;> cases ht
        | cons q' st =>
          cases e; exact quiet (by simp [close, strip]) (nomode (by simp [close]) (by simp [close]))
      · split at e
        · cases e; exact quiet (by simp [strip]) (nomode (by simp) (by simp))
        · cases e; exact quiet (by simp [strip]) (nomode (by simp) (by simp))
  | _ =>
    simp only [step] at e
    repeat' split at e
    all_goals (cases e; exact quiet (by simp [strip]) (nomode (by simp) (by simp)))

theorem inv_feed {d : Rdbms} {y : List Char} : ∀ {x : List Char} {m m' : Mode} {o o' : List Str}, Inv d x m o →
    feed d m y = .go m' o' → Inv d (x ++ y) m' (o ++ o') := by
  induction y with
  | nil => intro x m m' o o' h e; cases e; simpa using h
  | cons c y ih =>
    intro x m m' o o' h e
    simp only [feed] at e
    split at e
    · cases e
    · rename_i m1 o1 e1
      cases hf : feed d m1 y with
      | bad k t => rw [hf] at e; cases e
      | go m2 o2 =>
        rw [hf] at e; cases e
        have := ih (inv_step h e1) hf
        simpa using this

theorem inv_start (d : Rdbms) : Inv d [] (.top []) [] := by
  refine ⟨rfl, ?_, ?_, ?_⟩
  · have := Cut.whole (fed_lexes (d := d) (x := []) (m := .top []) (o := []) rfl rfl)
    simpa [flush] using this
  · intro t ht; rcases ht with ht | ht <;> cases ht
  · intro p u post e; simp [strip] at e

end DDL.Lex

namespace DDL
open V Spec

/-- A text can be cut in front of each of its tokens. -/
theorem lexes_cut {d : Rdbms} {ddl : List Char} {toks pre post : List Str} {t : Str} (h : Lexes d ddl toks)
    (e : toks = pre ++ t :: post) (ht : t ≠ nl) :
    ∃ a b A, ddl = a ++ b ∧ Lexes d a A ∧ strip A = strip pre := by
  rw [lexes_iff, Lex.scan_all] at h
  cases hf : Lex.feed d (.top []) ddl with
  | bad k t => rw [hf] at h; cases h
  | go m o =>
    rw [hf] at h
    simp only [Lex.scan] at h
    cases hm : Lex.final m with
    | none => rw [hm] at h; cases h
    | some f =>
      rw [hm] at h
      simp only [List.nil_append, Lex.Out.ok.injEq] at h
      have hi := Lex.inv_feed (Lex.inv_start d) hf
      simp only [List.nil_append] at hi
      have hs : strip o ++ strip f = strip pre ++ t :: strip post := by
        rw [← strip_append, h, e, strip_append, strip_cons _ _ ht]
      rcases Lex.split_append hs with ⟨post', h1⟩ | ⟨p, h1, h2⟩
      · exact hi.each _ _ _ h1
      · have hl : (strip f).length ≤ 1 := by
          have : ∀ s, f = Lex.flush s → (strip f).length ≤ 1 := fun s e => by rw [e]; exact Lex.strip_flush_len s
          cases m <;> simp only [Lex.final, Option.some.injEq] at hm <;>
            first
              | exact this _ hm.symm
              | (rw [← hm]; simp [strip])
              | cases hm
        rw [h1, Lex.short_split hl h2, List.append_nil]
        exact hi.here

end DDL
