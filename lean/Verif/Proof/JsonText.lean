import Verif.Spec.Json
/-
A JSON text says one thing only.
-/

namespace DDL.Json
open DDL.Spec

/-- What may follow a value. -/
def Stop (r : Str) : Prop := ∀ c ∈ r.head?, c = ',' ∨ c = ']' ∨ c = '}'

theorem Stop.nil : Stop [] := fun _ h => (nomatch h)

theorem Stop.cons {c : Char} {r : Str} (h : c = ',' ∨ c = ']' ∨ c = '}') : Stop (c :: r) := fun x hx => by
  cases hx; exact h

/-! ### strings -/

theorem jchar_det {c c' : Char} {x x' r r' : Str} (h : JChar c x) (h' : JChar c' x') (e : x ++ r = x' ++ r') :
    c = c' ∧ r = r' := by
  have two : ∀ {a b e : Char}, (a, e) ∈ [('"', '"'), ('\\', '\\'), ('/', '/'), (Char.ofNat 8, 'b'), (Char.ofNat 12, 'f'),
      ('\n', 'n'), ('\r', 'r'), ('\t', 't')] → (b, e) ∈ [('"', '"'), ('\\', '\\'), ('/', '/'), (Char.ofNat 8, 'b'),
      (Char.ofNat 12, 'f'), ('\n', 'n'), ('\r', 'r'), ('\t', 't')] → a = b := by
    intro a b e h1 h2
    simp only [List.mem_cons, Prod.mk.injEq, List.not_mem_nil, or_false] at h1 h2
    rcases h1 with ⟨rfl, rfl⟩ | ⟨rfl, rfl⟩ | ⟨rfl, rfl⟩ | ⟨rfl, rfl⟩ | ⟨rfl, rfl⟩ | ⟨rfl, rfl⟩ | ⟨rfl, rfl⟩ | ⟨rfl, rfl⟩ <;>
      (symm; simpa using h2)
  have nu : ∀ {a : Char}, (a, 'u') ∉ [('"', '"'), ('\\', '\\'), ('/', '/'), (Char.ofNat 8, 'b'), (Char.ofNat 12, 'f'),
      ('\n', 'n'), ('\r', 'r'), ('\t', 't')] := by
    intro a h
    simp at h
  cases h with
  | plain h1 h2 h3 =>
    cases h' with
    | plain _ _ _ => simp at e; exact e
    | short _ => simp at e; exact absurd e.1 h3
    | hex => simp at e; exact absurd e.1 h3
  | short h1 =>
    cases h' with
    | plain _ _ h3 => simp at e; exact absurd e.1.symm h3
    | short h2 =>
      simp at e
      obtain ⟨rfl, e⟩ := e
      exact ⟨two h1 h2, e⟩
    | hex => simp at e; obtain ⟨rfl, _⟩ := e; exact absurd h1 nu
  | hex a1 a2 a3 a4 a5 =>
    cases h' with
    | plain _ _ h3 => simp at e; exact absurd e.1.symm h3
    | short h2 => simp at e; obtain ⟨rfl, _⟩ := e; exact absurd h2 nu
    | hex b1 b2 b3 b4 b5 =>
      simp at e
      obtain ⟨rfl, rfl, rfl, rfl, e⟩ := e
      rw [a1] at b1; rw [a2] at b2; rw [a3] at b3; rw [a4] at b4
      cases b1; cases b2; cases b3; cases b4
      refine ⟨?_, e⟩
      rw [← a5] at b5
      exact Char.toNat_inj.1 b5.symm

theorem jchar_head {c : Char} {x : Str} (h : JChar c x) : ∃ d y, x = d :: y ∧ d ≠ '"' := by
  cases h with
  | plain _ h _ => exact ⟨_, _, rfl, h⟩
  | short _ => exact ⟨_, _, rfl, by decide⟩
  | hex => exact ⟨_, _, rfl, by decide⟩

theorem jchars_det {s s' x x' r r' : Str} (h : JChars s x) (h' : JChars s' x') (e : x ++ '"' :: r = x' ++ '"' :: r') :
    s = s' ∧ r = r' := by
  induction h generalizing s' x' with
  | nil =>
    cases h' with
    | nil => simpa using e
    | cons hc _ =>
      obtain ⟨d, y, rfl, hd⟩ := jchar_head hc
      simp at e
      exact absurd e.1.symm hd
  | cons hc _ ih =>
    cases h' with
    | nil =>
      obtain ⟨d, y, rfl, hd⟩ := jchar_head hc
      simp at e
      exact absurd e.1 hd
    | cons hc' ht =>
      simp only [List.append_assoc] at e
      obtain ⟨rfl, e⟩ := jchar_det hc hc' e
      obtain ⟨rfl, e⟩ := ih ht e
      exact ⟨rfl, e⟩

/-! ### numbers -/

/-- The characters of numbers. -/
def numC (c : Char) : Prop := c.isDigit = true ∨ c = '-' ∨ c = '+' ∨ c = '.' ∨ c = 'e' ∨ c = 'E'

theorem jnumber_chars {s : Str} (h : JNumber s) : ∀ c ∈ s, numC c := by
  obtain ⟨sign, whole, frac, exp, rfl, h1, h2, _, h4, h5⟩ := h
  intro c hc
  simp only [List.mem_append] at hc
  rcases hc with ((hc | hc) | hc) | hc
  · rcases h1 with rfl | rfl
    · cases hc
    · simp at hc; exact .inr (.inl hc)
  · exact .inl (h2.2 c hc)
  · rcases h4 with rfl | ⟨ds, rfl, hd⟩
    · cases hc
    · rcases List.mem_cons.1 hc with rfl | hc
      · exact .inr (.inr (.inr (.inl rfl)))
      · exact .inl (hd.2 c hc)
  · rcases h5 with rfl | ⟨e, sg, ds, rfl, he, hs, hd⟩
    · cases hc
    · simp only [List.cons_append, List.mem_cons, List.mem_append] at hc
      rcases hc with rfl | hc | hc
      · exact .inr (.inr (.inr (.inr he)))
      · rcases hs with rfl | rfl | rfl
        · cases hc
        · simp at hc; exact .inr (.inr (.inl hc))
        · simp at hc; exact .inr (.inl hc)
      · exact .inl (hd.2 c hc)

theorem jnumber_head {s : Str} (h : JNumber s) : ∃ c y, s = c :: y ∧ (c.isDigit = true ∨ c = '-') := by
  obtain ⟨sign, whole, frac, exp, rfl, h1, h2, _, _, _⟩ := h
  obtain ⟨hw, hd⟩ := h2
  cases whole with
  | nil => exact absurd rfl hw
  | cons a w =>
    rcases h1 with rfl | rfl
    · exact ⟨a, _, rfl, .inl (hd a List.mem_cons_self)⟩
    · exact ⟨'-', _, rfl, .inr rfl⟩

theorem span_det {p : Char → Prop} : ∀ {x x' r r' : Str}, (∀ c ∈ x, p c) → (∀ c ∈ x', p c) → (∀ c ∈ r.head?, ¬ p c) →
    (∀ c ∈ r'.head?, ¬ p c) → x ++ r = x' ++ r' → x = x' ∧ r = r' := by
  intro x
  induction x with
  | nil =>
    intro x' r r' _ h2 h3 _ e
    cases x' with
    | nil => exact ⟨rfl, e⟩
    | cons c x' =>
      have e : r = c :: (x' ++ r') := e
      subst e
      exact absurd (h2 c List.mem_cons_self) (h3 c rfl)
  | cons c x ih =>
    intro x' r r' h1 h2 h3 h4 e
    cases x' with
    | nil =>
      have e : r' = c :: (x ++ r) := e.symm
      subst e
      exact absurd (h1 c List.mem_cons_self) (h4 c rfl)
    | cons c' x' =>
      simp only [List.cons_append, List.cons.injEq] at e
      obtain ⟨rfl, e⟩ := e
      obtain ⟨rfl, e2⟩ := ih (fun d hd => h1 d (List.mem_cons_of_mem _ hd)) (fun d hd => h2 d (List.mem_cons_of_mem _ hd)) h3 h4 e
      exact ⟨rfl, e2⟩

theorem Stop.not_num {r : Str} (h : Stop r) : ∀ c ∈ r.head?, ¬ numC c := fun c hc hn => by
  rcases h c hc with rfl | rfl | rfl <;> exact absurd hn (by unfold numC; decide)

/-! ### values -/

/-- What a character begins. -/
def kind (c : Char) : Nat :=
  if c = 'n' then 0 else if c = 't' then 1 else if c = 'f' then 2 else if c = '"' then 4 else if c = '[' then 5
  else if c = '{' then 6 else if c = ']' then 7 else 3

/-- The kind of a value. -/
def tag : J → Nat
  | .null => 0
  | .bool true => 1
  | .bool false => 2
  | .num _ => 3
  | .str _ => 4
  | .arr _ => 5
  | .obj _ => 6

theorem jtext_head {v : J} {x : Str} (h : JText v x) : ∃ c y, x = c :: y ∧ kind c = tag v := by
  cases h with
  | null => exact ⟨_, _, rfl, by decide⟩
  | true => exact ⟨_, _, rfl, by decide⟩
  | false => exact ⟨_, _, rfl, by decide⟩
  | num h =>
    obtain ⟨c, y, rfl, hc⟩ := jnumber_head h
    refine ⟨c, y, rfl, ?_⟩
    have : ∀ d : Char, d ∈ ['n', 't', 'f', '"', '[', '{', ']'] → c ≠ d := by
      rintro d hd rfl
      have no : ∀ d ∈ ['n', 't', 'f', '"', '[', '{', ']'], ¬ (d.isDigit = true ∨ d = '-') := by decide
      exact no c hd hc
    unfold kind
    rw [if_neg (this _ (by decide)), if_neg (this _ (by decide)), if_neg (this _ (by decide)), if_neg (this _ (by decide)),
      if_neg (this _ (by decide)), if_neg (this _ (by decide)), if_neg (this _ (by decide))]
    rfl
  | str _ => exact ⟨_, _, rfl, (by decide : kind '"' = 4)⟩
  | arr _ => exact ⟨_, _, rfl, (by decide : kind '[' = 5)⟩
  | obj _ => exact ⟨_, _, rfl, (by decide : kind '{' = 6)⟩

theorem jtext_ne_close {v : J} {x r r' : Str} (h : JText v x) : x ++ r ≠ ']' :: r' := fun e => by
  obtain ⟨c, y, rfl, hc⟩ := jtext_head h
  simp only [List.cons_append, List.cons.injEq] at e
  rw [e.1, show kind ']' = 7 from rfl] at hc
  cases v with
  | bool b => cases b <;> cases hc
  | _ => cases hc

mutual
theorem jtext_det {v : J} {x : Str} (h : JText v x) : ∀ {v' : J} {x' r r' : Str}, JText v' x' → Stop r → Stop r' →
    x ++ r = x' ++ r' → v = v' ∧ r = r' := by
  intro v' x' r r' h' hr hr' e
  have ht : tag v = tag v' := by
    obtain ⟨c, y, rfl, h1⟩ := jtext_head h
    obtain ⟨c', y', rfl, h2⟩ := jtext_head h'
    simp only [List.cons_append, List.cons.injEq] at e
    rw [← h1, ← h2, e.1]
  cases h with
  | null => cases h' <;> first | (exact absurd ht (by decide)) | skip
            all_goals first | (simp only [tag] at ht; omega) | (simp at e; exact ⟨rfl, e⟩)
  | true => cases h' <;> first | (exact absurd ht (by decide)) | skip
            all_goals first | (simp only [tag] at ht; omega) | (simp at e; exact ⟨rfl, e⟩)
  | false => cases h' <;> first | (exact absurd ht (by decide)) | skip
             all_goals first | (simp only [tag] at ht; omega) | (simp at e; exact ⟨rfl, e⟩)
  | num h1 =>
    cases h' with
    | num h2 =>
      obtain ⟨rfl, e2⟩ := span_det (jnumber_chars h1) (jnumber_chars h2) hr.not_num hr'.not_num e
      exact ⟨rfl, e2⟩
    | _ => simp only [tag] at ht; omega
  | str h1 =>
    cases h' with
    | str h2 =>
      simp only [List.cons_append, List.append_assoc, List.nil_append, List.cons.injEq, true_and] at e
      obtain ⟨rfl, e⟩ := jchars_det h1 h2 e
      exact ⟨rfl, e⟩
    | _ => simp only [tag] at ht; omega
  | arr h1 =>
    cases h' with
    | arr h2 =>
      simp only [List.cons_append, List.append_assoc, List.nil_append, List.cons.injEq, true_and] at e
      obtain ⟨rfl, e⟩ := jitems_det h1 h2 e
      exact ⟨rfl, e⟩
    | _ => simp only [tag] at ht; omega
  | obj h1 =>
    cases h' with
    | obj h2 =>
      simp only [List.cons_append, List.append_assoc, List.nil_append, List.cons.injEq, true_and] at e
      obtain ⟨rfl, e⟩ := jmembers_det h1 h2 e
      exact ⟨rfl, e⟩
    | _ => simp only [tag] at ht; omega

theorem jitems_det {l : List J} {x : Str} (h : JItems l x) : ∀ {l' : List J} {x' r r' : Str}, JItems l' x' →
    x ++ ']' :: r = x' ++ ']' :: r' → l = l' ∧ r = r' := by
  intro l' x' r r' h' e
  cases h with
  | nil =>
    cases h' with
    | nil => simp at e; exact ⟨rfl, e⟩
    | one h2 => exact absurd e.symm (jtext_ne_close h2)
    | cons h2 _ => simp only [List.append_assoc, List.nil_append] at e; exact absurd e.symm (jtext_ne_close h2)
  | one h1 =>
    cases h' with
    | nil => exact absurd e (jtext_ne_close h1)
    | one h2 =>
      obtain ⟨rfl, e⟩ := jtext_det h1 h2 (.cons (by decide)) (.cons (by decide)) e
      simp at e
      exact ⟨rfl, e⟩
    | cons h2 _ =>
      simp only [List.append_assoc, List.cons_append] at e
      obtain ⟨rfl, e⟩ := jtext_det h1 h2 (.cons (by decide)) (.cons (by decide)) e
      simp at e
  | cons h1 h3 =>
    cases h' with
    | nil => simp only [List.append_assoc, List.nil_append] at e; exact absurd e (jtext_ne_close h1)
    | one h2 =>
      simp only [List.append_assoc, List.cons_append] at e
      obtain ⟨rfl, e⟩ := jtext_det h1 h2 (.cons (by decide)) (.cons (by decide)) e
      simp at e
    | cons h2 h4 =>
      simp only [List.append_assoc, List.cons_append] at e
      obtain ⟨rfl, e⟩ := jtext_det h1 h2 (.cons (by decide)) (.cons (by decide)) e
      simp only [List.cons.injEq, true_and] at e
      obtain ⟨e1, e⟩ := jitems_det h3 h4 e
      rw [e1]
      exact ⟨rfl, e⟩

theorem jmembers_det {l : List (Str × J)} {x : Str} (h : JMembers l x) : ∀ {l' : List (Str × J)} {x' r r' : Str}, JMembers l' x' →
    x ++ '}' :: r = x' ++ '}' :: r' → l = l' ∧ r = r' := by
  intro l' x' r r' h' e
  cases h with
  | nil =>
    cases h' with
    | nil => simp at e; exact ⟨rfl, e⟩
    | one _ _ => simp at e
    | cons _ _ _ => simp at e
  | one k1 h1 =>
    cases h' with
    | nil => simp at e
    | one k2 h2 =>
      simp only [List.append_assoc, List.cons_append, List.cons.injEq, true_and] at e
      obtain ⟨rfl, e⟩ := jchars_det k1 k2 e
      simp only [List.cons.injEq, true_and] at e
      obtain ⟨rfl, e⟩ := jtext_det h1 h2 (.cons (by decide)) (.cons (by decide)) e
      simp at e
      exact ⟨rfl, e⟩
    | cons k2 h2 _ =>
      simp only [List.append_assoc, List.cons_append, List.cons.injEq, true_and] at e
      obtain ⟨rfl, e⟩ := jchars_det k1 k2 e
      simp only [List.cons.injEq, true_and] at e
      obtain ⟨rfl, e⟩ := jtext_det h1 h2 (.cons (by decide)) (.cons (by decide)) e
      simp at e
  | cons k1 h1 h3 =>
    cases h' with
    | nil => simp at e
    | one k2 h2 =>
      simp only [List.append_assoc, List.cons_append, List.cons.injEq, true_and] at e
      obtain ⟨rfl, e⟩ := jchars_det k1 k2 e
      simp only [List.cons.injEq, true_and] at e
      obtain ⟨rfl, e⟩ := jtext_det h1 h2 (.cons (by decide)) (.cons (by decide)) e
      simp at e
    | cons k2 h2 h4 =>
      simp only [List.append_assoc, List.cons_append, List.cons.injEq, true_and] at e
      obtain ⟨rfl, e⟩ := jchars_det k1 k2 e
      simp only [List.cons.injEq, true_and] at e
      obtain ⟨rfl, e⟩ := jtext_det h1 h2 (.cons (by decide)) (.cons (by decide)) e
      simp only [List.cons.injEq, true_and] at e
      obtain ⟨e1, e⟩ := jmembers_det h3 h4 e
      rw [e1]
      exact ⟨rfl, e⟩
end

theorem jtext_unique {v v' : J} {x : Str} (h : JText v x) (h' : JText v' x) : v = v' :=
  (jtext_det h h' .nil .nil rfl).1

end DDL.Json
