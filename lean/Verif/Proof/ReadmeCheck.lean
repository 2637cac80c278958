import Verif.Proof.ReadmeScript
import Verif.Model.Float
/-
README grammar: a checker for concrete texts.
-/

namespace DDL.Readme
open V
open Spec (Kw Name Literal StartsWith stringQuotes PosInt Bal)

variable {isNum : Str → Bool} {l : Level} {d : Rdbms}

/-- Is the token a name? -/
def nameB (d : Rdbms) : Str → Bool
  | [] => false
  | c :: r => (Spec.nameQuotes d).contains c || plainName d (c :: r)

theorem nameB_sound {t : Str} (h : nameB d t = true) : Name d t := by
  cases t with
  | nil => cases h
  | cons c r =>
    simp only [nameB, Bool.or_eq_true] at h
    rcases h with h | h
    · exact .inl ⟨c, r, rfl, List.contains_iff_mem.1 h⟩
    · exact .inr ((plainName_iff d _).1 h)

/-- Is the token a string? -/
def stringB (d : Rdbms) : Str → Bool
  | [] => false
  | c :: _ => (stringQuotes d).contains c

theorem stringB_sound {t : Str} (h : stringB d t = true) : StartsWith (stringQuotes d) t := by
  cases t with
  | nil => cases h
  | cons c r => exact ⟨c, r, rfl, List.contains_iff_mem.1 h⟩

/-- Is the token a literal? -/
def literalB (isNum : Str → Bool) (d : Rdbms) (t : Str) : Bool :=
  isNum t || stringB d t || isKw Spec.literalWords t

theorem literalB_sound {t : Str} (h : literalB isNum d t = true) : Literal isNum d t := by
  simp only [literalB, Bool.or_eq_true] at h
  rcases h with (h | h) | h
  · exact .inl h
  · exact .inr (.inl (stringB_sound h))
  · exact .inr (.inr (isKw_kw.1 h))

/-- What follows the closing parenthesis. -/
def close : Nat → List Str → Option (List Str)
  | _, [] => none
  | k, t :: ts =>
    if t = [')'] then
      match k with
      | 0 => some ts
      | k + 1 => close k ts
    else if t = ['('] then close (k + 1) ts
    else close k ts

theorem close_sound : ∀ (m k : Nat) (ts rest : List Str), ts.length ≤ m → close k ts = some rest →
    ∃ e ts', Bal e ∧ ts = e ++ [')'] :: ts' ∧
      match k with
      | 0 => ts' = rest
      | k + 1 => close k ts' = some rest
  | _, _, [], _, _, h => by simp [close] at h
  | 0, _, _ :: _, _, hm, _ => by simp at hm
  | m + 1, k, t :: ts, rest, hm, h => by
    have hml : ts.length ≤ m := by simpa using hm
    unfold close at h
    by_cases h1 : t = [')']
    · subst h1
      refine ⟨[], ts, .nil, rfl, ?_⟩
      cases k with
      | zero => simpa using h
      | succ k => simpa using h
    · rw [if_neg h1] at h
      by_cases h2 : t = ['(']
      · subst h2
        rw [if_pos rfl] at h
        obtain ⟨e, ts', he, rfl, h3⟩ := close_sound m (k + 1) ts rest hml h
        have hm' : ts'.length ≤ m := by
          simp only [List.length_append, List.length_cons] at hml; omega
        obtain ⟨e', ts'', he', rfl, h4⟩ := close_sound m k ts' rest hm' h3
        exact ⟨['('] :: e ++ [')'] :: e', ts'', .paren _ _ he he', by simp, h4⟩
      · rw [if_neg h2] at h
        obtain ⟨e, ts', he, rfl, h3⟩ := close_sound m k ts rest hml h
        exact ⟨t :: e, ts', .plain t e h2 h1 he, rfl, h3⟩

/-- Repeat a step. -/
def starR (f : List Str → List (List Str)) : Nat → List Str → List (List Str)
  | 0, ts => [ts]
  | n + 1, ts => ts :: (f ts).flatMap (starR f n)

/-- Repeat a step, with commas between. -/
def commasR (f : List Str → List (List Str)) : Nat → List Str → List (List Str)
  | 0, ts => f ts
  | n + 1, ts => f ts ++ (f ts).flatMap fun
      | t :: u => if t = S "," then commasR f n u else []
      | [] => []

theorem starR_sound {f : List Str → List (List Str)} {R : List Str → List Str → Prop}
    (h : ∀ ts rest, rest ∈ f ts → R ts rest) :
    ∀ n ts rest, rest ∈ starR f n ts → Star R ts rest
  | 0, _, _, hm => by
    cases List.mem_singleton.1 hm
    exact .nil
  | n + 1, ts, rest, hm => by
    rcases List.mem_cons.1 hm with rfl | hm
    · exact .nil
    · obtain ⟨mid, h1, h2⟩ := List.mem_flatMap.1 hm
      exact .cons (h _ _ h1) (starR_sound h n mid rest h2)

theorem commasR_sound {f : List Str → List (List Str)} {R : List Str → List Str → Prop}
    (h : ∀ ts rest, rest ∈ f ts → R ts rest) :
    ∀ n ts rest, rest ∈ commasR f n ts → Commas R ts rest
  | 0, _, _, hm => .one (h _ _ hm)
  | n + 1, ts, rest, hm => by
    rcases List.mem_append.1 hm with hm | hm
    · exact .one (h _ _ hm)
    · obtain ⟨mid, h1, h2⟩ := List.mem_flatMap.1 hm
      cases mid with
      | nil => simp at h2
      | cons t u =>
        by_cases ht : t = S ","
        · subst ht
          simp only [if_true] at h2
          exact .cons (h _ _ h1) (commasR_sound h n u rest h2)
        · simp [ht] at h2

/-- What may be left over after the phrase. -/
def Bnf.rests (isNum : Str → Bool) (d : Rdbms) (n : Nat) : Bnf → List Str → List (List Str)
  | .eps, ts => [ts]
  | .no, _ => []
  | .kw ks, ts => (match ts with | t :: u => if isKw ks t then [u] else [] | [] => [])
  | .name, ts => (match ts with | t :: u => if nameB d t then [u] else [] | [] => [])
  | .nameBut ks, ts => (match ts with | t :: u => if nameB d t && !isKw ks t then [u] else [] | [] => [])
  | .literal, ts => (match ts with | t :: u => if literalB isNum d t then [u] else [] | [] => [])
  | .string, ts => (match ts with | t :: u => if stringB d t then [u] else [] | [] => [])
  | .number, ts => (match ts with | t :: u => if isPositiveIntegerToken t then [u] else [] | [] => [])
  | .parens, ts => (match ts with
    | t :: u => if t = ['('] then (close 0 u).toList else []
    | [] => [])
  | .seq a b, ts => (a.rests isNum d n ts).flatMap (b.rests isNum d n)
  | .alt a b, ts => a.rests isNum d n ts ++ b.rests isNum d n ts
  | .opt a, ts => ts :: a.rests isNum d n ts
  | .many a, ts => starR (a.rests isNum d n) n ts
  | .list a, ts => commasR (a.rests isNum d n) n ts

theorem Bnf.rests_sound (n : Nat) (r : Bnf) : ∀ ts rest, rest ∈ r.rests isNum d n ts → r.Derives isNum d ts rest := by
  have one : ∀ {p : Str → Bool} {P : Str → Prop}, (∀ t, p t = true → P t) → ∀ {ts rest : List Str},
      rest ∈ (match ts with | t :: u => if p t then [u] else [] | [] => [] : List (List Str)) →
      ∃ t, ts = t :: rest ∧ P t := by
    intro p P hp ts rest hm
    cases ts with
    | nil => simp at hm
    | cons t u =>
      by_cases h : p t = true
      · simp only [h, if_true, List.mem_singleton] at hm
        subst hm; exact ⟨t, rfl, hp t h⟩
      · simp [h] at hm
  induction r with
  | eps => intro ts rest hm; exact (List.mem_singleton.1 hm).symm
  | no => intro ts rest hm; cases hm
  | kw ks => intro ts rest hm; exact one (fun t h => isKw_kw.1 h) hm
  | name => intro ts rest hm; exact one (fun t h => nameB_sound h) hm
  | nameBut ks =>
    intro ts rest hm
    exact one (p := fun t => nameB d t && !isKw ks t) (P := fun t => Name d t ∧ ¬ Kw ks t) (fun t h => by
      simp only [Bool.and_eq_true, Bool.not_eq_true'] at h
      exact ⟨nameB_sound h.1, isKw_not.1 h.2⟩) hm
  | literal => intro ts rest hm; exact one (fun t h => literalB_sound h) hm
  | string => intro ts rest hm; exact one (fun t h => stringB_sound h) hm
  | number =>
    intro ts rest hm
    obtain ⟨t, h1, n, h2⟩ := one (P := fun t => ∃ n, PosInt t n) (fun t h => posInt_of h) hm
    exact ⟨t, n, h1, h2⟩
  | parens =>
    intro ts rest hm
    unfold rests at hm
    cases ts with
    | nil => simp at hm
    | cons t u =>
      by_cases h : t = ['(']
      · subst h
        simp only [if_true, Option.mem_toList] at hm
        obtain ⟨e, ts', he, rfl, h'⟩ := close_sound _ 0 u rest (Nat.le_refl _) hm
        cases h'
        exact ⟨e, he, by simp [S]⟩
      · simp [h] at hm
  | seq a b iha ihb =>
    intro ts rest hm
    obtain ⟨mid, h1, h2⟩ := List.mem_flatMap.1 hm
    exact ⟨mid, iha _ _ h1, ihb _ _ h2⟩
  | alt a b iha ihb =>
    intro ts rest hm
    rcases List.mem_append.1 hm with hm | hm
    · exact .inl (iha _ _ hm)
    · exact .inr (ihb _ _ hm)
  | opt a ih =>
    intro ts rest hm
    rcases List.mem_cons.1 hm with rfl | hm
    · exact .inl rfl
    · exact .inr (ih _ _ hm)
  | many a ih => intro ts rest hm; exact starR_sound ih n ts rest hm
  | list a ih => intro ts rest hm; exact commasR_sound ih n ts rest hm

/-- Column constraints, and what may be left over. -/
def consR (isNum : Str → Bool) (l : Level) (d : Rdbms) (m : Nat) :
    Nat → List Str → List (List (Bool × Con) × List Str)
  | 0, ts => [([], ts)]
  | n + 1, ts => ([], ts) :: (colCons l d).flatMap fun c =>
      [false, true].flatMap fun b =>
        (((if b then label l c d else .eps) ⬝ c.phrase).rests isNum d m ts).flatMap fun mid =>
          (consR isNum l d m n mid).map fun p => ((b, c) :: p.1, p.2)

theorem consR_sound (m : Nat) : ∀ n ts cs rest, (cs, rest) ∈ consR isNum l d m n ts →
    Cons isNum l d cs ts rest
  | 0, ts, cs, rest, h => by
    cases List.mem_singleton.1 h
    exact .nil
  | n + 1, ts, cs, rest, h => by
    rcases List.mem_cons.1 h with h | h
    · cases h; exact .nil
    · obtain ⟨c, hc, h⟩ := List.mem_flatMap.1 h
      obtain ⟨b, _, h⟩ := List.mem_flatMap.1 h
      obtain ⟨mid, h1, h⟩ := List.mem_flatMap.1 h
      obtain ⟨⟨cs', rest'⟩, h2, h3⟩ := List.mem_map.1 h
      cases h3
      obtain ⟨mid', h4, h5⟩ := Bnf.rests_sound m _ _ _ h1
      exact .cons hc h4 h5 (consR_sound m n mid cs' _ h2)

/-- `NoClash` is decidable. -/
def noClashDec : ∀ cs : List Con, Decidable (NoClash d cs)
  | [] => .isTrue trivial
  | [_] => .isTrue trivial
  | _ :: b :: r =>
    have := noClashDec (b :: r)
    inferInstanceAs (Decidable (_ ∧ _))

instance {cs : List Con} : Decidable (NoClash d cs) := noClashDec cs

instance {cs : List (Bool × Con)} : Decidable (Supported d cs) := by
  unfold Supported; infer_instance

/-- What may be left over after an entry. -/
def entryR (isNum : Str → Bool) (l : Level) (d : Rdbms) (n : Nat) (ts : List Str) : List (List Str) :=
  (((Bnf.name ⬝ type d).rests isNum d n ts).flatMap fun mid =>
    ((consR isNum l d n n mid).filter fun p => l == .readme || decide (Supported d p.1)).map (·.2)) ++
  (tableCon l d).rests isNum d n ts

theorem entryR_sound (n : Nat) (ts rest : List Str) (h : rest ∈ entryR isNum l d n ts) :
    entry isNum l d ts rest := by
  rcases List.mem_append.1 h with h | h
  · obtain ⟨mid, h1, h⟩ := List.mem_flatMap.1 h
    obtain ⟨⟨cs, r⟩, h2, h3⟩ := List.mem_map.1 h
    cases h3
    obtain ⟨h2, h4⟩ := List.mem_filter.1 h2
    refine .inl ⟨mid, cs, Bnf.rests_sound n _ _ _ h1, consR_sound n n mid cs _ h2, fun hl => ?_⟩
    simp only [Bool.or_eq_true, beq_iff_eq, decide_eq_true_eq] at h4
    exact h4.resolve_left hl
  · exact .inr (Bnf.rests_sound n _ _ _ h)

/-- What may be left over after a statement. -/
def stmtR (isNum : Str → Bool) (l : Level) (d : Rdbms) (n : Nat) (ts : List Str) : List (List Str) :=
  ((w "CREATE" ⬝ w "TABLE" ⬝ .opt (w "IF" ⬝ w "NOT" ⬝ w "EXISTS") ⬝ tableName l d ⬝ w "(").rests isNum d n ts).flatMap
    fun a => (commasR (entryR isNum l d n) n a).flatMap fun b => (w ")" ⬝ ending l d).rests isNum d n b

theorem stmtR_sound (n : Nat) (ts rest : List Str) (h : rest ∈ stmtR isNum l d n ts) :
    statement isNum l d ts rest := by
  obtain ⟨a, h1, h⟩ := List.mem_flatMap.1 h
  obtain ⟨b, h2, h3⟩ := List.mem_flatMap.1 h
  exact ⟨a, b, Bnf.rests_sound n _ _ _ h1, commasR_sound (entryR_sound n) n a b h2, Bnf.rests_sound n _ _ _ h3⟩

/-- Is this a number of statements? -/
def scriptB (isNum : Str → Bool) (l : Level) (d : Rdbms) (m : Nat) : Nat → List Str → Bool
  | 0, ts => ts.isEmpty
  | n + 1, ts => (stmtR isNum l d m ts).any (scriptB isNum l d m n)

theorem scriptB_sound (m : Nat) : ∀ n ts, scriptB isNum l d m n ts = true → script isNum l d n ts
  | 0, [], _ => .nil
  | n + 1, ts, h => by
    obtain ⟨rest, h1, h2⟩ := List.any_eq_true.1 h
    exact .cons (stmtR_sound m _ _ h1) (scriptB_sound m n rest h2)

/-- The text is a script of the README of `n` statements. -/
def textB (l : Level) (d : Rdbms) (n : Nat) (ddl : List Char) : Bool :=
  match Lex.lexN d 300 ddl with
  | .ok toks => scriptB Go.isNumeric l d 12 n (Spec.noNewlines toks)
  | _ => false

theorem textB_sound {n : Nat} {ddl : List Char} (h : textB l d n ddl = true) :
    ∃ toks, Spec.Lexes d ddl toks ∧ script Go.isNumeric l d n (Spec.noNewlines toks) := by
  unfold textB at h
  split at h
  · exact ⟨_, ⟨300, by assumption⟩, scriptB_sound _ _ _ h⟩
  · cases h

end DDL.Readme
