import Verif.Spec.Output
import Verif.Proof.Origin
import Verif.Proof.Float
/-
Lemmas for the messages and for JSON.
-/

namespace DDL
open Spec

theorem split_unique {x : Char} {a b u v : Str} (ha : x ∉ a) (hb : x ∉ b) (h : a ++ x :: u = b ++ x :: v) :
    a = b ∧ u = v := by
  induction a generalizing b with
  | nil =>
    cases b with
    | nil => exact ⟨rfl, (List.cons.inj h).2⟩
    | cons y b => exact absurd (by rw [(List.cons.inj h).1]; simp) hb
  | cons z a ih =>
    cases b with
    | nil => exact absurd (by rw [(List.cons.inj h).1]; simp) ha
    | cons y b =>
      obtain ⟨rfl, h'⟩ := List.cons.inj h
      obtain ⟨rfl, h2⟩ := ih (fun h => ha (by simp [h])) (fun h => hb (by simp [h])) (b := b) h'
      exact ⟨rfl, h2⟩

/-- The characters the lexer refuses. -/
def Refused (t : Str) : Prop := t = ['*'] ∨ t = ['`'] ∨ t = [Char.ofNat 0x3000]

namespace Lex

theorem step2_refused {d tok c t} (h : step2 d tok c = .bad t) : Refused t := by
  unfold step2 at h
  repeat' split at h
  all_goals first | cases h | skip
  · exact .inr (.inl rfl)
  · rename_i h; exact .inr (.inr (by rw [h]))

theorem step_refused {d m c t} (h : step d m c = .bad t) : Refused t := by
  cases m with
  | str q st acc =>
    simp only [step] at h; repeat' split at h
    all_goals first | cases h | skip
  | _ =>
    simp only [step] at h; repeat' split at h
    all_goals first | exact step2_refused h | (cases h; exact .inl rfl) | cases h

theorem scan_refused {d m cs l r e} (h : scan d m cs l r = .err e) : e.near = EOF ∨ Refused e.near := by
  induction cs generalizing m l r with
  | nil =>
    simp only [scan] at h
    cases hf : final m with
    | some o => rw [hf] at h; cases h
    | none => rw [hf] at h; cases h; exact .inl rfl
  | cons c cs ih =>
    simp only [scan] at h
    cases hs : step d m c with
    | go m' o => rw [hs] at h; exact ih h
    | bad t => rw [hs] at h; cases h; exact .inr (step_refused hs)

end Lex

theorem toDigits_no {n : Nat} {c : Char} (h : c.isDigit = false) : c ∉ Nat.toDigits 10 n := fun hc => by
  rw [Nat.isDigit_of_mem_toDigits (by decide) (by decide) hc] at h; cases h

theorem message_inj {a b : VErr} (h : Out.message a = Out.message b) : a = b := by
  unfold Out.message at h
  simp only [List.append_assoc] at h
  have h := List.append_cancel_left h
  have h := congrArg List.reverse h
  have e : (S "' at line ").reverse = ' ' :: S "enil ta '" := by decide
  have e' : (S ".").reverse = S "." := by decide
  simp only [List.reverse_append, List.append_assoc, e, e'] at h
  have h := List.append_cancel_left h
  obtain ⟨h1, h2⟩ := split_unique (by rw [List.mem_reverse]; exact toDigits_no (by decide))
    (by rw [List.mem_reverse]; exact toDigits_no (by decide)) h
  have h2 := List.reverse_inj.1 (List.append_cancel_left h2)
  have h1 := congrArg (fun l => Nat.ofDigitChars 10 l 0) (List.reverse_inj.1 h1)
  simp only [Nat.ofDigitChars_ten_toDigits] at h1
  cases a; cases b
  simp only at h1 h2
  rw [h1, h2]

theorem equalIgnoreCase_iff {t p : Str} : Go.equalIgnoreCase t p = true ↔ toLower t = p := by
  induction t generalizing p with
  | nil => cases p <;> simp [Go.equalIgnoreCase, toLower]
  | cons x t ih =>
    cases p with
    | nil => simp [Go.equalIgnoreCase, toLower]
    | cons y p => simp only [Go.equalIgnoreCase, Bool.and_eq_true, beq_iff_eq, ih, toLower, List.map_cons, List.cons.injEq]

theorem toLower_eq_iff {t p : Str} (hp : toLower (toUpper p) = p) : toLower t = p ↔ toUpper t = toUpper p := by
  constructor
  · rintro rfl
    simp [toLower, toUpper, List.map_map, Function.comp_def, upC_lowC]
  · intro h
    rw [← hp, ← h]
    simp [toLower, toUpper, List.map_map, Function.comp_def, lowC_upC]

theorem special_iff (t : Str) : Go.special t = true ↔ NotFinite t := by
  have lo : ∀ {p : Str}, toLower (toUpper p) = p → (toLower t = p ↔ toUpper t = toUpper p) := toLower_eq_iff
  have hs : Go.special t = true ↔ toLower t ∈ [S "inf", S "+inf", S "-inf", S "infinity", S "+infinity",
      S "-infinity", S "nan"] := by
    cases t with
    | nil => decide
    | cons c r =>
      have cs : ∀ q : Char, (q = '+' ∨ q = '-') → (lowC c = q ↔ c = q) := by
        intro q hq
        have hq' : ¬ (65 ≤ q.toNat ∧ q.toNat ≤ 90) ∧ ¬ (97 ≤ q.toNat ∧ q.toNat ≤ 122) := by
          rcases hq with rfl | rfl <;> decide
        rw [← upC_fix hq' (c := lowC c), upC_lowC, upC_fix hq']
      simp only [Go.special, List.mem_cons, List.not_mem_nil, or_false,
        show toLower (c :: r) = lowC c :: toLower r from rfl]
      have e : ∀ (q : Char) (s : Str), (q = '+' ∨ q = '-') → (lowC c :: toLower r = q :: s ↔ c = q ∧ toLower r = s) := by
        intro q s hq; rw [List.cons.injEq, cs q hq]
      rw [show S "+inf" = '+' :: S "inf" from rfl, show S "-inf" = '-' :: S "inf" from rfl,
        show S "+infinity" = '+' :: S "infinity" from rfl, show S "-infinity" = '-' :: S "infinity" from rfl,
        e _ _ (.inl rfl), e _ _ (.inr rfl), e _ _ (.inl rfl), e _ _ (.inr rfl)]
      by_cases hc : c = '+' ∨ c = '-'
      · have hl : lowC c = c := by rcases hc with rfl | rfl <;> decide
        have n1 : ∀ s : Str, (∀ x, s.head? = some x → x = 'i' ∨ x = 'n') → lowC c :: toLower r ≠ s := by
          rintro s hs rfl
          have := hs _ rfl
          rw [hl] at this
          rcases hc with rfl | rfl <;> exact absurd this (by decide)
        have a1 := n1 (S "inf") (by rintro x ⟨⟩; decide)
        have a2 := n1 (S "infinity") (by rintro x ⟨⟩; decide)
        have a3 := n1 (S "nan") (by rintro x ⟨⟩; decide)
        have hc' : (c == '+' || c == '-') = true := by simpa using hc
        simp only [hc', if_true, Bool.or_eq_true, equalIgnoreCase_iff, a1, a2, a3, false_or, or_false]
        rcases hc with rfl | rfl <;> simp
      · have hc' : (c == '+' || c == '-') = false := by simpa using hc
        simp only [hc', Bool.or_eq_true, equalIgnoreCase_iff, Bool.false_eq_true, if_false,
          show toLower (c :: r) = lowC c :: toLower r from rfl]
        have h1 : c ≠ '+' := fun h => hc (.inl h)
        have h2 : c ≠ '-' := fun h => hc (.inr h)
        simp only [h1, h2, false_and, false_or, or_assoc]
  rw [hs, NotFinite, upper_eq]
  simp only [List.mem_cons, List.not_mem_nil, or_false]
  rw [lo (p := S "inf") (by decide), lo (p := S "+inf") (by decide), lo (p := S "-inf") (by decide),
    lo (p := S "infinity") (by decide), lo (p := S "+infinity") (by decide), lo (p := S "-infinity") (by decide),
    lo (p := S "nan") (by decide)]
  exact Iff.rfl

theorem marshalFails_iff {tbs : List Table} : Out.marshalFails tbs = true ↔
    ∃ t ∈ tbs, ∃ c ∈ t.columns, ∃ x, c.constraint.default = .num x ∧ NotFinite x := by
  simp only [Out.marshalFails, List.any_eq_true]
  constructor
  · rintro ⟨t, ht, c, hc, h⟩
    refine ⟨t, ht, c, hc, ?_⟩
    cases hd : c.constraint.default with
    | num x => rw [hd] at h; exact ⟨x, rfl, (special_iff x).1 h⟩
    | nil => rw [hd] at h; cases h
    | str => rw [hd] at h; cases h
    | bool => rw [hd] at h; cases h
  · rintro ⟨t, ht, c, hc, x, hd, hx⟩
    exact ⟨t, ht, c, hc, by rw [hd]; exact (special_iff x).2 hx⟩

theorem tablesVal_mem {isNum : Str → Bool} {d : Rdbms} {ss : List Stmt} {tb : Table} :
    tb ∈ tablesVal isNum d ss ↔ ∃ t, Stmt.table t ∈ ss ∧ tableVal isNum d t = tb := by
  unfold tablesVal
  rw [List.mem_filterMap]
  constructor
  · rintro ⟨s, h1, h2⟩
    cases s with
    | table t => exact ⟨t, h1, Option.some.inj h2⟩
    | other => cases h2
  · rintro ⟨t, h1, rfl⟩; exact ⟨_, h1, rfl⟩

theorem findSome_dflt {cs : List ColCon} (hn : (cs.map ColCon.kind).Nodup) {v : Dflt} (h : ColCon.default v ∈ cs) :
    cs.findSome? ColCon.dflt = some v := by
  induction cs with
  | nil => cases h
  | cons c cs ih =>
    obtain ⟨h1, h2⟩ := List.nodup_cons.1 (by simpa using hn : (c.kind :: cs.map ColCon.kind).Nodup)
    rcases List.mem_cons.1 h with rfl | h'
    · rfl
    · have : ColCon.dflt c = none := by
        cases c with
        | default w => exact absurd (List.mem_map.2 ⟨_, h', rfl⟩ : ColCon.kind (.default v) ∈ cs.map ColCon.kind) h1
        | _ => rfl
      rw [List.findSome?_cons, this]
      exact ih h2 h'

end DDL
