import Verif.Model.Basic
/-
The example number parser satisfies the assumption of the theorems.
-/

namespace DDL

theorem splitSign_other {c : Char} {r : Str} (h1 : c ≠ '-') (h2 : c ≠ '+') :
    splitSign (c :: r) = (false, c :: r) := by
  unfold splitSign
  split
  · rename_i h; cases h; exact absurd rfl h1
  · rename_i h; cases h; exact absurd rfl h2
  · rfl

theorem simpleNum_ok : NumOK simpleNum := by
  intro t h
  match t with
  | [] => exact absurd h (by decide)
  | c :: r =>
    refine ⟨c, r, rfl, ?_⟩
    by_cases h1 : c = '-' ∨ c = '+' ∨ c = '.'
    · rcases h1 with rfl | rfl | rfl <;> simp
    · left
      simp only [not_or] at h1
      cases hd : isDig c with
      | true => rfl
      | false =>
        unfold simpleNum at h
        rw [splitSign_other h1.1 h1.2.1] at h
        simp only [List.takeWhile_cons, List.dropWhile_cons, hd] at h
        split at h
        · rename_i h'; cases h'
        · rename_i h'; cases h'; exact absurd rfl h1.2.2
        · cases h

end DDL
