import Verif.Model.Validator
/-
The inlining in the model of `validateBracketsAux`.
-/

namespace DDL.V

/-- The inlining in `validateBracketsAux` is the code's recursive call. -/
theorem validateBracketsAux_succ (set : Bool) (n : Nat) :
    validateBracketsAux set (n + 1) =
      ifM (matchToken [")"]) (.ret ())
        (ifM (matchToken ["("])
          (do validateBrackets n set
              validateBracketsAux set n)
          (do next set
              validateBracketsAux set n)) := by
  have assoc : ∀ {α β γ : Type} (p : Prog α) (f : α → Prog β) (g : β → Prog γ),
      (p.bind f).bind g = p.bind (fun a => (f a).bind g) := by
    intro α β γ p f g
    induction p with
    | ret a => rfl
    | token k ih => simp only [Prog.bind]; congr 1; funext t; exact ih t
    | oob k ih => simp only [Prog.bind]; congr 1; funext t; exact ih t
    | head k ih => simp only [Prog.bind]; congr 1; funext t; exact ih t
    | adv b k ih => simp only [Prog.bind]; rw [ih]
    | emit t k ih => simp only [Prog.bind]; rw [ih]
    | fail => rfl
    | timeout => rfl
  show ifM _ _ (ifM _ (Prog.bind _ _) _) = ifM _ _ (ifM _ (Prog.bind (Prog.bind _ _) _) _)
  rw [assoc]
  congr 3
  funext _
  exact (assoc _ _ _).symm

end DDL.V
