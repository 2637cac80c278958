import Verif.Model.Basic
/-
What using one object for several calls means: the objects reachable from a new one, and the
part of a call's outcome the caller sees.
-/

namespace DDL.Spec

/-- What the caller of a method sees: a value, an error, a panic, or no return (yet). -/
inductive Answer (α : Type) where
  | value (a : α)
  | error (e : VErr)
  | panic
  | none
  deriving DecidableEq, Repr

/-- Forget the object. -/
def answer {σ α : Type} : Res σ α → Answer α
  | .ok a _ => .value a
  | .fail e _ => .error e
  | .panic => .panic
  | .timeout => .none

/-- The objects that come out of `new` by any number of completed calls of the method `call`,
successful or not, on any inputs. -/
inductive Used {σ ι α : Type} (new : σ) (call : Nat → ι → σ → Res σ α) : σ → Prop
  | fresh : Used new call new
  | value {s s' : σ} {n : Nat} {x : ι} {a : α} :
      Used new call s → call n x s = .ok a s' → Used new call s'
  | error {s s' : σ} {n : Nat} {x : ι} {e : VErr} :
      Used new call s → call n x s = .fail e s' → Used new call s'

end DDL.Spec
