import Verif.Model.Output
import Verif.Spec.Alike
/-
Specification: numbers that JSON does not have.
-/

namespace DDL.Spec

/-- The infinities and NaN, in the ways Go reads them, with any letter case. -/
def NotFinite (t : Str) : Prop :=
  upper t ∈ [S "INF", S "+INF", S "-INF", S "INFINITY", S "+INFINITY", S "-INFINITY", S "NAN"]

instance (t : Str) : Decidable (NotFinite t) := inferInstanceAs (Decidable (_ ∈ _))

end DDL.Spec
