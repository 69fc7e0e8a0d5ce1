import Verif.Model.Rational

/-! # Specification vocabulary: calls with the same result -/

namespace Bezman.Spec

/-- Both calls return, and what they return is identical. -/
def SameResult {α : Type} (x y : M α) : Prop := ∃ r, x = .ok r ∧ y = .ok r

end Bezman.Spec
