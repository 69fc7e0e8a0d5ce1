import Verif.Proofs.Point
import Mathlib.Analysis.Normed.Module.Basic
import Mathlib.Analysis.Normed.Group.Constructions

/-! `Point` as a normed space (maximum norm), so that derivatives make sense. -/

namespace Bezman.Point
variable {𝕜 : Type} [NontriviallyNormedField 𝕜] {n : ℕ}

/-- coordinates as a linear map -/
def valL (𝕜 : Type) [NontriviallyNormedField 𝕜] (n : ℕ) : Point 𝕜 n →ₗ[𝕜] (Fin n → 𝕜) where
  toFun := Point.val
  map_add' _ _ := rfl
  map_smul' c a := by funext i; exact val_smul c a i

theorem valL_injective : Function.Injective (valL 𝕜 n) := fun _ _ h => Point.ext h

noncomputable instance : NormedAddCommGroup (Point 𝕜 n) :=
  NormedAddCommGroup.induced (Point 𝕜 n) (Fin n → 𝕜) (valL 𝕜 n) valL_injective

noncomputable instance : NormedSpace 𝕜 (Point 𝕜 n) := NormedSpace.induced 𝕜 (Point 𝕜 n) (Fin n → 𝕜) (valL 𝕜 n)

example : (inferInstance : AddCommGroup (Point 𝕜 n)) = NormedAddCommGroup.toAddCommGroup := rfl

end Bezman.Point
