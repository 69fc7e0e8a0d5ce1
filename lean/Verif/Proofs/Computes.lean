import Verif.Spec.Computes
import Verif.Proofs.Evaluate
import Verif.Proofs.Arith

/-! The function a spline computes is its `value`. -/

namespace Bezman
open Spec
namespace Spline
variable {K V : Type} [CommRing K] [AddCommGroup V] [Module K V] {s : Spline V} {ds : List ℕ} {f g : List K → V}

theorem Computes.dim_eq (h : s.Computes ds f) : s.dim = ds.length := by
  unfold dim; rw [h.degrees_eq]

theorem Computes.value_eq (h : s.Computes ds f) {t : List K} (ht : t.length = ds.length) : s.value t = f t := by
  have := h.eval t ht
  rw [evaluate_ok h.wf (by rw [ht, h.dim_eq])] at this
  injection this

theorem Computes.mk' (h : s.WF) (hd : s.degrees = ds) (hv : ∀ t : List K, t.length = ds.length → s.value t = f t) :
    s.Computes ds f :=
  ⟨h, hd, fun t ht => by
    rw [evaluate_ok h (by unfold dim; rw [hd, ht]), hv t ht]⟩

theorem Computes.congr (h : s.Computes ds f) (hfg : ∀ t : List K, t.length = ds.length → f t = g t) :
    s.Computes ds g :=
  ⟨h.wf, h.degrees_eq, fun t ht => by rw [h.eval t ht, hfg t ht]⟩

/-- every consistent spline computes its Bezier function -/
theorem WF.computes (h : s.WF) : s.Computes s.degrees (fun t : List K => s.value t) :=
  Computes.mk' h rfl fun _ _ => rfl

end Spline
end Bezman
