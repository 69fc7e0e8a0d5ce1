import Verif.Proofs.AnyArithRational
import Verif.Proofs.ParamREval
import Verif.Props.RationalDeriv
import Verif.Props.RationalBox

/-! # Outcomes of the evaluators of rational splines in any arithmetic -/

namespace Bezman.RSpline
open Spec Props

attribute [local instance] parAny parScalarAny parPointAny

variable {K V : Type} [Zero K] [One K] [Add K] [Sub K] [Mul K] [Neg K] [Div K] [NatCast K]
  [Zero V] [Add V] [Sub V] [Neg V] [SMul K V]

/-- division by zero is tolerated -/
def onlyDivides : Err → Bool := fun e => e == .divZero

theorem parZeroAny [BEq K] : ParZero onlyDivides K ℝ := ⟨fun h => by cases h⟩
theorem parDivAny [BEq K] [ScalarDiv K V] : ParDiv K ℝ V ℝ := ⟨fun _ _ _ _ => trivial⟩
attribute [local instance] parZeroAny parDivAny

theorem ghost_weight {r : RSpline K V} {ds : List ℕ} (h : HasRShape ds r) {t : List ℝ} (ht : t.length = ds.length) :
    r.ghost.wt.value t = 1 := by
  rw [Spline.value_eq_neval]
  have hl : r.wt.cps.length = size ds := by rw [← h.2.2]; exact h.2.1.cps_len
  have hd : r.ghost.wt.degrees = ds := h.2.2
  have : ∀ i, i < size r.ghost.wt.degrees → r.ghost.wt.cps.getD i 0 = 1 := by
    intro i hi
    rw [hd] at hi
    simp [ghost, hl, hi]
  rw [neval_congr (G := fun _ => (1 : ℝ)) this, neval_const (by rw [hd, ht])]

theorem divides_of {α β : Type} [Par α β] {x : M α} {y : M β} (h : RelM onlyDivides x y) {b : β} (hy : y = .ok b) :
    (∃ a, x = .ok a ∧ a ≋ b) ∨ x = .error .divZero := by
  subst hy
  cases h with
  | ok h => exact .inl ⟨_, rfl, h⟩
  | left e _ he => right; cases e <;> first | rfl | cases he

theorem evaluators_outcome [BEq K] (cfg : Cfg) (hmax : cfg.maxBinom ≤ 68) {r : RSpline K V} {ds : List ℕ} (h : HasRShape ds r)
    (hd : ∀ p ∈ ds, p < cfg.maxBinom) {t : List K} (ht : t.length = ds.length) :
    (∃ x, r.forwardEvaluate cfg t = .ok x) ∧
    ((∃ l, r.basisFunctions cfg t = .ok l ∧ l.length = size ds) ∨ r.basisFunctions cfg t = .error .divZero) ∧
    ((∃ l, r.unweightedBasisFunctions cfg t = .ok l ∧ l.length = size ds) ∨ r.unweightedBasisFunctions cfg t = .error .divZero) ∧
    ∀ k : List ℕ, k.length = ds.length → (∀ o ∈ k, o < cfg.maxBinom) → BinomFits k →
      ((∃ x, r.evaluateDerivative cfg t k = .ok x) ∨ r.evaluateDerivative cfg t k = .error .divZero) ∧
      ((∃ l, r.basisFunctionsDerivatives cfg t k = .ok l ∧ l.length = size ds) ∨
        r.basisFunctionsDerivatives cfg t k = .error .divZero) := by
  have hr := ghost_rel r
  have hc := ghost_computes h
  set t' : List ℝ := List.replicate t.length 0 with ht'
  have htt : t ≋ t' := any_list t
  have hl : t'.length = ds.length := by simp [ht', ht]
  have h0 : r.ghost.wt.value t' ≠ 0 := by rw [ghost_weight h hl]; exact one_ne_zero
  have list : ∀ {x : M (List K)} {y : M (List ℝ)}, RelM onlyDivides x y → (∃ l, y = .ok l ∧ l.length = size ds) →
      (∃ l, x = .ok l ∧ l.length = size ds) ∨ x = .error .divZero := by
    rintro x y hxy ⟨l, rfl, e⟩
    rcases divides_of hxy rfl with ⟨a, rfl, ha⟩ | h
    · exact .inl ⟨a, rfl, (List.Forall₂.length_eq ha).trans e⟩
    · exact .inr h
  refine ⟨?_, ?_, ?_, fun k hk ho hb => ⟨?_, ?_⟩⟩
  · have := parRForwardEvaluate (tol := strict) cfg hr htt
    rw [C36_forward_evaluate_numerator cfg hmax r.ghost ds _ hc.num_computes hc.wt_degrees hd t' hl] at this
    generalize r.forwardEvaluate cfg t = x at this
    cases this with
    | ok _ => exact ⟨_, rfl⟩
    | left _ _ h => cases h
  · obtain ⟨l, h1, h2, -⟩ := C43_basis cfg hmax r.ghost ds _ _ hc hd t' hl h0
    exact list (parRBasisFunctions cfg hr htt) ⟨l, h1, h2⟩
  · obtain ⟨l, h1, h2, -⟩ := C43_unweighted cfg hmax r.ghost ds _ _ hc hd t' hl h0
    exact list (parRUnweightedBasisFunctions cfg hr htt) ⟨l, h1, h2⟩
  · have := C42_evaluate_derivative cfg hmax r.ghost ds _ _ hc hd k hk ho hb t' hl h0
    rcases divides_of (parREvaluateDerivative cfg hr htt k) this with ⟨a, h1, -⟩ | h
    · exact .inl ⟨a, h1⟩
    · exact .inr h
  · obtain ⟨l, h1, h2, -⟩ := C43_basis_derivatives cfg hmax r.ghost ds _ _ hc hd k hk ho hb t' hl h0
    exact list (parRBasisFunctionsDerivatives cfg hr htt k) ⟨l, h1, h2⟩

end Bezman.RSpline
