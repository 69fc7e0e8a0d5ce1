import Verif.Proofs.ComposeLimit
import Verif.Props.AnyArith
import Verif.Props.AnyArithRational
import Verif.Props.Examples

/-! # Property C75: the degree limit of compositions and powers -/

namespace Bezman.Props
open Spec

variable {K V W : Type} [Zero K] [One K] [Add K] [Sub K] [Mul K] [Neg K] [Div K] [NatCast K] [LT K] [DecidableLT K]
  [Zero V] [Add V] [Sub V] [Neg V] [SMul K V] [Coords K W]

/-- C75. `Compose` and `ComposeSensitivity` with an inner spline that passes the check against the unit cube return exactly if every
degree of the outer spline and every degree of the result is below `MAX_BINOMIAL_DEGREE`. Otherwise an assertion fails: no access
outside of an array, no exception, no wrong result. -/
theorem C75_compose_limit (cfg : Cfg) (hmax : cfg.maxBinom ≤ 68) (h2 : 2 ≤ cfg.maxBinom) (a : Spline V) (b : Spline W) (da db : List ℕ)
    (ha : HasShape da a) (hb : HasShape db b) (hdim : da.length = Coords.n K W) (hfit : Spline.fitsIntoUnitCube K b = .ok true) :
    ((∃ r, Spline.compose K cfg a b = .ok r) ↔ (∀ p ∈ da, p < cfg.maxBinom) ∧ ∀ q ∈ db, da.sum * q < cfg.maxBinom) ∧
    ((∃ r, Spline.composeSensitivity K cfg a b = .ok r) ↔ (∀ p ∈ da, p < cfg.maxBinom) ∧ ∀ q ∈ db, da.sum * q < cfg.maxBinom) ∧
    (¬ ((∀ p ∈ da, p < cfg.maxBinom) ∧ ∀ q ∈ db, da.sum * q < cfg.maxBinom) →
      Spline.compose K cfg a b = .error .assertFail ∧ Spline.composeSensitivity K cfg a b = .error .assertFail) := by
  by_cases h : (∀ p ∈ da, p < cfg.maxBinom) ∧ ∀ q ∈ db, da.sum * q < cfg.maxBinom
  · rcases C80_compose (K := K) cfg hmax a b da db ha hb hdim h.1 h.2 with ⟨h1, -⟩ | ⟨-, ⟨r, h1, -⟩, l, h2, -⟩
    · rw [hfit] at h1; cases h1
    · exact ⟨⟨fun _ => h, fun _ => ⟨r, h1⟩⟩, ⟨fun _ => h, fun _ => ⟨l, h2⟩⟩, fun h' => absurd h h'⟩
  · have key := Spline.compose_limit (K := K) hmax h2 ha hb hdim hfit (by
      by_contra hc
      push Not at hc
      exact h hc)
    exact ⟨⟨fun ⟨r, hr⟩ => (by rw [key.1] at hr; cases hr), fun h' => absurd h' h⟩,
      ⟨fun ⟨r, hr⟩ => (by rw [key.2] at hr; cases hr), fun h' => absurd h' h⟩, fun _ => key⟩

omit [LT K] [DecidableLT K] in
/-- C75. `RaisePower` with an exponent of two or more returns exactly if the degrees of the result are below `MAX_BINOMIAL_DEGREE`;
otherwise an assertion fails. -/
theorem C75_power_limit (cfg : Cfg) (hmax : cfg.maxBinom ≤ 68) (s : Spline K) (ds : List ℕ) (hs : HasShape ds s) (k : ℕ) (hk : 2 ≤ k) :
    ((∃ r, s.raisePower cfg k = .ok r) ↔ ∀ q ∈ ds, k * q < cfg.maxBinom) ∧
    ((∃ q ∈ ds, cfg.maxBinom ≤ k * q) → s.raisePower cfg k = .error .assertFail) := by
  refine ⟨⟨fun ⟨r, hr⟩ => ?_, fun h => ?_⟩, Spline.raisePower_limit hmax hs hk⟩
  · by_contra hc
    push Not at hc
    rw [Spline.raisePower_limit hmax hs hk hc] at hr
    cases hr
  · obtain ⟨r, hr, -⟩ := Spline.raisePower_returns cfg hmax hs k h
    exact ⟨r, hr⟩

omit [LT K] [DecidableLT K] in
/-- C75. The exponents zero and one are within the limit whatever the degrees. -/
theorem C75_power_small (cfg : Cfg) (s : Spline K) (ds : List ℕ) (hs : HasShape ds s) :
    s.raisePower cfg 1 = .ok s ∧ ∃ r, s.raisePower cfg 0 = .ok r := by
  refine ⟨rfl, ?_⟩
  have := Spline.ofPoints_ok (ps := List.replicate s.dim 0) (pts := [(1 : K)]) (by simpa using (show 0 < s.dim from hs.1.dim_pos))
    (by simp [Spline.size_replicate_zero])
  exact ⟨_, this.1⟩

/-- C75. The same for compositions with rational splines, inside or outside: polynomial in rational ... -/
theorem C75_rational_compose_limit (cfg : Cfg) (hmax : cfg.maxBinom ≤ 68) (h2 : 2 ≤ cfg.maxBinom) (a : RSpline K V) (b : Spline W)
    (da db : List ℕ) (ha : HasRShape da a) (hb : HasShape db b) (hdim : da.length = Coords.n K W)
    (hfit : Spline.fitsIntoUnitCube K b = .ok true) (h : (∃ p ∈ da, cfg.maxBinom ≤ p) ∨ ∃ q ∈ db, cfg.maxBinom ≤ da.sum * q) :
    a.compose cfg b = .error .assertFail ∧ a.composeSensitivity cfg b = .error .assertFail := by
  have key := Spline.compose_limit (K := K) hmax h2 ha.1 hb hdim hfit h
  unfold RSpline.compose RSpline.composeSensitivity
  rw [key.1, key.2]
  exact ⟨rfl, rfl⟩

omit [LT K] [DecidableLT K] in
/-- C75. ... rational in rational ... -/
theorem C75_rational_compose_rational_limit (cfg : Cfg) (hmax : cfg.maxBinom ≤ 68) (h2 : 2 ≤ cfg.maxBinom) (a : RSpline K V)
    (b : RSpline K W) (da db : List ℕ) (ha : HasRShape da a) (hb : HasRShape db b) (hdim : da.length = Coords.n K W)
    (hfuel : 2 ≤ cfg.fuel ∧ ∀ q ∈ db, q < cfg.fuel) (hsmall : size db < 2 ^ 31)
    (h : (∃ p ∈ da, cfg.maxBinom ≤ p) ∨ ∃ q ∈ db, cfg.maxBinom ≤ da.sum * q) :
    a.composeRational cfg b = .error .assertFail ∧ a.composeSensitivityRational cfg b = .error .assertFail := by
  have key := Spline.numeratorRational_limit (K := K) hmax h2 ha.1 hb hdim ⟨hfuel.2, hfuel.1, hsmall⟩ h
  unfold RSpline.composeRational RSpline.composeSensitivityRational
  rw [key.1, key.2]
  exact ⟨rfl, rfl⟩

/-- C75. ... and rational in polynomial. -/
theorem C75_compose_rational_limit [BEq K] [ScalarDiv K W] (cfg : Cfg) (hmax : cfg.maxBinom ≤ 68) (h2 : 2 ≤ cfg.maxBinom) (a : Spline V)
    (b : RSpline K W) (da db : List ℕ) (ha : HasShape da a) (hb : HasRShape db b) (hdim : da.length = Coords.n K W)
    (hfuel : 2 ≤ cfg.fuel ∧ ∀ q ∈ db, q < cfg.fuel) (hsmall : size db < 2 ^ 31) (hfit : b.fitsIntoUnitCube = .ok true)
    (h : (∃ p ∈ da, cfg.maxBinom ≤ p) ∨ ∃ q ∈ db, cfg.maxBinom ≤ da.sum * q) :
    a.composeRational cfg b = .error .assertFail ∧ a.composeSensitivityRational cfg b = .error .assertFail := by
  have key := Spline.numeratorRational_limit (K := K) hmax h2 ha hb hdim ⟨hfuel.2, hfuel.1, hsmall⟩ h
  unfold Spline.composeRational Spline.composeSensitivityRational
  rw [hfit, bind_ok, bind_ok, key.1, key.2]
  exact ⟨rfl, rfl⟩

/-! Concrete cases: with room for degrees below 30, a curve of degree 6 composed with a curve of degree 5 is rejected although both
are within the limit. -/

def exSextic : Spline ℚ := ⟨[6], 7, [1], List.replicate 7 1⟩
def exQuintic : Spline ℚ := ⟨[5], 6, [1], [0, 1 / 3, 1, 0, 1 / 2, 1]⟩
theorem exSextic_shape : HasShape [6] exSextic := ⟨⟨by decide, rfl, rfl, rfl⟩, rfl⟩
theorem exQuintic_shape : HasShape [5] exQuintic := ⟨⟨by decide, rfl, rfl, rfl⟩, rfl⟩
theorem exQuintic_fits : Spline.fitsIntoUnitCube ℚ exQuintic = .ok true := by decide +kernel

example : Spline.compose ℚ Ex.cfg exSextic exQuintic = .error .assertFail :=
  ((C75_compose_limit (K := ℚ) Ex.cfg Ex.cfg_ok (by decide) _ _ _ _ exSextic_shape exQuintic_shape rfl exQuintic_fits).2.2 (by decide)).1

/-- the other way round is also rejected, but a quintic of a quintic (degree 25) is not -/
example : ∃ r, Spline.compose ℚ Ex.cfg exQuintic exQuintic = .ok r :=
  (C75_compose_limit (K := ℚ) Ex.cfg Ex.cfg_ok (by decide) _ _ _ _ exQuintic_shape exQuintic_shape rfl exQuintic_fits).1.mpr (by decide)

example : exSextic.raisePower Ex.cfg 5 = .error .assertFail :=
  (C75_power_limit (K := ℚ) Ex.cfg Ex.cfg_ok _ _ exSextic_shape 5 (by decide)).2 ⟨6, by simp, by decide⟩

example : ∃ r, exSextic.raisePower Ex.cfg 4 = .ok r :=
  (C75_power_limit (K := ℚ) Ex.cfg Ex.cfg_ok _ _ exSextic_shape 4 (by decide)).1.mpr (by decide)

example : (⟨exSextic, exSextic⟩ : RSpline ℚ ℚ).compose Ex.cfg exQuintic = .error .assertFail :=
  (C75_rational_compose_limit (K := ℚ) Ex.cfg Ex.cfg_ok (by decide) _ _ _ _ ⟨exSextic_shape, exSextic_shape⟩ exQuintic_shape rfl
    exQuintic_fits (.inr ⟨5, by simp, by decide⟩)).1

def exWeights : Spline ℚ := ⟨[5], 6, [1], [1, 2, 1, 3, 1, 1]⟩
theorem exWeights_shape : HasShape [5] exWeights := ⟨⟨by decide, rfl, rfl, rfl⟩, rfl⟩

example : (⟨exSextic, exSextic⟩ : RSpline ℚ ℚ).composeRational Ex.cfg (⟨exQuintic, exWeights⟩ : RSpline ℚ ℚ) = .error .assertFail :=
  (C75_rational_compose_rational_limit (K := ℚ) Ex.cfg Ex.cfg_ok (by decide) _ _ _ _ ⟨exSextic_shape, exSextic_shape⟩
    ⟨exQuintic_shape, exWeights_shape⟩ rfl (by decide) (by decide) (.inr ⟨5, by simp, by decide⟩)).1

example : exSextic.composeRational Ex.cfg (⟨exQuintic, exWeights⟩ : RSpline ℚ ℚ) = .error .assertFail :=
  (C75_compose_rational_limit (K := ℚ) Ex.cfg Ex.cfg_ok (by decide) _ _ _ _ exSextic_shape
    ⟨exQuintic_shape, exWeights_shape⟩ rfl (by decide) (by decide) (by decide +kernel) (.inr ⟨5, by simp, by decide⟩)).1

end Bezman.Props
