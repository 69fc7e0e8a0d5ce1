import Verif.Proofs.FacesRational
import Verif.Props.Faces

/-! # Properties: rational patches that share a face -/

namespace Bezman.Props
open Spec

section
variable {K : Type} [Zero K] [One K] [Add K] [Sub K] [Mul K] [Neg K] [Div K] [NatCast K] [LT K] [DecidableLT K] [BEq K] {n : ℕ}

/-- C89. A rational program with a scalar-valued result is run once for each of two patches whose weighted control points and weights
agree on a common face.  If every sum finds the weights of its summands equal in both runs or different in both, the results have a
common face again, and their weighted control points and weights on it are identical. -/
theorem C89_rational_program (hcomm : ∀ x y : K, x + y = y + x) (cfg : Cfg) (hc : cfg.maxBinom ≤ 68) (d : ℕ) (sa sb : Bool)
    (common : ℕ → Prop) (σ τ : RVars K n) (hv : RGluedVars d sa sb common σ τ) (D E : RDegrees) (hD : D.Of σ) (hE : E.Of τ)
    (e : RSExpr K n) (hw : e.WellShaped cfg D) (hw' : e.WellShaped cfg E) (hk : e.KeepsFace d common) (hs : e.SameSums cfg σ τ)
    (r r' : RSpline K K) (h : e.run cfg σ = .ok r) (h' : e.run cfg τ = .ok r') : RGlued d sa sb r r' :=
  RSExpr.run_glued ⟨hc, hcomm, hv, hD, hE⟩ e hw hw' hk hs r r' h h'

/-- C89. The same for rational programs with a point-valued result. -/
theorem C89_rational_program_point (hcomm : ∀ x y : K, x + y = y + x) (cfg : Cfg) (hc : cfg.maxBinom ≤ 68) (d : ℕ) (sa sb : Bool)
    (common : ℕ → Prop) (σ τ : RVars K n) (hv : RGluedVars d sa sb common σ τ) (D E : RDegrees) (hD : D.Of σ) (hE : E.Of τ)
    (e : RPExpr K n) (hw : e.WellShaped cfg D) (hw' : e.WellShaped cfg E) (hk : e.KeepsFace d common) (hs : e.SameSums cfg σ τ)
    (r r' : RSpline K (Point K n)) (h : e.run cfg σ = .ok r) (h' : e.run cfg τ = .ok r') : RGlued d sa sb r r' :=
  RPExpr.run_glued ⟨hc, hcomm, hv, hD, hE⟩ e hw hw' hk hs r r' h h'

end

section
variable {K V : Type} [Zero K] [One K] [Sub K] [BEq K] [Add K] [Mul K] [Add V] [SMul K V] [ScalarDiv K V]

/-- C89. Rational patches with a common face have exactly the same values along it, at every parameter, in any arithmetic that is exact
at the ends: `Evaluate` returns the same point, or divides by the same vanishing weight, for both. -/
theorem C89_rational_values (S : V → Prop) (hS : ExactEnds K S) (T : K → Prop) (hT : ExactEnds (V := K) K T) (d : ℕ) (sa sb : Bool)
    (a b : RSpline K V) (h : RGlued d sa sb a b) (hac : a.wt.degrees = a.num.degrees) (hbc : b.wt.degrees = b.num.degrees)
    (hSa : ∀ x ∈ a.num.cps, S x) (hSb : ∀ x ∈ b.num.cps, S x) (hTa : ∀ x ∈ a.wt.cps, T x) (hTb : ∀ x ∈ b.wt.cps, T x)
    (t : List K) (ht : t.length = a.dim) :
    a.evaluate (t.set d (faceParameter K sa)) = b.evaluate (t.set d (faceParameter K sb)) := by
  obtain ⟨v, e1, e2⟩ := C89_values S hS d sa sb a.num b.num h.1 hSa hSb t ht
  obtain ⟨w, e3, e4⟩ := C89_values T hT d sa sb a.wt b.wt h.2 hTa hTb t (by rw [ht, RSpline.dim, Spline.dim, Spline.dim, hac])
  unfold RSpline.evaluate
  rw [e1, e2, e3, e4]

end

/-! ## What is excluded -/

theorem glued_bilin {V : Type} (a b c d x y : V) : Glued 0 true false (Ex.bilin a b c d) (Ex.bilin b x d y) := by
  refine ⟨Ex.bilin_wf .., Ex.bilin_wf .., 1, 1, rfl, rfl, ?_⟩
  intro idx hv
  have hl := hv.length
  match idx, hl with
  | [i, j], _ =>
    have h2 := (Spline.validIdx_iff.mp hv).2 1 j 1 rfl rfl
    rcases j with _ | _ | j
    · exact ⟨b, rfl, rfl⟩
    · exact ⟨d, rfl, rfl⟩
    · omega

/-- C89. A sum of rational patches may break the face: for one patch the weights of the summands are equal and the sum keeps the degrees
(1, 1), for the other they differ away from the face and the sum has degrees (2, 2). -/
theorem C89_rational_sum_fails : ∃ (a a' b b' r r' : RSpline ℚ ℚ), RGlued 0 true false a b ∧ RGlued 0 true false a' b' ∧
    RSpline.addOp ⟨3, 3⟩ a a' = .ok r ∧ RSpline.addOp ⟨3, 3⟩ b b' = .ok r' ∧ r.num.degrees = [1, 1] ∧ r'.num.degrees = [2, 2] ∧
    ¬ RGlued 0 true false r r' := by
  have h1 : ∃ r, RSpline.addOp ⟨3, 3⟩ (⟨Ex.bilin 0 1 0 1, Ex.bilin 1 2 1 2⟩ : RSpline ℚ ℚ) ⟨Ex.bilin 1 1 1 2, Ex.bilin 1 2 1 2⟩ = .ok r ∧
      r.num.degrees = [1, 1] := ⟨⟨Ex.bilin 1 2 1 3, Ex.bilin 1 2 1 2⟩, by decide +kernel, rfl⟩
  have h2 : ∃ r, RSpline.addOp ⟨3, 3⟩ (⟨Ex.bilin 1 2 1 2, Ex.bilin 2 1 2 1⟩ : RSpline ℚ ℚ) ⟨Ex.bilin 1 2 2 2, Ex.bilin 2 3 2 1⟩ = .ok r ∧
      r.num.degrees = [2, 2] := by
    have hok : ((RSpline.addOp ⟨3, 3⟩ (⟨Ex.bilin 1 2 1 2, Ex.bilin 2 1 2 1⟩ : RSpline ℚ ℚ) ⟨Ex.bilin 1 2 2 2, Ex.bilin 2 3 2 1⟩).map
        (fun r => r.num.degrees)) = .ok [2, 2] := by decide +kernel
    cases e : RSpline.addOp ⟨3, 3⟩ (⟨Ex.bilin 1 2 1 2, Ex.bilin 2 1 2 1⟩ : RSpline ℚ ℚ) ⟨Ex.bilin 1 2 2 2, Ex.bilin 2 3 2 1⟩ with
    | error x => rw [e] at hok; cases hok
    | ok r => rw [e] at hok; exact ⟨r, rfl, Except.ok.inj hok⟩
  obtain ⟨r, e1, d1⟩ := h1
  obtain ⟨r', e2, d2⟩ := h2
  refine ⟨_, _, _, _, r, r', ⟨glued_bilin .., glued_bilin ..⟩, ⟨glued_bilin .., glued_bilin ..⟩, e1, e2, d1, d2, ?_⟩
  rintro ⟨⟨-, -, p, q, -, hq, -⟩, -⟩
  rw [d1, d2] at hq
  simp at hq

/-! ## Examples -/

/-- variable 1 is common to both runs, the others hold the two patches -/
def exRVarsA : RVars ℚ 2 where
  toVars := exVarsA
  rs := fun i => if i = 1 then ⟨Bezman.Ex.curve 1 5 2, Bezman.Ex.curve 1 2 1⟩
    else ⟨Bezman.Ex.surf (1 / 2) (1 / 3) (1 / 4) (1 / 5) (1 / 6) (1 / 7), Bezman.Ex.surf 1 2 3 2 1 2⟩
  rp := fun i => if i = 1 then ⟨Bezman.Ex.curve ⟨![0, 1]⟩ ⟨![2, 1]⟩ ⟨![3, 5]⟩, Bezman.Ex.curve 1 2 1⟩
    else ⟨Bezman.Ex.surf ⟨![0, 1]⟩ ⟨![2, 1]⟩ ⟨![3, 5]⟩ ⟨![1, 0]⟩ ⟨![2, 3]⟩ ⟨![8, 1]⟩, Bezman.Ex.surf 1 2 3 2 1 2⟩
@[inherit_doc exRVarsA]
def exRVarsB : RVars ℚ 2 where
  toVars := exVarsB
  rs := fun i => if i = 1 then ⟨Bezman.Ex.curve 1 5 2, Bezman.Ex.curve 1 2 1⟩
    else ⟨Ex.bilin (1 / 4) (2 / 3) (1 / 7) 0, Ex.bilin 3 1 2 5⟩
  rp := fun i => if i = 1 then ⟨Bezman.Ex.curve ⟨![0, 1]⟩ ⟨![2, 1]⟩ ⟨![3, 5]⟩, Bezman.Ex.curve 1 2 1⟩
    else ⟨Ex.bilin ⟨![3, 5]⟩ ⟨![1, 2]⟩ ⟨![8, 1]⟩ ⟨![9, 2]⟩, Ex.bilin 3 1 2 5⟩

theorem exRVars_glued : RGluedVars 0 true false (· = 1) exRVarsA exRVarsB where
  toGluedVars := exVars_glued
  common_rs := by rintro i rfl; rfl
  common_rp := by rintro i rfl; rfl
  patch_rs := fun i h => by simp only [exRVarsA, exRVarsB, if_neg h]; exact ⟨glued_surf_bilin .., glued_surf_bilin ..⟩
  patch_rp := fun i h => by simp only [exRVarsA, exRVarsB, if_neg h]; exact ⟨glued_surf_bilin .., glued_surf_bilin ..⟩

/-- degrees of the variables -/
def exRDegA : RDegrees := ⟨exShapeA, exShapeA, exShapeA, exShapeA⟩
@[inherit_doc exRDegA]
def exRDegB : RDegrees := ⟨exShapeB, exShapeB, exShapeB, exShapeB⟩

theorem exRDegA_of : exRDegA.Of exRVarsA where
  s := exVarsA_s
  p := exVarsA_p
  rs := fun i => by
    by_cases h : i = 1
    · subst h; exact ⟨⟨Bezman.Ex.curve_wf .., rfl⟩, Bezman.Ex.curve_wf .., rfl⟩
    · simp only [exRVarsA, exRDegA, exShapeA, if_neg h]; exact ⟨⟨Bezman.Ex.surf_wf .., rfl⟩, Bezman.Ex.surf_wf .., rfl⟩
  rp := fun i => by
    by_cases h : i = 1
    · subst h; exact ⟨⟨Bezman.Ex.curve_wf .., rfl⟩, Bezman.Ex.curve_wf .., rfl⟩
    · simp only [exRVarsA, exRDegA, exShapeA, if_neg h]; exact ⟨⟨Bezman.Ex.surf_wf .., rfl⟩, Bezman.Ex.surf_wf .., rfl⟩

theorem exRDegB_of : exRDegB.Of exRVarsB where
  s := exVarsB_s
  p := exVarsB_p
  rs := fun i => by
    by_cases h : i = 1
    · subst h; exact ⟨⟨Bezman.Ex.curve_wf .., rfl⟩, Bezman.Ex.curve_wf .., rfl⟩
    · simp only [exRVarsB, exRDegB, exShapeB, if_neg h]; exact ⟨⟨Ex.bilin_wf .., rfl⟩, Ex.bilin_wf .., rfl⟩
  rp := fun i => by
    by_cases h : i = 1
    · subst h; exact ⟨⟨Bezman.Ex.curve_wf .., rfl⟩, Bezman.Ex.curve_wf .., rfl⟩
    · simp only [exRVarsB, exRDegB, exShapeB, if_neg h]; exact ⟨⟨Ex.bilin_wf .., rfl⟩, Ex.bilin_wf .., rfl⟩

/-- the derivative of the patch along the face plus `curve.Compose(patch)` -/
def exRFaceProgram : RSExpr ℚ 2 := .add (.deriv (.leaf 0) [0, 1]) (.composeScalar (.leaf 1) (.leaf 0))

theorem exRFaceProgram_runs : (exRFaceProgram.run exFaceCfg exRVarsA).isOk ∧ (exRFaceProgram.run exFaceCfg exRVarsB).isOk := by
  decide +kernel

/-- the weights of the summands differ in both runs -/
theorem exRFace_tests : (do
      let x ← RSExpr.run exFaceCfg exRVarsA (.deriv (.leaf 0) [0, 1])
      let y ← RSExpr.run exFaceCfg exRVarsA (.composeScalar (.leaf 1) (.leaf 0))
      pure (x.wt.eqOp y.wt)) = Except.ok (ε := Err) false ∧ (do
      let x ← RSExpr.run exFaceCfg exRVarsB (.deriv (.leaf 0) [0, 1])
      let y ← RSExpr.run exFaceCfg exRVarsB (.composeScalar (.leaf 1) (.leaf 0))
      pure (x.wt.eqOp y.wt)) = Except.ok (ε := Err) false := by
  constructor <;> decide +kernel

/-- both runs return, and the results have the common face -/
example : ∃ r r', exRFaceProgram.run exFaceCfg exRVarsA = .ok r ∧ exRFaceProgram.run exFaceCfg exRVarsB = .ok r' ∧
    RGlued 0 true false r r' := by
  obtain ⟨h1, h2⟩ := exRFaceProgram_runs
  cases e1 : exRFaceProgram.run exFaceCfg exRVarsA with
  | error x => rw [e1] at h1; cases h1
  | ok r =>
    cases e2 : exRFaceProgram.run exFaceCfg exRVarsB with
    | error x => rw [e2] at h2; cases h2
    | ok r' =>
      refine ⟨r, r', rfl, rfl, C89_rational_program (fun x y => add_comm x y) _ (by decide) 0 true false (· = 1) exRVarsA exRVarsB exRVars_glued
        exRDegA exRDegB exRDegA_of exRDegB_of exRFaceProgram ?_ ?_ ?_ ?_ r r' e1 e2⟩
      · refine ⟨⟨trivial, ?_⟩, ⟨trivial, trivial, ?_⟩, ?_⟩
        · rintro p rfl
          refine ⟨rfl, fun d o k h3 h4 _ => ?_, ⟨by decide, by decide, by decide, by decide⟩⟩
          rcases d with _ | _ | d <;> simp [exRDegA, exShapeA] at h3 h4 <;> omega
        · rintro p rfl q rfl
          exact ⟨rfl, ⟨by decide, by decide, by decide, by decide, by decide⟩⟩
        · rintro p ⟨_, rfl, rfl⟩ q ⟨_, rfl, _, rfl, rfl⟩
          exact ⟨by decide, by decide, by decide, by decide, by decide⟩
      · refine ⟨⟨trivial, ?_⟩, ⟨trivial, trivial, ?_⟩, ?_⟩
        · rintro p rfl
          refine ⟨rfl, fun d o k h3 h4 _ => ?_, ⟨by decide, by decide, by decide, by decide⟩⟩
          rcases d with _ | _ | d <;> simp [exRDegB, exShapeB] at h3 h4 <;> omega
        · rintro p rfl q rfl
          exact ⟨rfl, ⟨by decide, by decide, by decide, by decide, by decide⟩⟩
        · rintro p ⟨_, rfl, rfl⟩ q ⟨_, rfl, _, rfl, rfl⟩
          exact ⟨by decide, by decide, by decide, by decide, by decide⟩
      · simp [exRFaceProgram, RSExpr.KeepsFace, RSExpr.Uses]
      · refine ⟨trivial, trivial, fun x y x' y' hx hy hx' hy' => ?_⟩
        have t := exRFace_tests
        rw [hx, hy, hx', hy'] at t
        exact (Except.ok.inj t.1).trans (Except.ok.inj t.2).symm

end Bezman.Props
