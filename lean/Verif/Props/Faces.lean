import Verif.Proofs.FacesExpr
import Verif.Props.Examples
import Verif.Props.Joint

/-! # Properties: patches that share a face -/

namespace Bezman.Props
open Spec

section
variable {K : Type} [Zero K] [One K] [Add K] [Sub K] [Mul K] [Neg K] [Div K] [NatCast K] [LT K] [DecidableLT K] {n : ℕ}

/-- C89. A program with a scalar-valued result is run once for each of two patches whose control points agree on a common face.  The
results have a common face again, and their control points on it are identical.  Nothing is assumed about the numbers but that
addition commutes (`x + y` and `y + x` are the same number).  The degrees of the patches across the face may differ. -/
theorem C89_program (hcomm : ∀ x y : K, x + y = y + x) (cfg : Cfg) (hc : cfg.maxBinom ≤ 68) (d : ℕ) (sa sb : Bool) (common : ℕ → Prop)
    (σ τ : Vars K n) (hv : GluedVars d sa sb common σ τ) (ds dp es ep : ℕ → List ℕ) (hs : ∀ i, HasShape (ds i) (σ.s i))
    (hp : ∀ i, HasShape (dp i) (σ.p i)) (hs' : ∀ i, HasShape (es i) (τ.s i)) (hp' : ∀ i, HasShape (ep i) (τ.p i))
    (e : SExpr K n) (hw : e.WellShaped cfg ds dp) (hw' : e.WellShaped cfg es ep) (hk : e.KeepsFace d common) (r r' : Spline K)
    (h : e.run cfg σ = .ok r) (h' : e.run cfg τ = .ok r') : Glued d sa sb r r' :=
  SExpr.run_glued ⟨hc, hcomm, hv, hs, hp, hs', hp'⟩ e hw hw' hk r r' h h'

/-- C89. The same for programs with a point-valued result. -/
theorem C89_program_point (hcomm : ∀ x y : K, x + y = y + x) (cfg : Cfg) (hc : cfg.maxBinom ≤ 68) (d : ℕ) (sa sb : Bool) (common : ℕ → Prop)
    (σ τ : Vars K n) (hv : GluedVars d sa sb common σ τ) (ds dp es ep : ℕ → List ℕ) (hs : ∀ i, HasShape (ds i) (σ.s i))
    (hp : ∀ i, HasShape (dp i) (σ.p i)) (hs' : ∀ i, HasShape (es i) (τ.s i)) (hp' : ∀ i, HasShape (ep i) (τ.p i))
    (e : PExpr K n) (hw : e.WellShaped cfg ds dp) (hw' : e.WellShaped cfg es ep) (hk : e.KeepsFace d common) (r r' : Spline (Point K n))
    (h : e.run cfg σ = .ok r) (h' : e.run cfg τ = .ok r') : Glued d sa sb r r' :=
  PExpr.run_glued ⟨hc, hcomm, hv, hs, hp, hs', hp'⟩ e hw hw' hk r r' h h'

end

section
variable {K V : Type} [Zero K] [One K] [Sub K] [Add V] [SMul K V]

/-- the parameter of a face -/
def faceParameter (K : Type) [Zero K] [One K] (side : Bool) : K := if side then 1 else 0

/-- C89. Patches with a common face have exactly the same values along it, at every parameter, in any arithmetic that is exact at the
ends. -/
theorem C89_values (S : V → Prop) (hS : ExactEnds K S) (d : ℕ) (sa sb : Bool) (a b : Spline V) (h : Glued d sa sb a b)
    (hSa : ∀ x ∈ a.cps, S x) (hSb : ∀ x ∈ b.cps, S x) (t : List K) (ht : t.length = a.dim) :
    ∃ v, a.evaluate (t.set d (faceParameter K sa)) = .ok v ∧ b.evaluate (t.set d (faceParameter K sb)) = .ok v := by
  obtain ⟨ha, hb, p, q, hp, hq, hl⟩ := h
  refine C68_joint S hS a b ha hb hSa hSb d p q hp hq _ _ _ _ ?_ ?_ hl t ht
  · cases sa <;> simp [faceIndex, faceParameter]
  · cases sb <;> simp [faceIndex, faceParameter]

end

/-! ## What is excluded -/

theorem glued_lines {V : Type} (a b c : V) : Glued 0 true false (Ex.line a b) (Ex.line b c) := by
  refine ⟨Ex.line_wf .., Ex.line_wf .., 1, 1, rfl, rfl, ?_⟩
  intro idx hv
  have hl := hv.length
  match idx, hl with
  | [i], _ => exact ⟨b, rfl, rfl⟩

/-- a single point -/
theorem glued_points {V : Type} {a b : V} (h : Glued 0 true false (⟨[0], 1, [1], [a]⟩ : Spline V) ⟨[0], 1, [1], [b]⟩) : a = b := by
  obtain ⟨_, _, p, q, hp, hq, hl⟩ := h
  obtain ⟨x, h1, h2⟩ := hl [0] (by rw [validIdx_cons]; exact ⟨Nat.zero_le _, .nil⟩)
  simp only [List.getElem?_cons_zero, Option.some.injEq] at hp
  have hq0 : q = 0 := by simpa using hq.symm
  subst hp hq0
  have h1' : a = x := Except.ok.inj ((show _ = Except.ok a from rfl).symm.trans h1)
  have h2' : b = x := Except.ok.inj ((show _ = Except.ok b from rfl).symm.trans h2)
  exact h1'.trans h2'.symm

/-- C89. Differentiating across the face does not keep it: the curves `[0, 1]` and `[1, 3]` meet at `1`, their derivatives
`[1]` and `[2]` do not. -/
theorem C89_deriv_across_fails : ∃ (a b ra rb : Spline ℚ), Glued 0 true false a b ∧ Spline.derivativeSpline ℚ ⟨2, 2⟩ a [1] = .ok ra ∧
    Spline.derivativeSpline ℚ ⟨2, 2⟩ b [1] = .ok rb ∧ ¬ Glued 0 true false ra rb := by
  have e1 : Spline.derivativeSpline ℚ ⟨2, 2⟩ (Ex.line (0 : ℚ) 1) [1] = .ok ⟨[0], 1, [1], [1]⟩ := by decide +kernel
  have e2 : Spline.derivativeSpline ℚ ⟨2, 2⟩ (Ex.line (1 : ℚ) 3) [1] = .ok ⟨[0], 1, [1], [2]⟩ := by decide +kernel
  have e3 : ¬ Glued 0 true false (⟨[0], 1, [1], [1]⟩ : Spline ℚ) ⟨[0], 1, [1], [2]⟩ := fun h => by
    have : (1 : ℚ) = 2 := glued_points h
    norm_num at this
  exact ⟨_, _, _, _, glued_lines 0 1 3, e1, e2, e3⟩

/-! ## Examples -/

/-- a patch with degrees (1,1) -/
def Ex.bilin {V : Type} (a b c d : V) : Spline V := ⟨[1, 1], 4, [1, 2], [a, b, c, d]⟩

theorem Ex.bilin_wf {V : Type} (a b c d : V) : (Ex.bilin a b c d).WF := ⟨Nat.zero_lt_succ _, rfl, rfl, rfl⟩

/-- the last column of `surf` (degrees (2,1)) is the first one of `bilin` (degrees (1,1)) -/
theorem glued_surf_bilin {V : Type} (a b c d e f x y : V) : Glued 0 true false (Bezman.Ex.surf a b c d e f) (Ex.bilin c x f y) := by
  refine ⟨Bezman.Ex.surf_wf .., Ex.bilin_wf .., 2, 1, rfl, rfl, ?_⟩
  intro idx hv
  have hl := hv.length
  match idx, hl with
  | [i, j], _ =>
    have h2 := (Spline.validIdx_iff.mp hv).2 1 j 1 rfl rfl
    rcases j with _ | _ | j
    · exact ⟨c, rfl, rfl⟩
    · exact ⟨f, rfl, rfl⟩
    · omega

/-- variable 1 is common to both runs, the others hold the two patches -/
def exVarsA : Vars ℚ 2 := ⟨fun i => if i = 1 then Bezman.Ex.curve 1 5 2 else Bezman.Ex.surf (1 / 2) (1 / 3) (1 / 4) (1 / 5) (1 / 6) (1 / 7),
  fun i => if i = 1 then Bezman.Ex.curve ⟨![0, 1]⟩ ⟨![2, 1]⟩ ⟨![3, 5]⟩
    else Bezman.Ex.surf ⟨![0, 1]⟩ ⟨![2, 1]⟩ ⟨![3, 5]⟩ ⟨![1, 0]⟩ ⟨![2, 3]⟩ ⟨![8, 1]⟩⟩
@[inherit_doc exVarsA]
def exVarsB : Vars ℚ 2 := ⟨fun i => if i = 1 then Bezman.Ex.curve 1 5 2 else Ex.bilin (1 / 4) (2 / 3) (1 / 7) 0,
  fun i => if i = 1 then Bezman.Ex.curve ⟨![0, 1]⟩ ⟨![2, 1]⟩ ⟨![3, 5]⟩ else Ex.bilin ⟨![3, 5]⟩ ⟨![1, 2]⟩ ⟨![8, 1]⟩ ⟨![9, 2]⟩⟩

theorem exVars_glued : GluedVars 0 true false (· = 1) exVarsA exVarsB where
  common_s := by rintro i rfl; rfl
  common_p := by rintro i rfl; rfl
  patch_s := fun i h => by simp only [exVarsA, exVarsB, if_neg h]; exact glued_surf_bilin ..
  patch_p := fun i h => by simp only [exVarsA, exVarsB, if_neg h]; exact glued_surf_bilin ..

/-- degrees of the variables -/
def exShapeA (i : ℕ) : List ℕ := if i = 1 then [2] else [2, 1]
@[inherit_doc exShapeA]
def exShapeB (i : ℕ) : List ℕ := if i = 1 then [2] else [1, 1]

theorem exVarsA_s (i : ℕ) : HasShape (exShapeA i) (exVarsA.s i) := by
  by_cases h : i = 1
  · subst h; exact ⟨Bezman.Ex.curve_wf .., rfl⟩
  · simp only [exVarsA, exShapeA, if_neg h]; exact ⟨Bezman.Ex.surf_wf .., rfl⟩
theorem exVarsA_p (i : ℕ) : HasShape (exShapeA i) (exVarsA.p i) := by
  by_cases h : i = 1
  · subst h; exact ⟨Bezman.Ex.curve_wf .., rfl⟩
  · simp only [exVarsA, exShapeA, if_neg h]; exact ⟨Bezman.Ex.surf_wf .., rfl⟩
theorem exVarsB_s (i : ℕ) : HasShape (exShapeB i) (exVarsB.s i) := by
  by_cases h : i = 1
  · subst h; exact ⟨Bezman.Ex.curve_wf .., rfl⟩
  · simp only [exVarsB, exShapeB, if_neg h]; exact ⟨Ex.bilin_wf .., rfl⟩
theorem exVarsB_p (i : ℕ) : HasShape (exShapeB i) (exVarsB.p i) := by
  by_cases h : i = 1
  · subst h; exact ⟨Bezman.Ex.curve_wf .., rfl⟩
  · simp only [exVarsB, exShapeB, if_neg h]; exact ⟨Ex.bilin_wf .., rfl⟩

/-- degrees up to 9 -/
def exFaceCfg : Cfg := ⟨10, 10⟩

/-- `curve.Compose(patch) * patch + patch`, differentiated along the face and elevated across it -/
def exFaceProgram : SExpr ℚ 2 := .elevate (.deriv (.add (.mul (.composeScalar (.leaf 1) (.leaf 0)) (.leaf 0)) (.leaf 0)) [0, 1]) 0

theorem exFaceProgram_runs : (exFaceProgram.run exFaceCfg exVarsA).isOk ∧ (exFaceProgram.run exFaceCfg exVarsB).isOk := by
  decide +kernel

/-- both runs return, and the results have the common face -/
example : ∃ r r', exFaceProgram.run exFaceCfg exVarsA = .ok r ∧ exFaceProgram.run exFaceCfg exVarsB = .ok r' ∧ Glued 0 true false r r' := by
  obtain ⟨h1, h2⟩ := exFaceProgram_runs
  cases e1 : exFaceProgram.run exFaceCfg exVarsA with
  | error x => rw [e1] at h1; cases h1
  | ok r =>
    cases e2 : exFaceProgram.run exFaceCfg exVarsB with
    | error x => rw [e2] at h2; cases h2
    | ok r' =>
      refine ⟨r, r', rfl, rfl, C89_program (fun x y => add_comm x y) _ (by decide) 0 true false (· = 1) exVarsA exVarsB exVars_glued
        exShapeA exShapeA exShapeB exShapeB exVarsA_s exVarsA_p exVarsB_s exVarsB_p exFaceProgram ?_ ?_ ?_ r r' e1 e2⟩
      · simp [exFaceProgram, SExpr.WellShaped, SExpr.shape, exShapeA, Fits, sumDegrees, maxDegrees, size, exFaceCfg]
        refine ⟨⟨rfl, by decide, by decide, by decide⟩, ?_⟩
        intro d o p h1 h2; rcases d with _ | _ | d <;> simp at h1 h2 <;> omega
      · simp [exFaceProgram, SExpr.WellShaped, SExpr.shape, exShapeB, Fits, sumDegrees, maxDegrees, size, exFaceCfg]
        refine ⟨⟨rfl, by decide, by decide, by decide⟩, ?_⟩
        intro d o p h1 h2; rcases d with _ | _ | d <;> simp at h1 h2 <;> omega
      · simp [exFaceProgram, SExpr.KeepsFace, SExpr.Uses]

end Bezman.Props
