import Verif.Proofs.Coordinates
import Verif.Spec.ScalarMap

set_option linter.unusedSectionVars false

/-! # The same program over two number types -/

namespace Bezman
open Spec

section
variable {K K' : Type} {n : Nat} {P : K → Prop} {Q : List K → Prop}

mutual
theorem sconst (hP : ∀ a, P a) (hQ : ∀ zs, Q zs) : ∀ e : SExpr K n, e.Constants P Q
  | .leaf a => by simp only [SExpr.Constants]
  | .add a b => by
    simp only [SExpr.Constants]
    exact ⟨sconst hP hQ a, sconst hP hQ b⟩
  | .addAssign a b => by
    simp only [SExpr.Constants]
    exact ⟨sconst hP hQ a, sconst hP hQ b⟩
  | .sub a b => by
    simp only [SExpr.Constants]
    exact ⟨sconst hP hQ a, sconst hP hQ b⟩
  | .subAssign a b => by
    simp only [SExpr.Constants]
    exact ⟨sconst hP hQ a, sconst hP hQ b⟩
  | .neg a => by
    simp only [SExpr.Constants]
    exact sconst hP hQ a
  | .scale a b => by
    simp only [SExpr.Constants]
    exact ⟨sconst hP hQ a, hP _⟩
  | .addPoint a b => by
    simp only [SExpr.Constants]
    exact ⟨sconst hP hQ a, hP _⟩
  | .subPoint a b => by
    simp only [SExpr.Constants]
    exact ⟨sconst hP hQ a, hP _⟩
  | .pointSub a b => by
    simp only [SExpr.Constants]
    exact ⟨hP _, sconst hP hQ b⟩
  | .elevate a b => by
    simp only [SExpr.Constants]
    exact sconst hP hQ a
  | .splitLeft a b c => by
    simp only [SExpr.Constants]
    exact ⟨sconst hP hQ a, hP _⟩
  | .splitRight a b c => by
    simp only [SExpr.Constants]
    exact ⟨sconst hP hQ a, hP _⟩
  | .splitPart a b c d => by
    simp only [SExpr.Constants]
    exact ⟨sconst hP hQ a, hQ _⟩
  | .deriv a b => by
    simp only [SExpr.Constants]
    exact sconst hP hQ a
  | .compose a b => by
    simp only [SExpr.Constants]
    exact ⟨sconst hP hQ a, pconst hP hQ b⟩
  | .composeScalar a b => by
    simp only [SExpr.Constants]
    exact ⟨sconst hP hQ a, sconst hP hQ b⟩
  | .mul a b => by
    simp only [SExpr.Constants]
    exact ⟨sconst hP hQ a, sconst hP hQ b⟩
  | .dot a b => by
    simp only [SExpr.Constants]
    exact ⟨pconst hP hQ a, pconst hP hQ b⟩
  | .power a b => by
    simp only [SExpr.Constants]
    exact sconst hP hQ a
  | .extract a b => by
    simp only [SExpr.Constants]
    exact pconst hP hQ a

theorem pconst (hP : ∀ a, P a) (hQ : ∀ zs, Q zs) : ∀ e : PExpr K n, e.Constants P Q
  | .leaf a => by simp only [PExpr.Constants]
  | .add a b => by
    simp only [PExpr.Constants]
    exact ⟨pconst hP hQ a, pconst hP hQ b⟩
  | .addAssign a b => by
    simp only [PExpr.Constants]
    exact ⟨pconst hP hQ a, pconst hP hQ b⟩
  | .sub a b => by
    simp only [PExpr.Constants]
    exact ⟨pconst hP hQ a, pconst hP hQ b⟩
  | .subAssign a b => by
    simp only [PExpr.Constants]
    exact ⟨pconst hP hQ a, pconst hP hQ b⟩
  | .neg a => by
    simp only [PExpr.Constants]
    exact pconst hP hQ a
  | .scale a b => by
    simp only [PExpr.Constants]
    exact ⟨pconst hP hQ a, hP _⟩
  | .addPoint a b => by
    simp only [PExpr.Constants]
    exact ⟨pconst hP hQ a, fun _ => hP _⟩
  | .subPoint a b => by
    simp only [PExpr.Constants]
    exact ⟨pconst hP hQ a, fun _ => hP _⟩
  | .pointSub a b => by
    simp only [PExpr.Constants]
    exact ⟨fun _ => hP _, pconst hP hQ b⟩
  | .elevate a b => by
    simp only [PExpr.Constants]
    exact pconst hP hQ a
  | .splitLeft a b c => by
    simp only [PExpr.Constants]
    exact ⟨pconst hP hQ a, hP _⟩
  | .splitRight a b c => by
    simp only [PExpr.Constants]
    exact ⟨pconst hP hQ a, hP _⟩
  | .splitPart a b c d => by
    simp only [PExpr.Constants]
    exact ⟨pconst hP hQ a, hQ _⟩
  | .deriv a b => by
    simp only [PExpr.Constants]
    exact pconst hP hQ a
  | .compose a b => by
    simp only [PExpr.Constants]
    exact ⟨pconst hP hQ a, pconst hP hQ b⟩
  | .composeScalar a b => by
    simp only [PExpr.Constants]
    exact ⟨pconst hP hQ a, sconst hP hQ b⟩
  | .mulLeft a b => by
    simp only [PExpr.Constants]
    exact ⟨sconst hP hQ a, pconst hP hQ b⟩
  | .mulRight a b => by
    simp only [PExpr.Constants]
    exact ⟨pconst hP hQ a, sconst hP hQ b⟩
end

mutual
theorem rsconst (hP : ∀ a, P a) (hQ : ∀ zs, Q zs) : ∀ e : RSExpr K n, e.Constants P Q
  | .leaf a => by simp only [RSExpr.Constants]
  | .ofSpline a => by
    simp only [RSExpr.Constants]
    exact sconst hP hQ a
  | .add a b => by
    simp only [RSExpr.Constants]
    exact ⟨rsconst hP hQ a, rsconst hP hQ b⟩
  | .addAssign a b => by
    simp only [RSExpr.Constants]
    exact ⟨rsconst hP hQ a, rsconst hP hQ b⟩
  | .sub a b => by
    simp only [RSExpr.Constants]
    exact ⟨rsconst hP hQ a, rsconst hP hQ b⟩
  | .subAssign a b => by
    simp only [RSExpr.Constants]
    exact ⟨rsconst hP hQ a, rsconst hP hQ b⟩
  | .neg a => by
    simp only [RSExpr.Constants]
    exact rsconst hP hQ a
  | .scale a b => by
    simp only [RSExpr.Constants]
    exact ⟨rsconst hP hQ a, hP _⟩
  | .addPoint a b => by
    simp only [RSExpr.Constants]
    exact ⟨rsconst hP hQ a, hP _⟩
  | .subPoint a b => by
    simp only [RSExpr.Constants]
    exact ⟨rsconst hP hQ a, hP _⟩
  | .elevate a b => by
    simp only [RSExpr.Constants]
    exact rsconst hP hQ a
  | .splitLeft a b c => by
    simp only [RSExpr.Constants]
    exact ⟨rsconst hP hQ a, hP _⟩
  | .splitRight a b c => by
    simp only [RSExpr.Constants]
    exact ⟨rsconst hP hQ a, hP _⟩
  | .splitPart a b c d => by
    simp only [RSExpr.Constants]
    exact ⟨rsconst hP hQ a, hQ _⟩
  | .deriv a b => by
    simp only [RSExpr.Constants]
    exact rsconst hP hQ a
  | .composePoly a b => by
    simp only [RSExpr.Constants]
    exact ⟨rsconst hP hQ a, pconst hP hQ b⟩
  | .composePolyScalar a b => by
    simp only [RSExpr.Constants]
    exact ⟨rsconst hP hQ a, sconst hP hQ b⟩
  | .compose a b => by
    simp only [RSExpr.Constants]
    exact ⟨rsconst hP hQ a, rpconst hP hQ b⟩
  | .composeScalar a b => by
    simp only [RSExpr.Constants]
    exact ⟨rsconst hP hQ a, rsconst hP hQ b⟩
  | .polyCompose a b => by
    simp only [RSExpr.Constants]
    exact ⟨sconst hP hQ a, rpconst hP hQ b⟩
  | .polyComposeScalar a b => by
    simp only [RSExpr.Constants]
    exact ⟨sconst hP hQ a, rsconst hP hQ b⟩
  | .mul a b => by
    simp only [RSExpr.Constants]
    exact ⟨rsconst hP hQ a, rsconst hP hQ b⟩
  | .dot a b => by
    simp only [RSExpr.Constants]
    exact ⟨rpconst hP hQ a, rpconst hP hQ b⟩

theorem rpconst (hP : ∀ a, P a) (hQ : ∀ zs, Q zs) : ∀ e : RPExpr K n, e.Constants P Q
  | .leaf a => by simp only [RPExpr.Constants]
  | .ofSpline a => by
    simp only [RPExpr.Constants]
    exact pconst hP hQ a
  | .add a b => by
    simp only [RPExpr.Constants]
    exact ⟨rpconst hP hQ a, rpconst hP hQ b⟩
  | .addAssign a b => by
    simp only [RPExpr.Constants]
    exact ⟨rpconst hP hQ a, rpconst hP hQ b⟩
  | .sub a b => by
    simp only [RPExpr.Constants]
    exact ⟨rpconst hP hQ a, rpconst hP hQ b⟩
  | .subAssign a b => by
    simp only [RPExpr.Constants]
    exact ⟨rpconst hP hQ a, rpconst hP hQ b⟩
  | .neg a => by
    simp only [RPExpr.Constants]
    exact rpconst hP hQ a
  | .scale a b => by
    simp only [RPExpr.Constants]
    exact ⟨rpconst hP hQ a, hP _⟩
  | .addPoint a b => by
    simp only [RPExpr.Constants]
    exact ⟨rpconst hP hQ a, fun _ => hP _⟩
  | .subPoint a b => by
    simp only [RPExpr.Constants]
    exact ⟨rpconst hP hQ a, fun _ => hP _⟩
  | .elevate a b => by
    simp only [RPExpr.Constants]
    exact rpconst hP hQ a
  | .splitLeft a b c => by
    simp only [RPExpr.Constants]
    exact ⟨rpconst hP hQ a, hP _⟩
  | .splitRight a b c => by
    simp only [RPExpr.Constants]
    exact ⟨rpconst hP hQ a, hP _⟩
  | .splitPart a b c d => by
    simp only [RPExpr.Constants]
    exact ⟨rpconst hP hQ a, hQ _⟩
  | .deriv a b => by
    simp only [RPExpr.Constants]
    exact rpconst hP hQ a
  | .composePoly a b => by
    simp only [RPExpr.Constants]
    exact ⟨rpconst hP hQ a, pconst hP hQ b⟩
  | .composePolyScalar a b => by
    simp only [RPExpr.Constants]
    exact ⟨rpconst hP hQ a, sconst hP hQ b⟩
  | .compose a b => by
    simp only [RPExpr.Constants]
    exact ⟨rpconst hP hQ a, rpconst hP hQ b⟩
  | .composeScalar a b => by
    simp only [RPExpr.Constants]
    exact ⟨rpconst hP hQ a, rsconst hP hQ b⟩
  | .polyCompose a b => by
    simp only [RPExpr.Constants]
    exact ⟨pconst hP hQ a, rpconst hP hQ b⟩
  | .polyComposeScalar a b => by
    simp only [RPExpr.Constants]
    exact ⟨pconst hP hQ a, rsconst hP hQ b⟩
  | .mulLeft a b => by
    simp only [RPExpr.Constants]
    exact ⟨rsconst hP hQ a, rpconst hP hQ b⟩
  | .mulRight a b => by
    simp only [RPExpr.Constants]
    exact ⟨rpconst hP hQ a, rsconst hP hQ b⟩
end

variable [Par K K'] [One K] [Sub K] [Div K] [One K'] [Sub K'] [Div K'] {f : K → K'}

mutual
/-- a program corresponds to the program with the images of the constants -/
theorem srel_map (hf : ∀ a, P a → a ≋ f a) (hQ : ∀ zs, Q zs → Spline.ParPlanes zs (zs.map f)) :
    ∀ e : SExpr K n, e.Constants P Q → e.Rel (e.map f)
  | .leaf a, _ => by simp only [SExpr.map, SExpr.Rel]
  | .add a b, h => by
    simp only [SExpr.Constants] at h
    simp only [SExpr.map, SExpr.Rel]
    exact ⟨srel_map hf hQ a h.1, srel_map hf hQ b h.2⟩
  | .addAssign a b, h => by
    simp only [SExpr.Constants] at h
    simp only [SExpr.map, SExpr.Rel]
    exact ⟨srel_map hf hQ a h.1, srel_map hf hQ b h.2⟩
  | .sub a b, h => by
    simp only [SExpr.Constants] at h
    simp only [SExpr.map, SExpr.Rel]
    exact ⟨srel_map hf hQ a h.1, srel_map hf hQ b h.2⟩
  | .subAssign a b, h => by
    simp only [SExpr.Constants] at h
    simp only [SExpr.map, SExpr.Rel]
    exact ⟨srel_map hf hQ a h.1, srel_map hf hQ b h.2⟩
  | .neg a, h => by
    simp only [SExpr.Constants] at h
    simp only [SExpr.map, SExpr.Rel]
    exact srel_map hf hQ a h
  | .scale a b, h => by
    simp only [SExpr.Constants] at h
    simp only [SExpr.map, SExpr.Rel]
    exact ⟨srel_map hf hQ a h.1, hf _ h.2⟩
  | .addPoint a b, h => by
    simp only [SExpr.Constants] at h
    simp only [SExpr.map, SExpr.Rel]
    exact ⟨srel_map hf hQ a h.1, hf _ h.2⟩
  | .subPoint a b, h => by
    simp only [SExpr.Constants] at h
    simp only [SExpr.map, SExpr.Rel]
    exact ⟨srel_map hf hQ a h.1, hf _ h.2⟩
  | .pointSub a b, h => by
    simp only [SExpr.Constants] at h
    simp only [SExpr.map, SExpr.Rel]
    exact ⟨srel_map hf hQ b h.2, hf _ h.1⟩
  | .elevate a b, h => by
    simp only [SExpr.Constants] at h
    simp only [SExpr.map, SExpr.Rel]
    exact ⟨srel_map hf hQ a h, trivial⟩
  | .splitLeft a b c, h => by
    simp only [SExpr.Constants] at h
    simp only [SExpr.map, SExpr.Rel]
    exact ⟨srel_map hf hQ a h.1, hf _ h.2, trivial⟩
  | .splitRight a b c, h => by
    simp only [SExpr.Constants] at h
    simp only [SExpr.map, SExpr.Rel]
    exact ⟨srel_map hf hQ a h.1, hf _ h.2, trivial⟩
  | .splitPart a b c d, h => by
    simp only [SExpr.Constants] at h
    simp only [SExpr.map, SExpr.Rel]
    exact ⟨srel_map hf hQ a h.1, hQ _ h.2, trivial, trivial⟩
  | .deriv a b, h => by
    simp only [SExpr.Constants] at h
    simp only [SExpr.map, SExpr.Rel]
    exact ⟨srel_map hf hQ a h, trivial⟩
  | .compose a b, h => by
    simp only [SExpr.Constants] at h
    simp only [SExpr.map, SExpr.Rel]
    exact ⟨srel_map hf hQ a h.1, prel_map hf hQ b h.2⟩
  | .composeScalar a b, h => by
    simp only [SExpr.Constants] at h
    simp only [SExpr.map, SExpr.Rel]
    exact ⟨srel_map hf hQ a h.1, srel_map hf hQ b h.2⟩
  | .mul a b, h => by
    simp only [SExpr.Constants] at h
    simp only [SExpr.map, SExpr.Rel]
    exact ⟨srel_map hf hQ a h.1, srel_map hf hQ b h.2⟩
  | .dot a b, h => by
    simp only [SExpr.Constants] at h
    simp only [SExpr.map, SExpr.Rel]
    exact ⟨prel_map hf hQ a h.1, prel_map hf hQ b h.2⟩
  | .power a b, h => by
    simp only [SExpr.Constants] at h
    simp only [SExpr.map, SExpr.Rel]
    exact ⟨srel_map hf hQ a h, trivial⟩
  | .extract a b, h => by
    simp only [SExpr.Constants] at h
    simp only [SExpr.map, SExpr.Rel]
    exact ⟨prel_map hf hQ a h, trivial⟩

@[inherit_doc srel_map]
theorem prel_map (hf : ∀ a, P a → a ≋ f a) (hQ : ∀ zs, Q zs → Spline.ParPlanes zs (zs.map f)) :
    ∀ e : PExpr K n, e.Constants P Q → e.Rel (e.map f)
  | .leaf a, _ => by simp only [PExpr.map, PExpr.Rel]
  | .add a b, h => by
    simp only [PExpr.Constants] at h
    simp only [PExpr.map, PExpr.Rel]
    exact ⟨prel_map hf hQ a h.1, prel_map hf hQ b h.2⟩
  | .addAssign a b, h => by
    simp only [PExpr.Constants] at h
    simp only [PExpr.map, PExpr.Rel]
    exact ⟨prel_map hf hQ a h.1, prel_map hf hQ b h.2⟩
  | .sub a b, h => by
    simp only [PExpr.Constants] at h
    simp only [PExpr.map, PExpr.Rel]
    exact ⟨prel_map hf hQ a h.1, prel_map hf hQ b h.2⟩
  | .subAssign a b, h => by
    simp only [PExpr.Constants] at h
    simp only [PExpr.map, PExpr.Rel]
    exact ⟨prel_map hf hQ a h.1, prel_map hf hQ b h.2⟩
  | .neg a, h => by
    simp only [PExpr.Constants] at h
    simp only [PExpr.map, PExpr.Rel]
    exact prel_map hf hQ a h
  | .scale a b, h => by
    simp only [PExpr.Constants] at h
    simp only [PExpr.map, PExpr.Rel]
    exact ⟨prel_map hf hQ a h.1, hf _ h.2⟩
  | .addPoint a b, h => by
    simp only [PExpr.Constants] at h
    simp only [PExpr.map, PExpr.Rel]
    exact ⟨prel_map hf hQ a h.1, fun i => hf _ (h.2 i)⟩
  | .subPoint a b, h => by
    simp only [PExpr.Constants] at h
    simp only [PExpr.map, PExpr.Rel]
    exact ⟨prel_map hf hQ a h.1, fun i => hf _ (h.2 i)⟩
  | .pointSub a b, h => by
    simp only [PExpr.Constants] at h
    simp only [PExpr.map, PExpr.Rel]
    exact ⟨prel_map hf hQ b h.2, fun i => hf _ (h.1 i)⟩
  | .elevate a b, h => by
    simp only [PExpr.Constants] at h
    simp only [PExpr.map, PExpr.Rel]
    exact ⟨prel_map hf hQ a h, trivial⟩
  | .splitLeft a b c, h => by
    simp only [PExpr.Constants] at h
    simp only [PExpr.map, PExpr.Rel]
    exact ⟨prel_map hf hQ a h.1, hf _ h.2, trivial⟩
  | .splitRight a b c, h => by
    simp only [PExpr.Constants] at h
    simp only [PExpr.map, PExpr.Rel]
    exact ⟨prel_map hf hQ a h.1, hf _ h.2, trivial⟩
  | .splitPart a b c d, h => by
    simp only [PExpr.Constants] at h
    simp only [PExpr.map, PExpr.Rel]
    exact ⟨prel_map hf hQ a h.1, hQ _ h.2, trivial, trivial⟩
  | .deriv a b, h => by
    simp only [PExpr.Constants] at h
    simp only [PExpr.map, PExpr.Rel]
    exact ⟨prel_map hf hQ a h, trivial⟩
  | .compose a b, h => by
    simp only [PExpr.Constants] at h
    simp only [PExpr.map, PExpr.Rel]
    exact ⟨prel_map hf hQ a h.1, prel_map hf hQ b h.2⟩
  | .composeScalar a b, h => by
    simp only [PExpr.Constants] at h
    simp only [PExpr.map, PExpr.Rel]
    exact ⟨prel_map hf hQ a h.1, srel_map hf hQ b h.2⟩
  | .mulLeft a b, h => by
    simp only [PExpr.Constants] at h
    simp only [PExpr.map, PExpr.Rel]
    exact ⟨srel_map hf hQ a h.1, prel_map hf hQ b h.2⟩
  | .mulRight a b, h => by
    simp only [PExpr.Constants] at h
    simp only [PExpr.map, PExpr.Rel]
    exact ⟨prel_map hf hQ a h.1, srel_map hf hQ b h.2⟩
end

mutual
@[inherit_doc srel_map]
theorem rsrel_map (hf : ∀ a, P a → a ≋ f a) (hQ : ∀ zs, Q zs → Spline.ParPlanes zs (zs.map f)) :
    ∀ e : RSExpr K n, e.Constants P Q → e.Rel (e.map f)
  | .leaf a, _ => by simp only [RSExpr.map, RSExpr.Rel]
  | .ofSpline a, h => by
    simp only [RSExpr.Constants] at h
    simp only [RSExpr.map, RSExpr.Rel]
    exact srel_map hf hQ a h
  | .add a b, h => by
    simp only [RSExpr.Constants] at h
    simp only [RSExpr.map, RSExpr.Rel]
    exact ⟨rsrel_map hf hQ a h.1, rsrel_map hf hQ b h.2⟩
  | .addAssign a b, h => by
    simp only [RSExpr.Constants] at h
    simp only [RSExpr.map, RSExpr.Rel]
    exact ⟨rsrel_map hf hQ a h.1, rsrel_map hf hQ b h.2⟩
  | .sub a b, h => by
    simp only [RSExpr.Constants] at h
    simp only [RSExpr.map, RSExpr.Rel]
    exact ⟨rsrel_map hf hQ a h.1, rsrel_map hf hQ b h.2⟩
  | .subAssign a b, h => by
    simp only [RSExpr.Constants] at h
    simp only [RSExpr.map, RSExpr.Rel]
    exact ⟨rsrel_map hf hQ a h.1, rsrel_map hf hQ b h.2⟩
  | .neg a, h => by
    simp only [RSExpr.Constants] at h
    simp only [RSExpr.map, RSExpr.Rel]
    exact rsrel_map hf hQ a h
  | .scale a b, h => by
    simp only [RSExpr.Constants] at h
    simp only [RSExpr.map, RSExpr.Rel]
    exact ⟨rsrel_map hf hQ a h.1, hf _ h.2⟩
  | .addPoint a b, h => by
    simp only [RSExpr.Constants] at h
    simp only [RSExpr.map, RSExpr.Rel]
    exact ⟨rsrel_map hf hQ a h.1, hf _ h.2⟩
  | .subPoint a b, h => by
    simp only [RSExpr.Constants] at h
    simp only [RSExpr.map, RSExpr.Rel]
    exact ⟨rsrel_map hf hQ a h.1, hf _ h.2⟩
  | .elevate a b, h => by
    simp only [RSExpr.Constants] at h
    simp only [RSExpr.map, RSExpr.Rel]
    exact ⟨rsrel_map hf hQ a h, trivial⟩
  | .splitLeft a b c, h => by
    simp only [RSExpr.Constants] at h
    simp only [RSExpr.map, RSExpr.Rel]
    exact ⟨rsrel_map hf hQ a h.1, hf _ h.2, trivial⟩
  | .splitRight a b c, h => by
    simp only [RSExpr.Constants] at h
    simp only [RSExpr.map, RSExpr.Rel]
    exact ⟨rsrel_map hf hQ a h.1, hf _ h.2, trivial⟩
  | .splitPart a b c d, h => by
    simp only [RSExpr.Constants] at h
    simp only [RSExpr.map, RSExpr.Rel]
    exact ⟨rsrel_map hf hQ a h.1, hQ _ h.2, trivial, trivial⟩
  | .deriv a b, h => by
    simp only [RSExpr.Constants] at h
    simp only [RSExpr.map, RSExpr.Rel]
    exact ⟨rsrel_map hf hQ a h, trivial⟩
  | .composePoly a b, h => by
    simp only [RSExpr.Constants] at h
    simp only [RSExpr.map, RSExpr.Rel]
    exact ⟨rsrel_map hf hQ a h.1, prel_map hf hQ b h.2⟩
  | .composePolyScalar a b, h => by
    simp only [RSExpr.Constants] at h
    simp only [RSExpr.map, RSExpr.Rel]
    exact ⟨rsrel_map hf hQ a h.1, srel_map hf hQ b h.2⟩
  | .compose a b, h => by
    simp only [RSExpr.Constants] at h
    simp only [RSExpr.map, RSExpr.Rel]
    exact ⟨rsrel_map hf hQ a h.1, rprel_map hf hQ b h.2⟩
  | .composeScalar a b, h => by
    simp only [RSExpr.Constants] at h
    simp only [RSExpr.map, RSExpr.Rel]
    exact ⟨rsrel_map hf hQ a h.1, rsrel_map hf hQ b h.2⟩
  | .polyCompose a b, h => by
    simp only [RSExpr.Constants] at h
    simp only [RSExpr.map, RSExpr.Rel]
    exact ⟨srel_map hf hQ a h.1, rprel_map hf hQ b h.2⟩
  | .polyComposeScalar a b, h => by
    simp only [RSExpr.Constants] at h
    simp only [RSExpr.map, RSExpr.Rel]
    exact ⟨srel_map hf hQ a h.1, rsrel_map hf hQ b h.2⟩
  | .mul a b, h => by
    simp only [RSExpr.Constants] at h
    simp only [RSExpr.map, RSExpr.Rel]
    exact ⟨rsrel_map hf hQ a h.1, rsrel_map hf hQ b h.2⟩
  | .dot a b, h => by
    simp only [RSExpr.Constants] at h
    simp only [RSExpr.map, RSExpr.Rel]
    exact ⟨rprel_map hf hQ a h.1, rprel_map hf hQ b h.2⟩

@[inherit_doc srel_map]
theorem rprel_map (hf : ∀ a, P a → a ≋ f a) (hQ : ∀ zs, Q zs → Spline.ParPlanes zs (zs.map f)) :
    ∀ e : RPExpr K n, e.Constants P Q → e.Rel (e.map f)
  | .leaf a, _ => by simp only [RPExpr.map, RPExpr.Rel]
  | .ofSpline a, h => by
    simp only [RPExpr.Constants] at h
    simp only [RPExpr.map, RPExpr.Rel]
    exact prel_map hf hQ a h
  | .add a b, h => by
    simp only [RPExpr.Constants] at h
    simp only [RPExpr.map, RPExpr.Rel]
    exact ⟨rprel_map hf hQ a h.1, rprel_map hf hQ b h.2⟩
  | .addAssign a b, h => by
    simp only [RPExpr.Constants] at h
    simp only [RPExpr.map, RPExpr.Rel]
    exact ⟨rprel_map hf hQ a h.1, rprel_map hf hQ b h.2⟩
  | .sub a b, h => by
    simp only [RPExpr.Constants] at h
    simp only [RPExpr.map, RPExpr.Rel]
    exact ⟨rprel_map hf hQ a h.1, rprel_map hf hQ b h.2⟩
  | .subAssign a b, h => by
    simp only [RPExpr.Constants] at h
    simp only [RPExpr.map, RPExpr.Rel]
    exact ⟨rprel_map hf hQ a h.1, rprel_map hf hQ b h.2⟩
  | .neg a, h => by
    simp only [RPExpr.Constants] at h
    simp only [RPExpr.map, RPExpr.Rel]
    exact rprel_map hf hQ a h
  | .scale a b, h => by
    simp only [RPExpr.Constants] at h
    simp only [RPExpr.map, RPExpr.Rel]
    exact ⟨rprel_map hf hQ a h.1, hf _ h.2⟩
  | .addPoint a b, h => by
    simp only [RPExpr.Constants] at h
    simp only [RPExpr.map, RPExpr.Rel]
    exact ⟨rprel_map hf hQ a h.1, fun i => hf _ (h.2 i)⟩
  | .subPoint a b, h => by
    simp only [RPExpr.Constants] at h
    simp only [RPExpr.map, RPExpr.Rel]
    exact ⟨rprel_map hf hQ a h.1, fun i => hf _ (h.2 i)⟩
  | .elevate a b, h => by
    simp only [RPExpr.Constants] at h
    simp only [RPExpr.map, RPExpr.Rel]
    exact ⟨rprel_map hf hQ a h, trivial⟩
  | .splitLeft a b c, h => by
    simp only [RPExpr.Constants] at h
    simp only [RPExpr.map, RPExpr.Rel]
    exact ⟨rprel_map hf hQ a h.1, hf _ h.2, trivial⟩
  | .splitRight a b c, h => by
    simp only [RPExpr.Constants] at h
    simp only [RPExpr.map, RPExpr.Rel]
    exact ⟨rprel_map hf hQ a h.1, hf _ h.2, trivial⟩
  | .splitPart a b c d, h => by
    simp only [RPExpr.Constants] at h
    simp only [RPExpr.map, RPExpr.Rel]
    exact ⟨rprel_map hf hQ a h.1, hQ _ h.2, trivial, trivial⟩
  | .deriv a b, h => by
    simp only [RPExpr.Constants] at h
    simp only [RPExpr.map, RPExpr.Rel]
    exact ⟨rprel_map hf hQ a h, trivial⟩
  | .composePoly a b, h => by
    simp only [RPExpr.Constants] at h
    simp only [RPExpr.map, RPExpr.Rel]
    exact ⟨rprel_map hf hQ a h.1, prel_map hf hQ b h.2⟩
  | .composePolyScalar a b, h => by
    simp only [RPExpr.Constants] at h
    simp only [RPExpr.map, RPExpr.Rel]
    exact ⟨rprel_map hf hQ a h.1, srel_map hf hQ b h.2⟩
  | .compose a b, h => by
    simp only [RPExpr.Constants] at h
    simp only [RPExpr.map, RPExpr.Rel]
    exact ⟨rprel_map hf hQ a h.1, rprel_map hf hQ b h.2⟩
  | .composeScalar a b, h => by
    simp only [RPExpr.Constants] at h
    simp only [RPExpr.map, RPExpr.Rel]
    exact ⟨rprel_map hf hQ a h.1, rsrel_map hf hQ b h.2⟩
  | .polyCompose a b, h => by
    simp only [RPExpr.Constants] at h
    simp only [RPExpr.map, RPExpr.Rel]
    exact ⟨prel_map hf hQ a h.1, rprel_map hf hQ b h.2⟩
  | .polyComposeScalar a b, h => by
    simp only [RPExpr.Constants] at h
    simp only [RPExpr.map, RPExpr.Rel]
    exact ⟨prel_map hf hQ a h.1, rsrel_map hf hQ b h.2⟩
  | .mulLeft a b, h => by
    simp only [RPExpr.Constants] at h
    simp only [RPExpr.map, RPExpr.Rel]
    exact ⟨rsrel_map hf hQ a h.1, rprel_map hf hQ b h.2⟩
  | .mulRight a b, h => by
    simp only [RPExpr.Constants] at h
    simp only [RPExpr.map, RPExpr.Rel]
    exact ⟨rprel_map hf hQ a h.1, rsrel_map hf hQ b h.2⟩
end
end

section
variable {K K' V V' : Type} {n : Nat}

theorem spline_map_rel [Par V V'] {g : V → V'} {s : Spline V} (hg : ∀ a ∈ s.cps, a ≋ g a) : s ≋ s.map g := by
  refine ⟨rfl, rfl, rfl, ?_⟩
  show List.Forall₂ _ _ (List.map _ _)
  rw [List.forall₂_map_right_iff]
  exact List.forall₂_same.2 hg

theorem eq_spline_map [Par V V'] {g : V → V'} (hg : ∀ a b, a ≋ b → b = g a) {s : Spline V} {s' : Spline V'} (h : s ≋ s') :
    s' = s.map g := by
  obtain ⟨h1, h2, h3, h4⟩ := h
  obtain ⟨d, m, o, c⟩ := s
  obtain ⟨d', m', o', c'⟩ := s'
  dsimp only at h1 h2 h3 h4
  subst h1 h2 h3
  have : c' = c.map g := by
    change List.Forall₂ _ _ _ at h4
    induction h4 with
    | nil => rfl
    | cons h _ ih => rw [List.map_cons, ← ih, hg _ _ h]
  rw [this]; rfl

theorem eq_rspline_map [Par K K'] [Par V V'] {f : K → K'} {g : V → V'} (hf : ∀ a b, a ≋ b → b = f a) (hg : ∀ a b, a ≋ b → b = g a)
    {r : RSpline K V} {r' : RSpline K' V'} (h : r ≋ r') : r' = r.map f g := by
  obtain ⟨a, b⟩ := r
  obtain ⟨a', b'⟩ := r'
  obtain ⟨h1, h2⟩ := h
  obtain rfl := eq_spline_map hg h1
  obtain rfl := eq_spline_map hf h2
  rfl

theorem eq_point_map [Par K K'] {f : K → K'} (hf : ∀ a b, a ≋ b → b = f a) (a : Point K n) (b : Point K' n) (h : a ≋ b) : b = a.map f :=
  Point.ext (funext fun i => hf _ _ (h i))

theorem eq_list_map [Par V V'] {g : V → V'} (hg : ∀ a b, a ≋ b → b = g a) (l : List V) (l' : List V') (h : l ≋ l') : l' = l.map g := by
  change List.Forall₂ _ _ _ at h
  induction h with
  | nil => rfl
  | cons h _ ih => rw [List.map_cons, ← ih, hg _ _ h]

theorem eq_prod_map [Par V V'] {g : V → V'} (hg : ∀ a b, a ≋ b → b = g a) (l : V × V) (l' : V' × V') (h : l ≋ l') :
    l' = (g l.1, g l.2) := Prod.ext (hg _ _ h.1) (hg _ _ h.2)

/-- a number and its image -/
def parMap (f : K → K') : Par K K' := ⟨fun a b => f a = b⟩

variable [Zero K] [One K] [Add K] [Sub K] [Mul K] [Neg K] [Div K] [NatCast K] [LT K] [BEq K]
    [Zero K'] [One K'] [Add K'] [Sub K'] [Mul K'] [Neg K'] [Div K'] [NatCast K'] [LT K'] [BEq K'] {f : K → K'}

theorem parScalarMap (h : Arithmetic f) : letI := parMap f; ParScalar K K' :=
  letI := parMap f
  { zero := h.zero
    one := h.one
    add := fun {a b a' b'} h1 h2 => by
      obtain rfl : f a = a' := h1
      obtain rfl : f b = b' := h2
      exact h.add _ _
    sub := fun {a b a' b'} h1 h2 => by
      obtain rfl : f a = a' := h1
      obtain rfl : f b = b' := h2
      exact h.sub _ _
    mul := fun {a b a' b'} h1 h2 => by
      obtain rfl : f a = a' := h1
      obtain rfl : f b = b' := h2
      exact h.mul _ _
    neg := fun {a a'} h1 => by
      obtain rfl : f a = a' := h1
      exact h.neg _
    cast := h.cast
    inv := fun m => by
      show f _ = _
      rw [h.div, h.one, h.cast]
    ratio := fun m k => by
      show f _ = _
      rw [h.div, h.cast, h.cast] }

theorem parOrdMap (h : Arithmetic f) : letI := parMap f; ParOrd strict K K' :=
  letI := parMap f
  ⟨fun _ {a b a' b'} h1 h2 => by
    obtain rfl : f a = a' := h1
    obtain rfl : f b = b' := h2
    exact (h.lt _ _).symm⟩

theorem parEqMap (h : Arithmetic f) : letI := parMap f; ParEq K K' :=
  letI := parMap f
  ⟨fun {a b a' b'} h1 h2 => by
    obtain rfl : f a = a' := h1
    obtain rfl : f b = b' := h2
    exact (h.eq _ _).symm⟩

theorem parZeroMap (h : Arithmetic f) : letI := parMap f; ParZero strict K K' :=
  letI := parMap f
  ⟨fun _ {a a'} h1 => by
    obtain rfl : f a = a' := h1
    rw [← h.zero, h.eq]⟩

theorem parDivMap (h : Arithmetic f) : letI := parMap f; ParDiv K K' K K' :=
  letI := parMap f
  ⟨fun {a w a' w'} h1 h2 _ _ => by
    obtain rfl : f a = a' := h1
    obtain rfl : f w = w' := h2
    exact h.div _ _⟩

theorem parDivPointMap (h : Arithmetic f) : letI := parMap f; ParDiv K K' (Point K n) (Point K' n) :=
  letI := parMap f
  ⟨fun {a w a' w'} h1 h2 _ _ i => by
    obtain rfl : f w = w' := h2
    have h3 : f (a.val i) = a'.val i := h1 i
    show f (_ * _) = _
    rw [h.mul, h.div, h.one, h3]
    rfl⟩

theorem parPlanesMap (h : Arithmetic f) (zs : List K) : letI := parMap f; Spline.ParPlanes zs (zs.map f) := by
  let _ := parMap f
  refine ⟨?_, ?_⟩
  · show List.Forall₂ _ _ (List.map _ _)
    rw [List.forall₂_map_right_iff]
    exact List.forall₂_same.2 fun _ _ => rfl
  · intro i z zp z' zp' h1 h2 h3 h4
    rw [List.getElem?_map, h1] at h3
    rw [List.getElem?_map, h2] at h4
    cases h3; cases h4
    show f _ = _
    rw [h.div, h.sub, h.sub, h.one]

theorem vars_map_rel (f : K → K') (σ : Vars K n) : letI := parMap f; σ.Rel (σ.map f) :=
  letI := parMap f
  ⟨fun _ => spline_map_rel fun _ _ => rfl, fun _ => spline_map_rel fun _ _ _ => rfl⟩

theorem rvars_map_rel (f : K → K') (σ : RVars K n) : letI := parMap f; σ.Rel (σ.map f) :=
  letI := parMap f
  ⟨vars_map_rel f σ.toVars, fun _ => ⟨spline_map_rel fun _ _ => rfl, spline_map_rel fun _ _ => rfl⟩,
    fun _ => ⟨spline_map_rel fun _ _ _ => rfl, spline_map_rel fun _ _ => rfl⟩⟩

end

end Bezman
