import Verif.Proofs.AnyRoundPrograms
import Verif.Proofs.AnyArith
import Verif.Proofs.ScalarMap
import Verif.Model.Fused
import Verif.Spec.AnyRounding

set_option linter.unusedSectionVars false

/-! # Runs with given rounding errors are among the possible runs -/

namespace Bezman
open Spec

theorem Returns.bind {V W : Type} {ds es : List ℕ} {x : M (Spline V)} {f : Spline V → M (Spline W)} (h : Returns ds x)
    (hf : ∀ r, HasShape ds r → Returns es (f r)) : Returns es (x >>= f) := by
  obtain ⟨r, rfl, hr⟩ := h
  exact hf r hr

section
variable {K : Type} {n : ℕ} [Zero K] [One K] [Add K] [Sub K] [Mul K] [Neg K] [Div K] [NatCast K] [LT K] [DecidableLT K] {cfg : Cfg}
  {σ : Vars K n} {ds dp : ℕ → List ℕ} {B : FloatArith} {f : Fl B → K}

mutual
theorem SExpr.run_returns (hmax : cfg.maxBinom ≤ 68)
    (hf : ∀ z : Fl B, 0 < z.val → z.val < 1 → 0 < f z ∧ f z < 1) (hs : ∀ i, HasShape (ds i) (σ.s i)) (hp : ∀ i, HasShape (dp i) (σ.p i)) :
    ∀ e : SExpr (Fl B) n, e.WellShaped cfg ds dp → e.Elementary → Returns (e.shape ds dp) ((e.map f).run cfg σ)
  | .leaf i, _, _ => ⟨_, rfl, hs i⟩
  | .add a b, h, he => by
    simp only [SExpr.run, SExpr.shape, SExpr.map]
    exact Returns.bind (SExpr.run_returns hmax hf hs hp a h.1 he.1) fun x hx => Returns.bind (SExpr.run_returns hmax hf hs hp b h.2.1 he.2) fun y hy =>
      (Spline.addOp_returns cfg hx hy h.2.2)
  | .addAssign a b, h, he => by
    simp only [SExpr.run, SExpr.shape, SExpr.map]
    exact Returns.bind (SExpr.run_returns hmax hf hs hp a h.1 he.1) fun x hx => Returns.bind (SExpr.run_returns hmax hf hs hp b h.2.1 he.2) fun y hy =>
      (Spline.addAssign_returns cfg hx hy h.2.2)
  | .subAssign a b, h, he => by
    simp only [SExpr.run, SExpr.shape, SExpr.map]
    exact Returns.bind (SExpr.run_returns hmax hf hs hp a h.1 he.1) fun x hx => Returns.bind (SExpr.run_returns hmax hf hs hp b h.2.1 he.2) fun y hy =>
      (Spline.subAssign_returns cfg hx hy h.2.2)
  | .sub a b, h, he => by
    simp only [SExpr.run, SExpr.shape, SExpr.map]
    exact Returns.bind (SExpr.run_returns hmax hf hs hp a h.1 he.1) fun x hx => Returns.bind (SExpr.run_returns hmax hf hs hp b h.2.1 he.2) fun y hy =>
      (Spline.subOp_returns cfg hx hy h.2.2.1 h.2.2.2)
  | .neg a, h, he => by
    simp only [SExpr.run, SExpr.shape, SExpr.map]
    exact Returns.bind (SExpr.run_returns hmax hf hs hp a h he) fun x hx => (Spline.negOp_returns hx)
  | .scale a c, h, he => by
    simp only [SExpr.run, SExpr.shape, SExpr.map]
    exact Returns.bind (SExpr.run_returns hmax hf hs hp a h he) fun x hx => (Spline.smulOp_returns hx (f c))
  | .addPoint a v, h, he => by
    simp only [SExpr.run, SExpr.shape, SExpr.map]
    exact Returns.bind (SExpr.run_returns hmax hf hs hp a h he) fun x hx => (Spline.addPoint_returns hx (f v))
  | .subPoint a v, h, he => by
    simp only [SExpr.run, SExpr.shape, SExpr.map]
    exact Returns.bind (SExpr.run_returns hmax hf hs hp a h he) fun x hx => (Spline.subPoint_returns hx (f v))
  | .pointSub v a, h, he => by
    simp only [SExpr.run, SExpr.shape, SExpr.map]
    exact Returns.bind (SExpr.run_returns hmax hf hs hp a h he) fun x hx => (Spline.pointSub_returns hx (f v))
  | .elevate a d, h, he => by
    simp only [SExpr.run, SExpr.shape, SExpr.map]
    exact Returns.bind (SExpr.run_returns hmax hf hs hp a h.1 he) fun x hx => (Spline.orderElevate_returns hx h.2.1 h.2.2)
  | .splitLeft a z d, h, he => by
    simp only [SExpr.run, SExpr.shape, SExpr.map]
    refine Returns.bind (SExpr.run_returns hmax hf hs hp a h.1 he.1) fun x hx => ?_
    rcases Spline.splitAt_shape hx h.2 (f z) with ⟨hn, -⟩ | ⟨-, l, r, e, hl, hr⟩
    · exact absurd (hf z he.2.1 he.2.2) hn
    · rw [e]; exact ⟨_, rfl, hl⟩
  | .splitRight a z d, h, he => by
    simp only [SExpr.run, SExpr.shape, SExpr.map]
    refine Returns.bind (SExpr.run_returns hmax hf hs hp a h.1 he.1) fun x hx => ?_
    rcases Spline.splitAt_shape hx h.2 (f z) with ⟨hn, -⟩ | ⟨-, l, r, e, hl, hr⟩
    · exact absurd (hf z he.2.1 he.2.2) hn
    · rw [e]; exact ⟨_, rfl, hr⟩
  | .splitPart _ _ _ _, _, he => he.elim
  | .deriv a o, h, he => by
    simp only [SExpr.run, SExpr.shape, SExpr.map]
    exact Returns.bind (SExpr.run_returns hmax hf hs hp a h.1 he) fun x hx =>
      (Spline.derivativeSpline_returns cfg hmax hx h.2.1 h.2.2.1 h.2.2.2.1 h.2.2.2.2)
  | .compose _ _, _, he => he.elim
  | .composeScalar _ _, _, he => he.elim
  | .mul a b, h, he => by
    simp only [SExpr.run, SExpr.shape, SExpr.map]
    exact Returns.bind (SExpr.run_returns hmax hf hs hp a h.1 he.1) fun x hx => Returns.bind (SExpr.run_returns hmax hf hs hp b h.2.1 he.2) fun y hy =>
      (Spline.mulOp_returns cfg hmax _ hx hy h.2.2.1 h.2.2.2)
  | .dot a b, h, he => by
    simp only [SExpr.run, SExpr.shape, SExpr.map]
    exact Returns.bind (PExpr.run_returns hmax hf hs hp a h.1 he.1) fun x hx => Returns.bind (PExpr.run_returns hmax hf hs hp b h.2.1 he.2) fun y hy =>
      (Spline.mulOp_returns cfg hmax _ hx hy h.2.2.1 h.2.2.2)
  | .power a k, h, he => by
    simp only [SExpr.run, SExpr.shape, SExpr.map]
    exact Returns.bind (SExpr.run_returns hmax hf hs hp a h.1 he) fun x hx => (Spline.raisePower_returns cfg hmax hx k h.2)
  | .extract a j, h, he => by
    simp only [SExpr.run, SExpr.shape, SExpr.map]
    exact Returns.bind (PExpr.run_returns hmax hf hs hp a h.1 he) fun x hx => (Spline.extractDimension_returns hx h.2)

theorem PExpr.run_returns (hmax : cfg.maxBinom ≤ 68)
    (hf : ∀ z : Fl B, 0 < z.val → z.val < 1 → 0 < f z ∧ f z < 1) (hs : ∀ i, HasShape (ds i) (σ.s i)) (hp : ∀ i, HasShape (dp i) (σ.p i)) :
    ∀ e : PExpr (Fl B) n, e.WellShaped cfg ds dp → e.Elementary → Returns (e.shape ds dp) ((e.map f).run cfg σ)
  | .leaf i, _, _ => ⟨_, rfl, hp i⟩
  | .add a b, h, he => by
    simp only [PExpr.run, PExpr.shape, PExpr.map]
    exact Returns.bind (PExpr.run_returns hmax hf hs hp a h.1 he.1) fun x hx => Returns.bind (PExpr.run_returns hmax hf hs hp b h.2.1 he.2) fun y hy =>
      (Spline.addOp_returns cfg hx hy h.2.2)
  | .addAssign a b, h, he => by
    simp only [PExpr.run, PExpr.shape, PExpr.map]
    exact Returns.bind (PExpr.run_returns hmax hf hs hp a h.1 he.1) fun x hx => Returns.bind (PExpr.run_returns hmax hf hs hp b h.2.1 he.2) fun y hy =>
      (Spline.addAssign_returns cfg hx hy h.2.2)
  | .subAssign a b, h, he => by
    simp only [PExpr.run, PExpr.shape, PExpr.map]
    exact Returns.bind (PExpr.run_returns hmax hf hs hp a h.1 he.1) fun x hx => Returns.bind (PExpr.run_returns hmax hf hs hp b h.2.1 he.2) fun y hy =>
      (Spline.subAssign_returns cfg hx hy h.2.2)
  | .sub a b, h, he => by
    simp only [PExpr.run, PExpr.shape, PExpr.map]
    exact Returns.bind (PExpr.run_returns hmax hf hs hp a h.1 he.1) fun x hx => Returns.bind (PExpr.run_returns hmax hf hs hp b h.2.1 he.2) fun y hy =>
      (Spline.subOp_returns cfg hx hy h.2.2.1 h.2.2.2)
  | .neg a, h, he => by
    simp only [PExpr.run, PExpr.shape, PExpr.map]
    exact Returns.bind (PExpr.run_returns hmax hf hs hp a h he) fun x hx => (Spline.negOp_returns hx)
  | .scale a c, h, he => by
    simp only [PExpr.run, PExpr.shape, PExpr.map]
    exact Returns.bind (PExpr.run_returns hmax hf hs hp a h he) fun x hx => (Spline.smulOp_returns hx (f c))
  | .addPoint a v, h, he => by
    simp only [PExpr.run, PExpr.shape, PExpr.map]
    exact Returns.bind (PExpr.run_returns hmax hf hs hp a h he) fun x hx => (Spline.addPoint_returns hx (v.map f))
  | .subPoint a v, h, he => by
    simp only [PExpr.run, PExpr.shape, PExpr.map]
    exact Returns.bind (PExpr.run_returns hmax hf hs hp a h he) fun x hx => (Spline.subPoint_returns hx (v.map f))
  | .pointSub v a, h, he => by
    simp only [PExpr.run, PExpr.shape, PExpr.map]
    exact Returns.bind (PExpr.run_returns hmax hf hs hp a h he) fun x hx => (Spline.pointSub_returns hx (v.map f))
  | .elevate a d, h, he => by
    simp only [PExpr.run, PExpr.shape, PExpr.map]
    exact Returns.bind (PExpr.run_returns hmax hf hs hp a h.1 he) fun x hx => (Spline.orderElevate_returns hx h.2.1 h.2.2)
  | .splitLeft a z d, h, he => by
    simp only [PExpr.run, PExpr.shape, PExpr.map]
    refine Returns.bind (PExpr.run_returns hmax hf hs hp a h.1 he.1) fun x hx => ?_
    rcases Spline.splitAt_shape hx h.2 (f z) with ⟨hn, -⟩ | ⟨-, l, r, e, hl, hr⟩
    · exact absurd (hf z he.2.1 he.2.2) hn
    · rw [e]; exact ⟨_, rfl, hl⟩
  | .splitRight a z d, h, he => by
    simp only [PExpr.run, PExpr.shape, PExpr.map]
    refine Returns.bind (PExpr.run_returns hmax hf hs hp a h.1 he.1) fun x hx => ?_
    rcases Spline.splitAt_shape hx h.2 (f z) with ⟨hn, -⟩ | ⟨-, l, r, e, hl, hr⟩
    · exact absurd (hf z he.2.1 he.2.2) hn
    · rw [e]; exact ⟨_, rfl, hr⟩
  | .splitPart _ _ _ _, _, he => he.elim
  | .deriv a o, h, he => by
    simp only [PExpr.run, PExpr.shape, PExpr.map]
    exact Returns.bind (PExpr.run_returns hmax hf hs hp a h.1 he) fun x hx =>
      (Spline.derivativeSpline_returns cfg hmax hx h.2.1 h.2.2.1 h.2.2.2.1 h.2.2.2.2)
  | .compose _ _, _, he => he.elim
  | .composeScalar _ _, _, he => he.elim
  | .mulLeft a b, h, he => by
    simp only [PExpr.run, PExpr.shape, PExpr.map]
    exact Returns.bind (SExpr.run_returns hmax hf hs hp a h.1 he.1) fun x hx => Returns.bind (PExpr.run_returns hmax hf hs hp b h.2.1 he.2) fun y hy =>
      (Spline.mulOp_returns cfg hmax _ hx hy h.2.2.1 h.2.2.2)
  | .mulRight a b, h, he => by
    simp only [PExpr.run, PExpr.shape, PExpr.map]
    exact Returns.bind (PExpr.run_returns hmax hf hs hp a h.1 he.1) fun x hx => Returns.bind (SExpr.run_returns hmax hf hs hp b h.2.1 he.2) fun y hy =>
      (Spline.mulOp_returns cfg hmax _ hx hy h.2.2.1 h.2.2.2)
end
end

section
variable {K₀ K K' : Type} {n : ℕ} [Par K K'] [One K] [Sub K] [Div K] [One K'] [Sub K'] [Div K'] {f : K₀ → K} {g : K₀ → K'}

mutual
/-- programs with corresponding constants -/
theorem srel_map₂ (hf : ∀ a, f a ≋ g a) (hQ : ∀ zs : List K₀, Spline.ParPlanes (zs.map f) (zs.map g)) :
    ∀ e : SExpr K₀ n, (e.map f).Rel (e.map g)
  | .leaf a => by simp only [SExpr.map, SExpr.Rel]
  | .add a b => by
    simp only [SExpr.map, SExpr.Rel]
    exact ⟨srel_map₂ hf hQ a, srel_map₂ hf hQ b⟩
  | .addAssign a b => by
    simp only [SExpr.map, SExpr.Rel]
    exact ⟨srel_map₂ hf hQ a, srel_map₂ hf hQ b⟩
  | .sub a b => by
    simp only [SExpr.map, SExpr.Rel]
    exact ⟨srel_map₂ hf hQ a, srel_map₂ hf hQ b⟩
  | .subAssign a b => by
    simp only [SExpr.map, SExpr.Rel]
    exact ⟨srel_map₂ hf hQ a, srel_map₂ hf hQ b⟩
  | .neg a => by
    simp only [SExpr.map, SExpr.Rel]
    exact srel_map₂ hf hQ a
  | .scale a b => by
    simp only [SExpr.map, SExpr.Rel]
    exact ⟨srel_map₂ hf hQ a, hf _⟩
  | .addPoint a b => by
    simp only [SExpr.map, SExpr.Rel]
    exact ⟨srel_map₂ hf hQ a, hf _⟩
  | .subPoint a b => by
    simp only [SExpr.map, SExpr.Rel]
    exact ⟨srel_map₂ hf hQ a, hf _⟩
  | .pointSub a b => by
    simp only [SExpr.map, SExpr.Rel]
    exact ⟨srel_map₂ hf hQ b, hf _⟩
  | .elevate a b => by
    simp only [SExpr.map, SExpr.Rel]
    exact ⟨srel_map₂ hf hQ a, trivial⟩
  | .splitLeft a b c => by
    simp only [SExpr.map, SExpr.Rel]
    exact ⟨srel_map₂ hf hQ a, hf _, trivial⟩
  | .splitRight a b c => by
    simp only [SExpr.map, SExpr.Rel]
    exact ⟨srel_map₂ hf hQ a, hf _, trivial⟩
  | .splitPart a b c d => by
    simp only [SExpr.map, SExpr.Rel]
    exact ⟨srel_map₂ hf hQ a, hQ _, trivial, trivial⟩
  | .deriv a b => by
    simp only [SExpr.map, SExpr.Rel]
    exact ⟨srel_map₂ hf hQ a, trivial⟩
  | .compose a b => by
    simp only [SExpr.map, SExpr.Rel]
    exact ⟨srel_map₂ hf hQ a, prel_map₂ hf hQ b⟩
  | .composeScalar a b => by
    simp only [SExpr.map, SExpr.Rel]
    exact ⟨srel_map₂ hf hQ a, srel_map₂ hf hQ b⟩
  | .mul a b => by
    simp only [SExpr.map, SExpr.Rel]
    exact ⟨srel_map₂ hf hQ a, srel_map₂ hf hQ b⟩
  | .dot a b => by
    simp only [SExpr.map, SExpr.Rel]
    exact ⟨prel_map₂ hf hQ a, prel_map₂ hf hQ b⟩
  | .power a b => by
    simp only [SExpr.map, SExpr.Rel]
    exact ⟨srel_map₂ hf hQ a, trivial⟩
  | .extract a b => by
    simp only [SExpr.map, SExpr.Rel]
    exact ⟨prel_map₂ hf hQ a, trivial⟩

@[inherit_doc srel_map₂]
theorem prel_map₂ (hf : ∀ a, f a ≋ g a) (hQ : ∀ zs : List K₀, Spline.ParPlanes (zs.map f) (zs.map g)) :
    ∀ e : PExpr K₀ n, (e.map f).Rel (e.map g)
  | .leaf a => by simp only [PExpr.map, PExpr.Rel]
  | .add a b => by
    simp only [PExpr.map, PExpr.Rel]
    exact ⟨prel_map₂ hf hQ a, prel_map₂ hf hQ b⟩
  | .addAssign a b => by
    simp only [PExpr.map, PExpr.Rel]
    exact ⟨prel_map₂ hf hQ a, prel_map₂ hf hQ b⟩
  | .sub a b => by
    simp only [PExpr.map, PExpr.Rel]
    exact ⟨prel_map₂ hf hQ a, prel_map₂ hf hQ b⟩
  | .subAssign a b => by
    simp only [PExpr.map, PExpr.Rel]
    exact ⟨prel_map₂ hf hQ a, prel_map₂ hf hQ b⟩
  | .neg a => by
    simp only [PExpr.map, PExpr.Rel]
    exact prel_map₂ hf hQ a
  | .scale a b => by
    simp only [PExpr.map, PExpr.Rel]
    exact ⟨prel_map₂ hf hQ a, hf _⟩
  | .addPoint a b => by
    simp only [PExpr.map, PExpr.Rel]
    exact ⟨prel_map₂ hf hQ a, fun i => hf _⟩
  | .subPoint a b => by
    simp only [PExpr.map, PExpr.Rel]
    exact ⟨prel_map₂ hf hQ a, fun i => hf _⟩
  | .pointSub a b => by
    simp only [PExpr.map, PExpr.Rel]
    exact ⟨prel_map₂ hf hQ b, fun i => hf _⟩
  | .elevate a b => by
    simp only [PExpr.map, PExpr.Rel]
    exact ⟨prel_map₂ hf hQ a, trivial⟩
  | .splitLeft a b c => by
    simp only [PExpr.map, PExpr.Rel]
    exact ⟨prel_map₂ hf hQ a, hf _, trivial⟩
  | .splitRight a b c => by
    simp only [PExpr.map, PExpr.Rel]
    exact ⟨prel_map₂ hf hQ a, hf _, trivial⟩
  | .splitPart a b c d => by
    simp only [PExpr.map, PExpr.Rel]
    exact ⟨prel_map₂ hf hQ a, hQ _, trivial, trivial⟩
  | .deriv a b => by
    simp only [PExpr.map, PExpr.Rel]
    exact ⟨prel_map₂ hf hQ a, trivial⟩
  | .compose a b => by
    simp only [PExpr.map, PExpr.Rel]
    exact ⟨prel_map₂ hf hQ a, prel_map₂ hf hQ b⟩
  | .composeScalar a b => by
    simp only [PExpr.map, PExpr.Rel]
    exact ⟨prel_map₂ hf hQ a, srel_map₂ hf hQ b⟩
  | .mulLeft a b => by
    simp only [PExpr.map, PExpr.Rel]
    exact ⟨srel_map₂ hf hQ a, prel_map₂ hf hQ b⟩
  | .mulRight a b => by
    simp only [PExpr.map, PExpr.Rel]
    exact ⟨prel_map₂ hf hQ a, srel_map₂ hf hQ b⟩
end
end

/-! ## membership -/

variable {R : Roundoff} {n : ℕ}

/-- all outcomes may differ in exceptions: sets of numbers are compared otherwise than numbers -/
def throwsDiffer : Err → Bool := fun e => e == .throws

theorem nd_add {a b : Nd R} {x y r : ℝ} (ha : a.vals x) (hb : b.vals y) (h : |r - (x + y)| ≤ R.u * |x + y|) : (a + b).vals r :=
  ⟨x, y, ha, hb, h⟩
theorem nd_sub {a b : Nd R} {x y r : ℝ} (ha : a.vals x) (hb : b.vals y) (h : |r - (x - y)| ≤ R.u * |x - y|) : (a - b).vals r :=
  ⟨x, y, ha, hb, h⟩
theorem nd_mul {a b : Nd R} {x y r : ℝ} (ha : a.vals x) (hb : b.vals y) (h : |r - x * y| ≤ R.u * |x * y| + R.η) : (a * b).vals r :=
  ⟨x, y, ha, hb, h⟩
theorem nd_mul_exact {a b : Nd R} {x y : ℝ} (ha : a.vals x) (hb : b.vals y) : (a * b).vals (x * y) :=
  ⟨x, y, ha, hb, by
    rw [sub_self, abs_zero]
    exact add_nonneg (mul_nonneg R.u_nonneg (abs_nonneg _)) R.η_nonneg⟩
theorem nd_div {a b : Nd R} {x y r : ℝ} (ha : a.vals x) (hb : b.vals y) (h : y ≠ 0 → |r - x / y| ≤ R.u * |x / y| + R.η) : (a / b).vals r :=
  ⟨x, y, ha, hb, h⟩

section
variable {A : FloatArith} (hu : A.u ≤ R.u) (hη : A.η ≤ R.η)

/-- the value is one of the possible values -/
@[reducible] def parFlNd : Par (Fl A) (Nd R) := ⟨fun a b => b.vals a.val⟩

include hu hη in
theorem parScalarFlNd : letI := parFlNd (R := R) (A := A); ParScalar (Fl A) (Nd R) :=
  letI := parFlNd (R := R) (A := A)
  have up : ∀ {d x : ℝ}, |d| ≤ A.u * |x| → |d| ≤ R.u * |x| := fun h => h.trans (mul_le_mul_of_nonneg_right hu (abs_nonneg _))
  have up' : ∀ {d x : ℝ}, |d| ≤ A.u * |x| + A.η → |d| ≤ R.u * |x| + R.η := fun h =>
    h.trans (add_le_add (mul_le_mul_of_nonneg_right hu (abs_nonneg _)) hη)
  have hc : ∀ m : ℕ, ((m : Nd R)).vals (A.cast m) := fun m =>
    (A.cast_err m).trans (mul_le_mul_of_nonneg_right hu (Nat.cast_nonneg _))
  { zero := rfl
    one := rfl
    add := fun ha hb => nd_add ha hb (up (A.add_err _ _))
    sub := fun ha hb => nd_sub ha hb (up (A.sub_err _ _))
    mul := fun ha hb => nd_mul ha hb (up' (A.mul_err _ _))
    neg := fun {a a'} ha => show a'.vals (- -a.val) by rw [neg_neg]; exact ha
    cast := hc
    inv := fun m => nd_div (a := (1 : Nd R)) (x := 1) rfl (hc m) fun h => up' (A.div_err _ _ h)
    ratio := fun m m' => nd_div (hc m) (hc m') fun h => up' (A.div_err _ _ h) }

theorem parOrdFlNd : letI := parFlNd (R := R) (A := A); ParOrd throwsDiffer (Fl A) (Nd R) :=
  letI := parFlNd (R := R) (A := A)
  ⟨fun h => by cases h⟩
end

section
variable {A : FusedArith} (hu : A.u ≤ R.u) (hη : A.η ≤ R.η)

/-- the value, and the exact product that it stands for, are possible values -/
@[reducible] def parNdFu : Par (Nd R) (Fu A) := ⟨fun a b => a.vals b.val ∧ ∀ x y, b.factors = some (x, y) → a.vals (x * y)⟩

include hu hη in
theorem parScalarNdFu : letI := parNdFu (R := R) (A := A); ParScalar (Nd R) (Fu A) :=
  letI := parNdFu (R := R) (A := A)
  have up : ∀ {d x : ℝ}, |d| ≤ A.u * |x| → |d| ≤ R.u * |x| := fun h => h.trans (mul_le_mul_of_nonneg_right hu (abs_nonneg _))
  have up' : ∀ {d x : ℝ}, |d| ≤ A.u * |x| + A.η → |d| ≤ R.u * |x| + R.η := fun h =>
    h.trans (add_le_add (mul_le_mul_of_nonneg_right hu (abs_nonneg _)) hη)
  have hc : ∀ m : ℕ, ((m : Nd R)).vals (A.cast m) := fun m =>
    (A.cast_err m).trans (mul_le_mul_of_nonneg_right hu (Nat.cast_nonneg _))
  have nope : ∀ {v : ℝ} {a : Nd R}, a.vals v → a ≋ (⟨v, none⟩ : Fu A) := fun h => ⟨h, by simp⟩
  { zero := nope rfl
    one := nope rfl
    add := by
      rintro a b ⟨v, fv⟩ ⟨w, fw⟩ ⟨ha, hfa⟩ ⟨hb, hfb⟩
      rcases fv with _ | ⟨x, y⟩
      · rcases fw with _ | ⟨x, y⟩
        · exact nope (nd_add ha hb (up (A.add_err _ _)))
        · refine nope (nd_add ha (hfb x y rfl) (up ?_))
          rw [add_comm v]
          exact A.fma_err _ _ _
      · exact nope (nd_add (hfa x y rfl) hb (up (A.fma_err _ _ _)))
    sub := by
      rintro a b ⟨v, fv⟩ ⟨w, fw⟩ ⟨ha, hfa⟩ ⟨hb, hfb⟩
      rcases fv with _ | ⟨x, y⟩
      · rcases fw with _ | ⟨x, y⟩
        · exact nope (nd_sub ha hb (up (A.sub_err _ _)))
        · refine nope (nd_sub ha (hfb x y rfl) (up ?_))
          rw [show v - x * y = -x * y + v by ring]
          exact A.fma_err _ _ _
      · refine nope (nd_sub (hfa x y rfl) hb (up ?_))
        rw [show x * y - w = x * y + -w by ring]
        exact A.fma_err _ _ _
    mul := fun {a b a' b'} ha hb => ⟨nd_mul ha.1 hb.1 (up' (A.mul_err _ _)), by
      intro x y h
      obtain ⟨rfl, rfl⟩ : a'.val = x ∧ b'.val = y := by simpa [HMul.hMul, Mul.mul] using h
      exact nd_mul_exact ha.1 hb.1⟩
    neg := by
      rintro a ⟨v, fv⟩ ⟨ha, hfa⟩
      refine ⟨show a.vals (- -v) by rw [neg_neg]; exact ha, ?_⟩
      rcases fv with _ | ⟨x, y⟩
      · intro x y h; cases h
      · rintro x' y' h
        obtain ⟨rfl, rfl⟩ : -x = x' ∧ y = y' := by simpa [Neg.neg] using h
        show a.vals (-(-x * y))
        rw [show -(-x * y) = x * y by ring]
        exact hfa x y rfl
    cast := fun m => nope (hc m)
    inv := fun m => nope (nd_div (a := (1 : Nd R)) (x := 1) rfl (hc m) fun h => up' (A.div_err _ _ h))
    ratio := fun m m' => nope (nd_div (hc m) (hc m') fun h => up' (A.div_err _ _ h)) }

theorem parOrdNdFu : letI := parNdFu (R := R) (A := A); ParOrd throwsDiffer (Nd R) (Fu A) :=
  letI := parNdFu (R := R) (A := A)
  ⟨fun h => by cases h⟩
end

/-! ## programs -/

theorem RelM.both_ok {tol : Err → Bool} {α β : Type} [Par α β] {x : M α} {y : M β} {a : α} {b : β} (h : RelM tol x y) (hx : x = .ok a)
    (hy : y = .ok b) : a ≋ b := by
  subst hx hy
  cases h with
  | ok h => exact h

section
variable {A : FloatArith} (hu : A.u ≤ R.u) (hη : A.η ≤ R.η)
include hu hη

theorem planesFlNd (zs : List (Fl A)) : letI := parFlNd (R := R) (A := A); Spline.ParPlanes zs (zs.map (Nd.ofFl (A := R))) := by
  letI := parFlNd (R := R) (A := A)
  have i1 := parScalarFlNd (R := R) hu hη
  have hl : zs ≋ zs.map (Nd.ofFl (A := R)) := by
    show List.Forall₂ _ _ _
    rw [List.forall₂_map_right_iff, List.forall₂_same]
    exact fun _ _ => rfl
  refine ⟨hl, ?_⟩
  intro i z zp z' zp' h1 h2 h3 h4
  rw [List.getElem?_map, h1] at h3
  rw [List.getElem?_map, h2] at h4
  cases h3
  cases h4
  have hp : zp ≋ Nd.ofFl (A := R) zp := rfl
  have hz : z ≋ Nd.ofFl (A := R) z := rfl
  exact nd_div (i1.sub hz hp) (i1.sub i1.one hp) fun h =>
    (A.div_err _ _ h).trans (add_le_add (mul_le_mul_of_nonneg_right hu (abs_nonneg _)) hη)

theorem SExpr.run_member (cfg : Cfg) (σ : Vars (Fl A) n) (e : SExpr (Fl A) n) {s : Spline (Nd R)} {r : Spline (Fl A)}
    (h1 : (e.map (Nd.ofFl (A := R))).run cfg (σ.map Nd.ofFl) = .ok s) (h2 : e.run cfg σ = .ok r) : s.HasValues (r.map Fl.val) := by
  letI := parFlNd (R := R) (A := A)
  have i1 := parScalarFlNd (R := R) hu hη
  have i2 := parOrdFlNd (R := R) (A := A)
  have h := RelM.both_ok (parSRun (tol := throwsDiffer) cfg (σ := σ) (σ' := σ.map (Nd.ofFl (A := R)))
    ⟨fun _ => spline_map_rel fun _ _ => rfl, fun _ => spline_map_rel fun _ _ _ => rfl⟩ e (e.map Nd.ofFl)
    (srel_map (P := fun _ => True) (Q := fun _ => True) (fun _ _ => rfl) (fun zs _ => planesFlNd hu hη zs) e
      (sconst (fun _ => trivial) (fun _ => trivial) e))) h2 h1
  refine ⟨h.1.symm, ?_⟩
  rw [Spline.map, List.forall₂_map_right_iff]
  exact List.Forall₂.flip h.2.2.2

theorem PExpr.run_member (cfg : Cfg) (σ : Vars (Fl A) n) (e : PExpr (Fl A) n) {s : Spline (Point (Nd R) n)} {r : Spline (Point (Fl A) n)}
    (h1 : (e.map (Nd.ofFl (A := R))).run cfg (σ.map Nd.ofFl) = .ok s) (h2 : e.run cfg σ = .ok r) :
    s.HasPoints (r.map (Point.map Fl.val)) := by
  letI := parFlNd (R := R) (A := A)
  have i1 := parScalarFlNd (R := R) hu hη
  have i2 := parOrdFlNd (R := R) (A := A)
  have h := RelM.both_ok (parPRun (tol := throwsDiffer) cfg (σ := σ) (σ' := σ.map (Nd.ofFl (A := R)))
    ⟨fun _ => spline_map_rel fun _ _ => rfl, fun _ => spline_map_rel fun _ _ _ => rfl⟩ e (e.map Nd.ofFl)
    (prel_map (P := fun _ => True) (Q := fun _ => True) (fun _ _ => rfl) (fun zs _ => planesFlNd hu hη zs) e
      (pconst (fun _ => trivial) (fun _ => trivial) e))) h2 h1
  refine ⟨h.1.symm, ?_⟩
  rw [Spline.map, List.forall₂_map_right_iff]
  exact List.Forall₂.flip h.2.2.2
end

section
variable {A : FusedArith} {B : FloatArith} (hu : A.u ≤ R.u) (hη : A.η ≤ R.η)

theorem ofFl_rel (x : Fl B) : letI := parNdFu (R := R) (A := A); (Nd.ofFl x : Nd R) ≋ (Fu.ofFl x : Fu A) :=
  letI := parNdFu (R := R) (A := A)
  ⟨rfl, by simp [Fu.ofFl]⟩

theorem vars_rel₂ (σ : Vars (Fl B) n) :
    letI := parNdFu (R := R) (A := A); (σ.map (Nd.ofFl (A := R))).Rel (σ.map (Fu.ofFl (A := A))) := by
  letI := parNdFu (R := R) (A := A)
  refine ⟨fun i => ⟨rfl, rfl, rfl, ?_⟩, fun i => ⟨rfl, rfl, rfl, ?_⟩⟩
  · show List.Forall₂ _ (List.map _ _) (List.map _ _)
    rw [List.forall₂_map_left_iff, List.forall₂_map_right_iff, List.forall₂_same]
    exact fun x _ => ofFl_rel x
  · show List.Forall₂ _ (List.map _ _) (List.map _ _)
    rw [List.forall₂_map_left_iff, List.forall₂_map_right_iff, List.forall₂_same]
    exact fun x _ c => ofFl_rel (x.val c)

theorem list_rel₂ (t : List (Fl B)) :
    letI := parNdFu (R := R) (A := A); t.map (Nd.ofFl (A := R)) ≋ t.map (Fu.ofFl (A := A)) := by
  letI := parNdFu (R := R) (A := A)
  show List.Forall₂ _ _ _
  rw [List.forall₂_map_left_iff, List.forall₂_map_right_iff, List.forall₂_same]
  exact fun x _ => ofFl_rel x

include hu hη

theorem planesNdFu (zs : List (Fl B)) :
    letI := parNdFu (R := R) (A := A); Spline.ParPlanes (zs.map (Nd.ofFl (A := R))) (zs.map (Fu.ofFl (A := A))) := by
  letI := parNdFu (R := R) (A := A)
  have i1 := parScalarNdFu (R := R) hu hη
  refine ⟨list_rel₂ zs, ?_⟩
  intro i z zp z' zp' h1 h2 h3 h4
  rw [List.getElem?_map, Option.map_eq_some_iff] at h1 h2
  obtain ⟨a, ha, rfl⟩ := h1
  obtain ⟨b, hb, rfl⟩ := h2
  rw [List.getElem?_map, ha] at h3
  rw [List.getElem?_map, hb] at h4
  cases h3
  cases h4
  exact ⟨nd_div (i1.sub (ofFl_rel a) (ofFl_rel b)).1 (i1.sub i1.one (ofFl_rel b)).1 fun h =>
    (A.div_err _ _ h).trans (add_le_add (mul_le_mul_of_nonneg_right hu (abs_nonneg _)) hη), by intro x y h; cases h⟩

theorem SExpr.run_fused (cfg : Cfg) (σ : Vars (Fl B) n) (e : SExpr (Fl B) n) {s : Spline (Nd R)} {r : Spline (Fu A)}
    (h1 : (e.map (Nd.ofFl (A := R))).run cfg (σ.map Nd.ofFl) = .ok s) (h2 : (e.map (Fu.ofFl (A := A))).run cfg (σ.map Fu.ofFl) = .ok r) :
    letI := parNdFu (R := R) (A := A); s ≋ r := by
  letI := parNdFu (R := R) (A := A)
  have i1 := parScalarNdFu (R := R) hu hη
  have i2 := parOrdNdFu (R := R) (A := A)
  exact RelM.both_ok (parSRun (tol := throwsDiffer) cfg (vars_rel₂ σ) _ _ (srel_map₂ ofFl_rel (planesNdFu hu hη) e)) h1 h2

theorem PExpr.run_fused (cfg : Cfg) (σ : Vars (Fl B) n) (e : PExpr (Fl B) n) {s : Spline (Point (Nd R) n)} {r : Spline (Point (Fu A) n)}
    (h1 : (e.map (Nd.ofFl (A := R))).run cfg (σ.map Nd.ofFl) = .ok s) (h2 : (e.map (Fu.ofFl (A := A))).run cfg (σ.map Fu.ofFl) = .ok r) :
    letI := parNdFu (R := R) (A := A); s ≋ r := by
  letI := parNdFu (R := R) (A := A)
  have i1 := parScalarNdFu (R := R) hu hη
  have i2 := parOrdNdFu (R := R) (A := A)
  exact RelM.both_ok (parPRun (tol := throwsDiffer) cfg (vars_rel₂ σ) _ _ (prel_map₂ ofFl_rel (planesNdFu hu hη) e)) h1 h2

theorem Spline.evaluate_fused {s : Spline (Nd R)} {r : Spline (Fu A)} (h : letI := parNdFu (R := R) (A := A); s ≋ r) {t : List (Fl B)} {x y}
    (h1 : s.evaluate (t.map (Nd.ofFl (A := R))) = .ok x) (h2 : r.evaluate (t.map (Fu.ofFl (A := A))) = .ok y) : x.vals y.val := by
  letI := parNdFu (R := R) (A := A)
  have i1 := parScalarNdFu (R := R) hu hη
  exact (RelM.both_ok (tol := throwsDiffer) (Spline.parEvaluate h (list_rel₂ t)) h1 h2).1

theorem Spline.evaluate_fused_points {s : Spline (Point (Nd R) n)} {r : Spline (Point (Fu A) n)}
    (h : letI := parNdFu (R := R) (A := A); s ≋ r) {t : List (Fl B)} {x y}
    (h1 : s.evaluate (t.map (Nd.ofFl (A := R))) = .ok x) (h2 : r.evaluate (t.map (Fu.ofFl (A := A))) = .ok y) (c : Fin n) :
    (x.val c).vals (y.val c).val := by
  letI := parNdFu (R := R) (A := A)
  have i1 := parScalarNdFu (R := R) hu hη
  exact (RelM.both_ok (tol := throwsDiffer) (Spline.parEvaluate h (list_rel₂ t)) h1 h2 c).1
end

end Bezman
