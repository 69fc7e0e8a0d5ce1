import Verif.Spec.RExpr
import Verif.Proofs.Expr
import Verif.Props.Positive

/-! # Execution of expressions over rational splines -/

namespace Bezman
open Spec

section
variable {V W : Type} [NormedAddCommGroup V] [NormedSpace ℝ V] [ScalarDiv ℝ V] [LawfulScalarDiv ℝ V]

omit [LawfulScalarDiv ℝ V] in
theorem sum_shape {a b : RSpline ℝ V} {da db : List ℕ} {f g h : List ℝ → V} {wa wb : List ℝ → ℝ} (ha : a.Computes da f wa)
    (hb : b.Computes db g wb) {r : RSpline ℝ V} (hr : Props.RResult a b da db wa wb h r) :
    r.Computes (sumShape (da, wa) (db, wb)).1 h (sumShape (da, wa) (db, wb)).2 := by
  have key : a.wt.eqOp b.wt = true ↔ (da = db ∧ ∀ t : List ℝ, t.length = da.length → wa t = wb t) := by
    rw [Props.eqOp_iff ha.wt_wf hb.wt_wf]
    constructor
    · intro e
      refine ⟨by rw [← ha.wt_degrees, ← hb.wt_degrees, e], fun t ht => ?_⟩
      have h1 := ha.weight t ht
      have h2 := hb.weight t (by rw [ht, ← ha.wt_degrees, ← hb.wt_degrees, e])
      rw [e] at h1
      exact Except.ok.inj (h1.symm.trans h2)
    · rintro ⟨rfl, e⟩
      exact ha.wt_computes.unique (hb.wt_computes.congr fun t ht => (e t ht).symm)
  unfold sumShape
  rcases hr with ⟨e, hr⟩ | ⟨e, hr⟩
  · rw [if_pos (key.mp e)]; exact hr
  · rw [if_neg (fun e' => by rw [key.mpr e'] at e; cases e)]; exact hr

theorem compose_computes {cfg : Cfg} (hmax : cfg.maxBinom ≤ 68) [AddCommGroup W] [Module ℝ W] [Coords ℝ W] [LawfulCoords ℝ W]
    [ScalarDiv ℝ W] [LawfulScalarDiv ℝ W] {outer : RSpline ℝ V} {inner : RSpline ℝ W} {dO dI : List ℕ} {f : List ℝ → V}
    {wo : List ℝ → ℝ} {g : List ℝ → W} {w : List ℝ → ℝ} (ho : outer.Computes dO f wo) (hi : inner.Computes dI g w)
    (hdim : dO.length = Coords.n ℝ W) (h0 : ∀ t : List ℝ, t.length = dI.length → w t ≠ 0) (hf : Props.ComposeFits cfg dO dI) :
    ∃ r, RSpline.composeRational cfg outer inner = .ok r ∧ r.Computes (dI.map (fun q => dO.sum * q))
      (fun t => f (coordList ℝ (g t))) (fun t => w t ^ dO.sum * wo (coordList ℝ (g t))) := by
  obtain ⟨r, e, h1, h2, h3, h4, h5⟩ := Props.C29_compose_rational (K := ℝ) cfg hmax outer inner dO dI f wo g w ho hi hdim hf
  refine ⟨r, e, h1, h2, h3, h4, fun t ht => (h5 t (by simpa using ht) (h0 t (by simpa using ht))).1, fun t ht hw => ?_⟩
  exact (h5 t (by simpa using ht) (h0 t (by simpa using ht))).2 (right_ne_zero_of_mul hw)

end

theorem pos_of {V : Type} {m : M (RSpline ℝ V)} {r : RSpline ℝ V} (h : ∃ r, m = .ok r ∧ ∀ c ∈ r.wt.cps, 0 < c) (hr : m = .ok r) :
    ∀ c ∈ r.wt.cps, 0 < c := by
  obtain ⟨r', e, h⟩ := h
  obtain rfl := Except.ok.inj (e.symm.trans hr)
  exact h

theorem mem_of_rd {α : Type} {l : List α} {i : ℕ} {x : α} (h : rd l i = .ok x) : x ∈ l := by
  unfold rd at h
  split at h
  · next y hy => obtain rfl := Except.ok.inj h; exact List.mem_of_getElem? hy
  · cases h

variable {n : ℕ} {cfg : Cfg} {σ : RVars ℝ n} {μ : RMeaning n}

mutual
theorem RSExpr.run_ok (hmax : cfg.maxBinom ≤ 68) (h : μ.Of σ) : ∀ (e : RSExpr ℝ n), e.Admissible cfg σ μ →
    ∃ r, e.run cfg σ = .ok r ∧ r.Computes (e.shape μ).1 (e.denote μ) (e.shape μ).2
  | .leaf i, _ => ⟨_, rfl, h.rs i⟩
  | .ofSpline a, hA => by
    obtain ⟨x, ex, hx⟩ := SExpr.run_ok hmax h.poly a hA
    obtain ⟨r, er, hr⟩ := Props.C35_of_polynomial (K := ℝ) x _ _ hx
    refine ⟨r, ?_, hr⟩
    simp only [RSExpr.run, ex, bind_ok]; exact er
  | .add a b, hA => by
    obtain ⟨x, ex, hx⟩ := RSExpr.run_ok hmax h a hA.1
    obtain ⟨y, ey, hy⟩ := RSExpr.run_ok hmax h b hA.2.1
    obtain ⟨r, er, hr⟩ := Props.C38_add cfg hmax x y _ _ _ _ _ _ hx hy hA.2.2
    refine ⟨r, ?_, sum_shape hx hy hr⟩
    simp only [RSExpr.run, ex, ey, bind_ok]; exact er
  | .addAssign a b, hA => by
    obtain ⟨x, ex, hx⟩ := RSExpr.run_ok hmax h a hA.1
    obtain ⟨y, ey, hy⟩ := RSExpr.run_ok hmax h b hA.2.1
    obtain ⟨r, er, hr⟩ := Props.C38_add_assign cfg hmax x y _ _ _ _ _ _ hx hy hA.2.2
    refine ⟨r, ?_, sum_shape hx hy hr⟩
    simp only [RSExpr.run, ex, ey, bind_ok]; exact er
  | .sub a b, hA => by
    obtain ⟨x, ex, hx⟩ := RSExpr.run_ok hmax h a hA.1
    obtain ⟨y, ey, hy⟩ := RSExpr.run_ok hmax h b hA.2.1
    obtain ⟨r, er, hr⟩ := Props.C38_sub cfg hmax x y _ _ _ _ _ _ hx hy hA.2.2
    refine ⟨r, ?_, sum_shape hx hy hr⟩
    simp only [RSExpr.run, ex, ey, bind_ok]; exact er
  | .subAssign a b, hA => by
    obtain ⟨x, ex, hx⟩ := RSExpr.run_ok hmax h a hA.1
    obtain ⟨y, ey, hy⟩ := RSExpr.run_ok hmax h b hA.2.1
    obtain ⟨r, er, hr⟩ := Props.C38_sub_assign cfg hmax x y _ _ _ _ _ _ hx hy hA.2.2
    refine ⟨r, ?_, sum_shape hx hy hr⟩
    simp only [RSExpr.run, ex, ey, bind_ok]; exact er
  | .neg a, hA => by
    obtain ⟨x, ex, hx⟩ := RSExpr.run_ok hmax h a hA
    obtain ⟨r, er, hr⟩ := Props.C39_neg (K := ℝ) x _ _ _ hx 
    refine ⟨r, ?_, hr⟩
    simp only [RSExpr.run, ex, bind_ok]; exact er
  | .scale a c, hA => by
    obtain ⟨x, ex, hx⟩ := RSExpr.run_ok hmax h a hA
    obtain ⟨r, er, -, hr⟩ := Props.C39_scale (K := ℝ) x _ _ _ hx c
    refine ⟨r, ?_, hr⟩
    simp only [RSExpr.run, ex, bind_ok]; exact er
  | .addPoint a v, hA => by
    obtain ⟨x, ex, hx⟩ := RSExpr.run_ok hmax h a hA
    obtain ⟨r, er, -, hr⟩ := Props.C39_add_point (K := ℝ) x _ _ _ hx v
    refine ⟨r, ?_, hr⟩
    simp only [RSExpr.run, ex, bind_ok]; exact er
  | .subPoint a v, hA => by
    obtain ⟨x, ex, hx⟩ := RSExpr.run_ok hmax h a hA
    obtain ⟨r, er, -, hr⟩ := Props.C39_sub_point (K := ℝ) x _ _ _ hx v
    refine ⟨r, ?_, hr⟩
    simp only [RSExpr.run, ex, bind_ok]; exact er
  | .elevate a d, hA => by
    obtain ⟨x, ex, hx⟩ := RSExpr.run_ok hmax h a hA.1
    have e := modify_eq_set' hA.2.1 (· + 1)
    obtain ⟨r, er, hr⟩ := Props.C40_order_elevate (K := ℝ) x _ _ _ hx d _ (List.getElem?_eq_getElem hA.2.1)
      (by rw [← e]; exact hA.2.2)
    refine ⟨r, ?_, ?_⟩
    · simp only [RSExpr.run, ex, bind_ok]; exact er
    · rw [← e] at hr; exact hr
  | .splitLeft a z d, hA => by
    obtain ⟨x, ex, hx⟩ := RSExpr.run_ok hmax h a hA.1
    obtain ⟨l, r, er, hl, hr⟩ := Props.C40_split (K := ℝ) x _ _ _ hx d hA.2.1 z hA.2.2.1 hA.2.2.2
    refine ⟨l, ?_, hl⟩
    simp only [RSExpr.run, ex, er, bind_ok]; rfl
  | .splitRight a z d, hA => by
    obtain ⟨x, ex, hx⟩ := RSExpr.run_ok hmax h a hA.1
    obtain ⟨l, r, er, hl, hr⟩ := Props.C40_split (K := ℝ) x _ _ _ hx d hA.2.1 z hA.2.2.1 hA.2.2.2
    refine ⟨r, ?_, hr⟩
    simp only [RSExpr.run, ex, er, bind_ok]; rfl
  | .splitPart a zs d i, hA => by
    obtain ⟨x, ex, hx⟩ := RSExpr.run_ok hmax h a hA.1
    obtain ⟨l, el, hl, hr⟩ := Props.C40_split_many (K := ℝ) x _ _ _ hx d hA.2.1 zs hA.2.2.1 hA.2.2.2.1
    have hi : i < l.length := by rw [hl]; exact Nat.lt_succ_of_le hA.2.2.2.2
    refine ⟨l[i], ?_, hr i _ _ _ (List.getElem?_eq_getElem hi) (getD_knots zs ?_) (getD_knots zs ?_)⟩
    · simp only [RSExpr.run, ex, el, bind_ok]; exact rd_getElem hi
    · have := hA.2.2.2.2; omega
    · have := hA.2.2.2.2; omega
  | .deriv a orders, hA => by
    obtain ⟨x, ex, hx⟩ := RSExpr.run_ok hmax h a hA.1
    obtain ⟨r, er, hr⟩ := Props.C41_derivative_spline (𝕜 := ℝ) cfg hmax x _ _ _ hx orders hA.2.1 hA.2.2.1 hA.2.2.2
    refine ⟨r, ?_, hr⟩
    simp only [RSExpr.run, ex, bind_ok]; exact er
  | .composePoly a b, hA => by
    obtain ⟨x, ex, hx⟩ := RSExpr.run_ok hmax h a hA.1
    obtain ⟨y, ey, hy⟩ := PExpr.run_ok hmax h.poly b hA.2.1
    obtain ⟨r, er, hr⟩ := Props.C29_compose_polynomial (K := ℝ) cfg hmax x y _ _ _ _ _ hx hy hA.2.2.1 (hA.2.2.2.1 y ey) hA.2.2.2.2
    refine ⟨r, ?_, hr⟩
    simp only [RSExpr.run, ex, ey, bind_ok]; exact er
  | .composePolyScalar a b, hA => by
    obtain ⟨x, ex, hx⟩ := RSExpr.run_ok hmax h a hA.1
    obtain ⟨y, ey, hy⟩ := SExpr.run_ok hmax h.poly b hA.2.1
    obtain ⟨r, er, hr⟩ := Props.C29_compose_polynomial (K := ℝ) cfg hmax x y _ _ _ _ _ hx hy hA.2.2.1 (hA.2.2.2.1 y ey) hA.2.2.2.2
    refine ⟨r, ?_, hr⟩
    simp only [RSExpr.run, ex, ey, bind_ok]; exact er
  | .compose a b, hA => by
    obtain ⟨x, ex, hx⟩ := RSExpr.run_ok hmax h a hA.1
    obtain ⟨y, ey, hy⟩ := RPExpr.run_ok hmax h b hA.2.1
    obtain ⟨r, er, hr⟩ := compose_computes hmax hx hy hA.2.2.1 hA.2.2.2.1 hA.2.2.2.2
    refine ⟨r, ?_, hr⟩
    simp only [RSExpr.run, ex, ey, bind_ok]; exact er
  | .composeScalar a b, hA => by
    obtain ⟨x, ex, hx⟩ := RSExpr.run_ok hmax h a hA.1
    obtain ⟨y, ey, hy⟩ := RSExpr.run_ok hmax h b hA.2.1
    obtain ⟨r, er, hr⟩ := compose_computes hmax hx hy hA.2.2.1 hA.2.2.2.1 hA.2.2.2.2
    refine ⟨r, ?_, hr⟩
    simp only [RSExpr.run, ex, ey, bind_ok]; exact er
  | .polyCompose a b, hA => by
    obtain ⟨x, ex, hx⟩ := SExpr.run_ok hmax h.poly a hA.1
    obtain ⟨y, ey, hy⟩ := RPExpr.run_ok hmax h b hA.2.1
    obtain ⟨r, er, hr⟩ := Props.C28_compose (K := ℝ) cfg hmax x y _ _ _ _ _ hx hy hA.2.2.1 (hA.2.2.2.1 y ey) hA.2.2.2.2
    refine ⟨r, ?_, hr⟩
    simp only [RSExpr.run, ex, ey, bind_ok]; exact er
  | .polyComposeScalar a b, hA => by
    obtain ⟨x, ex, hx⟩ := SExpr.run_ok hmax h.poly a hA.1
    obtain ⟨y, ey, hy⟩ := RSExpr.run_ok hmax h b hA.2.1
    obtain ⟨r, er, hr⟩ := Props.C28_compose (K := ℝ) cfg hmax x y _ _ _ _ _ hx hy hA.2.2.1 (hA.2.2.2.1 y ey) hA.2.2.2.2
    refine ⟨r, ?_, hr⟩
    simp only [RSExpr.run, ex, ey, bind_ok]; exact er
  | .mul a b, hA => by
    obtain ⟨x, ex, hx⟩ := RSExpr.run_ok hmax h a hA.1
    obtain ⟨y, ey, hy⟩ := RSExpr.run_ok hmax h b hA.2.1
    obtain ⟨r, er, hr⟩ := Props.C38_mul_scalar cfg hmax x y _ _ _ _ _ _ hx hy hA.2.2.1 hA.2.2.2
    refine ⟨r, ?_, hr⟩
    simp only [RSExpr.run, ex, ey, bind_ok]; exact er
  | .dot a b, hA => by
    obtain ⟨x, ex, hx⟩ := RPExpr.run_ok hmax h a hA.1
    obtain ⟨y, ey, hy⟩ := RPExpr.run_ok hmax h b hA.2.1
    obtain ⟨r, er, hr⟩ := Props.C38_mul_dot cfg hmax x y _ _ _ _ _ _ hx hy hA.2.2.1 hA.2.2.2
    refine ⟨r, ?_, hr⟩
    simp only [RSExpr.run, ex, ey, bind_ok]; exact er

theorem RPExpr.run_ok (hmax : cfg.maxBinom ≤ 68) (h : μ.Of σ) : ∀ (e : RPExpr ℝ n), e.Admissible cfg σ μ →
    ∃ r, e.run cfg σ = .ok r ∧ r.Computes (e.shape μ).1 (e.denote μ) (e.shape μ).2
  | .leaf i, _ => ⟨_, rfl, h.rp i⟩
  | .ofSpline a, hA => by
    obtain ⟨x, ex, hx⟩ := PExpr.run_ok hmax h.poly a hA
    obtain ⟨r, er, hr⟩ := Props.C35_of_polynomial (K := ℝ) x _ _ hx
    refine ⟨r, ?_, hr⟩
    simp only [RPExpr.run, ex, bind_ok]; exact er
  | .add a b, hA => by
    obtain ⟨x, ex, hx⟩ := RPExpr.run_ok hmax h a hA.1
    obtain ⟨y, ey, hy⟩ := RPExpr.run_ok hmax h b hA.2.1
    obtain ⟨r, er, hr⟩ := Props.C38_add cfg hmax x y _ _ _ _ _ _ hx hy hA.2.2
    refine ⟨r, ?_, sum_shape hx hy hr⟩
    simp only [RPExpr.run, ex, ey, bind_ok]; exact er
  | .addAssign a b, hA => by
    obtain ⟨x, ex, hx⟩ := RPExpr.run_ok hmax h a hA.1
    obtain ⟨y, ey, hy⟩ := RPExpr.run_ok hmax h b hA.2.1
    obtain ⟨r, er, hr⟩ := Props.C38_add_assign cfg hmax x y _ _ _ _ _ _ hx hy hA.2.2
    refine ⟨r, ?_, sum_shape hx hy hr⟩
    simp only [RPExpr.run, ex, ey, bind_ok]; exact er
  | .sub a b, hA => by
    obtain ⟨x, ex, hx⟩ := RPExpr.run_ok hmax h a hA.1
    obtain ⟨y, ey, hy⟩ := RPExpr.run_ok hmax h b hA.2.1
    obtain ⟨r, er, hr⟩ := Props.C38_sub cfg hmax x y _ _ _ _ _ _ hx hy hA.2.2
    refine ⟨r, ?_, sum_shape hx hy hr⟩
    simp only [RPExpr.run, ex, ey, bind_ok]; exact er
  | .subAssign a b, hA => by
    obtain ⟨x, ex, hx⟩ := RPExpr.run_ok hmax h a hA.1
    obtain ⟨y, ey, hy⟩ := RPExpr.run_ok hmax h b hA.2.1
    obtain ⟨r, er, hr⟩ := Props.C38_sub_assign cfg hmax x y _ _ _ _ _ _ hx hy hA.2.2
    refine ⟨r, ?_, sum_shape hx hy hr⟩
    simp only [RPExpr.run, ex, ey, bind_ok]; exact er
  | .neg a, hA => by
    obtain ⟨x, ex, hx⟩ := RPExpr.run_ok hmax h a hA
    obtain ⟨r, er, hr⟩ := Props.C39_neg (K := ℝ) x _ _ _ hx 
    refine ⟨r, ?_, hr⟩
    simp only [RPExpr.run, ex, bind_ok]; exact er
  | .scale a c, hA => by
    obtain ⟨x, ex, hx⟩ := RPExpr.run_ok hmax h a hA
    obtain ⟨r, er, -, hr⟩ := Props.C39_scale (K := ℝ) x _ _ _ hx c
    refine ⟨r, ?_, hr⟩
    simp only [RPExpr.run, ex, bind_ok]; exact er
  | .addPoint a v, hA => by
    obtain ⟨x, ex, hx⟩ := RPExpr.run_ok hmax h a hA
    obtain ⟨r, er, -, hr⟩ := Props.C39_add_point (K := ℝ) x _ _ _ hx v
    refine ⟨r, ?_, hr⟩
    simp only [RPExpr.run, ex, bind_ok]; exact er
  | .subPoint a v, hA => by
    obtain ⟨x, ex, hx⟩ := RPExpr.run_ok hmax h a hA
    obtain ⟨r, er, -, hr⟩ := Props.C39_sub_point (K := ℝ) x _ _ _ hx v
    refine ⟨r, ?_, hr⟩
    simp only [RPExpr.run, ex, bind_ok]; exact er
  | .elevate a d, hA => by
    obtain ⟨x, ex, hx⟩ := RPExpr.run_ok hmax h a hA.1
    have e := modify_eq_set' hA.2.1 (· + 1)
    obtain ⟨r, er, hr⟩ := Props.C40_order_elevate (K := ℝ) x _ _ _ hx d _ (List.getElem?_eq_getElem hA.2.1)
      (by rw [← e]; exact hA.2.2)
    refine ⟨r, ?_, ?_⟩
    · simp only [RPExpr.run, ex, bind_ok]; exact er
    · rw [← e] at hr; exact hr
  | .splitLeft a z d, hA => by
    obtain ⟨x, ex, hx⟩ := RPExpr.run_ok hmax h a hA.1
    obtain ⟨l, r, er, hl, hr⟩ := Props.C40_split (K := ℝ) x _ _ _ hx d hA.2.1 z hA.2.2.1 hA.2.2.2
    refine ⟨l, ?_, hl⟩
    simp only [RPExpr.run, ex, er, bind_ok]; rfl
  | .splitRight a z d, hA => by
    obtain ⟨x, ex, hx⟩ := RPExpr.run_ok hmax h a hA.1
    obtain ⟨l, r, er, hl, hr⟩ := Props.C40_split (K := ℝ) x _ _ _ hx d hA.2.1 z hA.2.2.1 hA.2.2.2
    refine ⟨r, ?_, hr⟩
    simp only [RPExpr.run, ex, er, bind_ok]; rfl
  | .splitPart a zs d i, hA => by
    obtain ⟨x, ex, hx⟩ := RPExpr.run_ok hmax h a hA.1
    obtain ⟨l, el, hl, hr⟩ := Props.C40_split_many (K := ℝ) x _ _ _ hx d hA.2.1 zs hA.2.2.1 hA.2.2.2.1
    have hi : i < l.length := by rw [hl]; exact Nat.lt_succ_of_le hA.2.2.2.2
    refine ⟨l[i], ?_, hr i _ _ _ (List.getElem?_eq_getElem hi) (getD_knots zs ?_) (getD_knots zs ?_)⟩
    · simp only [RPExpr.run, ex, el, bind_ok]; exact rd_getElem hi
    · have := hA.2.2.2.2; omega
    · have := hA.2.2.2.2; omega
  | .deriv a orders, hA => by
    obtain ⟨x, ex, hx⟩ := RPExpr.run_ok hmax h a hA.1
    obtain ⟨r, er, hr⟩ := Props.C41_derivative_spline (𝕜 := ℝ) cfg hmax x _ _ _ hx orders hA.2.1 hA.2.2.1 hA.2.2.2
    refine ⟨r, ?_, hr⟩
    simp only [RPExpr.run, ex, bind_ok]; exact er
  | .composePoly a b, hA => by
    obtain ⟨x, ex, hx⟩ := RPExpr.run_ok hmax h a hA.1
    obtain ⟨y, ey, hy⟩ := PExpr.run_ok hmax h.poly b hA.2.1
    obtain ⟨r, er, hr⟩ := Props.C29_compose_polynomial (K := ℝ) cfg hmax x y _ _ _ _ _ hx hy hA.2.2.1 (hA.2.2.2.1 y ey) hA.2.2.2.2
    refine ⟨r, ?_, hr⟩
    simp only [RPExpr.run, ex, ey, bind_ok]; exact er
  | .composePolyScalar a b, hA => by
    obtain ⟨x, ex, hx⟩ := RPExpr.run_ok hmax h a hA.1
    obtain ⟨y, ey, hy⟩ := SExpr.run_ok hmax h.poly b hA.2.1
    obtain ⟨r, er, hr⟩ := Props.C29_compose_polynomial (K := ℝ) cfg hmax x y _ _ _ _ _ hx hy hA.2.2.1 (hA.2.2.2.1 y ey) hA.2.2.2.2
    refine ⟨r, ?_, hr⟩
    simp only [RPExpr.run, ex, ey, bind_ok]; exact er
  | .compose a b, hA => by
    obtain ⟨x, ex, hx⟩ := RPExpr.run_ok hmax h a hA.1
    obtain ⟨y, ey, hy⟩ := RPExpr.run_ok hmax h b hA.2.1
    obtain ⟨r, er, hr⟩ := compose_computes hmax hx hy hA.2.2.1 hA.2.2.2.1 hA.2.2.2.2
    refine ⟨r, ?_, hr⟩
    simp only [RPExpr.run, ex, ey, bind_ok]; exact er
  | .composeScalar a b, hA => by
    obtain ⟨x, ex, hx⟩ := RPExpr.run_ok hmax h a hA.1
    obtain ⟨y, ey, hy⟩ := RSExpr.run_ok hmax h b hA.2.1
    obtain ⟨r, er, hr⟩ := compose_computes hmax hx hy hA.2.2.1 hA.2.2.2.1 hA.2.2.2.2
    refine ⟨r, ?_, hr⟩
    simp only [RPExpr.run, ex, ey, bind_ok]; exact er
  | .polyCompose a b, hA => by
    obtain ⟨x, ex, hx⟩ := PExpr.run_ok hmax h.poly a hA.1
    obtain ⟨y, ey, hy⟩ := RPExpr.run_ok hmax h b hA.2.1
    obtain ⟨r, er, hr⟩ := Props.C28_compose (K := ℝ) cfg hmax x y _ _ _ _ _ hx hy hA.2.2.1 (hA.2.2.2.1 y ey) hA.2.2.2.2
    refine ⟨r, ?_, hr⟩
    simp only [RPExpr.run, ex, ey, bind_ok]; exact er
  | .polyComposeScalar a b, hA => by
    obtain ⟨x, ex, hx⟩ := PExpr.run_ok hmax h.poly a hA.1
    obtain ⟨y, ey, hy⟩ := RSExpr.run_ok hmax h b hA.2.1
    obtain ⟨r, er, hr⟩ := Props.C28_compose (K := ℝ) cfg hmax x y _ _ _ _ _ hx hy hA.2.2.1 (hA.2.2.2.1 y ey) hA.2.2.2.2
    refine ⟨r, ?_, hr⟩
    simp only [RPExpr.run, ex, ey, bind_ok]; exact er
  | .mulLeft a b, hA => by
    obtain ⟨x, ex, hx⟩ := RSExpr.run_ok hmax h a hA.1
    obtain ⟨y, ey, hy⟩ := RPExpr.run_ok hmax h b hA.2.1
    obtain ⟨r, er, hr⟩ := Props.C38_mul cfg hmax (fun c v => c • v) (LinearMap.lsmul ℝ (Point ℝ n)) (fun _ _ => rfl) x y _ _ _ _ _ _ hx hy hA.2.2.1 hA.2.2.2
    refine ⟨r, ?_, hr⟩
    simp only [RPExpr.run, ex, ey, bind_ok]; exact er
  | .mulRight a b, hA => by
    obtain ⟨x, ex, hx⟩ := RPExpr.run_ok hmax h a hA.1
    obtain ⟨y, ey, hy⟩ := RSExpr.run_ok hmax h b hA.2.1
    obtain ⟨r, er, hr⟩ := Props.C38_mul cfg hmax (fun v c => c • v) (LinearMap.lsmul ℝ (Point ℝ n)).flip (fun _ _ => rfl) x y _ _ _ _ _ _ hx hy hA.2.2.1 hA.2.2.2
    refine ⟨r, ?_, hr⟩
    simp only [RPExpr.run, ex, ey, bind_ok]; exact er
end

mutual
theorem RSExpr.run_pos (hmax : cfg.maxBinom ≤ 68) (h : μ.Of σ) : ∀ (e : RSExpr ℝ n), e.Admissible cfg σ μ → e.Positive cfg σ →
    ∀ r, e.run cfg σ = .ok r → ∀ c ∈ r.wt.cps, 0 < c
  | .leaf i, _, hP, r, hr => by
    simp only [RSExpr.run, pure_eq_ok, Except.ok.injEq] at hr
    subst hr; exact hP
  | .ofSpline a, hA, _, r, hr => by
    obtain ⟨x, ex, hx⟩ := SExpr.run_ok hmax h.poly a hA
    obtain ⟨r', er, hr'⟩ := Props.C35_of_polynomial (K := ℝ) x _ _ hx
    simp only [RSExpr.run, ex, bind_ok] at hr
    obtain rfl := Except.ok.inj (er.symm.trans hr)
    exact (Props.posNet_iff hr').mpr (PosNet.const _ one_pos)
  | .add a b, hA, hP, r, hr => by
    obtain ⟨x, ex, hx⟩ := RSExpr.run_ok hmax h a hA.1
    obtain ⟨y, ey, hy⟩ := RSExpr.run_ok hmax h b hA.2.1
    have px := RSExpr.run_pos hmax h a hA.1 hP.1 x ex
    have py := RSExpr.run_pos hmax h b hA.2.1 hP.2 y ey
    simp only [RSExpr.run, ex, ey, bind_ok] at hr
    exact pos_of (Props.C76_add_sub cfg hmax x y _ _ _ _ _ _ hx hy hA.2.2 px py).1 hr
  | .addAssign a b, hA, hP, r, hr => by
    obtain ⟨x, ex, hx⟩ := RSExpr.run_ok hmax h a hA.1
    obtain ⟨y, ey, hy⟩ := RSExpr.run_ok hmax h b hA.2.1
    have px := RSExpr.run_pos hmax h a hA.1 hP.1 x ex
    have py := RSExpr.run_pos hmax h b hA.2.1 hP.2 y ey
    simp only [RSExpr.run, ex, ey, bind_ok] at hr
    exact pos_of (Props.C76_add_sub cfg hmax x y _ _ _ _ _ _ hx hy hA.2.2 px py).2.1 hr
  | .sub a b, hA, hP, r, hr => by
    obtain ⟨x, ex, hx⟩ := RSExpr.run_ok hmax h a hA.1
    obtain ⟨y, ey, hy⟩ := RSExpr.run_ok hmax h b hA.2.1
    have px := RSExpr.run_pos hmax h a hA.1 hP.1 x ex
    have py := RSExpr.run_pos hmax h b hA.2.1 hP.2 y ey
    simp only [RSExpr.run, ex, ey, bind_ok] at hr
    exact pos_of (Props.C76_add_sub cfg hmax x y _ _ _ _ _ _ hx hy hA.2.2 px py).2.2.1 hr
  | .subAssign a b, hA, hP, r, hr => by
    obtain ⟨x, ex, hx⟩ := RSExpr.run_ok hmax h a hA.1
    obtain ⟨y, ey, hy⟩ := RSExpr.run_ok hmax h b hA.2.1
    have px := RSExpr.run_pos hmax h a hA.1 hP.1 x ex
    have py := RSExpr.run_pos hmax h b hA.2.1 hP.2 y ey
    simp only [RSExpr.run, ex, ey, bind_ok] at hr
    exact pos_of (Props.C76_add_sub cfg hmax x y _ _ _ _ _ _ hx hy hA.2.2 px py).2.2.2 hr
  | .scale a s, hA, hP, r, hr => by
    obtain ⟨x, ex, hx⟩ := RSExpr.run_ok hmax h a hA
    have px := RSExpr.run_pos hmax h a hA hP x ex
    simp only [RSExpr.run, ex, bind_ok] at hr
    exact pos_of (Props.C76_affine x _ _ _ hx px s 0).1 hr
  | .neg a, hA, hP, r, hr => by
    obtain ⟨x, ex, hx⟩ := RSExpr.run_ok hmax h a hA
    have px := RSExpr.run_pos hmax h a hA hP x ex
    simp only [RSExpr.run, ex, bind_ok] at hr
    exact pos_of (Props.C76_affine x _ _ _ hx px 0 0).2.1 hr
  | .addPoint a v, hA, hP, r, hr => by
    obtain ⟨x, ex, hx⟩ := RSExpr.run_ok hmax h a hA
    have px := RSExpr.run_pos hmax h a hA hP x ex
    simp only [RSExpr.run, ex, bind_ok] at hr
    exact pos_of (Props.C76_affine x _ _ _ hx px 0 v).2.2.1 hr
  | .subPoint a v, hA, hP, r, hr => by
    obtain ⟨x, ex, hx⟩ := RSExpr.run_ok hmax h a hA
    have px := RSExpr.run_pos hmax h a hA hP x ex
    simp only [RSExpr.run, ex, bind_ok] at hr
    exact pos_of (Props.C76_affine x _ _ _ hx px 0 v).2.2.2 hr
  | .elevate a d, hA, hP, r, hr => by
    obtain ⟨x, ex, hx⟩ := RSExpr.run_ok hmax h a hA.1
    have px := RSExpr.run_pos hmax h a hA.1 hP x ex
    have e := modify_eq_set' hA.2.1 (· + 1)
    simp only [RSExpr.run, ex, bind_ok] at hr
    exact pos_of (Props.C76_order_elevate (K := ℝ) x _ _ _ hx px d _ (List.getElem?_eq_getElem hA.2.1)
      (by rw [← e]; exact hA.2.2)) hr
  | .splitLeft a z d, hA, hP, r, hr => by
    obtain ⟨x, ex, hx⟩ := RSExpr.run_ok hmax h a hA.1
    have px := RSExpr.run_pos hmax h a hA.1 hP x ex
    obtain ⟨l, l', er, hl, hr'⟩ := Props.C76_split (K := ℝ) x _ _ _ hx px d hA.2.1 z hA.2.2.1 hA.2.2.2
    simp only [RSExpr.run, ex, er, bind_ok, pure_eq_ok, Except.ok.injEq] at hr
    subst hr; exact hl
  | .splitRight a z d, hA, hP, r, hr => by
    obtain ⟨x, ex, hx⟩ := RSExpr.run_ok hmax h a hA.1
    have px := RSExpr.run_pos hmax h a hA.1 hP x ex
    obtain ⟨l, l', er, hl, hr'⟩ := Props.C76_split (K := ℝ) x _ _ _ hx px d hA.2.1 z hA.2.2.1 hA.2.2.2
    simp only [RSExpr.run, ex, er, bind_ok, pure_eq_ok, Except.ok.injEq] at hr
    subst hr; exact hr'
  | .splitPart a zs d i, hA, hP, r, hr => by
    obtain ⟨x, ex, hx⟩ := RSExpr.run_ok hmax h a hA.1
    have px := RSExpr.run_pos hmax h a hA.1 hP x ex
    obtain ⟨l, el, hl⟩ := Props.C76_split_many (K := ℝ) x _ _ _ hx px d hA.2.1 zs hA.2.2.1 hA.2.2.2.1
    simp only [RSExpr.run, ex, el, bind_ok] at hr
    exact hl r (mem_of_rd hr)
  | .deriv a orders, hA, hP, r, hr => by
    obtain ⟨x, ex, hx⟩ := RSExpr.run_ok hmax h a hA.1
    have px := RSExpr.run_pos hmax h a hA.1 hP x ex
    simp only [RSExpr.run, ex, bind_ok] at hr
    exact pos_of (Props.C76_derivative cfg hmax x _ _ _ hx orders hA.2.1 hA.2.2.1 hA.2.2.2 px) hr
  | .composePoly a b, hA, hP, r, hr => by
    obtain ⟨x, ex, hx⟩ := RSExpr.run_ok hmax h a hA.1
    obtain ⟨y, ey, hy⟩ := PExpr.run_ok hmax h.poly b hA.2.1
    have px := RSExpr.run_pos hmax h a hA.1 hP x ex
    simp only [RSExpr.run, ex, ey, bind_ok] at hr
    exact pos_of (Props.C76_compose_polynomial (K := ℝ) cfg hmax x y _ _ _ _ _ hx hy hA.2.2.1 (hA.2.2.2.1 y ey) hA.2.2.2.2 px) hr
  | .composePolyScalar a b, hA, hP, r, hr => by
    obtain ⟨x, ex, hx⟩ := RSExpr.run_ok hmax h a hA.1
    obtain ⟨y, ey, hy⟩ := SExpr.run_ok hmax h.poly b hA.2.1
    have px := RSExpr.run_pos hmax h a hA.1 hP x ex
    simp only [RSExpr.run, ex, ey, bind_ok] at hr
    exact pos_of (Props.C76_compose_polynomial (K := ℝ) cfg hmax x y _ _ _ _ _ hx hy hA.2.2.1 (hA.2.2.2.1 y ey) hA.2.2.2.2 px) hr
  | .compose a b, hA, hP, r, hr => by
    obtain ⟨x, ex, hx⟩ := RSExpr.run_ok hmax h a hA.1
    obtain ⟨y, ey, hy⟩ := RPExpr.run_ok hmax h b hA.2.1
    have px := RSExpr.run_pos hmax h a hA.1 hP.1 x ex
    have py := RPExpr.run_pos hmax h b hA.2.1 hP.2.1 y ey
    simp only [RSExpr.run, ex, ey, bind_ok] at hr
    exact pos_of (Props.C76_compose_rational (K := ℝ) cfg hmax x y _ _ _ _ _ _ hx hy hA.2.2.1 (hP.2.2 y ey) px py hA.2.2.2.2) hr
  | .composeScalar a b, hA, hP, r, hr => by
    obtain ⟨x, ex, hx⟩ := RSExpr.run_ok hmax h a hA.1
    obtain ⟨y, ey, hy⟩ := RSExpr.run_ok hmax h b hA.2.1
    have px := RSExpr.run_pos hmax h a hA.1 hP.1 x ex
    have py := RSExpr.run_pos hmax h b hA.2.1 hP.2.1 y ey
    simp only [RSExpr.run, ex, ey, bind_ok] at hr
    exact pos_of (Props.C76_compose_rational (K := ℝ) cfg hmax x y _ _ _ _ _ _ hx hy hA.2.2.1 (hP.2.2 y ey) px py hA.2.2.2.2) hr
  | .polyCompose a b, hA, hP, r, hr => by
    obtain ⟨x, ex, hx⟩ := SExpr.run_ok hmax h.poly a hA.1
    obtain ⟨y, ey, hy⟩ := RPExpr.run_ok hmax h b hA.2.1
    have py := RPExpr.run_pos hmax h b hA.2.1 hP y ey
    simp only [RSExpr.run, ex, ey, bind_ok] at hr
    exact pos_of (Props.C76_compose_of_rational (K := ℝ) cfg hmax x y _ _ _ _ _ hx hy hA.2.2.1 (hA.2.2.2.1 y ey) py hA.2.2.2.2) hr
  | .polyComposeScalar a b, hA, hP, r, hr => by
    obtain ⟨x, ex, hx⟩ := SExpr.run_ok hmax h.poly a hA.1
    obtain ⟨y, ey, hy⟩ := RSExpr.run_ok hmax h b hA.2.1
    have py := RSExpr.run_pos hmax h b hA.2.1 hP y ey
    simp only [RSExpr.run, ex, ey, bind_ok] at hr
    exact pos_of (Props.C76_compose_of_rational (K := ℝ) cfg hmax x y _ _ _ _ _ hx hy hA.2.2.1 (hA.2.2.2.1 y ey) py hA.2.2.2.2) hr
  | .mul a b, hA, hP, r, hr => by
    obtain ⟨x, ex, hx⟩ := RSExpr.run_ok hmax h a hA.1
    obtain ⟨y, ey, hy⟩ := RSExpr.run_ok hmax h b hA.2.1
    have px := RSExpr.run_pos hmax h a hA.1 hP.1 x ex
    have py := RSExpr.run_pos hmax h b hA.2.1 hP.2 y ey
    simp only [RSExpr.run, ex, ey, bind_ok] at hr
    exact pos_of (Props.C76_mul cfg hmax (fun x y => x * y) (LinearMap.mul ℝ ℝ) (fun _ _ => rfl) x y _ _ _ _ _ _ hx hy hA.2.2.1 hA.2.2.2 px py) hr
  | .dot a b, hA, hP, r, hr => by
    obtain ⟨x, ex, hx⟩ := RPExpr.run_ok hmax h a hA.1
    obtain ⟨y, ey, hy⟩ := RPExpr.run_ok hmax h b hA.2.1
    have px := RPExpr.run_pos hmax h a hA.1 hP.1 x ex
    have py := RPExpr.run_pos hmax h b hA.2.1 hP.2 y ey
    simp only [RSExpr.run, ex, ey, bind_ok] at hr
    exact pos_of (Props.C76_mul cfg hmax Point.dot (Point.dotB ℝ n) (fun _ _ => rfl) x y _ _ _ _ _ _ hx hy hA.2.2.1 hA.2.2.2 px py) hr

theorem RPExpr.run_pos (hmax : cfg.maxBinom ≤ 68) (h : μ.Of σ) : ∀ (e : RPExpr ℝ n), e.Admissible cfg σ μ → e.Positive cfg σ →
    ∀ r, e.run cfg σ = .ok r → ∀ c ∈ r.wt.cps, 0 < c
  | .leaf i, _, hP, r, hr => by
    simp only [RPExpr.run, pure_eq_ok, Except.ok.injEq] at hr
    subst hr; exact hP
  | .ofSpline a, hA, _, r, hr => by
    obtain ⟨x, ex, hx⟩ := PExpr.run_ok hmax h.poly a hA
    obtain ⟨r', er, hr'⟩ := Props.C35_of_polynomial (K := ℝ) x _ _ hx
    simp only [RPExpr.run, ex, bind_ok] at hr
    obtain rfl := Except.ok.inj (er.symm.trans hr)
    exact (Props.posNet_iff hr').mpr (PosNet.const _ one_pos)
  | .add a b, hA, hP, r, hr => by
    obtain ⟨x, ex, hx⟩ := RPExpr.run_ok hmax h a hA.1
    obtain ⟨y, ey, hy⟩ := RPExpr.run_ok hmax h b hA.2.1
    have px := RPExpr.run_pos hmax h a hA.1 hP.1 x ex
    have py := RPExpr.run_pos hmax h b hA.2.1 hP.2 y ey
    simp only [RPExpr.run, ex, ey, bind_ok] at hr
    exact pos_of (Props.C76_add_sub cfg hmax x y _ _ _ _ _ _ hx hy hA.2.2 px py).1 hr
  | .addAssign a b, hA, hP, r, hr => by
    obtain ⟨x, ex, hx⟩ := RPExpr.run_ok hmax h a hA.1
    obtain ⟨y, ey, hy⟩ := RPExpr.run_ok hmax h b hA.2.1
    have px := RPExpr.run_pos hmax h a hA.1 hP.1 x ex
    have py := RPExpr.run_pos hmax h b hA.2.1 hP.2 y ey
    simp only [RPExpr.run, ex, ey, bind_ok] at hr
    exact pos_of (Props.C76_add_sub cfg hmax x y _ _ _ _ _ _ hx hy hA.2.2 px py).2.1 hr
  | .sub a b, hA, hP, r, hr => by
    obtain ⟨x, ex, hx⟩ := RPExpr.run_ok hmax h a hA.1
    obtain ⟨y, ey, hy⟩ := RPExpr.run_ok hmax h b hA.2.1
    have px := RPExpr.run_pos hmax h a hA.1 hP.1 x ex
    have py := RPExpr.run_pos hmax h b hA.2.1 hP.2 y ey
    simp only [RPExpr.run, ex, ey, bind_ok] at hr
    exact pos_of (Props.C76_add_sub cfg hmax x y _ _ _ _ _ _ hx hy hA.2.2 px py).2.2.1 hr
  | .subAssign a b, hA, hP, r, hr => by
    obtain ⟨x, ex, hx⟩ := RPExpr.run_ok hmax h a hA.1
    obtain ⟨y, ey, hy⟩ := RPExpr.run_ok hmax h b hA.2.1
    have px := RPExpr.run_pos hmax h a hA.1 hP.1 x ex
    have py := RPExpr.run_pos hmax h b hA.2.1 hP.2 y ey
    simp only [RPExpr.run, ex, ey, bind_ok] at hr
    exact pos_of (Props.C76_add_sub cfg hmax x y _ _ _ _ _ _ hx hy hA.2.2 px py).2.2.2 hr
  | .scale a s, hA, hP, r, hr => by
    obtain ⟨x, ex, hx⟩ := RPExpr.run_ok hmax h a hA
    have px := RPExpr.run_pos hmax h a hA hP x ex
    simp only [RPExpr.run, ex, bind_ok] at hr
    exact pos_of (Props.C76_affine x _ _ _ hx px s 0).1 hr
  | .neg a, hA, hP, r, hr => by
    obtain ⟨x, ex, hx⟩ := RPExpr.run_ok hmax h a hA
    have px := RPExpr.run_pos hmax h a hA hP x ex
    simp only [RPExpr.run, ex, bind_ok] at hr
    exact pos_of (Props.C76_affine x _ _ _ hx px 0 0).2.1 hr
  | .addPoint a v, hA, hP, r, hr => by
    obtain ⟨x, ex, hx⟩ := RPExpr.run_ok hmax h a hA
    have px := RPExpr.run_pos hmax h a hA hP x ex
    simp only [RPExpr.run, ex, bind_ok] at hr
    exact pos_of (Props.C76_affine x _ _ _ hx px 0 v).2.2.1 hr
  | .subPoint a v, hA, hP, r, hr => by
    obtain ⟨x, ex, hx⟩ := RPExpr.run_ok hmax h a hA
    have px := RPExpr.run_pos hmax h a hA hP x ex
    simp only [RPExpr.run, ex, bind_ok] at hr
    exact pos_of (Props.C76_affine x _ _ _ hx px 0 v).2.2.2 hr
  | .elevate a d, hA, hP, r, hr => by
    obtain ⟨x, ex, hx⟩ := RPExpr.run_ok hmax h a hA.1
    have px := RPExpr.run_pos hmax h a hA.1 hP x ex
    have e := modify_eq_set' hA.2.1 (· + 1)
    simp only [RPExpr.run, ex, bind_ok] at hr
    exact pos_of (Props.C76_order_elevate (K := ℝ) x _ _ _ hx px d _ (List.getElem?_eq_getElem hA.2.1)
      (by rw [← e]; exact hA.2.2)) hr
  | .splitLeft a z d, hA, hP, r, hr => by
    obtain ⟨x, ex, hx⟩ := RPExpr.run_ok hmax h a hA.1
    have px := RPExpr.run_pos hmax h a hA.1 hP x ex
    obtain ⟨l, l', er, hl, hr'⟩ := Props.C76_split (K := ℝ) x _ _ _ hx px d hA.2.1 z hA.2.2.1 hA.2.2.2
    simp only [RPExpr.run, ex, er, bind_ok, pure_eq_ok, Except.ok.injEq] at hr
    subst hr; exact hl
  | .splitRight a z d, hA, hP, r, hr => by
    obtain ⟨x, ex, hx⟩ := RPExpr.run_ok hmax h a hA.1
    have px := RPExpr.run_pos hmax h a hA.1 hP x ex
    obtain ⟨l, l', er, hl, hr'⟩ := Props.C76_split (K := ℝ) x _ _ _ hx px d hA.2.1 z hA.2.2.1 hA.2.2.2
    simp only [RPExpr.run, ex, er, bind_ok, pure_eq_ok, Except.ok.injEq] at hr
    subst hr; exact hr'
  | .splitPart a zs d i, hA, hP, r, hr => by
    obtain ⟨x, ex, hx⟩ := RPExpr.run_ok hmax h a hA.1
    have px := RPExpr.run_pos hmax h a hA.1 hP x ex
    obtain ⟨l, el, hl⟩ := Props.C76_split_many (K := ℝ) x _ _ _ hx px d hA.2.1 zs hA.2.2.1 hA.2.2.2.1
    simp only [RPExpr.run, ex, el, bind_ok] at hr
    exact hl r (mem_of_rd hr)
  | .deriv a orders, hA, hP, r, hr => by
    obtain ⟨x, ex, hx⟩ := RPExpr.run_ok hmax h a hA.1
    have px := RPExpr.run_pos hmax h a hA.1 hP x ex
    simp only [RPExpr.run, ex, bind_ok] at hr
    exact pos_of (Props.C76_derivative cfg hmax x _ _ _ hx orders hA.2.1 hA.2.2.1 hA.2.2.2 px) hr
  | .composePoly a b, hA, hP, r, hr => by
    obtain ⟨x, ex, hx⟩ := RPExpr.run_ok hmax h a hA.1
    obtain ⟨y, ey, hy⟩ := PExpr.run_ok hmax h.poly b hA.2.1
    have px := RPExpr.run_pos hmax h a hA.1 hP x ex
    simp only [RPExpr.run, ex, ey, bind_ok] at hr
    exact pos_of (Props.C76_compose_polynomial (K := ℝ) cfg hmax x y _ _ _ _ _ hx hy hA.2.2.1 (hA.2.2.2.1 y ey) hA.2.2.2.2 px) hr
  | .composePolyScalar a b, hA, hP, r, hr => by
    obtain ⟨x, ex, hx⟩ := RPExpr.run_ok hmax h a hA.1
    obtain ⟨y, ey, hy⟩ := SExpr.run_ok hmax h.poly b hA.2.1
    have px := RPExpr.run_pos hmax h a hA.1 hP x ex
    simp only [RPExpr.run, ex, ey, bind_ok] at hr
    exact pos_of (Props.C76_compose_polynomial (K := ℝ) cfg hmax x y _ _ _ _ _ hx hy hA.2.2.1 (hA.2.2.2.1 y ey) hA.2.2.2.2 px) hr
  | .compose a b, hA, hP, r, hr => by
    obtain ⟨x, ex, hx⟩ := RPExpr.run_ok hmax h a hA.1
    obtain ⟨y, ey, hy⟩ := RPExpr.run_ok hmax h b hA.2.1
    have px := RPExpr.run_pos hmax h a hA.1 hP.1 x ex
    have py := RPExpr.run_pos hmax h b hA.2.1 hP.2.1 y ey
    simp only [RPExpr.run, ex, ey, bind_ok] at hr
    exact pos_of (Props.C76_compose_rational (K := ℝ) cfg hmax x y _ _ _ _ _ _ hx hy hA.2.2.1 (hP.2.2 y ey) px py hA.2.2.2.2) hr
  | .composeScalar a b, hA, hP, r, hr => by
    obtain ⟨x, ex, hx⟩ := RPExpr.run_ok hmax h a hA.1
    obtain ⟨y, ey, hy⟩ := RSExpr.run_ok hmax h b hA.2.1
    have px := RPExpr.run_pos hmax h a hA.1 hP.1 x ex
    have py := RSExpr.run_pos hmax h b hA.2.1 hP.2.1 y ey
    simp only [RPExpr.run, ex, ey, bind_ok] at hr
    exact pos_of (Props.C76_compose_rational (K := ℝ) cfg hmax x y _ _ _ _ _ _ hx hy hA.2.2.1 (hP.2.2 y ey) px py hA.2.2.2.2) hr
  | .polyCompose a b, hA, hP, r, hr => by
    obtain ⟨x, ex, hx⟩ := PExpr.run_ok hmax h.poly a hA.1
    obtain ⟨y, ey, hy⟩ := RPExpr.run_ok hmax h b hA.2.1
    have py := RPExpr.run_pos hmax h b hA.2.1 hP y ey
    simp only [RPExpr.run, ex, ey, bind_ok] at hr
    exact pos_of (Props.C76_compose_of_rational (K := ℝ) cfg hmax x y _ _ _ _ _ hx hy hA.2.2.1 (hA.2.2.2.1 y ey) py hA.2.2.2.2) hr
  | .polyComposeScalar a b, hA, hP, r, hr => by
    obtain ⟨x, ex, hx⟩ := PExpr.run_ok hmax h.poly a hA.1
    obtain ⟨y, ey, hy⟩ := RSExpr.run_ok hmax h b hA.2.1
    have py := RSExpr.run_pos hmax h b hA.2.1 hP y ey
    simp only [RPExpr.run, ex, ey, bind_ok] at hr
    exact pos_of (Props.C76_compose_of_rational (K := ℝ) cfg hmax x y _ _ _ _ _ hx hy hA.2.2.1 (hA.2.2.2.1 y ey) py hA.2.2.2.2) hr
  | .mulLeft a b, hA, hP, r, hr => by
    obtain ⟨x, ex, hx⟩ := RSExpr.run_ok hmax h a hA.1
    obtain ⟨y, ey, hy⟩ := RPExpr.run_ok hmax h b hA.2.1
    have px := RSExpr.run_pos hmax h a hA.1 hP.1 x ex
    have py := RPExpr.run_pos hmax h b hA.2.1 hP.2 y ey
    simp only [RPExpr.run, ex, ey, bind_ok] at hr
    exact pos_of (Props.C76_mul cfg hmax (fun c v => c • v) (LinearMap.lsmul ℝ (Point ℝ n)) (fun _ _ => rfl) x y _ _ _ _ _ _ hx hy hA.2.2.1 hA.2.2.2 px py) hr
  | .mulRight a b, hA, hP, r, hr => by
    obtain ⟨x, ex, hx⟩ := RPExpr.run_ok hmax h a hA.1
    obtain ⟨y, ey, hy⟩ := RSExpr.run_ok hmax h b hA.2.1
    have px := RPExpr.run_pos hmax h a hA.1 hP.1 x ex
    have py := RSExpr.run_pos hmax h b hA.2.1 hP.2 y ey
    simp only [RPExpr.run, ex, ey, bind_ok] at hr
    exact pos_of (Props.C76_mul cfg hmax (fun v c => c • v) (LinearMap.lsmul ℝ (Point ℝ n)).flip (fun _ _ => rfl) x y _ _ _ _ _ _ hx hy hA.2.2.1 hA.2.2.2 px py) hr
end

end Bezman
