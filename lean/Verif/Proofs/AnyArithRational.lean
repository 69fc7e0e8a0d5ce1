import Verif.Proofs.AnyArith
import Verif.Proofs.ParamRExpr
import Verif.Spec.AnyArithRational
import Verif.Props.History

set_option linter.unusedSectionVars false

/-! # Outcomes of rational operations and programs that do not depend on the arithmetic -/

namespace Bezman
open Spec Props

attribute [local instance] parAny parScalarAny parPointAny parOrdAny

variable {K V W U : Type} [Zero K] [One K] [Add K] [Sub K] [Mul K] [Neg K] [Div K] [NatCast K]
  [Zero V] [Add V] [Sub V] [Neg V] [SMul K V] [Zero U] [Add U] [Sub U] [Neg U] [SMul K U]

/-- a real rational spline of the same shape, with weights one -/
noncomputable def RSpline.ghost {K V : Type} (r : RSpline K V) : RSpline ℝ ℝ :=
  ⟨r.num.ghost, ⟨r.wt.degrees, r.wt.ncp, r.wt.offsets, List.replicate r.wt.cps.length 1⟩⟩

theorem RSpline.ghost_rel {K V : Type} (r : RSpline K V) : r ≋ r.ghost :=
  ⟨r.num.ghost_rel, rfl, rfl, rfl, forall₂_any (by simp [RSpline.ghost])⟩

theorem RSpline.ghost_shape {K V : Type} {r : RSpline K V} {ds : List ℕ} (h : HasRShape ds r) : HasRShape ds r.ghost :=
  ⟨⟨Spline.ghost_wf h.1.1, h.1.2⟩, ⟨h.2.1.1, h.2.1.2, h.2.1.3, by simpa [RSpline.ghost] using h.2.1.4⟩, h.2.2⟩

theorem HasShape.computes' {V : Type} [AddCommGroup V] [Module ℝ V] {s : Spline V} {ds : List ℕ} (h : HasShape ds s) :
    s.Computes ds (fun t : List ℝ => s.value t) := by
  obtain ⟨h, rfl⟩ := h
  exact h.computes

theorem HasRShape.computes' {V : Type} [AddCommGroup V] [Module ℝ V] [ScalarDiv ℝ V] [LawfulScalarDiv ℝ V] {r : RSpline ℝ V} {ds : List ℕ}
    (h : HasRShape ds r) : r.Computes ds (fun t : List ℝ => (r.wt.value t)⁻¹ • r.num.value t) (fun t : List ℝ => r.wt.value t) :=
  RSpline.computes_of (HasShape.computes' h.1) (HasShape.computes' h.2)

theorem RSpline.Computes.rshape {V : Type} [AddCommGroup V] [Module ℝ V] [ScalarDiv ℝ V] {r : RSpline ℝ V} {ds : List ℕ} {f : List ℝ → V}
    {w : List ℝ → ℝ} (h : r.Computes ds f w) : HasRShape ds r := ⟨⟨h.num_wf, h.num_degrees⟩, h.wt_wf, h.wt_degrees⟩

theorem rshape_of_rel {K' V' : Type} [Par K K'] [Par V V'] {r : RSpline K V} {r' : RSpline K' V'} (h : r ≋ r') {ds : List ℕ}
    (h' : HasRShape ds r') : HasRShape ds r := ⟨shape_of_rel h.1 h'.1, shape_of_rel h.2 h'.2⟩

theorem rreturns_of {x : M (RSpline K V)} {y : M (RSpline ℝ ℝ)} (h : RelM strict x y) {ds : List ℕ} {f w : List ℝ → ℝ}
    (hy : ∃ r, y = .ok r ∧ r.Computes ds f w) : RReturns ds x := by
  obtain ⟨r, rfl, hr⟩ := hy
  cases h with
  | ok h => exact ⟨_, rfl, rshape_of_rel h hr.rshape⟩
  | left _ _ h => cases h

namespace RSpline

theorem ghost_computes {r : RSpline K V} {ds : List ℕ} (h : HasRShape ds r) :
    r.ghost.Computes ds (fun t : List ℝ => (r.ghost.wt.value t)⁻¹ • r.ghost.num.value t) (fun t : List ℝ => r.ghost.wt.value t) :=
  HasRShape.computes' (ghost_shape h)

theorem ofSplines_returns {n : Spline V} {w : Spline K} {ds : List ℕ} (hn : HasShape ds n) (hw : HasShape ds w) : RReturns ds (ofSplines n w) :=
  ⟨_, ofSplines_ok (hn.2.trans hw.2.symm), hn, hw⟩

theorem ofSpline_returns {s : Spline V} {ds : List ℕ} (hs : HasShape ds s) : RReturns ds (ofSpline (K := K) s) :=
  rreturns_of (parOfSpline s.ghost_rel) (C35_of_polynomial (K := ℝ) _ _ _ (Spline.ghost_computes hs))

theorem negOp_returns {r : RSpline K V} {ds : List ℕ} (h : HasRShape ds r) : RReturns ds r.negOp := by
  obtain ⟨n, e, hn⟩ := Spline.negOp_returns h.1
  unfold negOp; rw [e]
  exact ofSplines_returns hn h.2

theorem smulOp_returns {r : RSpline K V} {ds : List ℕ} (h : HasRShape ds r) (c : K) : RReturns ds (r.smulOp c) := by
  obtain ⟨n, e, hn⟩ := Spline.smulOp_returns h.1 c
  unfold smulOp; rw [e]
  exact ofSplines_returns hn h.2

theorem smulAssign_returns {r : RSpline K V} {ds : List ℕ} (h : HasRShape ds r) (c : K) : RReturns ds (r.smulAssign c) := by
  obtain ⟨n, e, hn⟩ := Spline.smulOp_returns h.1 c
  unfold smulAssign; rw [e]
  exact ⟨⟨n, r.wt⟩, by rw [bind_ok, assert_compatible (hn.2.trans h.2.2.symm)]; rfl, hn, h.2⟩

theorem addPoint_returns {r : RSpline K V} {ds : List ℕ} (h : HasRShape ds r) (v : V) :
    RReturns ds (r.addPoint v) ∧ RReturns ds (r.addPointAssign v) := by
  obtain ⟨x, h1, h2, h3⟩ := C39_add_point (K := ℝ) _ _ _ _ (ghost_computes h) 0
  exact ⟨rreturns_of (parRAddPoint r.ghost_rel (trivial : v ≋ (0 : ℝ))) ⟨x, h1, h3⟩,
    rreturns_of (parRAddPointAssign r.ghost_rel (trivial : v ≋ (0 : ℝ))) ⟨x, h2, h3⟩⟩

theorem subPoint_returns {r : RSpline K V} {ds : List ℕ} (h : HasRShape ds r) (v : V) :
    RReturns ds (r.subPoint v) ∧ RReturns ds (r.subPointAssign v) := by
  obtain ⟨x, h1, h2, h3⟩ := C39_sub_point (K := ℝ) _ _ _ _ (ghost_computes h) 0
  exact ⟨rreturns_of (parRSubPoint r.ghost_rel (trivial : v ≋ (0 : ℝ))) ⟨x, h1, h3⟩,
    rreturns_of (parRSubPointAssign r.ghost_rel (trivial : v ≋ (0 : ℝ))) ⟨x, h2, h3⟩⟩

theorem orderElevate_returns {r : RSpline K V} {ds : List ℕ} (h : HasRShape ds r) {d : ℕ} (hd : d < ds.length)
    (hs : size (ds.modify d (· + 1)) < 2 ^ 31) : RReturns (ds.modify d (· + 1)) (r.orderElevate d) := by
  obtain ⟨n, e, hn⟩ := Spline.orderElevate_returns (K := K) h.1 hd hs
  obtain ⟨w, e', hw⟩ := Spline.orderElevate_returns (K := K) h.2 hd hs
  unfold orderElevate; rw [e, bind_ok, e', bind_ok, assert_compatible (hn.2.trans hw.2.symm)]
  exact ⟨_, rfl, hn, hw⟩

theorem derivativeSpline_returns (cfg : Cfg) (hmax : cfg.maxBinom ≤ 68) {r : RSpline K V} {ds : List ℕ} (h : HasRShape ds r) {orders : List ℕ}
    (hl : orders.length = ds.length) (hpos : ∀ d o p : ℕ, orders[d]? = some o → ds[d]? = some p → 1 ≤ o → 1 ≤ p)
    (hfit : DerivFits cfg ds orders.sum) : RReturns (ds.map (· * 2 ^ orders.sum)) (r.derivativeSpline cfg orders) :=
  rreturns_of (parRDerivativeSpline cfg r.ghost_rel orders)
    (C41_derivative_spline (𝕜 := ℝ) cfg hmax _ _ _ _ (ghost_computes h) orders hl hpos hfit)

theorem mulOp_returns (cfg : Cfg) (hmax : cfg.maxBinom ≤ 68) (mul : V → W → U) {a : RSpline K V} {b : RSpline K W} {da db : List ℕ}
    (ha : HasRShape da a) (hb : HasRShape db b) (hdim : db.length = da.length) (hdeg : ∀ p ∈ sumDegrees da db, p < cfg.maxBinom) :
    RReturns (sumDegrees da db) (mulOp cfg mul a b) := by
  obtain ⟨n, e, hn⟩ := Spline.mulOp_returns (K := K) cfg hmax mul ha.1 hb.1 hdim hdeg
  obtain ⟨w, e', hw⟩ := Spline.mulOp_returns (K := K) cfg hmax (fun x y : K => x * y) ha.2 hb.2 hdim hdeg
  unfold mulOp Spline.mulScalar; rw [e, bind_ok, e', bind_ok]
  exact ofSplines_returns hn hw

/-- what a sum or difference returns -/
def SumShape (a b : RSpline K V) [BEq K] (da db : List ℕ) (x : M (RSpline K V)) : Prop :=
  (a.wt.eqOp b.wt = true ∧ da = db ∧ RReturns da x) ∨ (a.wt.eqOp b.wt = false ∧ RReturns (sumDegrees da db) x)

theorem sum_returns [BEq K] (cfg : Cfg) (hmax : cfg.maxBinom ≤ 68) {a b : RSpline K V} {da db : List ℕ} (ha : HasRShape da a)
    (hb : HasRShape db b) (h : RFits cfg da db) :
    SumShape a b da db (addOp cfg a b) ∧ SumShape a b da db (addAssign cfg a b) ∧
      SumShape a b da db (subOp cfg a b) ∧ SumShape a b da db (subAssign cfg a b) := by
  have hself : ∀ {p q : List ℕ} (d k l : ℕ), p = q → p[d]? = some k → q[d]? = some l → l ≤ k := by
    rintro p q d k l rfl h1 h2
    rw [h1] at h2
    exact (Option.some.inj h2).ge
  cases e : a.wt.eqOp b.wt with
  | true =>
    obtain rfl : da = db := by rw [← ha.2.2, ← hb.2.2]; exact ((C34_pointwise a.wt b.wt).mp e).1
    have hf : Fits cfg da da :=
      fits_self (le_sumDegrees h.dims _ h.rounds) h.rounds2 (lt_of_le_of_lt (size_le_sumDegrees h.dims) h.small)
    have hm := maxDegrees_self da
    obtain ⟨n1, e1, h1⟩ := Spline.addOp_returns (K := K) cfg ha.1 hb.1 hf
    obtain ⟨n2, e2, h2⟩ := Spline.addAssign_returns (K := K) cfg ha.1 hb.1 hf
    obtain ⟨n3, e3, h3⟩ := Spline.subOp_returns (K := K) cfg ha.1 hb.1 hf fun d p q => hself d p q rfl
    obtain ⟨n4, e4, h4⟩ := Spline.subAssign_returns (K := K) cfg ha.1 hb.1 hf
    rw [hm] at h1 h2 h3 h4
    unfold addOp addAssign subOp subAssign
    simp only [e, if_true, e1, e2, e3, e4, bind_ok]
    exact ⟨.inl ⟨e, rfl, ofSplines_returns h1 ha.2⟩, .inl ⟨e, rfl, _, rfl, h2, ha.2⟩, .inl ⟨e, rfl, ofSplines_returns h3 ha.2⟩,
      .inl ⟨e, rfl, _, rfl, h4, ha.2⟩⟩
  | false =>
    have hf : Fits cfg (sumDegrees da db) (sumDegrees da db) := fits_self h.rounds h.rounds2 h.small
    have hm := maxDegrees_self (sumDegrees da db)
    obtain ⟨x, ex, hx⟩ := Spline.mulOp_returns (K := K) cfg hmax (fun (x : V) (c : K) => c • x) ha.1 hb.2 h.dims h.degs
    obtain ⟨y, ey, hy⟩ := Spline.mulOp_returns (K := K) cfg hmax (fun (c : K) (x : V) => c • x) ha.2 hb.1 h.dims h.degs
    obtain ⟨w, ew, hw⟩ := Spline.mulOp_returns (K := K) cfg hmax (fun x y : K => x * y) ha.2 hb.2 h.dims h.degs
    obtain ⟨n1, e1, h1⟩ := Spline.addOp_returns (K := K) cfg hx hy hf
    obtain ⟨n2, e2, h2⟩ := Spline.addAssign_returns (K := K) cfg hx hy hf
    obtain ⟨n3, e3, h3⟩ := Spline.subOp_returns (K := K) cfg hx hy hf fun d p q => hself d p q rfl
    obtain ⟨n4, e4, h4⟩ := Spline.subAssign_returns (K := K) cfg hx hy hf
    rw [hm] at h1 h2 h3 h4
    unfold addOp addAssign subOp subAssign mulWeight mulWeight' Spline.mulScalar
    simp only [e, Bool.false_eq_true, if_false, ex, ey, ew, e1, e2, e3, e4, bind_ok, assert_compatible (h2.2.trans hw.2.symm),
      assert_compatible (h4.2.trans hw.2.symm)]
    exact ⟨.inr ⟨e, ofSplines_returns h1 hw⟩, .inr ⟨e, _, rfl, h2, hw⟩, .inr ⟨e, ofSplines_returns h3 hw⟩, .inr ⟨e, _, rfl, h4, hw⟩⟩

section
variable [LT K] [DecidableLT K]

theorem splitAt_shape {r : RSpline K V} {ds : List ℕ} (h : HasRShape ds r) {d : ℕ} (hd : d < ds.length) (z : K) :
    (¬ (0 < z ∧ z < 1) ∧ r.splitAt z d = .error .throws) ∨
      (0 < z ∧ z < 1) ∧ ∃ a b, r.splitAt z d = .ok (a, b) ∧ HasRShape ds a ∧ HasRShape ds b := by
  rcases Spline.splitAt_shape h.1 hd z with ⟨hz, e⟩ | ⟨hz, l, q, e, hl, hq⟩
  · refine .inl ⟨hz, ?_⟩
    unfold splitAt; rw [e]; rfl
  · rcases Spline.splitAt_shape h.2 hd z with ⟨hz', -⟩ | ⟨-, l', q', e', hl', hq'⟩
    · exact absurd hz hz'
    · refine .inr ⟨hz, ⟨l, l'⟩, ⟨q, q'⟩, ?_, ⟨hl, hl'⟩, hq, hq'⟩
      unfold splitAt
      rw [e, bind_ok, e', bind_ok, ofSplines_ok (hl.2.trans hl'.2.symm), bind_ok, ofSplines_ok (hq.2.trans hq'.2.symm)]
      rfl

theorem splitAtMany_shape {r : RSpline K V} {ds : List ℕ} (h : HasRShape ds r) {d : ℕ} (hd : d < ds.length) (zs : List K) :
    r.splitAtMany zs d = .error .throws ∨
      ∃ l, r.splitAtMany zs d = .ok l ∧ l.length = zs.length + 1 ∧ ∀ x ∈ l, HasRShape ds x := by
  let zs' : List ℝ := List.ofFn fun i : Fin zs.length => ((i : ℕ) + 1 : ℝ) / (zs.length + 1)
  have hpos : (0 : ℝ) < zs.length + 1 := by positivity
  obtain ⟨l, e, hl, hr⟩ := C40_split_many (K := ℝ) _ _ _ _ (ghost_computes h) d hd zs' (by
      rw [List.pairwise_ofFn]
      intro i j hij
      have : ((i : ℕ) : ℝ) < (j : ℕ) := by exact_mod_cast hij
      gcongr) (by
      intro z hz
      obtain ⟨i, rfl⟩ := (List.mem_ofFn' _ _).mp hz
      have : ((i : ℕ) : ℝ) < zs.length := by exact_mod_cast i.isLt
      refine ⟨by positivity, ?_⟩
      rw [div_lt_one hpos]
      linarith)
  have hzl : zs'.length = zs.length := by simp [zs']
  have h : RelM mayThrow (r.splitAtMany zs d) (r.ghost.splitAtMany zs' d) :=
    parRSplitAtMany r.ghost_rel ⟨forall₂_any hzl.symm, fun _ _ _ _ _ _ _ _ _ => trivial⟩ d
  rw [e] at h
  generalize r.splitAtMany zs d = x at h
  cases h with
  | ok h =>
    refine .inr ⟨_, rfl, by rw [List.Forall₂.length_eq h, hl, hzl], fun x hx => ?_⟩
    obtain ⟨i, hi, rfl⟩ := List.mem_iff_getElem.mp hx
    have hi' : i < l.length := by rw [← List.Forall₂.length_eq h]; exact hi
    refine rshape_of_rel (List.Forall₂.get h hi hi') (?_ : HasRShape ds l[i])
    exact (hr i _ _ _ (List.getElem?_eq_getElem hi') (getD_knots zs' (by omega)) (getD_knots zs' (by omega))).rshape
  | left e _ h => exact .inl (by rw [show e = .throws from by simpa [mayThrow] using h])

theorem compose_shape [Coords K W] (cfg : Cfg) (hmax : cfg.maxBinom ≤ 68) {a : RSpline K V} {b : Spline W} {da db : List ℕ} (ha : HasRShape da a)
    (hb : HasShape db b) (hdim : da.length = Coords.n K W) (hf : ComposeFits cfg da db) :
    (Spline.fitsIntoUnitCube K b = .ok false ∧ a.compose cfg b = .error .throws) ∨
      Spline.fitsIntoUnitCube K b = .ok true ∧ RReturns (db.map (fun q => da.sum * q)) (a.compose cfg b) := by
  rcases Spline.compose_shape (K := K) cfg hmax ha.1 hb hdim hf.outer hf.result with ⟨h1, h2⟩ | ⟨h1, n, e, hn⟩
  · exact .inl ⟨h1, by unfold compose; rw [h2]; rfl⟩
  · rcases Spline.compose_shape (K := K) cfg hmax ha.2 hb hdim hf.outer hf.result with ⟨h1', h2⟩ | ⟨-, w, e', hw⟩
    · rw [h1] at h1'; cases h1'
    · refine .inr ⟨h1, ?_⟩
      unfold compose; rw [e, bind_ok, e', bind_ok]
      exact ofSplines_returns hn hw

end

/-- a point of the origin and weight one -/
noncomputable def ghostP (K : Type) {W : Type} [Coords K W] (r : RSpline K W) : RSpline ℝ (Point ℝ (Coords.n K W)) :=
  ⟨⟨r.num.degrees, r.num.ncp, r.num.offsets, List.replicate r.num.cps.length 0⟩,
    ⟨r.wt.degrees, r.wt.ncp, r.wt.offsets, List.replicate r.wt.cps.length 1⟩⟩

section
variable [Coords K W]

theorem ghostP_shape {r : RSpline K W} {ds : List ℕ} (h : HasRShape ds r) : HasRShape ds (ghostP K r) :=
  ⟨⟨⟨h.1.1.1, h.1.1.2, h.1.1.3, by simpa [ghostP] using h.1.1.4⟩, h.1.2⟩, ⟨h.2.1.1, h.2.1.2, h.2.1.3, by simpa [ghostP] using h.2.1.4⟩, h.2.2⟩

theorem numerator_returns (cfg : Cfg) (hmax : cfg.maxBinom ≤ 68) {a : Spline V} {b : RSpline K W} {da db : List ℕ} (ha : HasShape da a)
    (hb : HasRShape db b) (hdim : da.length = Coords.n K W) (hf : ComposeFits cfg da db) :
    Returns (db.map (fun q => da.sum * q)) (a.composeNumeratorRational cfg b) := by
  let P : Par W (Point ℝ (Coords.n K W)) := ⟨fun _ _ => True⟩
  have i1 : ParCoords K ℝ W (Point ℝ (Coords.n K W)) := ⟨rfl, fun _ _ _ _ => trivial, fun _ => trivial⟩
  have hr : b ≋ ghostP K b := ⟨⟨rfl, rfl, rfl, forall₂_any (by simp [ghostP])⟩, rfl, rfl, rfl, forall₂_any (by simp [ghostP])⟩
  have hc := HasRShape.computes' (ghostP_shape hb)
  obtain ⟨r, hr1, -⟩ := C29_compose_rational (K := ℝ) cfg hmax ⟨a.ghost, a.ghost⟩ (ghostP K b) da db _ _ _ _
    (HasRShape.computes' ⟨⟨Spline.ghost_wf ha.1, ha.2⟩, Spline.ghost_wf ha.1, ha.2⟩) hc hdim hf
  obtain ⟨r', hr2, h1, -, h2, -⟩ := C29_compose_rational (K := ℝ) cfg hmax ⟨a.ghost, a.ghost⟩ (ghostP K b) da db _ _ _ _
    (HasRShape.computes' ⟨⟨Spline.ghost_wf ha.1, ha.2⟩, Spline.ghost_wf ha.1, ha.2⟩) hc hdim hf
  obtain rfl : r = r' := by rw [hr1] at hr2; exact Except.ok.inj hr2
  have key : RelM strict (a.composeNumeratorRational cfg b) (a.ghost.composeNumeratorRational cfg (ghostP K b)) :=
    parComposeNumeratorRational cfg a.ghost_rel hr
  unfold RSpline.composeRational at hr1
  obtain ⟨n, e1, hr1⟩ := bind_eq_ok.mp hr1
  obtain ⟨d, e2, hr1⟩ := bind_eq_ok.mp hr1
  unfold ofSplines at hr1
  obtain ⟨u, -, hr1⟩ := bind_eq_ok.mp hr1
  obtain rfl := Except.ok.inj hr1
  rw [e1] at key
  generalize a.composeNumeratorRational cfg b = x at key
  cases key with
  | ok h => exact ⟨_, rfl, shape_of_rel h ⟨h1, h2⟩⟩
  | left _ _ h => cases h

theorem composeRational_returns (cfg : Cfg) (hmax : cfg.maxBinom ≤ 68) {a : RSpline K V} {b : RSpline K W} {da db : List ℕ} (ha : HasRShape da a)
    (hb : HasRShape db b) (hdim : da.length = Coords.n K W) (hf : ComposeFits cfg da db) :
    RReturns (db.map (fun q => da.sum * q)) (a.composeRational cfg b) := by
  obtain ⟨n, e, hn⟩ := numerator_returns cfg hmax ha.1 hb hdim hf
  obtain ⟨w, e', hw⟩ := numerator_returns cfg hmax ha.2 hb hdim hf
  unfold composeRational; rw [e, bind_ok, e', bind_ok]
  exact ofSplines_returns hn hw

end

section
variable [BEq K] [ScalarDiv K W]

/-- a loop whose rounds return or fail depending on the round only -/
theorem loop_all_or {σ : Type} {n : ℕ} {f : ℕ → σ → M σ} {P : ℕ → Prop} [DecidablePred P] {e : Err} {s : σ}
    (h1 : ∀ k < n, P k → ∀ s, ∃ s', f k s = .ok s') (h2 : ∀ k < n, ¬ P k → ∀ s, f k s = .error e) :
    ((∀ k < n, P k) → ∃ s', loop n f s = .ok s') ∧ ((∃ k < n, ¬ P k) → loop n f s = .error e) := by
  induction n with
  | zero => exact ⟨fun _ => ⟨s, rfl⟩, by rintro ⟨k, hk, -⟩; omega⟩
  | succ n ih =>
    have ih := ih (fun k hk => h1 k (by omega)) fun k hk => h2 k (by omega)
    constructor
    · intro h
      obtain ⟨s', e'⟩ := ih.1 fun k hk => h k (by omega)
      rw [loop_succ, e']
      exact h1 n (by omega) (h n (by omega)) s'
    · rintro ⟨k, hk, hP⟩
      by_cases hall : ∀ k < n, P k
      · obtain ⟨s', e'⟩ := ih.1 hall
        obtain rfl : k = n := by
          by_contra hne
          exact hP (hall k (by omega))
        rw [loop_succ, e']
        exact h2 k (by omega) hP s'
      · push_neg at hall
        rw [loop_succ, ih.2 hall]; rfl

theorem controlPoint_outcome {r : RSpline K W} {ds : List ℕ} (h : HasRShape ds r) {idx : List ℕ} (hi : ValidIdx ds idx) :
    ∃ w, r.weight idx = .ok w ∧ w ∈ r.wt.cps ∧
      ((w == 0) = true → r.controlPoint idx = .error .divZero) ∧ ((w == 0) = false → ∃ x, r.controlPoint idx = .ok x) := by
  obtain ⟨⟨hn, rfl⟩, hw, hwd⟩ := h
  have h1 : flatIndex r.num.degrees idx < r.num.cps.length := by rw [hn.cps_len]; exact flatIndex_lt hi
  have h2 : flatIndex r.num.degrees idx < r.wt.cps.length := by rw [hw.cps_len, hwd]; exact flatIndex_lt hi
  have e1 : r.num.controlPoint idx = .ok r.num.cps[flatIndex r.num.degrees idx] := by
    unfold Spline.controlPoint
    rw [Spline.globalToLocal_ok hn hi.length, bind_ok, rd_getElem h1]
  have e2 : r.wt.controlPoint idx = .ok r.wt.cps[flatIndex r.num.degrees idx] := by
    unfold Spline.controlPoint
    rw [Spline.globalToLocal_ok hw (by unfold Spline.dim; rw [hwd]; exact hi.length), bind_ok, hwd, rd_getElem h2]
  refine ⟨_, e2, List.getElem_mem _, fun h0 => ?_, fun h0 => ?_⟩
  · unfold controlPoint divM
    rw [e1, bind_ok, e2, bind_ok, if_pos h0]
  · unfold controlPoint divM
    rw [e1, bind_ok, e2, bind_ok, h0]
    exact ⟨_, rfl⟩

variable [Coords K W]

theorem corner_outcome {r : RSpline K W} {ds : List ℕ} (h : HasRShape ds r) (pick : K → K → K) :
    ((∀ w ∈ r.wt.cps, (w == 0) = false) → ∃ m, corner pick r = .ok m) ∧
    ((∃ w ∈ r.wt.cps, (w == 0) = true) → corner pick r = .error .divZero) := by
  have hn := h.1.1
  have hw := h.2.1
  have hd : r.num.degrees = r.wt.degrees := h.1.2.trans h.2.2.symm
  have hnc : r.num.ncp = size r.num.degrees := hn.ncp_eq
  have hpos := size_pos r.num.degrees
  have hl : r.wt.cps.length = r.num.ncp := by rw [hw.cps_len, ← hd, hnc]
  have hl' : r.num.cps.length = r.num.ncp := by rw [hn.cps_len, hnc]
  have hi : ValidIdx r.num.degrees (unflat r.wt.degrees 0) := by rw [hd]; exact unflat_valid _ _
  have e0 : flatIndex r.num.degrees (unflat r.wt.degrees 0) = 0 := by rw [hd, flatIndex_unflat (size_pos _)]
  have hcp : r.controlPoint (unflat r.wt.degrees 0) = divM (r.num.cps[0]'(by omega)) (r.wt.cps[0]'(by omega)) := by
    unfold controlPoint Spline.controlPoint
    rw [Spline.globalToLocal_ok hn hi.length, Spline.globalToLocal_ok hw (by simp [Spline.dim])]
    simp only [bind_ok]
    rw [e0, flatIndex_unflat (size_pos _), rd_getElem (by omega), rd_getElem (by omega)]
    rfl
  have hl0 : r.localToGlobal 0 = .ok (unflat r.wt.degrees 0) := by unfold localToGlobal; exact Spline.localToGlobal_ok hw 0
  have key := fun m => loop_all_or (n := r.num.ncp - 1) (s := m) (e := .divZero) (P := fun k => (r.wt.cps.getD (1 + k) 0 == 0) = false)
    (f := fun k (m : W) => do
      let x ← rd r.num.cps (1 + k)
      let w ← rd r.wt.cps (1 + k)
      let c ← divM x w
      pure (Coords.ofCoords (K := K) fun j => pick (Coords.coord m j) (Coords.coord c j)))
    (by
      intro k hk hP m
      have hg : r.wt.cps.getD (1 + k) 0 = r.wt.cps[1 + k]'(by omega) := by
        rw [List.getD_eq_getElem?_getD, List.getElem?_eq_getElem (by omega)]; rfl
      rw [rd_getElem (by omega), bind_ok, rd_getElem (by omega), bind_ok]
      unfold divM
      rw [← hg, hP]
      exact ⟨_, rfl⟩)
    (by
      intro k hk hP m
      have hg : r.wt.cps.getD (1 + k) 0 = r.wt.cps[1 + k]'(by omega) := by
        rw [List.getD_eq_getElem?_getD, List.getElem?_eq_getElem (by omega)]; rfl
      rw [rd_getElem (by omega), bind_ok, rd_getElem (by omega), bind_ok]
      unfold divM
      rw [← hg, if_pos (by simpa using hP)]
      rfl)
  unfold corner
  rw [if_neg (by omega), hl0, bind_ok, hcp]
  constructor
  · intro hall
    unfold divM
    rw [hall _ (List.getElem_mem _)]
    refine (key _).1 fun k hk => ?_
    rw [List.getD_eq_getElem?_getD, List.getElem?_eq_getElem (by omega)]
    exact hall _ (List.getElem_mem _)
  · rintro ⟨w, hmem, h0⟩
    obtain ⟨i, hi, rfl⟩ := List.mem_iff_getElem.mp hmem
    cases hz : (r.wt.cps[0]'(by omega) == 0) with
    | true => unfold divM; rw [if_pos hz]; rfl
    | false =>
      unfold divM
      rw [hz]
      have hi0 : i ≠ 0 := by rintro rfl; rw [hz] at h0; cases h0
      refine (key _).2 ⟨i - 1, by omega, ?_⟩
      rw [List.getD_eq_getElem?_getD, show 1 + (i - 1) = i from by omega, List.getElem?_eq_getElem (by omega)]
      show ¬ (r.wt.cps[i] == 0) = false
      rw [h0]; simp

variable [LT K] [DecidableLT K]

theorem fits_outcome {r : RSpline K W} {ds : List ℕ} (h : HasRShape ds r) :
    ((∀ w ∈ r.wt.cps, (w == 0) = false) → ∃ b, r.fitsIntoUnitCube = .ok b) ∧
    ((∃ w ∈ r.wt.cps, (w == 0) = true) → r.fitsIntoUnitCube = .error .divZero) := by
  constructor
  · intro h0
    obtain ⟨m, hm⟩ := (corner_outcome h Spline.stdMax).1 h0
    obtain ⟨m', hm'⟩ := (corner_outcome h Spline.stdMin).1 h0
    unfold fitsIntoUnitCube maximumCorner minimumCorner
    rw [hm, bind_ok, hm', bind_ok]
    exact ⟨_, rfl⟩
  · intro h0
    unfold fitsIntoUnitCube maximumCorner
    rw [(corner_outcome h Spline.stdMax).2 h0]
    rfl

theorem polyCompose_shape (cfg : Cfg) (hmax : cfg.maxBinom ≤ 68) {a : Spline V} {b : RSpline K W} {da db : List ℕ} (ha : HasShape da a)
    (hb : HasRShape db b) (hdim : da.length = Coords.n K W) (hf : ComposeFits cfg da db) :
    ((∃ w ∈ b.wt.cps, (w == 0) = true) ∧ a.composeRational cfg b = .error .divZero) ∨
    (b.fitsIntoUnitCube = .ok false ∧ a.composeRational cfg b = .error .throws) ∨
    b.fitsIntoUnitCube = .ok true ∧ RReturns (db.map (fun q => da.sum * q)) (a.composeRational cfg b) := by
  by_cases h0 : ∃ w ∈ b.wt.cps, (w == 0) = true
  · refine .inl ⟨h0, ?_⟩
    unfold Spline.composeRational
    rw [(fits_outcome hb).2 h0]; rfl
  · obtain ⟨c, hc⟩ := (fits_outcome hb).1 (by
      intro w hw
      cases e : w == 0 with
      | true => exact absurd ⟨w, hw, e⟩ h0
      | false => rfl)
    cases c with
    | false => exact .inr (.inl ⟨hc, by unfold Spline.composeRational; rw [hc]; rfl⟩)
    | true =>
      refine .inr (.inr ⟨hc, ?_⟩)
      obtain ⟨n, e, hn⟩ := numerator_returns cfg hmax ha hb hdim hf
      obtain ⟨w, e', hw⟩ := Spline.raisePower_returns cfg hmax hb.2 da.sum hf.result
      unfold Spline.composeRational Spline.composeDenominator
      rw [hc, bind_ok]
      simp only [Bool.not_true, Bool.false_eq_true, if_false]
      rw [e, bind_ok, ha.2, e', bind_ok]
      exact ofSplines_returns hn hw

end

theorem evaluate_outcome [BEq K] [ScalarDiv K V] {r : RSpline K V} {ds : List ℕ} (h : HasRShape ds r) (t : List K) (ht : t.length = ds.length) :
    ∃ w, r.wt.evaluate t = .ok w ∧ ((w == 0) = true → r.evaluate t = .error .divZero) ∧ ((w == 0) = false → ∃ x, r.evaluate t = .ok x) := by
  obtain ⟨x, ex⟩ := Spline.evaluate_returns h.1 t ht
  obtain ⟨w, ew⟩ := Spline.evaluate_returns h.2 t ht
  refine ⟨w, ew, fun h0 => ?_, fun h0 => ?_⟩ <;> (unfold evaluate divM; rw [ex, bind_ok, ew, bind_ok])
  · rw [if_pos h0]
  · rw [h0]; exact ⟨_, rfl⟩

end RSpline

theorem ROutcome.bind {V W : Type} {S T : Set (List ℕ)} {x : M (RSpline K V)} {f : RSpline K V → M (RSpline K W)} (h : ROutcome S x)
    (hf : ∀ ds ∈ S, ∀ r, HasRShape ds r → ROutcome T (f r)) : ROutcome T (x >>= f) := by
  rcases h with rfl | rfl | ⟨ds, hds, r, rfl, hr⟩
  · exact .inl rfl
  · exact .inr (.inl rfl)
  · exact hf ds hds r hr

theorem ROutcome.bind' {V W : Type} {ds : List ℕ} {T : Set (List ℕ)} {x : M (Spline V)} {f : Spline V → M (RSpline K W)}
    (h : ReturnsOrThrows ds x) (hf : ∀ r, HasShape ds r → ROutcome T (f r)) : ROutcome T (x >>= f) := by
  rcases h with rfl | ⟨r, rfl, hr⟩
  · exact .inl rfl
  · exact hf r hr

theorem Spec.RReturns.outcome {V : Type} {S : Set (List ℕ)} {ds : List ℕ} {x : M (RSpline K V)} (h : RReturns ds x) (hds : ds ∈ S) : ROutcome S x :=
  .inr (.inr ⟨ds, hds, h⟩)

theorem RSpline.SumShape.outcome [BEq K] {a b : RSpline K V} {da db : List ℕ} {x : M (RSpline K V)} (h : RSpline.SumShape a b da db x)
    {S T : Set (List ℕ)} (ha : da ∈ S) (hb : db ∈ T) : ROutcome {x | ∃ p ∈ S, ∃ q ∈ T, x = sumDegrees p q ∨ p = q ∧ x = p} x := by
  rcases h with ⟨-, rfl, h⟩ | ⟨-, h⟩
  · exact h.outcome ⟨_, ha, _, hb, .inr ⟨rfl, rfl⟩⟩
  · exact h.outcome ⟨_, ha, _, hb, .inl rfl⟩

section
variable {n : ℕ} [LT K] [DecidableLT K] [BEq K] {cfg : Cfg} {σ : RVars K n} {D : RDegrees}

mutual
theorem RSExpr.run_outcome (hmax : cfg.maxBinom ≤ 68) (hD : D.Of σ) :
    ∀ e : RSExpr K n, e.WellShaped cfg D → ROutcome (e.shapes D) (e.run cfg σ)
  | .leaf i, _ => by
    simp only [RSExpr.run, RSExpr.shapes]
    exact .inr (.inr ⟨_, rfl, _, rfl, hD.rs i⟩)
  | .ofSpline a, h => by
    simp only [RSExpr.run, RSExpr.shapes]
    exact ROutcome.bind' (SExpr.run_shape hmax hD.s hD.p a h) fun x hx => (RSpline.ofSpline_returns hx).outcome rfl
  | .add a b, h => by
    simp only [RSExpr.run, RSExpr.shapes]
    exact ROutcome.bind (RSExpr.run_outcome hmax hD a h.1) fun p hp x hx => ROutcome.bind (RSExpr.run_outcome hmax hD b h.2.1) fun q hq y hy =>
      (RSpline.sum_returns cfg hmax hx hy (h.2.2 p hp q hq)).1.outcome hp hq
  | .addAssign a b, h => by
    simp only [RSExpr.run, RSExpr.shapes]
    exact ROutcome.bind (RSExpr.run_outcome hmax hD a h.1) fun p hp x hx => ROutcome.bind (RSExpr.run_outcome hmax hD b h.2.1) fun q hq y hy =>
      (RSpline.sum_returns cfg hmax hx hy (h.2.2 p hp q hq)).2.1.outcome hp hq
  | .sub a b, h => by
    simp only [RSExpr.run, RSExpr.shapes]
    exact ROutcome.bind (RSExpr.run_outcome hmax hD a h.1) fun p hp x hx => ROutcome.bind (RSExpr.run_outcome hmax hD b h.2.1) fun q hq y hy =>
      (RSpline.sum_returns cfg hmax hx hy (h.2.2 p hp q hq)).2.2.1.outcome hp hq
  | .subAssign a b, h => by
    simp only [RSExpr.run, RSExpr.shapes]
    exact ROutcome.bind (RSExpr.run_outcome hmax hD a h.1) fun p hp x hx => ROutcome.bind (RSExpr.run_outcome hmax hD b h.2.1) fun q hq y hy =>
      (RSpline.sum_returns cfg hmax hx hy (h.2.2 p hp q hq)).2.2.2.outcome hp hq
  | .neg a, h => by
    simp only [RSExpr.run, RSExpr.shapes]
    exact ROutcome.bind (RSExpr.run_outcome hmax hD a h) fun p hp x hx => (RSpline.negOp_returns hx).outcome hp
  | .scale a c, h => by
    simp only [RSExpr.run, RSExpr.shapes]
    exact ROutcome.bind (RSExpr.run_outcome hmax hD a h) fun p hp x hx => (RSpline.smulOp_returns hx c).outcome hp
  | .addPoint a v, h => by
    simp only [RSExpr.run, RSExpr.shapes]
    exact ROutcome.bind (RSExpr.run_outcome hmax hD a h) fun p hp x hx => (RSpline.addPoint_returns hx v).1.outcome hp
  | .subPoint a v, h => by
    simp only [RSExpr.run, RSExpr.shapes]
    exact ROutcome.bind (RSExpr.run_outcome hmax hD a h) fun p hp x hx => (RSpline.subPoint_returns hx v).1.outcome hp
  | .elevate a d, h => by
    simp only [RSExpr.run, RSExpr.shapes]
    exact ROutcome.bind (RSExpr.run_outcome hmax hD a h.1) fun p hp x hx =>
      (RSpline.orderElevate_returns hx (h.2 p hp).1 (h.2 p hp).2).outcome ⟨p, hp, rfl⟩
  | .splitLeft a z d, h => by
    simp only [RSExpr.run, RSExpr.shapes]
    refine ROutcome.bind (RSExpr.run_outcome hmax hD a h.1) fun p hp x hx => ?_
    rcases RSpline.splitAt_shape hx (h.2 p hp) z with ⟨-, e⟩ | ⟨-, l, r, e, ha, hb⟩
    · rw [e]; exact .inl rfl
    · rw [e]; exact .inr (.inr ⟨p, hp, _, rfl, ha⟩)
  | .splitRight a z d, h => by
    simp only [RSExpr.run, RSExpr.shapes]
    refine ROutcome.bind (RSExpr.run_outcome hmax hD a h.1) fun p hp x hx => ?_
    rcases RSpline.splitAt_shape hx (h.2 p hp) z with ⟨-, e⟩ | ⟨-, l, r, e, ha, hb⟩
    · rw [e]; exact .inl rfl
    · rw [e]; exact .inr (.inr ⟨p, hp, _, rfl, hb⟩)
  | .splitPart a zs d i, h => by
    simp only [RSExpr.run, RSExpr.shapes]
    refine ROutcome.bind (RSExpr.run_outcome hmax hD a h.1) fun p hp x hx => ?_
    rcases RSpline.splitAtMany_shape hx (h.2.1 p hp) zs with e | ⟨l, e, hl, hsh⟩
    · rw [e]; exact .inl rfl
    · rw [e]
      have hi : i < l.length := by rw [hl]; exact Nat.lt_succ_of_le h.2.2
      exact .inr (.inr ⟨p, hp, l[i], rd_getElem hi, hsh _ (List.getElem_mem hi)⟩)
  | .deriv a o, h => by
    simp only [RSExpr.run, RSExpr.shapes]
    exact ROutcome.bind (RSExpr.run_outcome hmax hD a h.1) fun p hp x hx =>
      (RSpline.derivativeSpline_returns cfg hmax hx (h.2 p hp).1 (h.2 p hp).2.1 (h.2 p hp).2.2).outcome ⟨p, hp, rfl⟩
  | .composePoly a b, h => by
    simp only [RSExpr.run, RSExpr.shapes]
    refine ROutcome.bind (RSExpr.run_outcome hmax hD a h.1) fun p hp x hx => ROutcome.bind' (PExpr.run_shape hmax hD.s hD.p b h.2.1) fun y hy => ?_
    rcases RSpline.compose_shape (K := K) cfg hmax hx hy (h.2.2 p hp).1 (h.2.2 p hp).2 with ⟨-, e⟩ | ⟨-, e⟩
    · rw [e]; exact .inl rfl
    · exact e.outcome ⟨p, hp, rfl⟩
  | .composePolyScalar a b, h => by
    simp only [RSExpr.run, RSExpr.shapes]
    refine ROutcome.bind (RSExpr.run_outcome hmax hD a h.1) fun p hp x hx => ROutcome.bind' (SExpr.run_shape hmax hD.s hD.p b h.2.1) fun y hy => ?_
    rcases RSpline.compose_shape (K := K) cfg hmax hx hy (h.2.2 p hp).1 (h.2.2 p hp).2 with ⟨-, e⟩ | ⟨-, e⟩
    · rw [e]; exact .inl rfl
    · exact e.outcome ⟨p, hp, rfl⟩
  | .compose a b, h => by
    simp only [RSExpr.run, RSExpr.shapes]
    exact ROutcome.bind (RSExpr.run_outcome hmax hD a h.1) fun p hp x hx => ROutcome.bind (RPExpr.run_outcome hmax hD b h.2.1) fun q hq y hy =>
      (RSpline.composeRational_returns (K := K) cfg hmax hx hy (h.2.2 p hp q hq).1 (h.2.2 p hp q hq).2).outcome ⟨p, hp, q, hq, rfl⟩
  | .composeScalar a b, h => by
    simp only [RSExpr.run, RSExpr.shapes]
    exact ROutcome.bind (RSExpr.run_outcome hmax hD a h.1) fun p hp x hx => ROutcome.bind (RSExpr.run_outcome hmax hD b h.2.1) fun q hq y hy =>
      (RSpline.composeRational_returns (K := K) cfg hmax hx hy (h.2.2 p hp q hq).1 (h.2.2 p hp q hq).2).outcome ⟨p, hp, q, hq, rfl⟩
  | .polyCompose a b, h => by
    simp only [RSExpr.run, RSExpr.shapes]
    refine ROutcome.bind' (SExpr.run_shape hmax hD.s hD.p a h.1) fun x hx => ROutcome.bind (RPExpr.run_outcome hmax hD b h.2.1) fun q hq y hy => ?_
    rcases RSpline.polyCompose_shape (K := K) cfg hmax hx hy h.2.2.1 (h.2.2.2 q hq) with ⟨-, e⟩ | ⟨-, e⟩ | ⟨-, e⟩
    · rw [e]; exact .inr (.inl rfl)
    · rw [e]; exact .inl rfl
    · exact e.outcome ⟨q, hq, rfl⟩
  | .polyComposeScalar a b, h => by
    simp only [RSExpr.run, RSExpr.shapes]
    refine ROutcome.bind' (SExpr.run_shape hmax hD.s hD.p a h.1) fun x hx => ROutcome.bind (RSExpr.run_outcome hmax hD b h.2.1) fun q hq y hy => ?_
    rcases RSpline.polyCompose_shape (K := K) cfg hmax hx hy h.2.2.1 (h.2.2.2 q hq) with ⟨-, e⟩ | ⟨-, e⟩ | ⟨-, e⟩
    · rw [e]; exact .inr (.inl rfl)
    · rw [e]; exact .inl rfl
    · exact e.outcome ⟨q, hq, rfl⟩
  | .mul a b, h => by
    simp only [RSExpr.run, RSExpr.shapes]
    exact ROutcome.bind (RSExpr.run_outcome hmax hD a h.1) fun p hp x hx => ROutcome.bind (RSExpr.run_outcome hmax hD b h.2.1) fun q hq y hy =>
      (RSpline.mulOp_returns cfg hmax _ hx hy (h.2.2 p hp q hq).1 (h.2.2 p hp q hq).2).outcome ⟨p, hp, q, hq, rfl⟩
  | .dot a b, h => by
    simp only [RSExpr.run, RSExpr.shapes]
    exact ROutcome.bind (RPExpr.run_outcome hmax hD a h.1) fun p hp x hx => ROutcome.bind (RPExpr.run_outcome hmax hD b h.2.1) fun q hq y hy =>
      (RSpline.mulOp_returns cfg hmax _ hx hy (h.2.2 p hp q hq).1 (h.2.2 p hp q hq).2).outcome ⟨p, hp, q, hq, rfl⟩

theorem RPExpr.run_outcome (hmax : cfg.maxBinom ≤ 68) (hD : D.Of σ) :
    ∀ e : RPExpr K n, e.WellShaped cfg D → ROutcome (e.shapes D) (e.run cfg σ)
  | .leaf i, _ => by
    simp only [RPExpr.run, RPExpr.shapes]
    exact .inr (.inr ⟨_, rfl, _, rfl, hD.rp i⟩)
  | .ofSpline a, h => by
    simp only [RPExpr.run, RPExpr.shapes]
    exact ROutcome.bind' (PExpr.run_shape hmax hD.s hD.p a h) fun x hx => (RSpline.ofSpline_returns hx).outcome rfl
  | .add a b, h => by
    simp only [RPExpr.run, RPExpr.shapes]
    exact ROutcome.bind (RPExpr.run_outcome hmax hD a h.1) fun p hp x hx => ROutcome.bind (RPExpr.run_outcome hmax hD b h.2.1) fun q hq y hy =>
      (RSpline.sum_returns cfg hmax hx hy (h.2.2 p hp q hq)).1.outcome hp hq
  | .addAssign a b, h => by
    simp only [RPExpr.run, RPExpr.shapes]
    exact ROutcome.bind (RPExpr.run_outcome hmax hD a h.1) fun p hp x hx => ROutcome.bind (RPExpr.run_outcome hmax hD b h.2.1) fun q hq y hy =>
      (RSpline.sum_returns cfg hmax hx hy (h.2.2 p hp q hq)).2.1.outcome hp hq
  | .sub a b, h => by
    simp only [RPExpr.run, RPExpr.shapes]
    exact ROutcome.bind (RPExpr.run_outcome hmax hD a h.1) fun p hp x hx => ROutcome.bind (RPExpr.run_outcome hmax hD b h.2.1) fun q hq y hy =>
      (RSpline.sum_returns cfg hmax hx hy (h.2.2 p hp q hq)).2.2.1.outcome hp hq
  | .subAssign a b, h => by
    simp only [RPExpr.run, RPExpr.shapes]
    exact ROutcome.bind (RPExpr.run_outcome hmax hD a h.1) fun p hp x hx => ROutcome.bind (RPExpr.run_outcome hmax hD b h.2.1) fun q hq y hy =>
      (RSpline.sum_returns cfg hmax hx hy (h.2.2 p hp q hq)).2.2.2.outcome hp hq
  | .neg a, h => by
    simp only [RPExpr.run, RPExpr.shapes]
    exact ROutcome.bind (RPExpr.run_outcome hmax hD a h) fun p hp x hx => (RSpline.negOp_returns hx).outcome hp
  | .scale a c, h => by
    simp only [RPExpr.run, RPExpr.shapes]
    exact ROutcome.bind (RPExpr.run_outcome hmax hD a h) fun p hp x hx => (RSpline.smulOp_returns hx c).outcome hp
  | .addPoint a v, h => by
    simp only [RPExpr.run, RPExpr.shapes]
    exact ROutcome.bind (RPExpr.run_outcome hmax hD a h) fun p hp x hx => (RSpline.addPoint_returns hx v).1.outcome hp
  | .subPoint a v, h => by
    simp only [RPExpr.run, RPExpr.shapes]
    exact ROutcome.bind (RPExpr.run_outcome hmax hD a h) fun p hp x hx => (RSpline.subPoint_returns hx v).1.outcome hp
  | .elevate a d, h => by
    simp only [RPExpr.run, RPExpr.shapes]
    exact ROutcome.bind (RPExpr.run_outcome hmax hD a h.1) fun p hp x hx =>
      (RSpline.orderElevate_returns hx (h.2 p hp).1 (h.2 p hp).2).outcome ⟨p, hp, rfl⟩
  | .splitLeft a z d, h => by
    simp only [RPExpr.run, RPExpr.shapes]
    refine ROutcome.bind (RPExpr.run_outcome hmax hD a h.1) fun p hp x hx => ?_
    rcases RSpline.splitAt_shape hx (h.2 p hp) z with ⟨-, e⟩ | ⟨-, l, r, e, ha, hb⟩
    · rw [e]; exact .inl rfl
    · rw [e]; exact .inr (.inr ⟨p, hp, _, rfl, ha⟩)
  | .splitRight a z d, h => by
    simp only [RPExpr.run, RPExpr.shapes]
    refine ROutcome.bind (RPExpr.run_outcome hmax hD a h.1) fun p hp x hx => ?_
    rcases RSpline.splitAt_shape hx (h.2 p hp) z with ⟨-, e⟩ | ⟨-, l, r, e, ha, hb⟩
    · rw [e]; exact .inl rfl
    · rw [e]; exact .inr (.inr ⟨p, hp, _, rfl, hb⟩)
  | .splitPart a zs d i, h => by
    simp only [RPExpr.run, RPExpr.shapes]
    refine ROutcome.bind (RPExpr.run_outcome hmax hD a h.1) fun p hp x hx => ?_
    rcases RSpline.splitAtMany_shape hx (h.2.1 p hp) zs with e | ⟨l, e, hl, hsh⟩
    · rw [e]; exact .inl rfl
    · rw [e]
      have hi : i < l.length := by rw [hl]; exact Nat.lt_succ_of_le h.2.2
      exact .inr (.inr ⟨p, hp, l[i], rd_getElem hi, hsh _ (List.getElem_mem hi)⟩)
  | .deriv a o, h => by
    simp only [RPExpr.run, RPExpr.shapes]
    exact ROutcome.bind (RPExpr.run_outcome hmax hD a h.1) fun p hp x hx =>
      (RSpline.derivativeSpline_returns cfg hmax hx (h.2 p hp).1 (h.2 p hp).2.1 (h.2 p hp).2.2).outcome ⟨p, hp, rfl⟩
  | .composePoly a b, h => by
    simp only [RPExpr.run, RPExpr.shapes]
    refine ROutcome.bind (RPExpr.run_outcome hmax hD a h.1) fun p hp x hx => ROutcome.bind' (PExpr.run_shape hmax hD.s hD.p b h.2.1) fun y hy => ?_
    rcases RSpline.compose_shape (K := K) cfg hmax hx hy (h.2.2 p hp).1 (h.2.2 p hp).2 with ⟨-, e⟩ | ⟨-, e⟩
    · rw [e]; exact .inl rfl
    · exact e.outcome ⟨p, hp, rfl⟩
  | .composePolyScalar a b, h => by
    simp only [RPExpr.run, RPExpr.shapes]
    refine ROutcome.bind (RPExpr.run_outcome hmax hD a h.1) fun p hp x hx => ROutcome.bind' (SExpr.run_shape hmax hD.s hD.p b h.2.1) fun y hy => ?_
    rcases RSpline.compose_shape (K := K) cfg hmax hx hy (h.2.2 p hp).1 (h.2.2 p hp).2 with ⟨-, e⟩ | ⟨-, e⟩
    · rw [e]; exact .inl rfl
    · exact e.outcome ⟨p, hp, rfl⟩
  | .compose a b, h => by
    simp only [RPExpr.run, RPExpr.shapes]
    exact ROutcome.bind (RPExpr.run_outcome hmax hD a h.1) fun p hp x hx => ROutcome.bind (RPExpr.run_outcome hmax hD b h.2.1) fun q hq y hy =>
      (RSpline.composeRational_returns (K := K) cfg hmax hx hy (h.2.2 p hp q hq).1 (h.2.2 p hp q hq).2).outcome ⟨p, hp, q, hq, rfl⟩
  | .composeScalar a b, h => by
    simp only [RPExpr.run, RPExpr.shapes]
    exact ROutcome.bind (RPExpr.run_outcome hmax hD a h.1) fun p hp x hx => ROutcome.bind (RSExpr.run_outcome hmax hD b h.2.1) fun q hq y hy =>
      (RSpline.composeRational_returns (K := K) cfg hmax hx hy (h.2.2 p hp q hq).1 (h.2.2 p hp q hq).2).outcome ⟨p, hp, q, hq, rfl⟩
  | .polyCompose a b, h => by
    simp only [RPExpr.run, RPExpr.shapes]
    refine ROutcome.bind' (PExpr.run_shape hmax hD.s hD.p a h.1) fun x hx => ROutcome.bind (RPExpr.run_outcome hmax hD b h.2.1) fun q hq y hy => ?_
    rcases RSpline.polyCompose_shape (K := K) cfg hmax hx hy h.2.2.1 (h.2.2.2 q hq) with ⟨-, e⟩ | ⟨-, e⟩ | ⟨-, e⟩
    · rw [e]; exact .inr (.inl rfl)
    · rw [e]; exact .inl rfl
    · exact e.outcome ⟨q, hq, rfl⟩
  | .polyComposeScalar a b, h => by
    simp only [RPExpr.run, RPExpr.shapes]
    refine ROutcome.bind' (PExpr.run_shape hmax hD.s hD.p a h.1) fun x hx => ROutcome.bind (RSExpr.run_outcome hmax hD b h.2.1) fun q hq y hy => ?_
    rcases RSpline.polyCompose_shape (K := K) cfg hmax hx hy h.2.2.1 (h.2.2.2 q hq) with ⟨-, e⟩ | ⟨-, e⟩ | ⟨-, e⟩
    · rw [e]; exact .inr (.inl rfl)
    · rw [e]; exact .inl rfl
    · exact e.outcome ⟨q, hq, rfl⟩
  | .mulLeft a b, h => by
    simp only [RPExpr.run, RPExpr.shapes]
    exact ROutcome.bind (RSExpr.run_outcome hmax hD a h.1) fun p hp x hx => ROutcome.bind (RPExpr.run_outcome hmax hD b h.2.1) fun q hq y hy =>
      (RSpline.mulOp_returns cfg hmax _ hx hy (h.2.2 p hp q hq).1 (h.2.2 p hp q hq).2).outcome ⟨p, hp, q, hq, rfl⟩
  | .mulRight a b, h => by
    simp only [RPExpr.run, RPExpr.shapes]
    exact ROutcome.bind (RPExpr.run_outcome hmax hD a h.1) fun p hp x hx => ROutcome.bind (RSExpr.run_outcome hmax hD b h.2.1) fun q hq y hy =>
      (RSpline.mulOp_returns cfg hmax _ hx hy (h.2.2 p hp q hq).1 (h.2.2 p hp q hq).2).outcome ⟨p, hp, q, hq, rfl⟩
end
end

end Bezman
