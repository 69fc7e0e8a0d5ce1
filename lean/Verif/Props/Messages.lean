import Verif.Proofs.MessagesRest
import Verif.Props.Logger
import Verif.Props.Examples

/-! # C105: what the library tells its user -/

namespace Bezman.Props
open Spec Messages

section
variable {K V W : Type}

/-! ## Messages do not change results

Whatever the logger does with the messages, the call has the result of the model without messages, for any arithmetic, any input and
also for calls that fail. -/

theorem C105_results [Zero K] [One K] [Add K] [Sub K] [Mul K] [Neg K] [Div K] [NatCast K] [Zero V] [Add V] [Sub V] [Neg V] [SMul K V]
    [LT K] [DecidableLT K] [Coords K V] [Coords K W] (cfg : Cfg) (tx : K → String) (scalar : Bool) (s t : Spline V) (u : Spline K)
    (inner : Spline W) (d k : ℕ) (z : K) (zs : List K) (orders : List ℕ) (ho : orders ≠ []) :
    (Messages.orderElevate K s d).out = s.orderElevate K d ∧
    (Messages.addOp K cfg s t).out = s.addOp K cfg t ∧
    (Messages.addAssign K cfg s t).out = s.addAssign K cfg t ∧
    (Messages.subOp K cfg s t).out = s.subOp K cfg t ∧
    (Messages.subAssign K cfg s t).out = s.subAssign K cfg t ∧
    (Messages.derivativeSpline K cfg s orders).out = s.derivativeSpline K cfg orders ∧
    (Messages.extractDimension K scalar s d).out = s.extractDimension K d ∧
    (Messages.maximumCorner K s).out = s.maximumCorner K ∧
    (Messages.minimumCorner K s).out = s.minimumCorner K ∧
    (Messages.fitsIntoUnitCube K s).out = s.fitsIntoUnitCube K ∧
    (Messages.fitIntoUnitCube K s).out = s.fitIntoUnitCube K ∧
    (Messages.raisePower cfg u k).out = u.raisePower cfg k ∧
    (Messages.splitAt tx s z d).out = s.splitAt z d ∧
    (Messages.splitAtMany tx s zs d).out = s.splitAtMany zs d ∧
    (Messages.compose K cfg scalar s inner).out = s.compose K cfg inner ∧
    (Messages.composeSensitivity K cfg scalar s inner).out = s.composeSensitivity K cfg inner :=
  ⟨out_orderElevate s d, out_addOp cfg s t, out_addAssign cfg s t, out_subOp cfg s t, out_subAssign cfg s t, out_derivativeSpline cfg s ho,
    out_extractDimension scalar s d, out_maximumCorner s, out_minimumCorner s, out_fitsIntoUnitCube s, out_fitIntoUnitCube s,
    out_raisePower cfg u k, out_splitAt tx s z d, out_splitAtMany tx s zs d, out_compose cfg scalar s inner, out_composeSensitivity cfg scalar s inner⟩

theorem C105_results_rational [Zero K] [One K] [Add K] [Sub K] [Mul K] [Neg K] [Div K] [NatCast K] [BEq K] [LT K] [DecidableLT K]
    [Zero V] [Add V] [Sub V] [SMul K V] [Coords K V] [ScalarDiv K V] [Coords K W] [ScalarDiv K W] (cfg : Cfg) (tx : K → String)
    (scalar : Bool) (s : Spline V) (r q : RSpline K V) (inner : Spline W) (rinner : RSpline K W) (d : ℕ) (z : K) (zs : List K) (orders : List ℕ) :
    (Messages.rOrderElevate r d).out = r.orderElevate d ∧
    (Messages.rSplitAt tx r z d).out = r.splitAt z d ∧
    (Messages.rSplitAtMany tx r zs d).out = r.splitAtMany zs d ∧
    (Messages.rAddOp cfg r q).out = r.addOp cfg q ∧
    (Messages.rAddAssign cfg r q).out = r.addAssign cfg q ∧
    (Messages.rSubOp cfg r q).out = r.subOp cfg q ∧
    (Messages.rSubAssign cfg r q).out = r.subAssign cfg q ∧
    (Messages.rDerivativeSpline cfg r orders).out = r.derivativeSpline cfg orders ∧
    (Messages.rExtractDimension scalar r d).out = r.extractDimension d ∧
    (Messages.rMinimumCorner r).out = r.minimumCorner ∧
    (Messages.rMaximumCorner r).out = r.maximumCorner ∧
    (Messages.rFitsIntoUnitCube r).out = r.fitsIntoUnitCube ∧
    (Messages.composeRational cfg scalar s rinner).out = s.composeRational cfg rinner ∧
    (Messages.composeSensitivityRational cfg scalar s rinner).out = s.composeSensitivityRational cfg rinner ∧
    (Messages.rCompose cfg scalar r inner).out = r.compose cfg inner ∧
    (Messages.rComposeRational cfg scalar r rinner).out = r.composeRational cfg rinner ∧
    (Messages.rComposeSensitivity cfg scalar r inner).out = r.composeSensitivity cfg inner ∧
    (Messages.rComposeSensitivityRational cfg scalar r rinner).out = r.composeSensitivityRational cfg rinner :=
  ⟨out_rOrderElevate r d, out_rSplitAt tx r z d, out_rSplitAtMany tx r zs d, out_rAddOp cfg r q, out_rAddAssign cfg r q, out_rSubOp cfg r q,
    out_rSubAssign cfg r q, out_rDerivativeSpline cfg r orders, out_rExtractDimension scalar r d, out_rMinimumCorner r, out_rMaximumCorner r,
    out_rFitsIntoUnitCube r, out_composeRational cfg scalar s rinner, out_composeSensitivityRational cfg scalar s rinner,
    out_rCompose cfg scalar r inner, out_rComposeRational cfg scalar r rinner, out_rComposeSensitivity cfg scalar r inner,
    out_rComposeSensitivityRational cfg scalar r rinner⟩

/-! ## Failures are announced -/

theorem C105_announced [Zero K] [One K] [Add K] [Sub K] [Mul K] [Neg K] [Div K] [NatCast K] [Zero V] [Add V] [Sub V] [Neg V] [SMul K V]
    [LT K] [DecidableLT K] [Coords K V] [Coords K W] (cfg : Cfg) (tx : K → String) (scalar : Bool) (s t : Spline V) (u : Spline K)
    (inner : Spline W) (d k : ℕ) (z : K) (zs : List K) (orders : List ℕ) :
    Announces (Messages.orderElevate K s d) ∧ Announces (Messages.addOp K cfg s t) ∧ Announces (Messages.addAssign K cfg s t) ∧
    Announces (Messages.subOp K cfg s t) ∧ Announces (Messages.subAssign K cfg s t) ∧ Announces (Messages.derivativeSpline K cfg s orders) ∧
    Announces (Messages.extractDimension K scalar s d) ∧ Announces (Messages.maximumCorner K s) ∧ Announces (Messages.minimumCorner K s) ∧
    Announces (Messages.fitsIntoUnitCube K s) ∧ Announces (Messages.fitIntoUnitCube K s) ∧ Announces (Messages.raisePower cfg u k) ∧
    Announces (Messages.raisePowerPoints s k) ∧ Announces (Messages.splitAt tx s z d) ∧ Announces (Messages.splitAtMany tx s zs d) ∧
    Announces (Messages.compose K cfg scalar s inner) ∧ Announces (Messages.composeSensitivity K cfg scalar s inner) :=
  ⟨ann_orderElevate s d, ann_addOp cfg s t, ann_addAssign cfg s t, ann_subOp cfg s t, ann_subAssign cfg s t, ann_derivativeSpline cfg s orders,
    ann_extractDimension scalar s d, ann_maximumCorner s, ann_minimumCorner s, ann_fitsIntoUnitCube s, ann_fitIntoUnitCube s,
    ann_raisePower cfg u k, ann_raisePowerPoints s k, ann_splitAt tx s z d, ann_splitAtMany tx s zs d, ann_compose cfg scalar s inner,
    ann_composeSensitivity cfg scalar s inner⟩

theorem C105_announced_rational [Zero K] [One K] [Add K] [Sub K] [Mul K] [Neg K] [Div K] [NatCast K] [BEq K] [LT K] [DecidableLT K]
    [Zero V] [Add V] [Sub V] [SMul K V] [Coords K V] [ScalarDiv K V] [Coords K W] [ScalarDiv K W] (cfg : Cfg) (tx : K → String)
    (scalar : Bool) (s : Spline V) (r q : RSpline K V) (inner : Spline W) (rinner : RSpline K W) (d : ℕ) (z : K) (zs : List K) (orders : List ℕ) :
    Announces (Messages.rOrderElevate r d) ∧ Announces (Messages.rSplitAt tx r z d) ∧ Announces (Messages.rSplitAtMany tx r zs d) ∧
    Announces (Messages.rAddOp cfg r q) ∧ Announces (Messages.rAddAssign cfg r q) ∧ Announces (Messages.rSubOp cfg r q) ∧
    Announces (Messages.rSubAssign cfg r q) ∧ Announces (Messages.rDerivativeSpline cfg r orders) ∧
    Announces (Messages.rExtractDimension scalar r d) ∧ Announces (Messages.rMinimumCorner r) ∧ Announces (Messages.rMaximumCorner r) ∧
    Announces (Messages.rFitsIntoUnitCube r) ∧ Announces (Messages.composeRational cfg scalar s rinner) ∧
    Announces (Messages.composeSensitivityRational cfg scalar s rinner) ∧ Announces (Messages.rCompose cfg scalar r inner) ∧
    Announces (Messages.rComposeRational cfg scalar r rinner) ∧ Announces (Messages.rComposeSensitivity cfg scalar r inner) ∧
    Announces (Messages.rComposeSensitivityRational cfg scalar r rinner) :=
  ⟨ann_rOrderElevate r d, ann_rSplitAt tx r z d, ann_rSplitAtMany tx r zs d, ann_rAddOp cfg r q, ann_rAddAssign cfg r q, ann_rSubOp cfg r q,
    ann_rSubAssign cfg r q, ann_rDerivativeSpline cfg r orders, ann_extractDimension scalar r.num d, ann_rMinimumCorner r, ann_rMaximumCorner r,
    ann_rFitsIntoUnitCube r, ann_composeRational cfg scalar s rinner, ann_composeSensitivityRational cfg scalar s rinner,
    ann_rCompose cfg scalar r inner, ann_rComposeRational cfg scalar r rinner, ann_rComposeSensitivity cfg scalar r inner,
    ann_rComposeSensitivityRational cfg scalar r rinner⟩

/-- a split outside of the unit interval is one of the calls that throw -/
example : (Messages.splitAt (fun _ => "1.000000") Ex.A 1 0).out = .error .throws ∧
    (Messages.splitAt (fun _ => "1.000000") Ex.A 1 0).log =
      [⟨.extended, "Splitting spline along parametric dimension 0 at position 1.000000"⟩,
        ⟨.terminating, "Split Plane is at 1.000000, which is out of bounds (0,1)"⟩] := by decide +kernel

/-! ## Sums and differences -/

section
variable [One K] [Sub K] [Mul K] [Div K] [NatCast K] [Zero V] [Add V] [SMul K V]

/-- A sum reports every elevation of the left and then of the right operand, and nothing else. -/
theorem C105_sum (cfg : Cfg) (s t r : Spline V) (hd : s.dim = t.dim) (h : s.addOp K cfg t = .ok r) :
    (Messages.addOp K cfg s t).log = climb s.degrees t.degrees ++ climb t.degrees s.degrees := (addOp_log hd h).2

theorem C105_sum_in_place (cfg : Cfg) (s t r : Spline V) (hd : s.dim = t.dim) (h : s.addAssign K cfg t = .ok r) :
    (Messages.addAssign K cfg s t).log = climb s.degrees t.degrees ++ climb t.degrees s.degrees := (addAssign_log hd h).2

theorem C105_difference_in_place [Sub V] (cfg : Cfg) (s t r : Spline V) (hd : s.dim = t.dim) (h : s.subAssign K cfg t = .ok r) :
    (Messages.subAssign K cfg s t).log = climb s.degrees t.degrees ++ climb t.degrees s.degrees := (subAssign_log hd h).2

/-- A difference that returns elevates its right operand only. -/
theorem C105_difference [Sub V] (cfg : Cfg) (s t r : Spline V) (hd : s.dim = t.dim) (h : s.subOp K cfg t = .ok r) :
    climb s.degrees t.degrees = [] ∧ (Messages.subOp K cfg s t).log = climb t.degrees s.degrees :=
  ⟨climb_nil fun d p q hp hq => (subOp_log hd h).1 d p q hp hq, (subOp_log hd h).2.2⟩

theorem C105_elevate (s r : Spline V) (d : ℕ) (h : s.orderElevate K d = .ok r) :
    ∃ p, s.degrees[d]? = some p ∧ (Messages.orderElevate K s d).log = [elevated d (p + 1)] := by
  obtain ⟨p, hp, _, hl⟩ := log_orderElevate h
  exact ⟨p, hp, hl⟩

end

/-- the number of messages: one per degree -/
theorem C105_climb_length (ps qs : List ℕ) (h : ps.length = qs.length) :
    (climb ps qs).length = (List.zipWith (fun p q => q - p) ps qs).sum := by
  unfold climb
  rw [List.length_flatMap]
  congr 1
  apply List.ext_getElem?
  intro i
  rw [List.getElem?_map, List.getElem?_zipWith]
  by_cases hi : i < ps.length
  · rw [List.getElem?_range hi, List.getElem?_eq_getElem hi, List.getElem?_eq_getElem (h ▸ hi)]
    simp [hi, h ▸ hi]
  · rw [List.getElem?_eq_none (by simpa using hi), List.getElem?_eq_none (by omega)]; rfl

/-- degrees (2,1) and (1,2): each operand is elevated once -/
example : (Ex.A.addOp ℚ ⟨5, 5⟩ Ex.B).isOk = true ∧ (Messages.addOp ℚ ⟨5, 5⟩ Ex.A Ex.B).log =
    [⟨.extended, "Spline elevating along parametric dimension 1 to degree 2"⟩,
      ⟨.extended, "Spline elevating along parametric dimension 0 to degree 2"⟩] := by decide +kernel

example : ((Ex.curve (1 : ℚ) 2 3).subOp ℚ ⟨5, 5⟩ (Ex.line 0 1)).isOk = true := by decide +kernel

/-! ## Derivatives -/

/-- A derivative that returns reports its orders at the beginning and that it is done at the end. -/
theorem C105_derivative [One K] [Neg K] [Mul K] [NatCast K] [Zero V] [Add V] [SMul K V] (cfg : Cfg) (s r : Spline V) (orders : List ℕ)
    (ho : orders ≠ []) (h : s.derivativeSpline K cfg orders = .ok r) : (Messages.derivativeSpline K cfg s orders).log = derived orders := by
  rw [log_derivativeSpline cfg s ho, h]; rfl

example : (Ex.A.derivativeSpline ℚ ⟨5, 5⟩ [1, 0]).isOk = true ∧ derived [1, 0] =
    [⟨.logging, "Calculating derivative splines with orders [ 1, 0]"⟩, ⟨.logging, "Derivative successfully computed"⟩] := by decide +kernel

/-! ## Splits -/

theorem isSorted_iff [LT K] [DecidableLT K] (zs : List K) : Spline.isSorted zs = true ↔ zs.IsChain fun a b => ¬ b < a := by
  induction zs with
  | nil => simp [Spline.isSorted]
  | cons a l ih =>
    cases l with
    | nil => simp [Spline.isSorted]
    | cons b l => rw [Spline.isSorted, Bool.and_eq_true, ih, List.isChain_cons_cons]; simp

section
variable [Zero K] [One K] [Add K] [Sub K] [Mul K] [Neg K] [Div K] [NatCast K] [LT K] [DecidableLT K] [Zero V] [Add V] [Sub V] [Neg V] [SMul K V]

theorem C105_split (tx : K → String) (s : Spline V) (z : K) (d : ℕ) : (Messages.splitAt tx s z d).log = splits 1 tx d [z] :=
  splitAt_one tx s z d

/-- A split at several planes reports each cut, with its position in the part that is left; the first position outside of the open
interval is refused and nothing follows. -/
theorem C105_split_many (tx : K → String) (s : Spline V) (ds : List ℕ) (hs : HasShape ds s) (d : ℕ) (hd : d < ds.length) (zs : List K) :
    (zs.IsChain (fun a b => ¬ b < a) → (Messages.splitAtMany tx s zs d).log = splits 1 tx d (positions zs)) ∧
    (¬ zs.IsChain (fun a b => ¬ b < a) → (Messages.splitAtMany tx s zs d).log = [⟨.terminating, "Split Plane values must be increasing"⟩]) := by
  rw [splitAtMany_log tx hs hd, ← isSorted_iff]
  exact ⟨fun h => by rw [if_pos h], fun h => by rw [if_neg h]⟩

/-- For rational splines every cut is reported twice, for the numerator and for the weights; a refusal is reported once. -/
theorem C105_split_rational (tx : K → String) (r : RSpline K V) (ds : List ℕ) (hr : HasRShape ds r) (d : ℕ) (hd : d < ds.length) :
    (∀ z, (Messages.rSplitAt tx r z d).log = splits 2 tx d [z]) ∧
    (∀ zs : List K, zs.IsChain (fun a b => ¬ b < a) → (Messages.rSplitAtMany tx r zs d).log = splits 2 tx d (positions zs)) ∧
    (∀ zs : List K, ¬ zs.IsChain (fun a b => ¬ b < a) →
      (Messages.rSplitAtMany tx r zs d).log = [⟨.terminating, "Split Plane values must be increasing"⟩]) := by
  refine ⟨rSplitAt_two tx hr hd, fun zs h => ?_, fun zs h => ?_⟩
  · rw [rSplitAtMany_log tx hr hd, if_pos ((isSorted_iff zs).mpr h)]
  · rw [rSplitAtMany_log tx hr hd, if_neg fun hc => h ((isSorted_iff zs).mp hc)]

end

/-- three planes: the second is in the middle of what the first leaves, the third is refused -/
example : HasShape [2, 1] Ex.A ∧ splits 1 (fun z : ℚ => if z = 1 / 2 then "0.500000" else "1.000000") 1 (positions [1 / 2, 3 / 4, 1]) =
    [splitting 1 "0.500000", splitting 1 "0.500000", splitting 1 "1.000000", splitRefused "1.000000"] :=
  ⟨⟨Ex.A_wf, rfl⟩, by decide +kernel⟩

/-! ## Rational splines -/

section
variable [Zero K] [One K] [Add K] [Sub K] [Mul K] [Div K] [NatCast K] [Zero V] [Add V] [SMul K V]

theorem rgood {ds : List ℕ} {r : RSpline K V} (h : HasRShape ds r) : r.Good ds.length :=
  ⟨⟨h.1.1, by rw [Spline.dim, h.1.2]⟩, ⟨h.2.1, by rw [Spline.dim, h.2.2]⟩, h.1.2.trans h.2.2.symm⟩

theorem rpos {ds : List ℕ} {r : RSpline K V} (h : HasRShape ds r) : 0 < ds.length := by
  have := h.1.1.dim_pos
  rwa [h.1.2] at this

theorem C105_elevate_rational (r r' : RSpline K V) (ds : List ℕ) (hr : HasRShape ds r) (d : ℕ) (h : r.orderElevate d = .ok r') :
    ∃ p, ds[d]? = some p ∧ (Messages.rOrderElevate r d).log = [elevated d (p + 1), elevated d (p + 1)] := by
  obtain ⟨p, hp, hl⟩ := rOrderElevate_log (rgood hr) h
  exact ⟨p, by rw [← hr.1.2]; exact hp, hl⟩

variable [BEq K]

/-- Sums and differences of rational splines that return send no message: the products have equal degrees. -/
theorem C105_sums_rational [Sub V] (cfg : Cfg) (r q : RSpline K V) (ds es : List ℕ) (hr : HasRShape ds r) (hq : HasRShape es q)
    (hd : ds.length = es.length) :
    (∀ r', r.addOp cfg q = .ok r' → (Messages.rAddOp cfg r q).log = []) ∧
    (∀ r', r.addAssign cfg q = .ok r' → (Messages.rAddAssign cfg r q).log = []) ∧
    (∀ r', r.subOp cfg q = .ok r' → (Messages.rSubOp cfg r q).log = []) ∧
    (∀ r', r.subAssign cfg q = .ok r' → (Messages.rSubAssign cfg r q).log = []) := by
  have g1 := rgood hr
  have g2 := rgood hq
  rw [← hd] at g2
  exact ⟨fun _ => rAddOp_log (rpos hr) g1 g2, fun _ => rAddAssign_log (rpos hr) g1 g2, fun _ => rSubOp_log (rpos hr) g1 g2,
    fun _ => rSubAssign_log (rpos hr) g1 g2⟩

end

/-- A derivative of a rational spline reports five messages per round: two derivatives and one elevation. All degrees have doubled with
every round before. -/
theorem C105_derivative_rational [Zero K] [One K] [Add K] [Sub K] [Mul K] [Neg K] [Div K] [NatCast K] [Zero V] [Add V] [Sub V] [SMul K V]
    (cfg : Cfg) (r r' : RSpline K V) (ds orders : List ℕ) (hr : HasRShape ds r) (ho : orders.length = ds.length)
    (h : r.derivativeSpline cfg orders = .ok r') :
    (Messages.rDerivativeSpline cfg r orders).log =
      (rounds orders).zipIdx.flatMap (fun x => quotientRule ds.length x.1 (2 ^ x.2 * ds.getD x.1 0)) ∧
    (Messages.rDerivativeSpline cfg r orders).log.length = 5 * orders.sum := by
  have h1 := (rDerivativeSpline_log (rpos hr) (rgood hr) ho h).2
  rw [hr.1.2] at h1
  refine ⟨h1, ?_⟩
  rw [h1, roundsLog, List.length_flatMap]
  have hsum : (rounds orders).length = orders.sum := by
    unfold rounds
    rw [List.length_flatMap]
    congr 1
    apply List.ext_getElem?
    intro i
    rw [List.getElem?_map]
    by_cases hi : i < orders.length
    · rw [List.getElem?_range hi]; simp [hi]
    · rw [List.getElem?_eq_none (by simpa using hi), List.getElem?_eq_none (by omega)]; rfl
  rw [List.map_congr_left (g := fun _ => 5) fun x _ => by simp [quotientRule, derived]]
  simp [hsum, Nat.mul_comm]

/-- a rational curve of degree 1, differentiated twice -/
example : ((⟨Ex.line (1 : ℚ) 2, Ex.line 1 3⟩ : RSpline ℚ ℚ).derivativeSpline ⟨10, 10⟩ [2]).isOk = true ∧
    HasRShape [1] (⟨Ex.line (1 : ℚ) 2, Ex.line 1 3⟩ : RSpline ℚ ℚ) ∧ rounds [2] = [0, 0] ∧
    quotientRule 1 0 2 = derived [1] ++ derived [1] ++ [⟨.extended, "Spline elevating along parametric dimension 0 to degree 4"⟩] :=
  ⟨by decide +kernel, ⟨⟨Ex.line_wf .., rfl⟩, Ex.line_wf .., rfl⟩, by decide +kernel, by decide +kernel⟩

/-- for this curve a sum and a difference with other weights return -/
example : ((⟨Ex.line (1 : ℚ) 2, Ex.line 1 3⟩ : RSpline ℚ ℚ).addOp ⟨10, 10⟩ ⟨Ex.curve (1 : ℚ) 2 4, Ex.curve 1 2 1⟩).isOk = true ∧
    ((⟨Ex.line (1 : ℚ) 2, Ex.line 1 3⟩ : RSpline ℚ ℚ).subOp ⟨10, 10⟩ ⟨Ex.curve (1 : ℚ) 2 4, Ex.curve 1 2 1⟩).isOk = true := by
  decide +kernel

/-! ## Powers and compositions -/

section
variable [Zero K] [One K] [Add K] [Mul K] [Div K] [NatCast K]

/-- A power reports only that the exponent zero is inefficient. -/
theorem C105_power (cfg : Cfg) (s : Spline K) (k : ℕ) :
    (Messages.raisePower cfg s k).log = if k = 0 then [⟨.error, "Raising to 0 is inefficient. Please revisit"⟩] else [] := log_raisePower cfg s k

end

section
variable [Zero K] [One K] [Add K] [Sub K] [Mul K] [Neg K] [Div K] [NatCast K] [LT K] [DecidableLT K] [Zero V] [Add V] [SMul K V] [Coords K W]

/-- Compositions with a polynomial spline that return send no message. -/
theorem C105_compose (cfg : Cfg) (scalar : Bool) (s : Spline V) (r : RSpline K V) (inner : Spline W) :
    (∀ x, s.compose K cfg inner = .ok x → (Messages.compose K cfg scalar s inner).log = []) ∧
    (∀ x, s.composeSensitivity K cfg inner = .ok x → (Messages.composeSensitivity K cfg scalar s inner).log = []) ∧
    (∀ x, r.compose cfg inner = .ok x → (Messages.rCompose cfg scalar r inner).log = []) ∧
    (∀ x, r.composeSensitivity cfg inner = .ok x → (Messages.rComposeSensitivity cfg scalar r inner).log = []) :=
  ⟨fun x h => compose_silent cfg scalar s inner x ((out_compose cfg scalar s inner).trans h),
    fun x h => composeSensitivity_silent cfg scalar s inner x ((out_composeSensitivity cfg scalar s inner).trans h),
    fun x h => rCompose_silent cfg scalar r inner x ((out_rCompose cfg scalar r inner).trans h),
    fun x h => rComposeSensitivity_silent cfg scalar r inner x ((out_rComposeSensitivity cfg scalar r inner).trans h)⟩

/-- An inner spline outside of the unit cube is the reason given. -/
theorem C105_compose_refused (cfg : Cfg) (scalar : Bool) (s : Spline V) (inner : Spline W) (h : inner.fitsIntoUnitCube K = .ok false) :
    (Messages.compose K cfg scalar s inner).log = [⟨.terminating, "Inner function must fit unit cube to perform composition"⟩] ∧
    (Messages.composeSensitivity K cfg scalar s inner).log = [⟨.terminating, "Inner function must fit unit cube to perform composition"⟩] := by
  have h1 := (out_fitsIntoUnitCube inner).trans h
  have h2 := fitsIntoUnitCube_silent inner _ h1
  constructor
  · unfold Messages.compose; rw [Said.log_bind_ok h1, h2]; rfl
  · unfold Messages.composeSensitivity; rw [Said.log_bind_ok h1, h2]; rfl

variable [BEq K] [ScalarDiv K W]

/-- Compositions with a rational spline that return send at most one message: if the outer polynomial spline is constant, that the
exponent zero is inefficient. -/
theorem C105_compose_rational (cfg : Cfg) (scalar : Bool) (s : Spline V) (r : RSpline K V) (inner : RSpline K W) (es : List ℕ)
    (hi : HasRShape es inner) :
    (∀ x, s.composeRational cfg inner = .ok x → (Messages.composeRational cfg scalar s inner).log =
      if s.degrees.sum = 0 then [⟨.error, "Raising to 0 is inefficient. Please revisit"⟩] else []) ∧
    (∀ x, s.composeSensitivityRational cfg inner = .ok x → (Messages.composeSensitivityRational cfg scalar s inner).log =
      if s.degrees.sum = 0 then [⟨.error, "Raising to 0 is inefficient. Please revisit"⟩] else []) ∧
    (∀ x, r.composeRational cfg inner = .ok x → (Messages.rComposeRational cfg scalar r inner).log = []) ∧
    (∀ x, r.composeSensitivityRational cfg inner = .ok x → (Messages.rComposeSensitivityRational cfg scalar r inner).log = []) := by
  have g : inner.Good es.length := ⟨⟨hi.1.1, by rw [Spline.dim, hi.1.2]⟩, ⟨hi.2.1, by rw [Spline.dim, hi.2.2]⟩, hi.1.2.trans hi.2.2.symm⟩
  have gp : 0 < es.length := by
    have := hi.1.1.dim_pos
    rwa [hi.1.2] at this
  exact ⟨fun x h => composeRational_log gp g x ((out_composeRational cfg scalar s inner).trans h),
    fun x h => composeSensitivityRational_log gp g x ((out_composeSensitivityRational cfg scalar s inner).trans h),
    fun x h => rComposeRational_silent gp g x ((out_rComposeRational cfg scalar r inner).trans h),
    fun x h => rComposeSensitivityRational_silent gp g x ((out_rComposeSensitivityRational cfg scalar r inner).trans h)⟩

end

/-- a line in a parabola and a rational line in a parabola -/
example : ((Ex.curve (1 : ℚ) 2 4).compose ℚ ⟨10, 10⟩ (Ex.line (0 : ℚ) 1)).isOk = true ∧
    ((Ex.curve (1 : ℚ) 2 4).composeRational ⟨10, 10⟩ (⟨Ex.line (1 / 2 : ℚ) 1, Ex.line 1 3⟩ : RSpline ℚ ℚ)).isOk = true ∧
    (Ex.line (0 : ℚ) 2).fitsIntoUnitCube ℚ = .ok false := by decide +kernel

/-! ## Moving, powers of points, corners and coordinates -/

section
variable {K V : Type} [Coords K V]

/-- `TransposeAndScale` announces itself; `FitIntoUnitCube` that returns sends this message only. -/
theorem C105_unit_cube [One K] [Add K] [Mul K] [Div K] [LT K] [DecidableLT K] [Sub V] [Neg V] (s : Spline V) (a b : V) :
    (Messages.transposeAndScale K s a b).log = [⟨.extended, "Starting scaling and transposing spline to move bounds"⟩] ∧
    ∀ r, s.fitIntoUnitCube K = .ok r →
      (Messages.fitIntoUnitCube K s).log = [⟨.extended, "Starting scaling and transposing spline to move bounds"⟩] := by
  refine ⟨rfl, fun r h => ?_⟩
  unfold Spline.fitIntoUnitCube at h
  obtain ⟨mx, h1, h⟩ := bind_eq_ok.mp h
  obtain ⟨mn, h2, h⟩ := bind_eq_ok.mp h
  unfold Messages.fitIntoUnitCube
  rw [Said.log_bind_ok ((out_maximumCorner s).trans h1), Said.log_bind_ok ((out_minimumCorner s).trans h2)]
  unfold Messages.maximumCorner Messages.minimumCorner
  by_cases h0 : s.ncp = 0
  · unfold Spline.maximumCorner at h1
    rw [if_pos h0] at h1
    cases h1
  · rw [if_neg h0, if_neg h0]
    rfl

/-- The reasons given by `MaximumCorner` and `MinimumCorner` of a spline without control points, by `ExtractDimension` of a coordinate that
does not exist and by `RaisePower` of a spline of points. -/
theorem C105_refused [Zero K] [LT K] [DecidableLT K] (s : Spline V) (d k : ℕ) :
    (s.ncp = 0 → (Messages.maximumCorner K s).log = [⟨.terminating, "Spline is non-defined or has no control-points"⟩] ∧
      (Messages.minimumCorner K s).log = [⟨.terminating, "Spline is non-defined or has no control-points"⟩]) ∧
    (Coords.n K V ≤ d → (Messages.extractDimension K true s d).log = [⟨.terminating, "Extraction of Scalar-value spline requested"⟩] ∧
      (Messages.extractDimension K false s d).log = [⟨.terminating, "Dimension out of range for Scalar extraction"⟩]) ∧
    (Messages.raisePowerPoints s k).log = [⟨.terminating, "Only Scalar-type Splines can be raised to a power."⟩] ∧
    (Messages.raisePowerPoints s k).out = .error .throws := by
  refine ⟨fun h => ?_, fun h => ?_, rfl, rfl⟩
  · unfold Messages.maximumCorner Messages.minimumCorner
    rw [if_pos h, if_pos h]
    exact ⟨rfl, rfl⟩
  · unfold Messages.extractDimension
    exact ⟨by rw [if_neg (by omega)]; rfl, by rw [if_neg (by omega)]; rfl⟩

end

example : ∃ r, (Ex.line (1 : ℚ) 3).fitIntoUnitCube ℚ = .ok r := ⟨Ex.line 0 1, by decide +kernel⟩

/-! ## What reaches the console -/

/-- By default, in a program compiled with logging, errors and terminating errors reach the console; without logging only terminating
errors do. -/
theorem C105_default_console (enabled : Bool) (disk : Logger.FileId → List String) (now : String) (log : List Msg) :
    List.Forall₂ Shows (Logger.run enabled (log.map (Msg.call now)) (Logger.initial disk)).console
      ((log.filter fun m => m.kind = .terminating || (enabled && m.kind = .error)).map Msg.text) := by
  have h := C55_console_history enabled disk (log.map (Msg.call now))
  have e : consoleTexts enabled 39 (log.map (Msg.call now)) =
      (log.filter fun m => m.kind = .terminating || (enabled && m.kind = .error)).map Msg.text := by
    clear h
    induction log with
    | nil => rfl
    | cons m l ih =>
      rw [List.map_cons, consoleTexts]
      have hn : newLevel (m.call now) = none := by
        obtain ⟨k, t⟩ := m; cases k <;> rfl
      rw [hn, Option.getD_none, ih, List.filter_cons]
      obtain ⟨k, t⟩ := m
      cases k <;> cases enabled <;> rfl
  rwa [e] at h

/-- Elevations, derivatives and accepted splits do not reach the console by default: their messages are of the kinds `logging` and
`extended`. -/
theorem C105_quiet (enabled : Bool) (disk : Logger.FileId → List String) (now : String) (log : List Msg)
    (h : ∀ m ∈ log, m.kind = .logging ∨ m.kind = .extended) :
    (Logger.run enabled (log.map (Msg.call now)) (Logger.initial disk)).console = [] := by
  have h1 := C105_default_console enabled disk now log
  rw [List.filter_eq_nil_iff.mpr] at h1
  · exact List.forall₂_nil_right_iff.mp h1
  · intro m hm
    rcases h m hm with h | h <;> simp [h]

theorem C105_quiet_kinds (ps qs orders : List ℕ) (n d p : ℕ) :
    (∀ m ∈ climb ps qs, m.kind = .logging ∨ m.kind = .extended) ∧ (∀ m ∈ derived orders, m.kind = .logging ∨ m.kind = .extended) ∧
    (∀ m ∈ quotientRule n d p, m.kind = .logging ∨ m.kind = .extended) := by
  refine ⟨?_, ?_, ?_⟩
  · intro m hm
    simp only [climb, List.mem_flatMap, List.mem_map] at hm
    obtain ⟨_, _, _, _, rfl⟩ := hm
    exact .inr rfl
  · intro m hm
    simp only [derived, List.mem_cons, List.not_mem_nil, or_false] at hm
    rcases hm with rfl | rfl <;> exact .inl rfl
  · intro m hm
    simp only [quotientRule, derived, List.cons_append, List.nil_append, List.mem_cons, List.not_mem_nil, or_false] at hm
    rcases hm with rfl | rfl | rfl | rfl | rfl
    · exact .inl rfl
    · exact .inl rfl
    · exact .inl rfl
    · exact .inl rfl
    · exact .inr rfl

end
end Bezman.Props
