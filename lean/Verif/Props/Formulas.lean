import Verif.Proofs.FacesOps
import Verif.Proofs.FacesNet
import Verif.Proofs.FacesDeriv
import Verif.Proofs.NetsProduct
import Verif.Props.Examples
import Verif.Props.FloatArith

/-! # Properties: the formulas the operations evaluate, in any arithmetic -/

namespace Bezman.Props
open Spec

/-- the control points are `P` -/
def HasPoints {V : Type} (s : Spline V) (P : List ℕ → V) : Prop := ∀ idx, ValidIdx s.degrees idx → s.controlPoint idx = .ok (P idx)

theorem HasPoints.cp {V : Type} [Zero V] {s : Spline V} (hs : s.WF) {P : List ℕ → V} (h : HasPoints s P) {idx : List ℕ} (hv : ValidIdx s.degrees idx) :
    s.cp idx = P idx := by
  have := h idx hv
  rw [Spline.controlPoint_cp hs hv] at this
  exact Except.ok.inj this

section
variable {K V W U : Type} [One K] [Neg K] [Sub K] [Mul K] [Div K] [NatCast K] [Zero V] [Add V] [SMul K V] [Zero W] [Zero U] [Add U] [SMul K U]

/-- C90. `operator*` evaluates the formula `productNet` for every control point of the result: the same operations in the same order,
whatever the operations are. -/
theorem C90_product (cfg : Cfg) (hc : cfg.Ok) (mul : V → W → U) (a : Spline V) (b : Spline W) (ha : a.WF) (hb : b.WF) (hdim : b.dim = a.dim)
    (hdeg : ∀ p ∈ sumDegrees a.degrees b.degrees, p < cfg.maxBinom) (P : List ℕ → V) (Q : List ℕ → W) (hP : HasPoints a P) (hQ : HasPoints b Q) :
    ∃ r, Spline.mulOp K cfg mul a b = .ok r ∧ HasShape (sumDegrees a.degrees b.degrees) r ∧
      HasPoints r (fun ks => productNet mul a.degrees b.degrees ks (1 : K) P Q 0) := by
  obtain ⟨r, h1, h2, h3, h4⟩ := Spline.mulOp_net (K := K) hc (mul := mul) ha hb hdim hdeg
  refine ⟨r, h1, ⟨h2, h3⟩, fun ks hv => ?_⟩
  rw [Spline.controlPoint_cp h2 hv, h4 ks hv]
  congr 1
  have hl : ks.length = a.degrees.length := by
    rw [hv.length, h3, List.length_zipWith, show b.degrees.length = a.degrees.length from hdim, Nat.min_self]
  exact productNet_congr hdim hl (fun is his => hP.cp ha his) (fun is his => hQ.cp hb his)

/-- C90. `DerivativeWRTParametricDimension` evaluates the formula `derivNet`. -/
theorem C90_derivative (cfg : Cfg) (hc : cfg.Ok) (s : Spline V) (hs : s.WF) (orders : List ℕ) (hl : orders.length = s.dim)
    (hle : ∀ (d o p : ℕ), orders[d]? = some o → s.degrees[d]? = some p → o ≤ p) (hmax : ∀ o ∈ orders, o < cfg.maxBinom)
    (hsz : size s.degrees < 2 ^ 64) (P : List ℕ → V) (hP : HasPoints s P) :
    ∃ r, Spline.derivativeSpline K cfg s orders = .ok r ∧ HasShape (List.zipWith (· - ·) s.degrees orders) r ∧
      HasPoints r (derivNet K s.degrees orders P s.dim) := by
  obtain ⟨r, h1, h2, h3, h4⟩ := Spline.derivativeSpline_cp (K := K) hc hs hl hle hmax hsz
  refine ⟨r, h1, ⟨h2, h3⟩, fun idx hv => ?_⟩
  rw [Spline.controlPoint_cp h2 hv, h4 idx hv]
  congr 1
  exact Spline.derivNet_congr hl hle (fun i hi => hP.cp hs hi) s.dim (le_refl _) idx (by
    rw [show s.dim = s.degrees.length from rfl, Spline.doneDegrees_all hl, ← h3]; exact hv)

/-- C90. `OrderElevateAlongParametricDimension` evaluates the formula `elevationOf` for every row of control points. -/
theorem C90_elevate (s : Spline V) (hs : s.WF) (d p : ℕ) (hp : s.degrees[d]? = some p) (hsz : size (s.degrees.set d (p + 1)) < 2 ^ 31)
    (P : List ℕ → V) (hP : HasPoints s P) :
    ∃ r, Spline.orderElevate K s d = .ok r ∧ HasShape (s.degrees.set d (p + 1)) r ∧
      HasPoints r (fun idx => elevationOf K p (fun j => P (idx.set d j)) (idx.getD d 0)) := by
  obtain ⟨r, h1, h2, h3, h4⟩ := Spline.orderElevate_cp (K := K) hs hp hsz
  refine ⟨r, h1, ⟨h2, h3⟩, fun idx hv => ?_⟩
  have hd : d < s.degrees.length := (List.getElem?_eq_some_iff.mp hp).1
  have hdi : d < idx.length := by rw [hv.length, h3, List.length_set]; exact hd
  have hi : idx[d]? = some idx[d] := List.getElem?_eq_getElem hdi
  have hg : idx.getD d 0 = idx[d] := by rw [List.getD_eq_getElem?_getD, hi]; rfl
  have hle : idx[d] ≤ p + 1 := (Spline.validIdx_iff.mp hv).2 d _ _ hi (by rw [h3, List.getElem?_set_self hd])
  rw [Spline.controlPoint_cp h2 hv, h4 idx idx[d] hv hi]
  beta_reduce
  rw [hg]
  congr 1
  refine Spline.elev_congr (fun j hj => hP.cp hs ?_) hle
  have := validIdx_set hv d p j hj
  rwa [h3, List.set_set, Spline.set_deg hp] at this

end

section
variable {K V : Type} [Zero K] [One K] [Sub K] [LT K] [DecidableLT K] [Zero V] [Add V] [SMul K V]

/-- C90. `SplitAtPosition` evaluates de Casteljau's triangle for every row of control points. -/
theorem C90_split (s : Spline V) (hs : s.WF) (d p : ℕ) (hp : s.degrees[d]? = some p) (z : K) (hz : 0 < z ∧ z < 1) (P : List ℕ → V)
    (hP : HasPoints s P) :
    ∃ a b, s.splitAt z d = .ok (a, b) ∧ HasShape s.degrees a ∧ HasShape s.degrees b ∧
      HasPoints a (fun idx => triangle z (fun j => P (idx.set d j)) (idx.getD d 0) 0) ∧
      HasPoints b (fun idx => triangle z (fun j => P (idx.set d j)) (p - idx.getD d 0) (idx.getD d 0)) := by
  obtain ⟨a, b, h1, h2, h3, h4, h5, h6⟩ := Spline.splitAt_cp (K := K) hs hp hz
  have key : ∀ idx, ValidIdx s.degrees idx → ∃ i, idx[d]? = some i ∧ idx.getD d 0 = i ∧ i ≤ p ∧
      ∀ r j, r + j ≤ p → triangle z (fun j => s.cp (idx.set d j)) r j = triangle z (fun j => P (idx.set d j)) r j := by
    intro idx hv
    have hd : d < s.degrees.length := (List.getElem?_eq_some_iff.mp hp).1
    have hdi : d < idx.length := by rw [hv.length]; exact hd
    have hi : idx[d]? = some idx[d] := List.getElem?_eq_getElem hdi
    refine ⟨idx[d], hi, by rw [List.getD_eq_getElem?_getD, hi]; rfl, (Spline.validIdx_iff.mp hv).2 d _ _ hi hp, ?_⟩
    intro r
    induction r with
    | zero =>
      intro j hj
      refine hP.cp hs ?_
      have := validIdx_set hv d p j (by omega)
      rwa [Spline.set_deg hp] at this
    | succ r ih => intro j hj; rw [triangle, triangle, ih j (by omega), ih (j + 1) (by omega)]
  refine ⟨a, b, h1, ⟨h2, h4⟩, ⟨h3, h5⟩, fun idx hv => ?_, fun idx hv => ?_⟩
  · have hv' : ValidIdx s.degrees idx := h4 ▸ hv
    obtain ⟨i, hi, hg, hip, hk⟩ := key idx hv'
    rw [Spline.controlPoint_cp h2 hv, (h6 idx i hv' hi).1]
    beta_reduce
    rw [hg, hk i 0 (by omega)]
  · have hv' : ValidIdx s.degrees idx := h5 ▸ hv
    obtain ⟨i, hi, hg, hip, hk⟩ := key idx hv'
    rw [Spline.controlPoint_cp h3 hv, (h6 idx i hv' hi).2]
    beta_reduce
    rw [hg, hk (p - i) i (by omega)]

end

section
variable {K V : Type} [Zero K] [One K] [Add K] [Sub K] [Mul K] [Neg K] [Div K] [NatCast K] [Zero V] [Add V] [Sub V] [Neg V] [SMul K V]

/-- C91. `a + b` and `a += b` give identical splines in any arithmetic with commutative addition. -/
theorem C91_add (hcomm : ∀ x y : V, x + y = y + x) (cfg : Cfg) (da db : List ℕ) (a b : Spline V) (ha : HasShape da a) (hb : HasShape db b)
    (hf : Fits cfg da db) : Spline.addOp K cfg a b = Spline.addAssign K cfg a b ∧ ∃ r, Spline.addAssign K cfg a b = .ok r :=
  ⟨Spline.addOp_eq hcomm ha hb hf, (Spline.addAssign_returns cfg ha hb hf).imp fun _ h => h.1⟩

/-- C91. `a - b` and `a -= b` give identical splines in any arithmetic when no degree of `b` exceeds that of `a`
(for other degrees `a - b` is a different spline, see C18). -/
theorem C91_sub (cfg : Cfg) (da db : List ℕ) (a b : Spline V) (ha : HasShape da a) (hb : HasShape db b) (hf : Fits cfg da db)
    (hle : ∀ i p q : ℕ, da[i]? = some p → db[i]? = some q → q ≤ p) :
    Spline.subOp K cfg a b = Spline.subAssign K cfg a b ∧ ∃ r, Spline.subAssign K cfg a b = .ok r :=
  ⟨Spline.subOp_eq ha hb hf hle, (Spline.subAssign_returns cfg ha hb hf).imp fun _ h => h.1⟩

end

/-! ## Examples -/

/-- the control points of a spline -/
theorem hasPoints_self {V : Type} [Zero V] {s : Spline V} (hs : s.WF) : HasPoints s (fun idx => s.cps.getD (flatIndex s.degrees idx) 0) :=
  fun _ hv => Spline.controlPoint_cp hs hv

noncomputable example := C90_product (K := F64) Ex.cfg Ex.cfg_ok (fun x y : F64 => x * y) exFl exFl (Ex.surf_wf ..) (Ex.surf_wf ..) rfl (by decide)
  _ _ (hasPoints_self (Ex.surf_wf ..)) (hasPoints_self (Ex.surf_wf ..))

noncomputable example := C90_derivative (K := F64) Ex.cfg Ex.cfg_ok exFl (Ex.surf_wf ..) [1, 1] rfl
  (fun d o p h1 h2 => by
    rcases d with _ | _ | d
    · cases h1; cases h2; decide
    · cases h1; cases h2; decide
    · cases h1) (by decide) (by decide) _ (hasPoints_self (Ex.surf_wf ..))

noncomputable example := C90_elevate (K := F64) exFl (Ex.surf_wf ..) 1 1 rfl (by decide) _ (hasPoints_self (Ex.surf_wf ..))

noncomputable example := C90_split (K := F64) exFl (Ex.surf_wf ..) 0 2 rfl ⟨1 / 4⟩
  ⟨by show (0 : ℝ) < 1 / 4; norm_num, by show (1 / 4 : ℝ) < 1; norm_num⟩ _ (hasPoints_self (Ex.surf_wf ..))

/-- the derivative of a curve of degree 2 in direction 0: `((-1) * 2) • (P 0 + (-1 * 1) • P 1)` and so on -/
example (P : List ℕ → F64) : derivNet F64 [2] [1] P 1 [0] = (-1 * ((2 : ℕ) : F64)) • (P [0] + (-1 * ((1 : ℕ) : F64)) • P [1]) := rfl

/-- the middle control point of the product of two line segments: the two coefficients are `1 * 1 / 2` -/
example (P Q : List ℕ → F64) : productNet (K := F64) (fun x y : F64 => x * y) [1] [1] [1] 1 P Q 0 =
    0 + (((1 : ℕ) : F64) / (2 : ℕ)) • ((1 : F64) • (P [0] * Q [1])) + (((1 : ℕ) : F64) / (2 : ℕ)) • ((1 : F64) • (P [1] * Q [0])) := rfl

example (a b c d e f : ℚ) : Spline.addOp ℚ Ex.cfg (Ex.surf a b c d e f) (Ex.surf' f e d c b a) =
    Spline.addAssign ℚ Ex.cfg (Ex.surf a b c d e f) (Ex.surf' f e d c b a) :=
  (C91_add (fun x y : ℚ => add_comm x y) Ex.cfg [2, 1] [1, 2] _ _ ⟨Ex.surf_wf .., rfl⟩ ⟨Ex.surf'_wf .., rfl⟩ ⟨rfl, by decide, by decide, by decide⟩).1

example (a b c d e : ℚ) : Spline.subOp ℚ Ex.cfg (Ex.curve a b c) (Ex.line d e) = Spline.subAssign ℚ Ex.cfg (Ex.curve a b c) (Ex.line d e) :=
  (C91_sub Ex.cfg [2] [1] _ _ ⟨Ex.curve_wf .., rfl⟩ ⟨Ex.line_wf .., rfl⟩ ⟨rfl, by decide, by decide, by decide⟩ (fun i p q h1 h2 => by
    rcases i with _ | i
    · cases h1; cases h2; decide
    · cases h1)).1

end Bezman.Props
