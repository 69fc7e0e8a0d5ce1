import Verif.Props.Examples
import Verif.Proofs.PropsAux
import Verif.Proofs.Power
import Verif.Proofs.Point
import Verif.Proofs.Unique
import Mathlib.Algebra.Module.Basic
import Mathlib.Algebra.Algebra.Bilinear
import Mathlib.Algebra.Order.Field.Rat

/-! # Properties: arithmetic of polynomial splines -/

namespace Bezman.Props
open Spec Finset

section
variable {K V : Type} [Field K] [CharZero K] [AddCommGroup V] [Module K V]

omit [CharZero K] in
theorem binOk {cfg : Cfg} {a b : Spline V} {da db : List ℕ} {f g : List K → V} (ha : a.Computes da f)
    (hb : b.Computes db g) (h : Fits cfg da db) : Spline.BinOk cfg a b := by
  obtain ⟨wa, rfl, _⟩ := ha
  obtain ⟨wb, rfl, _⟩ := hb
  exact ⟨wa, wb, h.dims, fun p hp => h.rounds p (by simp [hp]), fun p hp => h.rounds p (by simp [hp]),
    h.rounds2, h.small⟩

omit [CharZero K] in
theorem binComputes {da db : List ℕ} {f g : List K → V} {a b r : Spline V} (ha : a.Computes da f)
    (hb : b.Computes db g) (hl : db.length = da.length) (hr : r.WF)
    (hd : r.degrees = Spline.maxDeg a.degrees b.degrees) (op : V → V → V)
    (hv : ∀ t : List K, t.length = a.dim → r.value t = op (a.value t) (b.value t)) :
    r.Computes (maxDegrees da db) (fun t => op (f t) (g t)) := by
  have hlm : (maxDegrees da db).length = da.length := by simp [maxDegrees, hl]
  refine Spline.Computes.mk' hr ?_ ?_
  · rw [hd, ha.degrees_eq, hb.degrees_eq]; rfl
  · intro t ht
    rw [hlm] at ht
    rw [hv t (by rw [ha.dim_eq]; exact ht), ha.value_eq ht, hb.value_eq (by rw [hl]; exact ht)]

/-! ## C16, C17, C18, C19 -/

/-- C16. `a + b`. -/
theorem C16_add (cfg : Cfg) (a b : Spline V) (da db : List ℕ) (f g : List K → V) (ha : a.Computes da f)
    (hb : b.Computes db g) (h : Fits cfg da db) :
    ∃ r, Spline.addOp K cfg a b = .ok r ∧ r.Computes (maxDegrees da db) (fun t => f t + g t) := by
  obtain ⟨r, h1, h2, h3, h4⟩ := Spline.addOp_ok (K := K) (binOk ha hb h)
  exact ⟨r, h1, binComputes ha hb h.dims h2 h3 (· + ·) h4⟩

/-- C17. `a += b`: the new value of `a`. -/
theorem C17_add_assign (cfg : Cfg) (a b : Spline V) (da db : List ℕ) (f g : List K → V) (ha : a.Computes da f)
    (hb : b.Computes db g) (h : Fits cfg da db) :
    ∃ r, Spline.addAssign K cfg a b = .ok r ∧ r.Computes (maxDegrees da db) (fun t => f t + g t) := by
  obtain ⟨r, h1, h2, h3, h4⟩ := Spline.addAssign_ok (K := K) (binOk ha hb h)
  exact ⟨r, h1, binComputes ha hb h.dims h2 h3 (· + ·) h4⟩

/-- C18, part: `a - b` when no degree of `b` exceeds that of `a`. The full property
(any two splines of equal dimension) is false, see `C18_sub_never_returns`. -/
theorem C18_sub_partial (cfg : Cfg) (a b : Spline V) (da db : List ℕ) (f g : List K → V) (ha : a.Computes da f)
    (hb : b.Computes db g) (h : Fits cfg da db)
    (hle : ∀ d p q : ℕ, da[d]? = some p → db[d]? = some q → q ≤ p) :
    ∃ r, Spline.subOp K cfg a b = .ok r ∧ r.Computes (maxDegrees da db) (fun t => f t - g t) := by
  obtain ⟨r, h1, h2, h3, h4⟩ := Spline.subOp_ok (K := K) (binOk ha hb h) (by
    rw [ha.degrees_eq, hb.degrees_eq]; exact hle)
  exact ⟨r, h1, binComputes ha hb h.dims h2 h3 (· - ·) h4⟩

omit [CharZero K] in
/-- C18, negation: as soon as `b` has a larger degree in some dimension, `a - b` does
not return, however many rounds its loops are given. -/
theorem C18_sub_never_returns (cfg : Cfg) (a b : Spline V) (d p q : ℕ)
    (ha : a.degrees[d]? = some p) (hb : b.degrees[d]? = some q) (hpq : p < q) :
    ∀ r, Spline.subOp K cfg a b ≠ .ok r := Spline.subOp_diverges ha hb hpq

/-- C19. `a -= b`: the new value of `a`. -/
theorem C19_sub_assign (cfg : Cfg) (a b : Spline V) (da db : List ℕ) (f g : List K → V) (ha : a.Computes da f)
    (hb : b.Computes db g) (h : Fits cfg da db) :
    ∃ r, Spline.subAssign K cfg a b = .ok r ∧ r.Computes (maxDegrees da db) (fun t => f t - g t) := by
  obtain ⟨r, h1, h2, h3, h4⟩ := Spline.subAssign_ok (K := K) (binOk ha hb h)
  exact ⟨r, h1, binComputes ha hb h.dims h2 h3 (· - ·) h4⟩

end

theorem fits_AB : Fits Ex.cfg [2, 1] [1, 2] := ⟨rfl, by decide, by decide, by decide⟩

example : ∃ r, Spline.addOp ℚ Ex.cfg Ex.A Ex.B = .ok r ∧
    r.Computes [2, 2] (fun t : List ℚ => Ex.A.value t + Ex.B.value t) :=
  C16_add Ex.cfg Ex.A Ex.B _ _ _ _ Ex.A_wf.computes Ex.B_wf.computes fits_AB
example : ∃ r, Spline.addAssign ℚ Ex.cfg Ex.A Ex.B = .ok r ∧
    r.Computes [2, 2] (fun t : List ℚ => Ex.A.value t + Ex.B.value t) :=
  C17_add_assign Ex.cfg Ex.A Ex.B _ _ _ _ Ex.A_wf.computes Ex.B_wf.computes fits_AB
example : ∃ r, Spline.subAssign ℚ Ex.cfg Ex.A Ex.B = .ok r ∧
    r.Computes [2, 2] (fun t : List ℚ => Ex.A.value t - Ex.B.value t) :=
  C19_sub_assign Ex.cfg Ex.A Ex.B _ _ _ _ Ex.A_wf.computes Ex.B_wf.computes fits_AB
example : ∃ r, Spline.subOp ℚ Ex.cfg (Ex.curve (1 : ℚ) 2 3) (Ex.line 4 5) = .ok r ∧
    r.Computes [2] (fun t : List ℚ => (Ex.curve (1 : ℚ) 2 3).value t - (Ex.line (4 : ℚ) 5).value t) :=
  C18_sub_partial Ex.cfg _ _ _ _ _ _ (Ex.curve_wf ..).computes (Ex.line_wf ..).computes
    ⟨rfl, by decide, by decide, by decide⟩ (by
      intro d p q h1 h2
      rcases d with _ | d
      · simp [Ex.curve, Ex.line] at h1 h2; omega
      · simp [Ex.curve] at h1)
/-- a straight line minus a parabola: no result for any number of loop rounds -/
example (fuel : ℕ) : ∀ r, Spline.subOp ℚ ⟨30, fuel⟩ (Ex.line (4 : ℚ) 5) (Ex.curve 1 2 3) ≠ .ok r :=
  C18_sub_never_returns ⟨30, fuel⟩ _ _ 0 1 2 rfl rfl (by decide)

/-! ## C20 -/

section
variable {K V : Type} [CommRing K] [AddCommGroup V] [Module K V]

/-- C20. `a * c`, `c * a`, `a *= c`. -/
theorem C20_scale (a : Spline V) (ds : List ℕ) (f : List K → V) (ha : a.Computes ds f) (c : K) :
    ∃ r, a.smulOp c = .ok r ∧ r.Computes ds (fun t => c • f t) := by
  have h := ha.wf
  refine ⟨_, Spline.mapCps_ok h _, Spline.Computes.mk' (h.map _) ha.degrees_eq ?_⟩
  intro t ht
  have h2 : a.value t = f t := ha.value_eq ht
  rw [Spline.value_map (K := K) h, neval_smul, ← h2]; rfl

/-- C20. `a + P`, `P + a`, `a += P`. -/
theorem C20_add_point (a : Spline V) (ds : List ℕ) (f : List K → V) (ha : a.Computes ds f) (p : V) :
    ∃ r, a.addPoint p = .ok r ∧ r.Computes ds (fun t => f t + p) := by
  have h := ha.wf
  refine ⟨_, Spline.mapCps_ok h _, Spline.Computes.mk' (h.map _) ha.degrees_eq ?_⟩
  intro t ht
  have h2 : a.value t = f t := ha.value_eq ht
  rw [Spline.value_map (K := K) h, neval_add, neval_const (by rw [ha.degrees_eq, ht]), ← h2]; rfl

/-- C20. `a - P`, `a -= P`. -/
theorem C20_sub_point (a : Spline V) (ds : List ℕ) (f : List K → V) (ha : a.Computes ds f) (p : V) :
    ∃ r, a.subPoint p = .ok r ∧ r.Computes ds (fun t => f t - p) := by
  have h := ha.wf
  refine ⟨_, Spline.mapCps_ok h _, Spline.Computes.mk' (h.map _) ha.degrees_eq ?_⟩
  intro t ht
  have h2 : a.value t = f t := ha.value_eq ht
  rw [Spline.value_map (K := K) h, neval_sub, neval_const (by rw [ha.degrees_eq, ht]), ← h2]; rfl

/-- C20. `-a`. -/
theorem C20_neg (a : Spline V) (ds : List ℕ) (f : List K → V) (ha : a.Computes ds f) :
    ∃ r, a.negOp = .ok r ∧ r.Computes ds (fun t => - f t) := by
  have h := ha.wf
  refine ⟨_, Spline.negOp_ok h, Spline.Computes.mk' (h.map _) ha.degrees_eq ?_⟩
  intro t ht
  have h2 : a.value t = f t := ha.value_eq ht
  rw [Spline.value_map (K := K) h, neval_neg, ← h2]; rfl

/-- C20. `P - a`. -/
theorem C20_point_sub (a : Spline V) (ds : List ℕ) (f : List K → V) (ha : a.Computes ds f) (p : V) :
    ∃ r, Spline.pointSub p a = .ok r ∧ r.Computes ds (fun t => p - f t) := by
  obtain ⟨b, h1, h2⟩ := C20_sub_point a ds f ha p
  obtain ⟨r, h3, h4⟩ := C20_neg b ds _ h2
  refine ⟨r, ?_, h4.congr fun t _ => by abel⟩
  unfold Spline.pointSub
  rw [h1]; exact h3

end

example : ∃ r, Ex.P.smulOp (3 / 2 : ℚ) = .ok r ∧ r.Computes [2, 1] (fun t : List ℚ => (3 / 2 : ℚ) • Ex.P.value t) :=
  C20_scale Ex.P _ _ Ex.P_wf.computes _
example : ∃ r, Spline.pointSub (Ex.pt 1 2) Ex.P = .ok r ∧
    r.Computes [2, 1] (fun t : List ℚ => Ex.pt 1 2 - Ex.P.value t) :=
  C20_point_sub Ex.P _ _ Ex.P_wf.computes _
example : ∃ r, Ex.P.addPoint (Ex.pt 1 2) = .ok r ∧
    r.Computes [2, 1] (fun t : List ℚ => Ex.P.value t + Ex.pt 1 2) :=
  C20_add_point Ex.P _ _ Ex.P_wf.computes _
example : ∃ r, Ex.P.subPoint (Ex.pt 1 2) = .ok r ∧
    r.Computes [2, 1] (fun t : List ℚ => Ex.P.value t - Ex.pt 1 2) :=
  C20_sub_point Ex.P _ _ Ex.P_wf.computes _
example : ∃ r, Ex.P.negOp = .ok r ∧ r.Computes [2, 1] (fun t : List ℚ => - Ex.P.value t) :=
  C20_neg Ex.P _ _ Ex.P_wf.computes

/-! ## C21 -/

section
variable {K V W U : Type} [Field K] [CharZero K] [AddCommGroup V] [Module K V] [AddCommGroup W] [Module K W]
  [AddCommGroup U] [Module K U]

/-- C21. `a * b` for any product of the control point types that is bilinear. -/
theorem C21_mul (cfg : Cfg) (hmax : cfg.maxBinom ≤ 68) (mul : V → W → U) (B : V →ₗ[K] W →ₗ[K] U)
    (hB : ∀ x y, mul x y = B x y) (a : Spline V) (b : Spline W) (da db : List ℕ) (f : List K → V) (g : List K → W)
    (ha : a.Computes da f) (hb : b.Computes db g) (hdim : db.length = da.length)
    (hdeg : ∀ p ∈ sumDegrees da db, p < cfg.maxBinom) :
    ∃ r, Spline.mulOp K cfg mul a b = .ok r ∧ r.Computes (sumDegrees da db) (fun t => mul (f t) (g t)) := by
  have had := ha.degrees_eq
  have hbd := hb.degrees_eq
  obtain ⟨r, h1, h2, h3, h4⟩ := Spline.mulOp_ok (K := K) hmax B hB ha.wf hb.wf
    (by rw [ha.dim_eq, hb.dim_eq, hdim]) (by rw [had, hbd]; exact hdeg)
  refine ⟨r, h1, Spline.Computes.mk' h2 (by rw [h3, had, hbd]; rfl) ?_⟩
  intro t ht
  have ht' : t.length = da.length := by simpa [sumDegrees, hdim] using ht
  rw [h4 t (by rw [ha.dim_eq]; exact ht'), ha.value_eq ht', hb.value_eq (by rw [hdim]; exact ht')]

/-- C21. Product of two scalar splines. -/
theorem C21_mul_scalar (cfg : Cfg) (hmax : cfg.maxBinom ≤ 68) (a b : Spline K) (da db : List ℕ)
    (f g : List K → K) (ha : a.Computes da f) (hb : b.Computes db g) (hdim : db.length = da.length)
    (hdeg : ∀ p ∈ sumDegrees da db, p < cfg.maxBinom) :
    ∃ r, Spline.mulScalar cfg a b = .ok r ∧ r.Computes (sumDegrees da db) (fun t => f t * g t) :=
  C21_mul cfg hmax (fun x y => x * y) (LinearMap.mul K K) (fun _ _ => rfl) a b da db f g ha hb hdim hdeg

/-- C21. Scalar spline times spline of points. -/
theorem C21_mul_scalar_point (cfg : Cfg) (hmax : cfg.maxBinom ≤ 68) (a : Spline K) (b : Spline V) (da db : List ℕ)
    (f : List K → K) (g : List K → V) (ha : a.Computes da f) (hb : b.Computes db g) (hdim : db.length = da.length)
    (hdeg : ∀ p ∈ sumDegrees da db, p < cfg.maxBinom) :
    ∃ r, Spline.mulOp K cfg (fun c x => c • x) a b = .ok r ∧ r.Computes (sumDegrees da db) (fun t => f t • g t) :=
  C21_mul cfg hmax (fun c x => c • x) (LinearMap.lsmul K V) (fun _ _ => rfl) a b da db f g ha hb hdim hdeg

/-- C21. Spline of points times scalar spline. -/
theorem C21_mul_point_scalar (cfg : Cfg) (hmax : cfg.maxBinom ≤ 68) (a : Spline V) (b : Spline K) (da db : List ℕ)
    (f : List K → V) (g : List K → K) (ha : a.Computes da f) (hb : b.Computes db g) (hdim : db.length = da.length)
    (hdeg : ∀ p ∈ sumDegrees da db, p < cfg.maxBinom) :
    ∃ r, Spline.mulOp K cfg (fun (x : V) (c : K) => c • x) a b = .ok r ∧
      r.Computes (sumDegrees da db) (fun t => g t • f t) :=
  C21_mul cfg hmax (fun x c => c • x) (LinearMap.lsmul K V).flip (fun _ _ => rfl) a b da db f g ha hb hdim hdeg

/-- C21. Product of two splines of points: the dot product `∑ j, x_j y_j`. -/
theorem C21_mul_dot {n : ℕ} (cfg : Cfg) (hmax : cfg.maxBinom ≤ 68) (a b : Spline (Point K n)) (da db : List ℕ)
    (f g : List K → Point K n) (ha : a.Computes da f) (hb : b.Computes db g) (hdim : db.length = da.length)
    (hdeg : ∀ p ∈ sumDegrees da db, p < cfg.maxBinom) :
    ∃ r, Spline.mulOp K cfg Point.dot a b = .ok r ∧
      r.Computes (sumDegrees da db) (fun t => ∑ j, (f t).val j * (g t).val j) := by
  obtain ⟨r, h1, h2⟩ := C21_mul cfg hmax Point.dot (Point.dotB K n) (fun _ _ => rfl)
    a b da db f g ha hb hdim hdeg
  exact ⟨r, h1, h2.congr fun t _ => Point.dot_eq _ _⟩

end

example : ∃ r, Spline.mulScalar Ex.cfg Ex.A Ex.B = .ok r ∧
    r.Computes [3, 3] (fun t : List ℚ => Ex.A.value t * Ex.B.value t) :=
  C21_mul_scalar Ex.cfg Ex.cfg_ok Ex.A Ex.B _ _ _ _ Ex.A_wf.computes Ex.B_wf.computes rfl (by decide)
example : ∃ r, Spline.mulOp ℚ Ex.cfg (fun c x => c • x) Ex.B Ex.P = .ok r ∧
    r.Computes [3, 3] (fun t : List ℚ => Ex.B.value t • Ex.P.value t) :=
  C21_mul_scalar_point Ex.cfg Ex.cfg_ok Ex.B Ex.P _ _ _ _ Ex.B_wf.computes Ex.P_wf.computes rfl (by decide)
example : ∃ r, Spline.mulOp ℚ Ex.cfg Point.dot Ex.P Ex.P = .ok r ∧
    r.Computes [4, 2] (fun t : List ℚ => ∑ j, (Ex.P.value t).val j * (Ex.P.value t).val j) :=
  C21_mul_dot Ex.cfg Ex.cfg_ok Ex.P Ex.P _ _ _ _ Ex.P_wf.computes Ex.P_wf.computes rfl (by decide)

/-! ## C22 -/

/-- C22. `RaisePower(n)`. -/
theorem C22_raise_power {K : Type} [Field K] [CharZero K] (cfg : Cfg) (hmax : cfg.maxBinom ≤ 68) (a : Spline K)
    (ds : List ℕ) (f : List K → K) (ha : a.Computes ds f) (n : ℕ) (hdeg : ∀ p ∈ ds, n * p < cfg.maxBinom) :
    ∃ r, Spline.raisePower cfg a n = .ok r ∧ r.Computes (ds.map (fun p => n * p)) (fun t => f t ^ n) := by
  have had := ha.degrees_eq
  obtain ⟨r, h1, h2, h3, h4⟩ := Spline.raisePower_ok hmax ha.wf n (by
    rw [had]; intro p hp
    obtain ⟨q, hq, rfl⟩ := List.mem_map.mp hp
    exact hdeg q hq)
  refine ⟨r, h1, Spline.Computes.mk' h2 (by rw [h3, had]) ?_⟩
  intro t ht
  have ht' : t.length = ds.length := by simpa using ht
  rw [h4 t (by rw [ha.dim_eq]; exact ht'), ha.value_eq ht']

/-- C22. Exponent zero: the constant one. -/
theorem C22_raise_power_zero {K : Type} [Field K] [CharZero K] (cfg : Cfg) (hmax : cfg.maxBinom ≤ 68)
    (h0 : 0 < cfg.maxBinom) (a : Spline K)
    (ds : List ℕ) (f : List K → K) (ha : a.Computes ds f) :
    ∃ r, Spline.raisePower cfg a 0 = .ok r ∧ r.Computes (ds.map (fun _ => 0)) (fun _ : List K => (1 : K)) := by
  obtain ⟨r, h1, h2⟩ := C22_raise_power cfg hmax a ds f ha 0 (by simpa using fun _ _ => h0)
  refine ⟨r, h1, ?_⟩
  simp only [Nat.zero_mul, pow_zero] at h2
  exact h2

example : ∃ r, Spline.raisePower Ex.cfg Ex.A 13 = .ok r ∧
    r.Computes [26, 13] (fun t : List ℚ => Ex.A.value t ^ 13) :=
  C22_raise_power Ex.cfg Ex.cfg_ok Ex.A _ _ Ex.A_wf.computes 13 (by decide)

/-! ## C58 -/

section
variable {K V : Type} [Field K] [CharZero K] [AddCommGroup V] [Module K V]

theorem maxDegrees_length {a b : List ℕ} (h : b.length = a.length) : (maxDegrees a b).length = a.length := by
  simp [maxDegrees, h]

/-- C58. Addition is commutative: both orders give the same object, control point by control point. -/
theorem C58_add_comm (cfg : Cfg) (a b : Spline V) (da db : List ℕ) (f g : List K → V) (ha : a.Computes da f)
    (hb : b.Computes db g) (h : Fits cfg da db) :
    ∃ r, Spline.addOp K cfg a b = .ok r ∧ Spline.addOp K cfg b a = .ok r := by
  have hcomm : maxDegrees db da = maxDegrees da db := Spline.maxDeg_comm _ _
  obtain ⟨r, h1, h2⟩ := C16_add cfg a b da db f g ha hb h
  obtain ⟨r', h1', h2'⟩ := C16_add cfg b a db da g f hb ha
    ⟨h.dims.symm, fun p hp => h.rounds p (by simp at hp ⊢; tauto), h.rounds2, by rw [hcomm]; exact h.small⟩
  rw [hcomm] at h2'
  rw [h2'.unique (h2.congr fun t _ => add_comm _ _)] at h1'
  exact ⟨r, h1, h1'⟩

/-- C58. Addition is associative. -/
theorem C58_add_assoc (cfg : Cfg) (a b c : Spline V) (da db dc : List ℕ) (f g h : List K → V)
    (ha : a.Computes da f) (hb : b.Computes db g) (hc : c.Computes dc h)
    (hab : Fits cfg da db) (hbc : Fits cfg db dc) (habc : Fits cfg (maxDegrees da db) dc)
    (habc' : Fits cfg da (maxDegrees db dc)) :
    ∃ ab bc r, Spline.addOp K cfg a b = .ok ab ∧ Spline.addOp K cfg ab c = .ok r ∧
      Spline.addOp K cfg b c = .ok bc ∧ Spline.addOp K cfg a bc = .ok r := by
  obtain ⟨ab, h1, h2⟩ := C16_add cfg a b da db f g ha hb hab
  obtain ⟨bc, h3, h4⟩ := C16_add cfg b c db dc g h hb hc hbc
  obtain ⟨r, h5, h6⟩ := C16_add cfg ab c _ dc _ h h2 hc habc
  obtain ⟨r', h7, h8⟩ := C16_add cfg a bc da _ f _ ha h4 habc'
  have hassoc : maxDegrees da (maxDegrees db dc) = maxDegrees (maxDegrees da db) dc :=
    (Spline.maxDeg_assoc _ _ _).symm
  rw [hassoc] at h8
  rw [h8.unique (h6.congr fun t _ => add_assoc _ _ _)] at h7
  exact ⟨ab, bc, r, h1, h5, h3, h7⟩

/-- C58. Multiplication of scalar splines is commutative. -/
theorem C58_mul_comm (cfg : Cfg) (hmax : cfg.maxBinom ≤ 68) (a b : Spline K) (da db : List ℕ)
    (f g : List K → K) (ha : a.Computes da f) (hb : b.Computes db g) (hdim : db.length = da.length)
    (hdeg : ∀ p ∈ sumDegrees da db, p < cfg.maxBinom) :
    ∃ r, Spline.mulScalar cfg a b = .ok r ∧ Spline.mulScalar cfg b a = .ok r := by
  have hcomm : sumDegrees db da = sumDegrees da db := List.zipWith_comm_of_comm (fun x y => Nat.add_comm x y)
  obtain ⟨r, h1, h2⟩ := C21_mul_scalar cfg hmax a b da db f g ha hb hdim hdeg
  obtain ⟨r', h1', h2'⟩ := C21_mul_scalar cfg hmax b a db da g f hb ha hdim.symm (by rw [hcomm]; exact hdeg)
  rw [hcomm] at h2'
  rw [h2'.unique (h2.congr fun t _ => mul_comm _ _)] at h1'
  exact ⟨r, h1, h1'⟩

/-- C58. Multiplication of scalar splines is associative. -/
theorem C58_mul_assoc (cfg : Cfg) (hmax : cfg.maxBinom ≤ 68) (a b c : Spline K) (da db dc : List ℕ)
    (f g h : List K → K) (ha : a.Computes da f) (hb : b.Computes db g) (hc : c.Computes dc h)
    (hdim : db.length = da.length) (hdim' : dc.length = da.length)
    (hdeg : ∀ p ∈ sumDegrees (sumDegrees da db) dc, p < cfg.maxBinom)
    (hdeg1 : ∀ p ∈ sumDegrees da db, p < cfg.maxBinom) (hdeg2 : ∀ p ∈ sumDegrees db dc, p < cfg.maxBinom) :
    ∃ ab bc r, Spline.mulScalar cfg a b = .ok ab ∧ Spline.mulScalar cfg ab c = .ok r ∧
      Spline.mulScalar cfg b c = .ok bc ∧ Spline.mulScalar cfg a bc = .ok r := by
  have hassoc : sumDegrees da (sumDegrees db dc) = sumDegrees (sumDegrees da db) dc := by
    unfold sumDegrees
    apply List.ext_getElem
    · simp
    · intro i h1 h2; simp [Nat.add_assoc]
  obtain ⟨ab, h1, h2⟩ := C21_mul_scalar cfg hmax a b da db f g ha hb hdim hdeg1
  obtain ⟨bc, h3, h4⟩ := C21_mul_scalar cfg hmax b c db dc g h hb hc (by omega) hdeg2
  obtain ⟨r, h5, h6⟩ := C21_mul_scalar cfg hmax ab c _ dc _ h h2 hc (by simp [sumDegrees, hdim, hdim']) hdeg
  obtain ⟨r', h7, h8⟩ := C21_mul_scalar cfg hmax a bc da _ f _ ha h4 (by simp [sumDegrees, hdim, hdim'])
    (by rw [hassoc]; exact hdeg)
  rw [hassoc] at h8
  rw [h8.unique (h6.congr fun t _ => mul_assoc _ _ _)] at h7
  exact ⟨ab, bc, r, h1, h5, h3, h7⟩

/-- C58. Multiplication distributes over addition (scalar spline times splines of
points; with `V = K` it is the law for scalar splines). -/
theorem C58_distrib (cfg : Cfg) (hmax : cfg.maxBinom ≤ 68) (a : Spline K) (b c : Spline V) (da db dc : List ℕ)
    (f : List K → K) (g h : List K → V) (ha : a.Computes da f) (hb : b.Computes db g) (hc : c.Computes dc h)
    (hdim : db.length = da.length) (hbc : Fits cfg db dc)
    (hprod : Fits cfg (sumDegrees da db) (sumDegrees da dc))
    (hdeg1 : ∀ p ∈ sumDegrees da db, p < cfg.maxBinom) (hdeg2 : ∀ p ∈ sumDegrees da dc, p < cfg.maxBinom) :
    ∃ bc ab ac r, Spline.addOp K cfg b c = .ok bc ∧
      Spline.mulOp K cfg (fun (x : K) (y : V) => x • y) a bc = .ok r ∧
      Spline.mulOp K cfg (fun (x : K) (y : V) => x • y) a b = .ok ab ∧
      Spline.mulOp K cfg (fun (x : K) (y : V) => x • y) a c = .ok ac ∧
      Spline.addOp K cfg ab ac = .ok r := by
  have hdim' : dc.length = da.length := by rw [hbc.dims, hdim]
  have hdist : maxDegrees (sumDegrees da db) (sumDegrees da dc) = sumDegrees da (maxDegrees db dc) := by
    unfold sumDegrees maxDegrees
    apply List.ext_getElem
    · simp; omega
    · intro i h1 h2; simp
  obtain ⟨bc, h1, h2⟩ := C16_add cfg b c db dc g h hb hc hbc
  obtain ⟨r, h3, h4⟩ := C21_mul_scalar_point cfg hmax a bc da _ f _ ha h2
    (by rw [maxDegrees_length hbc.dims, hdim]) (by
      rw [← hdist]
      intro p hp
      obtain ⟨i, hi, rfl⟩ := List.mem_iff_getElem.mp hp
      simp only [maxDegrees, List.getElem_zipWith]
      exact max_lt (hdeg1 _ (List.getElem_mem _)) (hdeg2 _ (List.getElem_mem _)))
  obtain ⟨ab, h5, h6⟩ := C21_mul_scalar_point cfg hmax a b da db f g ha hb hdim hdeg1
  obtain ⟨ac, h7, h8⟩ := C21_mul_scalar_point cfg hmax a c da dc f h ha hc hdim' hdeg2
  obtain ⟨r', h9, h10⟩ := C16_add cfg ab ac _ _ _ _ h6 h8 hprod
  rw [hdist] at h10
  rw [h10.unique (h4.congr fun t _ => smul_add _ _ _)] at h9
  exact ⟨bc, ab, ac, r, h1, h3, h5, h7, h9⟩

/-- C58. `a - a` and `a -= a` evaluate to zero everywhere. -/
theorem C58_sub_self (cfg : Cfg) (a : Spline V) (da : List ℕ) (f : List K → V) (ha : a.Computes da f)
    (h : Fits cfg da da) :
    (∃ r, Spline.subOp K cfg a a = .ok r ∧ r.Computes da (fun _ : List K => (0 : V))) ∧
    (∃ r, Spline.subAssign K cfg a a = .ok r ∧ r.Computes da (fun _ : List K => (0 : V))) := by
  have hs : maxDegrees da da = da := Spline.maxDeg_self da
  constructor
  · obtain ⟨r, h1, h2⟩ := C18_sub_partial cfg a a da da f f ha ha h (by
      intro d p q h1 h2; rw [h1] at h2; injection h2 with h2; omega)
    rw [hs] at h2
    exact ⟨r, h1, h2.congr fun t _ => sub_self _⟩
  · obtain ⟨r, h1, h2⟩ := C19_sub_assign cfg a a da da f f ha ha h
    rw [hs] at h2
    exact ⟨r, h1, h2.congr fun t _ => sub_self _⟩

end

example : ∃ r, Spline.addOp ℚ Ex.cfg Ex.A Ex.B = .ok r ∧ Spline.addOp ℚ Ex.cfg Ex.B Ex.A = .ok r :=
  C58_add_comm Ex.cfg Ex.A Ex.B _ _ _ _ Ex.A_wf.computes Ex.B_wf.computes fits_AB
example : ∃ bc ab ac r, Spline.addOp ℚ Ex.cfg Ex.P Ex.P = .ok bc ∧
      Spline.mulOp ℚ Ex.cfg (fun (x : ℚ) (y : Point ℚ 2) => x • y) Ex.B bc = .ok r ∧
      Spline.mulOp ℚ Ex.cfg (fun (x : ℚ) (y : Point ℚ 2) => x • y) Ex.B Ex.P = .ok ab ∧
      Spline.mulOp ℚ Ex.cfg (fun (x : ℚ) (y : Point ℚ 2) => x • y) Ex.B Ex.P = .ok ac ∧
      Spline.addOp ℚ Ex.cfg ab ac = .ok r :=
  C58_distrib Ex.cfg Ex.cfg_ok Ex.B Ex.P Ex.P _ _ _ _ _ _ Ex.B_wf.computes Ex.P_wf.computes Ex.P_wf.computes
    rfl ⟨rfl, by decide, by decide, by decide⟩ ⟨rfl, by decide, by decide, by decide⟩ (by decide) (by decide)

end Bezman.Props
