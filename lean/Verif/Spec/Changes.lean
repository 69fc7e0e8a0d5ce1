import Verif.Model.History
import Verif.Model.RHistory
import Verif.Spec.Computes
import Verif.Spec.RComputes
import Verif.Spec.Coords
import Mathlib.Order.Bounds.Basic

/-! # Specification: what calls that change an object do to its function -/

namespace Bezman
open Spec Coords

namespace Spec
variable {K V : Type} [Field K] [AddCommGroup V] [Module K V]

/-- The Bezier function with this list of control points, the first parametric dimension running fastest. -/
def netValue (ds : List ℕ) (C : List V) (t : List K) : V := bezier ds t (fun idx => C.getD (flatIndex ds idx) 0)

/-- The list `C` of control points represents the function `f`. -/
def Represents (ds : List ℕ) (C : List V) (f : List K → V) : Prop :=
  C.length = size ds ∧ ∀ t : List K, t.length = ds.length → f t = netValue ds C t

/-- What `std::vector::resize` does: cut off or append zeros. -/
def resized (C : List V) (n : ℕ) : List V := C.take n ++ List.replicate (n - C.length) 0

variable [LinearOrder K] [Coords K V]

/-- The call `m` takes an object of degrees `ds` that computes `f` to an object of degrees `ds'` that computes `f'`. -/
inductive Changes (cfg : Cfg) : List ℕ → (List K → V) → Mutator K V → List ℕ → (List K → V) → Prop
  /-- `operator*=(scalar)` -/
  | scale (ds f c) : Changes cfg ds f (.scale c) ds (fun t => c • f t)
  /-- `operator+=(point)` -/
  | addPoint (ds f v) : Changes cfg ds f (.addPoint v) ds (fun t => f t + v)
  /-- `operator-=(point)` -/
  | subPoint (ds f v) : Changes cfg ds f (.subPoint v) ds (fun t => f t - v)
  /-- `OrderElevateAlongParametricDimension` raises a degree and keeps the function -/
  | orderElevate (ds f d p) (hp : ds[d]? = some p) (hs : size (ds.set d (p + 1)) < 2 ^ 31) :
      Changes cfg ds f (.orderElevate d) (ds.set d (p + 1)) f
  /-- `operator+=(spline)` -/
  | addAssign (ds f rhs db g) (h : rhs.Computes db g) (hf : Fits cfg ds db) :
      Changes cfg ds f (.addAssign rhs) (maxDegrees ds db) (fun t => f t + g t)
  /-- `operator-=(spline)` -/
  | subAssign (ds f rhs db g) (h : rhs.Computes db g) (hf : Fits cfg ds db) :
      Changes cfg ds f (.subAssign rhs) (maxDegrees ds db) (fun t => f t - g t)
  /-- `TransposeAndScale`: shift first, then scale, each coordinate by itself -/
  | transposeAndScale (ds f v c f')
      (h : ∀ t : List K, t.length = ds.length → ∀ j : Fin (Coords.n K V), (coord (f' t) j : K) = (coord v j + coord (f t) j) * coord c j) :
      Changes cfg ds f (.transposeAndScale v c) ds f'
  /-- `FitIntoUnitCube`: the box of the control points becomes the unit cube -/
  | fitIntoUnitCube (ds f C f') (lo hi : Fin (Coords.n K V) → K) (hC : Represents ds C f)
      (hlo : ∀ j, IsLeast {x | ∃ c ∈ C, x = coord c j} (lo j)) (hhi : ∀ j, IsGreatest {x | ∃ c ∈ C, x = coord c j} (hi j))
      (hlt : ∀ j, lo j < hi j)
      (h : ∀ t : List K, t.length = ds.length → ∀ j, (coord (f' t) j : K) = (coord (f t) j - lo j) / (hi j - lo j)) :
      Changes cfg ds f .fitIntoUnitCube ds f'
  /-- writing the control point of a multi-index -/
  | setControlPoint (ds f C idx x) (hC : Represents ds C f) (hi : ValidIdx ds idx) :
      Changes cfg ds f (.setControlPoint idx x) ds (netValue ds (C.set (flatIndex ds idx) x))
  /-- writing an entry of the vector of control points -/
  | setEntry (ds f C i x) (hC : Represents ds C f) (hi : i < size ds) :
      Changes cfg ds f (.setEntry i x) ds (netValue ds (C.set i x))
  /-- `UpdateDegrees` keeps the vector of control points, cut off or filled with zeros, and reads it in the new order -/
  | updateDegrees (ds f C nd) (hC : Represents ds C f) (hl : nd.length = ds.length) :
      Changes cfg ds f (.updateDegrees nd) nd (netValue nd (resized C (size nd)))

/-- The calls, one after the other. -/
inductive HistoryOf (cfg : Cfg) : List ℕ → (List K → V) → List (Mutator K V) → List ℕ → (List K → V) → Prop
  | nil (ds f) : HistoryOf cfg ds f [] ds f
  | cons {ds f m ds' f' ms ds'' f''} (h : Changes cfg ds f m ds' f') (hs : HistoryOf cfg ds' f' ms ds'' f'') :
      HistoryOf cfg ds f (m :: ms) ds'' f''

omit [LinearOrder K] [Coords K V] in
/-- The rational object has degrees `ds`, numerator `N` and weight function `w`. -/
def RParts (r : RSpline K V) (ds : List ℕ) (N : List K → V) (w : List K → K) : Prop := r.num.Computes ds N ∧ r.wt.Computes ds w

/-- What a sum of two rational objects needs: the summed degrees inside the table of binomials, loops that may run as often as there are
degrees to raise, a result with fewer than `2^31` control points. -/
structure SumFits (cfg : Cfg) (da db : List ℕ) : Prop where
  dims : db.length = da.length
  degs : ∀ p ∈ sumDegrees da db, p < cfg.maxBinom
  rounds : ∀ p ∈ sumDegrees da db, p < cfg.fuel
  rounds2 : 2 ≤ cfg.fuel
  small : size (sumDegrees da db) < 2 ^ 31

omit [LinearOrder K] [Coords K V] in
/-- The call `m` takes an object of degrees `ds` with numerator `N` and weight function `w` to one of degrees `ds'` with numerator `N'` and
weight function `w'`. -/
inductive RChanges (cfg : Cfg) : List ℕ → (List K → V) → (List K → K) → RMutator K V → List ℕ → (List K → V) → (List K → K) → Prop
  /-- `operator=` -/
  | assign (ds N w rhs db M v) (h : RParts rhs db M v) : RChanges cfg ds N w (.assign rhs) db M v
  /-- `operator*=(scalar)` -/
  | scale (ds N w c) : RChanges cfg ds N w (.scale c) ds (fun t => c • N t) w
  /-- `operator+=(point)` -/
  | addPoint (ds N w v) : RChanges cfg ds N w (.addPoint v) ds (fun t => N t + w t • v) w
  /-- `operator-=(point)` -/
  | subPoint (ds N w v) : RChanges cfg ds N w (.subPoint v) ds (fun t => N t - w t • v) w
  /-- `OrderElevateAlongParametricDimension` -/
  | orderElevate (ds N w d p) (hp : ds[d]? = some p) (hs : size (ds.set d (p + 1)) < 2 ^ 31) :
      RChanges cfg ds N w (.orderElevate d) (ds.set d (p + 1)) N w
  /-- `operator+=(rational)` with the same weight function -/
  | addShared (ds N w rhs M v) (h : RParts rhs ds M v) (hw : ∀ t : List K, t.length = ds.length → v t = w t) (hf : SumFits cfg ds ds) :
      RChanges cfg ds N w (.addAssign rhs) ds (fun t => N t + M t) w
  /-- `operator+=(rational)` with another weight function, or other degrees -/
  | addCross (ds N w rhs db M v) (h : RParts rhs db M v) (hw : db ≠ ds ∨ ∃ t : List K, t.length = ds.length ∧ v t ≠ w t)
      (hf : SumFits cfg ds db) :
      RChanges cfg ds N w (.addAssign rhs) (sumDegrees ds db) (fun t => v t • N t + w t • M t) (fun t => w t * v t)
  /-- `operator-=(rational)` with the same weight function -/
  | subShared (ds N w rhs M v) (h : RParts rhs ds M v) (hw : ∀ t : List K, t.length = ds.length → v t = w t) (hf : SumFits cfg ds ds) :
      RChanges cfg ds N w (.subAssign rhs) ds (fun t => N t - M t) w
  /-- `operator-=(rational)` with another weight function, or other degrees -/
  | subCross (ds N w rhs db M v) (h : RParts rhs db M v) (hw : db ≠ ds ∨ ∃ t : List K, t.length = ds.length ∧ v t ≠ w t)
      (hf : SumFits cfg ds db) :
      RChanges cfg ds N w (.subAssign rhs) (sumDegrees ds db) (fun t => v t • N t - w t • M t) (fun t => w t * v t)
  /-- writing the weighted control point of a multi-index -/
  | setWeightedControlPoint (ds N w C idx x) (hC : Represents ds C N) (hi : ValidIdx ds idx) :
      RChanges cfg ds N w (.setWeightedControlPoint idx x) ds (netValue ds (C.set (flatIndex ds idx) x)) w
  /-- writing the weight of a multi-index -/
  | setWeight (ds N w D idx x) (hD : Represents ds D w) (hi : ValidIdx ds idx) :
      RChanges cfg ds N w (.setWeight idx x) ds N (netValue ds (D.set (flatIndex ds idx) x))
  /-- writing an entry of the vector of weighted control points -/
  | setEntry (ds N w C i x) (hC : Represents ds C N) (hi : i < size ds) :
      RChanges cfg ds N w (.setEntry i x) ds (netValue ds (C.set i x)) w
  /-- writing an entry of the vector of weights -/
  | setWeightEntry (ds N w D i x) (hD : Represents ds D w) (hi : i < size ds) :
      RChanges cfg ds N w (.setWeightEntry i x) ds N (netValue ds (D.set i x))
  /-- `UpdateDegrees` -/
  | updateDegrees (ds N w C D nd) (hC : Represents ds C N) (hD : Represents ds D w) (hl : nd.length = ds.length) :
      RChanges cfg ds N w (.updateDegrees nd) nd (netValue nd (resized C (size nd))) (netValue nd (resized D (size nd)))

omit [LinearOrder K] [Coords K V] in
/-- The calls, one after the other. -/
inductive RHistoryOf (cfg : Cfg) :
    List ℕ → (List K → V) → (List K → K) → List (RMutator K V) → List ℕ → (List K → V) → (List K → K) → Prop
  | nil (ds N w) : RHistoryOf cfg ds N w [] ds N w
  | cons {ds N w m ds' N' w' ms ds'' N'' w''} (h : RChanges cfg ds N w m ds' N' w') (hs : RHistoryOf cfg ds' N' w' ms ds'' N'' w'') :
      RHistoryOf cfg ds N w (m :: ms) ds'' N'' w''

end Spec
end Bezman
