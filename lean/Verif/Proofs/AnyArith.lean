import Verif.Proofs.ParamArith
import Verif.Proofs.Expr
import Verif.Props.Basics
import Verif.Spec.AnyArith

set_option linter.unusedSectionVars false

/-! # Outcomes that do not depend on the arithmetic

Each operation over an arbitrary scalar type runs in lockstep with the same operation over the reals on splines of the same shape,
where it is known to return. -/

namespace Bezman
open Spec

/-- any two numbers correspond: only the bookkeeping is compared -/
def parAny (α : Type) : Par α ℝ := ⟨fun _ _ => True⟩
attribute [local instance] parAny

variable {K V W U : Type} [Zero K] [One K] [Add K] [Sub K] [Mul K] [Neg K] [Div K] [NatCast K]
  [Zero V] [Add V] [Sub V] [Neg V] [SMul K V] [Zero U] [Add U] [Sub U] [Neg U] [SMul K U]

theorem parScalarAny : ParScalar K ℝ := by constructor <;> intros <;> trivial
theorem parPointAny : ParPoint K ℝ V ℝ := by constructor <;> intros <;> trivial
theorem parOrdAny [LT K] : ParOrd mayThrow K ℝ := ⟨fun h => by cases h⟩
attribute [local instance] parScalarAny parPointAny parOrdAny

theorem forall₂_any {α β : Type} : ∀ {l : List α} {l' : List β}, l.length = l'.length → List.Forall₂ (fun _ _ => True) l l'
  | [], [], _ => .nil
  | _ :: _, _ :: _, h => .cons trivial (forall₂_any (by simpa using h))

theorem any_list {α : Type} (l : List α) : l ≋ List.replicate l.length (0 : ℝ) := forall₂_any (by simp)

/-- a real spline of the same shape -/
noncomputable def Spline.ghost {V : Type} (s : Spline V) : Spline ℝ := ⟨s.degrees, s.ncp, s.offsets, List.replicate s.cps.length 0⟩

theorem Spline.ghost_rel {V : Type} (s : Spline V) : s ≋ s.ghost := ⟨rfl, rfl, rfl, forall₂_any (by simp [Spline.ghost])⟩

theorem Spline.ghost_wf {V : Type} {s : Spline V} (h : s.WF) : s.ghost.WF :=
  ⟨h.1, h.2, h.3, by simpa [Spline.ghost] using h.4⟩

theorem Spline.ghost_computes {V : Type} {s : Spline V} {ds : List ℕ} (h : HasShape ds s) : s.ghost.Computes ds (s.ghost.value (K := ℝ)) := by
  obtain ⟨h, rfl⟩ := h
  exact (Spline.ghost_wf h).computes

theorem shape_of_rel {V V' : Type} [Par V V'] {s : Spline V} {s' : Spline V'} (h : s ≋ s') {ds : List ℕ} (h' : HasShape ds s') : HasShape ds s := by
  obtain ⟨h1, h2, h3, h4⟩ := h
  have h5 := List.Forall₂.length_eq h4
  exact ⟨⟨by rw [h1]; exact h'.1.1, by rw [h1, h2]; exact h'.1.2, by rw [h1, h3]; exact h'.1.3, by rw [h1, h5]; exact h'.1.4⟩,
    by rw [h1]; exact h'.2⟩

theorem Spline.Computes.shape {s : Spline ℝ} {ds : List ℕ} {f : List ℝ → ℝ} (h : s.Computes ds f) : HasShape ds s := ⟨h.wf, h.degrees_eq⟩

theorem returns_of {V : Type} {x : M (Spline V)} {y : M (Spline ℝ)} (h : RelM strict x y) {ds : List ℕ} {f : List ℝ → ℝ}
    (hy : ∃ r, y = .ok r ∧ r.Computes ds f) : Returns ds x := by
  obtain ⟨r, rfl, hr⟩ := hy
  cases h with
  | ok h => exact ⟨_, rfl, shape_of_rel h hr.shape⟩
  | left _ _ h => cases h

theorem Spec.Returns.orThrows {V : Type} {ds : List ℕ} {x : M (Spline V)} (h : Returns ds x) : ReturnsOrThrows ds x := .inr h

theorem ReturnsOrThrows.bind {V W : Type} {ds es : List ℕ} {x : M (Spline V)} {f : Spline V → M (Spline W)} (h : ReturnsOrThrows ds x)
    (hf : ∀ r, HasShape ds r → ReturnsOrThrows es (f r)) : ReturnsOrThrows es (x >>= f) := by
  rcases h with rfl | ⟨r, rfl, hr⟩
  · exact .inl rfl
  · exact hf r hr

namespace Spline

theorem addOp_returns (cfg : Cfg) {a b : Spline V} {da db : List ℕ} (ha : HasShape da a) (hb : HasShape db b) (h : Fits cfg da db) :
    Returns (maxDegrees da db) (addOp K cfg a b) :=
  returns_of (parAddOp (K := K) (K' := ℝ) cfg a.ghost_rel b.ghost_rel) (Props.C16_add (K := ℝ) cfg _ _ _ _ _ _ (ghost_computes ha) (ghost_computes hb) h)

theorem addAssign_returns (cfg : Cfg) {a b : Spline V} {da db : List ℕ} (ha : HasShape da a) (hb : HasShape db b) (h : Fits cfg da db) :
    Returns (maxDegrees da db) (addAssign K cfg a b) :=
  returns_of (parAddAssign (K := K) (K' := ℝ) cfg a.ghost_rel b.ghost_rel) (Props.C17_add_assign (K := ℝ) cfg _ _ _ _ _ _ (ghost_computes ha) (ghost_computes hb) h)

theorem subAssign_returns (cfg : Cfg) {a b : Spline V} {da db : List ℕ} (ha : HasShape da a) (hb : HasShape db b) (h : Fits cfg da db) :
    Returns (maxDegrees da db) (subAssign K cfg a b) :=
  returns_of (parSubAssign (K := K) (K' := ℝ) cfg a.ghost_rel b.ghost_rel) (Props.C19_sub_assign (K := ℝ) cfg _ _ _ _ _ _ (ghost_computes ha) (ghost_computes hb) h)

theorem subOp_returns (cfg : Cfg) {a b : Spline V} {da db : List ℕ} (ha : HasShape da a) (hb : HasShape db b) (h : Fits cfg da db)
    (hle : ∀ d p q : ℕ, da[d]? = some p → db[d]? = some q → q ≤ p) : Returns (maxDegrees da db) (subOp K cfg a b) :=
  returns_of (parSubOp (K := K) (K' := ℝ) cfg a.ghost_rel b.ghost_rel)
    (Props.C18_sub_partial (K := ℝ) cfg _ _ _ _ _ _ (ghost_computes ha) (ghost_computes hb) h hle)

theorem negOp_returns {a : Spline V} {ds : List ℕ} (ha : HasShape ds a) : Returns ds a.negOp :=
  let _ : SMul ℤ V := ⟨fun _ v => v⟩
  let _ : Add V := ⟨fun v _ => v⟩
  let _ : Sub V := ⟨fun v _ => v⟩
  returns_of (parNegOp (K := ℤ) (K' := ℝ) (hp := by constructor <;> intros <;> trivial) a.ghost_rel)
    (Props.C20_neg (K := ℝ) _ _ _ (ghost_computes ha))

theorem smulOp_returns {a : Spline V} {ds : List ℕ} (ha : HasShape ds a) (c : K) : Returns ds (a.smulOp c) :=
  returns_of (parSmulOp a.ghost_rel (trivial : c ≋ (0 : ℝ))) (Props.C20_scale (K := ℝ) _ _ _ (ghost_computes ha) 0)

theorem addPoint_returns {a : Spline V} {ds : List ℕ} (ha : HasShape ds a) (v : V) : Returns ds (a.addPoint v) :=
  let _ : SMul ℤ V := ⟨fun _ v => v⟩
  let _ : Zero V := ⟨v⟩
  let _ : Neg V := ⟨fun v => v⟩
  let _ : Sub V := ⟨fun v _ => v⟩
  returns_of (parAddPoint (K := ℤ) (K' := ℝ) (hp := by constructor <;> intros <;> trivial) a.ghost_rel (trivial : v ≋ (0 : ℝ)))
    (Props.C20_add_point (K := ℝ) _ _ _ (ghost_computes ha) 0)

theorem subPoint_returns {a : Spline V} {ds : List ℕ} (ha : HasShape ds a) (v : V) : Returns ds (a.subPoint v) :=
  let _ : SMul ℤ V := ⟨fun _ v => v⟩
  let _ : Zero V := ⟨v⟩
  let _ : Neg V := ⟨fun v => v⟩
  let _ : Add V := ⟨fun v _ => v⟩
  returns_of (parSubPoint (K := ℤ) (K' := ℝ) (hp := by constructor <;> intros <;> trivial) a.ghost_rel (trivial : v ≋ (0 : ℝ)))
    (Props.C20_sub_point (K := ℝ) _ _ _ (ghost_computes ha) 0)

theorem pointSub_returns {a : Spline V} {ds : List ℕ} (ha : HasShape ds a) (v : V) : Returns ds (pointSub v a) :=
  let _ : SMul ℤ V := ⟨fun _ v => v⟩
  let _ : Zero V := ⟨v⟩
  returns_of (parPointSub (K := ℤ) (K' := ℝ) (hp := by constructor <;> intros <;> trivial) a.ghost_rel (trivial : v ≋ (0 : ℝ)))
    (Props.C20_point_sub (K := ℝ) _ _ _ (ghost_computes ha) 0)

theorem orderElevate_returns {a : Spline V} {ds : List ℕ} (ha : HasShape ds a) {d : ℕ} (hd : d < ds.length)
    (hs : size (ds.modify d (· + 1)) < 2 ^ 31) : Returns (ds.modify d (· + 1)) (orderElevate K a d) := by
  have e := modify_eq_set' hd (· + 1)
  rw [e] at hs ⊢
  exact returns_of (parOrderElevate (K := K) (K' := ℝ) a.ghost_rel d)
    (Props.C12_order_elevate (K := ℝ) _ _ _ (ghost_computes ha) d _ (List.getElem?_eq_getElem hd) hs)

theorem derivativeSpline_returns (cfg : Cfg) (hmax : cfg.maxBinom ≤ 68) {a : Spline V} {ds : List ℕ} (ha : HasShape ds a) {orders : List ℕ}
    (hl : orders.length = ds.length) (hle : ∀ d o p : ℕ, orders[d]? = some o → ds[d]? = some p → o ≤ p)
    (hord : ∀ o ∈ orders, o < cfg.maxBinom) (hs : size ds < 2 ^ 64) :
    Returns (List.zipWith (· - ·) ds orders) (derivativeSpline K cfg a orders) :=
  returns_of (parDerivativeSpline (K := K) (K' := ℝ) cfg a.ghost_rel orders)
    (Props.C13_derivative_spline (𝕜 := ℝ) cfg hmax _ _ _ (ghost_computes ha) orders hl hle hord hs)

theorem mulOp_returns (cfg : Cfg) (hmax : cfg.maxBinom ≤ 68) (mul : V → W → U) {a : Spline V} {b : Spline W} {da db : List ℕ}
    (ha : HasShape da a) (hb : HasShape db b) (hdim : db.length = da.length) (hdeg : ∀ p ∈ sumDegrees da db, p < cfg.maxBinom) :
    Returns (sumDegrees da db) (mulOp K cfg mul a b) :=
  returns_of (parMulOp (K := K) (K' := ℝ) (U' := ℝ) cfg (mul' := fun x y => x * y) (fun _ _ _ _ _ _ => trivial) a.ghost_rel b.ghost_rel)
    (Props.C21_mul_scalar cfg hmax _ _ _ _ _ _ (ghost_computes ha) (ghost_computes hb) hdim hdeg)

theorem raisePower_returns (cfg : Cfg) (hmax : cfg.maxBinom ≤ 68) {a : Spline K} {ds : List ℕ} (ha : HasShape ds a) (k : ℕ)
    (hdeg : ∀ p ∈ ds, k * p < cfg.maxBinom) : Returns (ds.map (fun p => k * p)) (raisePower cfg a k) :=
  returns_of (parRaisePower cfg a.ghost_rel k) (Props.C22_raise_power cfg hmax _ _ _ (ghost_computes ha) k hdeg)

theorem extractDimension_returns [Coords K V] {a : Spline V} {ds : List ℕ} (ha : HasShape ds a) {j : ℕ} (hj : j < Coords.n K V) :
    Returns ds (extractDimension K a j) := by
  have := extractDimension_eq (K := K) ha.1 ⟨j, hj⟩
  exact ⟨_, this, ⟨ha.1.1, ha.1.2, ha.1.3, by simpa using ha.1.4⟩, ha.2⟩

section
variable [LT K] [DecidableLT K]

theorem splitAt_shape {a : Spline V} {ds : List ℕ} (ha : HasShape ds a) {d : ℕ} (hd : d < ds.length) (z : K) :
    (¬ (0 < z ∧ z < 1) ∧ a.splitAt z d = .error .throws) ∨
      (0 < z ∧ z < 1) ∧ ∃ l r, a.splitAt z d = .ok (l, r) ∧ HasShape ds l ∧ HasShape ds r := by
  by_cases hz : 0 < z ∧ z < 1
  · refine .inr ⟨hz, ?_⟩
    obtain ⟨l, r, e, hl, hr⟩ := Props.C31_split (K := ℝ) _ _ _ (ghost_computes ha) d hd (1 / 2) (by norm_num) (by norm_num)
    have h : RelM strict (a.splitAt z d) (a.ghost.splitAt (1 / 2 : ℝ) d) :=
      parSplitAt' a.ghost_rel (trivial : z ≋ (1 / 2 : ℝ)) (fun _ => iff_of_true hz (by norm_num)) d
    rw [e] at h
    generalize a.splitAt z d = x at h
    cases h with
    | ok h => exact ⟨_, _, rfl, shape_of_rel h.1 hl.shape, shape_of_rel h.2 hr.shape⟩
    | left _ _ h => cases h
  · exact .inl ⟨hz, by unfold splitAt; rw [if_pos hz]⟩

theorem splitAtMany_shape {a : Spline V} {ds : List ℕ} (ha : HasShape ds a) {d : ℕ} (hd : d < ds.length) (zs : List K) :
    a.splitAtMany zs d = .error .throws ∨
      ∃ l, a.splitAtMany zs d = .ok l ∧ l.length = zs.length + 1 ∧ ∀ x ∈ l, HasShape ds x := by
  let zs' : List ℝ := List.ofFn fun i : Fin zs.length => ((i : ℕ) + 1 : ℝ) / (zs.length + 1)
  have hpos : (0 : ℝ) < zs.length + 1 := by positivity
  obtain ⟨l, e, hl, hr⟩ := Props.C33_split_many (K := ℝ) _ _ _ (ghost_computes ha) d hd zs' (by
      rw [List.pairwise_ofFn]
      intro i j hij
      have : ((i : ℕ) : ℝ) < (j : ℕ) := by exact_mod_cast hij
      gcongr) (by
      intro z hz
      obtain ⟨i, rfl⟩ := (List.mem_ofFn' _ _).mp hz
      have : ((i : ℕ) : ℝ) < zs.length := by exact_mod_cast i.isLt
      refine ⟨by positivity, ?_⟩
      rw [div_lt_one hpos]
      linarith)
  have hzl : zs'.length = zs.length := by simp [zs']
  have h : RelM mayThrow (a.splitAtMany zs d) (a.ghost.splitAtMany zs' d) :=
    parSplitAtMany a.ghost_rel ⟨forall₂_any hzl.symm, fun _ _ _ _ _ _ _ _ _ => trivial⟩ d
  rw [e] at h
  generalize a.splitAtMany zs d = x at h
  cases h with
  | ok h =>
    refine .inr ⟨_, rfl, by rw [List.Forall₂.length_eq h, hl, hzl], fun x hx => ?_⟩
    obtain ⟨i, hi, rfl⟩ := List.mem_iff_getElem.mp hx
    have hi' : i < l.length := by rw [← List.Forall₂.length_eq h]; exact hi
    refine shape_of_rel (List.Forall₂.get h hi hi') (?_ : HasShape ds l[i])
    exact (hr i _ _ _ (List.getElem?_eq_getElem hi') (getD_knots zs' (by omega)) (getD_knots zs' (by omega))).shape
  | left e _ h => exact .inl (by rw [show e = .throws from by simpa [mayThrow] using h])

variable [Coords K W]

theorem fits_returns {a : Spline W} {ds : List ℕ} (ha : HasShape ds a) : ∃ b, fitsIntoUnitCube K a = .ok b := by
  let P : Par W (Point ℝ (Coords.n K W)) := ⟨fun _ _ => True⟩
  have i1 : ParCoords K ℝ W (Point ℝ (Coords.n K W)) := ⟨rfl, fun _ _ _ _ => trivial, fun _ => trivial⟩
  let a' : Spline (Point ℝ (Coords.n K W)) := ⟨a.degrees, a.ncp, a.offsets, List.replicate a.cps.length 0⟩
  have h' : a'.WF := ⟨ha.1.1, ha.1.2, ha.1.3, by simpa [a'] using ha.1.4⟩
  have hr : a ≋ a' := ⟨rfl, rfl, rfl, forall₂_any (by simp [a'])⟩
  obtain ⟨b, hb, -⟩ := Props.C25_fits_iff (K := ℝ) a' h'
  rcases fits_shape (K := K) (K' := ℝ) hr with ⟨b, b', h1, -⟩ | ⟨e, -, h2⟩
  · exact ⟨b, h1⟩
  · rw [hb] at h2; cases h2

theorem compose_shape (cfg : Cfg) (hmax : cfg.maxBinom ≤ 68) {a : Spline V} {b : Spline W} {da db : List ℕ} (ha : HasShape da a)
    (hb : HasShape db b) (hdim : da.length = Coords.n K W) (hdeg : ∀ p ∈ da, p < cfg.maxBinom)
    (hdeg' : ∀ q ∈ db, da.sum * q < cfg.maxBinom) :
    (fitsIntoUnitCube K b = .ok false ∧ compose K cfg a b = .error .throws) ∨
      fitsIntoUnitCube K b = .ok true ∧ Returns (db.map (fun q => da.sum * q)) (compose K cfg a b) := by
  let P : Par W (Point ℝ (Coords.n K W)) := ⟨fun _ _ => True⟩
  have i1 : ParCoords K ℝ W (Point ℝ (Coords.n K W)) := ⟨rfl, fun _ _ _ _ => trivial, fun _ => trivial⟩
  let b' : Spline (Point ℝ (Coords.n K W)) := ⟨b.degrees, b.ncp, b.offsets, List.replicate b.cps.length 0⟩
  have h' : b'.WF := ⟨hb.1.1, hb.1.2, hb.1.3, by simpa [b'] using hb.1.4⟩
  have hr : b ≋ b' := ⟨rfl, rfl, rfl, forall₂_any (by simp [b'])⟩
  have hf : fitsIntoUnitCube ℝ b' = .ok true := by
    obtain ⟨c, h1, h2⟩ := Props.C25_fits_iff (K := ℝ) b' h'
    rw [h1, h2.mpr]
    intro x hx j
    obtain rfl := List.eq_of_mem_replicate hx
    exact ⟨le_refl (0 : ℝ), zero_le_one⟩
  have hc := Props.C26_compose (K := ℝ) cfg hmax a.ghost b' da db _ _ (ghost_computes ha) (by rw [← hb.2]; exact h'.computes) hdim hf hdeg hdeg'
  have e : compose ℝ cfg a.ghost b' =
      composeNumerator cfg a.ghost b'.degrees (fun d => extractDimension ℝ b' d) (fun e => pointSub (1 : ℝ) e) := by
    unfold compose; rw [hf]; rfl
  rw [e] at hc
  have key := returns_of (x := composeNumerator cfg a b.degrees (fun d => extractDimension K b d) (fun e => pointSub (1 : K) e))
    (parComposeNumerator cfg a.ghost_rel _ (fun d => parExtractDimension hr d)
      fun e e' he => parPointSub (K := K) (K' := ℝ) he parScalarAny.one) hc
  obtain ⟨c, h1⟩ := fits_returns (K := K) hb
  cases c with
  | false => exact .inl ⟨h1, by unfold compose; rw [h1]; rfl⟩
  | true => refine .inr ⟨h1, ?_⟩; unfold compose; rw [h1]; exact key

theorem sensitivity_shape (cfg : Cfg) (hmax : cfg.maxBinom ≤ 68) {a : Spline V} {b : Spline W} {da db : List ℕ} (ha : HasShape da a)
    (hb : HasShape db b) (hdim : da.length = Coords.n K W) (hdeg : ∀ p ∈ da, p < cfg.maxBinom)
    (hdeg' : ∀ q ∈ db, da.sum * q < cfg.maxBinom) :
    (fitsIntoUnitCube K b = .ok false ∧ composeSensitivity K cfg a b = .error .throws) ∨
      fitsIntoUnitCube K b = .ok true ∧ ∃ l, composeSensitivity K cfg a b = .ok l ∧ l.length = a.ncp ∧
        ∀ x ∈ l, HasShape (db.map (fun q => da.sum * q)) x := by
  let P : Par W (Point ℝ (Coords.n K W)) := ⟨fun _ _ => True⟩
  have i1 : ParCoords K ℝ W (Point ℝ (Coords.n K W)) := ⟨rfl, fun _ _ _ _ => trivial, fun _ => trivial⟩
  let b' : Spline (Point ℝ (Coords.n K W)) := ⟨b.degrees, b.ncp, b.offsets, List.replicate b.cps.length 0⟩
  have h' : b'.WF := ⟨hb.1.1, hb.1.2, hb.1.3, by simpa [b'] using hb.1.4⟩
  have hr : b ≋ b' := ⟨rfl, rfl, rfl, forall₂_any (by simp [b'])⟩
  have hf : fitsIntoUnitCube ℝ b' = .ok true := by
    obtain ⟨c, h1, h2⟩ := Props.C25_fits_iff (K := ℝ) b' h'
    rw [h1, h2.mpr]
    intro x hx j
    obtain rfl := List.eq_of_mem_replicate hx
    exact ⟨le_refl (0 : ℝ), zero_le_one⟩
  have hda : da = a.degrees := ha.2.symm
  have hdb : db = b'.degrees := hb.2.symm
  obtain ⟨l, hl1, hl2, hl3⟩ := Props.C27_sensitivity (K := ℝ) cfg hmax a.ghost b' db _ (ghost_wf ha.1)
    (by rw [hdb]; exact h'.computes) (by rw [hda] at hdim; exact hdim) hf (by rw [hda] at hdeg; exact hdeg)
    (by rw [hda] at hdeg'; exact hdeg')
  have e : composeSensitivity ℝ cfg a.ghost b' =
      composeNumeratorSensitivity cfg a.ghost b'.degrees (fun d => extractDimension ℝ b' d) (fun e => pointSub (1 : ℝ) e) := by
    unfold composeSensitivity; rw [hf]; rfl
  rw [e] at hl1
  have key : RelM strict (composeNumeratorSensitivity cfg a b.degrees (fun d => extractDimension K b d) (fun e => pointSub (1 : K) e))
      (composeNumeratorSensitivity cfg a.ghost b'.degrees (fun d => extractDimension ℝ b' d) (fun e => pointSub (1 : ℝ) e)) :=
    parComposeNumeratorSensitivity cfg a.ghost_rel _ (fun d => parExtractDimension hr d)
      fun e e' he => parPointSub (K := K) (K' := ℝ) he parScalarAny.one
  rw [hl1] at key
  obtain ⟨c, h1⟩ := fits_returns (K := K) hb
  cases c with
  | false => exact .inl ⟨h1, by unfold composeSensitivity; rw [h1]; rfl⟩
  | true =>
    refine .inr ⟨h1, ?_⟩
    have e' : composeSensitivity K cfg a b =
        composeNumeratorSensitivity cfg a b.degrees (fun d => extractDimension K b d) (fun e => pointSub (1 : K) e) := by
      unfold composeSensitivity; rw [h1]; rfl
    rw [e']
    generalize composeNumeratorSensitivity cfg a b.degrees (fun d => extractDimension K b d) (fun e => pointSub (1 : K) e) = x at key
    cases key with
    | ok h =>
      have hlen := List.Forall₂.length_eq h
      refine ⟨_, rfl, by rw [hlen, hl2]; rfl, fun x hx => ?_⟩
      obtain ⟨i, hi, rfl⟩ := List.mem_iff_getElem.mp hx
      have hi' : i < l.length := by rw [← hlen]; exact hi
      obtain ⟨idx, -, hv, hg⟩ := Props.C05_local_global a.ghost (ghost_wf ha.1) i (by rw [← hl2]; exact hi')
      obtain ⟨n, r, hn, hr1, hr2⟩ := hl3 idx hv
      rw [hn] at hg
      obtain rfl : n = i := Except.ok.inj hg
      rw [List.getElem?_eq_getElem hi'] at hr1
      obtain rfl := Option.some.inj hr1
      have := hr2.shape
      rw [hda]
      exact shape_of_rel (List.Forall₂.get h hi hi') this
    | left _ _ h => cases h

end

theorem value_of {V : Type} {x : M V} {y : M ℝ} (h : RelM strict x y) (hy : ∃ r, y = .ok r) : ∃ r, x = .ok r := by
  obtain ⟨r, rfl⟩ := hy
  cases h with
  | ok h => exact ⟨_, rfl⟩
  | left _ _ h => cases h

theorem evaluate_returns {a : Spline V} {ds : List ℕ} (ha : HasShape ds a) (t : List K) (ht : t.length = ds.length) :
    ∃ x, a.evaluate t = .ok x :=
  value_of (parEvaluate a.ghost_rel (any_list t)) ⟨_, (ghost_computes ha).eval _ (by simpa using ht)⟩

theorem forwardEvaluate_returns (cfg : Cfg) (hmax : cfg.maxBinom ≤ 68) {a : Spline V} {ds : List ℕ} (ha : HasShape ds a)
    (hdeg : ∀ p ∈ ds, p < cfg.maxBinom) (t : List K) (ht : t.length = ds.length) : ∃ x, a.forwardEvaluate cfg t = .ok x := by
  obtain ⟨h, rfl⟩ := ha
  obtain ⟨x, hx, -⟩ := Props.C08_forward_evaluate (K := ℝ) cfg hmax a.ghost (ghost_wf h) hdeg (List.replicate t.length 0)
    (by rw [List.length_replicate]; exact ht)
  exact value_of (parForwardEvaluate cfg a.ghost_rel (any_list t)) ⟨x, hx⟩

theorem evaluateDerivative_returns (cfg : Cfg) (hmax : cfg.maxBinom ≤ 68) {a : Spline V} {ds : List ℕ} (ha : HasShape ds a)
    (hdeg : ∀ p ∈ ds, p < cfg.maxBinom) (t : List K) (ht : t.length = ds.length) (k : List ℕ) (hk : k.length = ds.length) :
    ∃ x, a.evaluateDerivative cfg t k = .ok x :=
  value_of (parEvaluateDerivative cfg a.ghost_rel (any_list t) k)
    ⟨_, Props.C14_evaluate_derivative (𝕜 := ℝ) cfg hmax _ _ _ (ghost_computes ha) hdeg k hk _ (by simpa using ht)⟩

theorem basisFunctions_returns (cfg : Cfg) (hmax : cfg.maxBinom ≤ 68) {a : Spline V} {ds : List ℕ} (ha : HasShape ds a)
    (hdeg : ∀ p ∈ ds, p < cfg.maxBinom) (t : List K) (ht : t.length = ds.length) :
    ∃ l, a.basisFunctions cfg t = .ok l ∧ l.length = size ds := by
  obtain ⟨h, rfl⟩ := ha
  obtain ⟨l, hl, hl', -⟩ := Props.C09_basis_order (K := ℝ) cfg hmax a.ghost (ghost_wf h) hdeg (List.replicate t.length 0)
    (by rw [List.length_replicate]; exact ht)
  have key : RelM strict (a.basisFunctions cfg t) (a.ghost.basisFunctions cfg (List.replicate t.length (0 : ℝ))) :=
    parBasisFunctions cfg a.ghost_rel (any_list t)
  rw [hl] at key
  generalize a.basisFunctions cfg t = x at key
  cases key with
  | ok hh => exact ⟨_, rfl, by rw [List.Forall₂.length_eq hh, hl']; exact h.ncp_eq⟩
  | left _ _ h => cases h

theorem basisFunctionsDerivatives_returns (cfg : Cfg) (hmax : cfg.maxBinom ≤ 68) {a : Spline V} {ds : List ℕ} (ha : HasShape ds a)
    (hdeg : ∀ p ∈ ds, p < cfg.maxBinom) (t : List K) (ht : t.length = ds.length) (k : List ℕ) (hk : k.length = ds.length) :
    ∃ l, a.basisFunctionsDerivatives cfg t k = .ok l ∧ l.length = size ds := by
  obtain ⟨h, rfl⟩ := ha
  have hl := Spline.basisFunctionsDerivatives_ok (K := ℝ) (cfg := cfg) hmax (s := a.ghost) h.dim_pos hdeg (t := List.replicate t.length 0)
    (by rw [List.length_replicate]; exact ht) (ks := k) hk
  have key : RelM strict (a.basisFunctionsDerivatives cfg t k) (a.ghost.basisFunctionsDerivatives cfg (List.replicate t.length (0 : ℝ)) k) :=
    parBasisFunctionsDerivatives cfg a.ghost_rel (any_list t) k
  rw [hl] at key
  generalize a.basisFunctionsDerivatives cfg t k = x at key
  cases key with
  | ok hh => exact ⟨_, rfl, by rw [List.Forall₂.length_eq hh]; simp [tab]; rfl⟩
  | left _ _ h => cases h

end Spline

section
variable {n : ℕ} [LT K] [DecidableLT K] {cfg : Cfg} {σ : Vars K n} {ds dp : ℕ → List ℕ}

mutual
theorem SExpr.run_shape (hmax : cfg.maxBinom ≤ 68) (hs : ∀ i, HasShape (ds i) (σ.s i)) (hp : ∀ i, HasShape (dp i) (σ.p i)) :
    ∀ e : SExpr K n, e.WellShaped cfg ds dp → ReturnsOrThrows (e.shape ds dp) (e.run cfg σ)
  | .leaf i, _ => .inr ⟨_, rfl, hs i⟩
  | .add a b, h => by
    simp only [SExpr.run, SExpr.shape]
    exact ReturnsOrThrows.bind (SExpr.run_shape hmax hs hp a h.1) fun x hx => ReturnsOrThrows.bind (SExpr.run_shape hmax hs hp b h.2.1) fun y hy =>
      (Spline.addOp_returns cfg hx hy h.2.2).orThrows
  | .addAssign a b, h => by
    simp only [SExpr.run, SExpr.shape]
    exact ReturnsOrThrows.bind (SExpr.run_shape hmax hs hp a h.1) fun x hx => ReturnsOrThrows.bind (SExpr.run_shape hmax hs hp b h.2.1) fun y hy =>
      (Spline.addAssign_returns cfg hx hy h.2.2).orThrows
  | .subAssign a b, h => by
    simp only [SExpr.run, SExpr.shape]
    exact ReturnsOrThrows.bind (SExpr.run_shape hmax hs hp a h.1) fun x hx => ReturnsOrThrows.bind (SExpr.run_shape hmax hs hp b h.2.1) fun y hy =>
      (Spline.subAssign_returns cfg hx hy h.2.2).orThrows
  | .sub a b, h => by
    simp only [SExpr.run, SExpr.shape]
    exact ReturnsOrThrows.bind (SExpr.run_shape hmax hs hp a h.1) fun x hx => ReturnsOrThrows.bind (SExpr.run_shape hmax hs hp b h.2.1) fun y hy =>
      (Spline.subOp_returns cfg hx hy h.2.2.1 h.2.2.2).orThrows
  | .neg a, h => by
    simp only [SExpr.run, SExpr.shape]
    exact ReturnsOrThrows.bind (SExpr.run_shape hmax hs hp a h) fun x hx => (Spline.negOp_returns hx).orThrows
  | .scale a c, h => by
    simp only [SExpr.run, SExpr.shape]
    exact ReturnsOrThrows.bind (SExpr.run_shape hmax hs hp a h) fun x hx => (Spline.smulOp_returns hx c).orThrows
  | .addPoint a v, h => by
    simp only [SExpr.run, SExpr.shape]
    exact ReturnsOrThrows.bind (SExpr.run_shape hmax hs hp a h) fun x hx => (Spline.addPoint_returns hx v).orThrows
  | .subPoint a v, h => by
    simp only [SExpr.run, SExpr.shape]
    exact ReturnsOrThrows.bind (SExpr.run_shape hmax hs hp a h) fun x hx => (Spline.subPoint_returns hx v).orThrows
  | .pointSub v a, h => by
    simp only [SExpr.run, SExpr.shape]
    exact ReturnsOrThrows.bind (SExpr.run_shape hmax hs hp a h) fun x hx => (Spline.pointSub_returns hx v).orThrows
  | .elevate a d, h => by
    simp only [SExpr.run, SExpr.shape]
    exact ReturnsOrThrows.bind (SExpr.run_shape hmax hs hp a h.1) fun x hx => (Spline.orderElevate_returns hx h.2.1 h.2.2).orThrows
  | .splitLeft a z d, h => by
    simp only [SExpr.run, SExpr.shape]
    refine ReturnsOrThrows.bind (SExpr.run_shape hmax hs hp a h.1) fun x hx => ?_
    rcases Spline.splitAt_shape hx h.2 z with ⟨-, e⟩ | ⟨-, l, r, e, hl, hr⟩
    · rw [e]; exact .inl rfl
    · rw [e]; exact .inr ⟨_, rfl, hl⟩
  | .splitRight a z d, h => by
    simp only [SExpr.run, SExpr.shape]
    refine ReturnsOrThrows.bind (SExpr.run_shape hmax hs hp a h.1) fun x hx => ?_
    rcases Spline.splitAt_shape hx h.2 z with ⟨-, e⟩ | ⟨-, l, r, e, hl, hr⟩
    · rw [e]; exact .inl rfl
    · rw [e]; exact .inr ⟨_, rfl, hr⟩
  | .splitPart a zs d i, h => by
    simp only [SExpr.run, SExpr.shape]
    refine ReturnsOrThrows.bind (SExpr.run_shape hmax hs hp a h.1) fun x hx => ?_
    rcases Spline.splitAtMany_shape hx h.2.1 zs with e | ⟨l, e, hl, hsh⟩
    · rw [e]; exact .inl rfl
    · rw [e]
      have hi : i < l.length := by rw [hl]; exact Nat.lt_succ_of_le h.2.2
      exact .inr ⟨l[i], rd_getElem hi, hsh _ (List.getElem_mem hi)⟩
  | .deriv a o, h => by
    simp only [SExpr.run, SExpr.shape]
    exact ReturnsOrThrows.bind (SExpr.run_shape hmax hs hp a h.1) fun x hx =>
      (Spline.derivativeSpline_returns cfg hmax hx h.2.1 h.2.2.1 h.2.2.2.1 h.2.2.2.2).orThrows
  | .compose a b, h => by
    simp only [SExpr.run, SExpr.shape]
    refine ReturnsOrThrows.bind (SExpr.run_shape hmax hs hp a h.1) fun x hx => ReturnsOrThrows.bind (PExpr.run_shape hmax hs hp b h.2.1) fun y hy => ?_
    rcases Spline.compose_shape (K := K) cfg hmax hx hy h.2.2.1 h.2.2.2.1 h.2.2.2.2 with ⟨-, e⟩ | ⟨-, e⟩
    · exact .inl e
    · exact .inr e
  | .composeScalar a b, h => by
    simp only [SExpr.run, SExpr.shape]
    refine ReturnsOrThrows.bind (SExpr.run_shape hmax hs hp a h.1) fun x hx => ReturnsOrThrows.bind (SExpr.run_shape hmax hs hp b h.2.1) fun y hy => ?_
    rcases Spline.compose_shape (K := K) cfg hmax hx hy h.2.2.1 h.2.2.2.1 h.2.2.2.2 with ⟨-, e⟩ | ⟨-, e⟩
    · exact .inl e
    · exact .inr e
  | .mul a b, h => by
    simp only [SExpr.run, SExpr.shape]
    exact ReturnsOrThrows.bind (SExpr.run_shape hmax hs hp a h.1) fun x hx => ReturnsOrThrows.bind (SExpr.run_shape hmax hs hp b h.2.1) fun y hy =>
      (Spline.mulOp_returns cfg hmax _ hx hy h.2.2.1 h.2.2.2).orThrows
  | .dot a b, h => by
    simp only [SExpr.run, SExpr.shape]
    exact ReturnsOrThrows.bind (PExpr.run_shape hmax hs hp a h.1) fun x hx => ReturnsOrThrows.bind (PExpr.run_shape hmax hs hp b h.2.1) fun y hy =>
      (Spline.mulOp_returns cfg hmax _ hx hy h.2.2.1 h.2.2.2).orThrows
  | .power a k, h => by
    simp only [SExpr.run, SExpr.shape]
    exact ReturnsOrThrows.bind (SExpr.run_shape hmax hs hp a h.1) fun x hx => (Spline.raisePower_returns cfg hmax hx k h.2).orThrows
  | .extract a j, h => by
    simp only [SExpr.run, SExpr.shape]
    exact ReturnsOrThrows.bind (PExpr.run_shape hmax hs hp a h.1) fun x hx => (Spline.extractDimension_returns hx h.2).orThrows

theorem PExpr.run_shape (hmax : cfg.maxBinom ≤ 68) (hs : ∀ i, HasShape (ds i) (σ.s i)) (hp : ∀ i, HasShape (dp i) (σ.p i)) :
    ∀ e : PExpr K n, e.WellShaped cfg ds dp → ReturnsOrThrows (e.shape ds dp) (e.run cfg σ)
  | .leaf i, _ => .inr ⟨_, rfl, hp i⟩
  | .add a b, h => by
    simp only [PExpr.run, PExpr.shape]
    exact ReturnsOrThrows.bind (PExpr.run_shape hmax hs hp a h.1) fun x hx => ReturnsOrThrows.bind (PExpr.run_shape hmax hs hp b h.2.1) fun y hy =>
      (Spline.addOp_returns cfg hx hy h.2.2).orThrows
  | .addAssign a b, h => by
    simp only [PExpr.run, PExpr.shape]
    exact ReturnsOrThrows.bind (PExpr.run_shape hmax hs hp a h.1) fun x hx => ReturnsOrThrows.bind (PExpr.run_shape hmax hs hp b h.2.1) fun y hy =>
      (Spline.addAssign_returns cfg hx hy h.2.2).orThrows
  | .subAssign a b, h => by
    simp only [PExpr.run, PExpr.shape]
    exact ReturnsOrThrows.bind (PExpr.run_shape hmax hs hp a h.1) fun x hx => ReturnsOrThrows.bind (PExpr.run_shape hmax hs hp b h.2.1) fun y hy =>
      (Spline.subAssign_returns cfg hx hy h.2.2).orThrows
  | .sub a b, h => by
    simp only [PExpr.run, PExpr.shape]
    exact ReturnsOrThrows.bind (PExpr.run_shape hmax hs hp a h.1) fun x hx => ReturnsOrThrows.bind (PExpr.run_shape hmax hs hp b h.2.1) fun y hy =>
      (Spline.subOp_returns cfg hx hy h.2.2.1 h.2.2.2).orThrows
  | .neg a, h => by
    simp only [PExpr.run, PExpr.shape]
    exact ReturnsOrThrows.bind (PExpr.run_shape hmax hs hp a h) fun x hx => (Spline.negOp_returns hx).orThrows
  | .scale a c, h => by
    simp only [PExpr.run, PExpr.shape]
    exact ReturnsOrThrows.bind (PExpr.run_shape hmax hs hp a h) fun x hx => (Spline.smulOp_returns hx c).orThrows
  | .addPoint a v, h => by
    simp only [PExpr.run, PExpr.shape]
    exact ReturnsOrThrows.bind (PExpr.run_shape hmax hs hp a h) fun x hx => (Spline.addPoint_returns hx v).orThrows
  | .subPoint a v, h => by
    simp only [PExpr.run, PExpr.shape]
    exact ReturnsOrThrows.bind (PExpr.run_shape hmax hs hp a h) fun x hx => (Spline.subPoint_returns hx v).orThrows
  | .pointSub v a, h => by
    simp only [PExpr.run, PExpr.shape]
    exact ReturnsOrThrows.bind (PExpr.run_shape hmax hs hp a h) fun x hx => (Spline.pointSub_returns hx v).orThrows
  | .elevate a d, h => by
    simp only [PExpr.run, PExpr.shape]
    exact ReturnsOrThrows.bind (PExpr.run_shape hmax hs hp a h.1) fun x hx => (Spline.orderElevate_returns hx h.2.1 h.2.2).orThrows
  | .splitLeft a z d, h => by
    simp only [PExpr.run, PExpr.shape]
    refine ReturnsOrThrows.bind (PExpr.run_shape hmax hs hp a h.1) fun x hx => ?_
    rcases Spline.splitAt_shape hx h.2 z with ⟨-, e⟩ | ⟨-, l, r, e, hl, hr⟩
    · rw [e]; exact .inl rfl
    · rw [e]; exact .inr ⟨_, rfl, hl⟩
  | .splitRight a z d, h => by
    simp only [PExpr.run, PExpr.shape]
    refine ReturnsOrThrows.bind (PExpr.run_shape hmax hs hp a h.1) fun x hx => ?_
    rcases Spline.splitAt_shape hx h.2 z with ⟨-, e⟩ | ⟨-, l, r, e, hl, hr⟩
    · rw [e]; exact .inl rfl
    · rw [e]; exact .inr ⟨_, rfl, hr⟩
  | .splitPart a zs d i, h => by
    simp only [PExpr.run, PExpr.shape]
    refine ReturnsOrThrows.bind (PExpr.run_shape hmax hs hp a h.1) fun x hx => ?_
    rcases Spline.splitAtMany_shape hx h.2.1 zs with e | ⟨l, e, hl, hsh⟩
    · rw [e]; exact .inl rfl
    · rw [e]
      have hi : i < l.length := by rw [hl]; exact Nat.lt_succ_of_le h.2.2
      exact .inr ⟨l[i], rd_getElem hi, hsh _ (List.getElem_mem hi)⟩
  | .deriv a o, h => by
    simp only [PExpr.run, PExpr.shape]
    exact ReturnsOrThrows.bind (PExpr.run_shape hmax hs hp a h.1) fun x hx =>
      (Spline.derivativeSpline_returns cfg hmax hx h.2.1 h.2.2.1 h.2.2.2.1 h.2.2.2.2).orThrows
  | .compose a b, h => by
    simp only [PExpr.run, PExpr.shape]
    refine ReturnsOrThrows.bind (PExpr.run_shape hmax hs hp a h.1) fun x hx => ReturnsOrThrows.bind (PExpr.run_shape hmax hs hp b h.2.1) fun y hy => ?_
    rcases Spline.compose_shape (K := K) cfg hmax hx hy h.2.2.1 h.2.2.2.1 h.2.2.2.2 with ⟨-, e⟩ | ⟨-, e⟩
    · exact .inl e
    · exact .inr e
  | .composeScalar a b, h => by
    simp only [PExpr.run, PExpr.shape]
    refine ReturnsOrThrows.bind (PExpr.run_shape hmax hs hp a h.1) fun x hx => ReturnsOrThrows.bind (SExpr.run_shape hmax hs hp b h.2.1) fun y hy => ?_
    rcases Spline.compose_shape (K := K) cfg hmax hx hy h.2.2.1 h.2.2.2.1 h.2.2.2.2 with ⟨-, e⟩ | ⟨-, e⟩
    · exact .inl e
    · exact .inr e
  | .mulLeft a b, h => by
    simp only [PExpr.run, PExpr.shape]
    exact ReturnsOrThrows.bind (SExpr.run_shape hmax hs hp a h.1) fun x hx => ReturnsOrThrows.bind (PExpr.run_shape hmax hs hp b h.2.1) fun y hy =>
      (Spline.mulOp_returns cfg hmax _ hx hy h.2.2.1 h.2.2.2).orThrows
  | .mulRight a b, h => by
    simp only [PExpr.run, PExpr.shape]
    exact ReturnsOrThrows.bind (PExpr.run_shape hmax hs hp a h.1) fun x hx => ReturnsOrThrows.bind (SExpr.run_shape hmax hs hp b h.2.1) fun y hy =>
      (Spline.mulOp_returns cfg hmax _ hx hy h.2.2.1 h.2.2.2).orThrows
end
end
end Bezman
