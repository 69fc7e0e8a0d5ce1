import Verif.Spec.Promotion
import Verif.Props.RationalCompose
import Verif.Props.RationalDeriv
import Verif.Proofs.HullOps
import Verif.Proofs.Unique
import Verif.Proofs.FacesRationalOps
import Verif.Proofs.Microstructure

/-! # Property C119: converting polynomial splines to rational ones changes no result -/

namespace Bezman.Props
open Spec

/-! ## C119 -/

section
variable {K V : Type} [Field K] [LinearOrder K] [IsStrictOrderedRing K] [AddCommGroup V] [Module K V] [ScalarDiv K V]
  [LawfulScalarDiv K V]

/-- a rational spline with weight function one is the conversion of the polynomial spline with the same degrees and values -/
theorem ofSpline_unique {s : Spline V} {r : RSpline K V} {ds : List ℕ} {f g : List K → V} {w : List K → K} (hs : s.Computes ds f)
    (hr : r.Computes ds g w) (hw : ∀ t : List K, t.length = ds.length → w t = 1) (hfg : ∀ t : List K, t.length = ds.length → f t = g t) :
    RSpline.ofSpline (K := K) s = .ok r := by
  obtain ⟨q, e, hq⟩ := C35_of_polynomial s ds f hs
  rw [e]
  congr 1
  have h1 : q.wt = r.wt := hq.wt_computes.unique (hr.wt_computes.congr hw)
  have h2 : q.num = r.num := by
    refine hq.num_computes.unique (hr.num_computes.congr fun t ht => ?_)
    rw [hr.num_value ht (by rw [hw t ht]; exact one_ne_zero), hq.num_value ht one_ne_zero, hw t ht, hfg t ht]
  cases q; cases r
  simp only at h1 h2
  rw [h1, h2]

/-- C119. Values. -/
theorem C119_evaluate (s : Spline V) (ds : List ℕ) (f : List K → V) (hs : s.Computes ds f) (t : List K) (ht : t.length = ds.length) :
    SameResult (do let r ← RSpline.ofSpline (K := K) s; r.evaluate t) (s.evaluate t) := by
  obtain ⟨q, e, hq⟩ := C35_of_polynomial s ds f hs
  rw [e]
  exact ⟨f t, hq.eval t ht one_ne_zero, hs.eval t ht⟩

/-- C119. Values by basis functions. (For other rational splines `ForwardEvaluate` is not the value, C36.) -/
theorem C119_forward_evaluate (cfg : Cfg) (hmax : cfg.maxBinom ≤ 68) (s : Spline V) (ds : List ℕ) (f : List K → V) (hs : s.Computes ds f)
    (hd : ∀ p ∈ ds, p < cfg.maxBinom) (t : List K) (ht : t.length = ds.length) :
    SameResult (do let r ← RSpline.ofSpline (K := K) s; r.forwardEvaluate cfg t) (s.evaluate t) := by
  obtain ⟨q, e, hq⟩ := C35_of_polynomial s ds f hs
  rw [e]
  obtain ⟨x, y, e1, e2, -, h⟩ := C36_forward_evaluate_partial cfg hmax q ds f _ hq hd t ht one_ne_zero
  obtain rfl := h.mpr (Or.inl rfl)
  refine ⟨x, e1, ?_⟩
  rw [hs.eval t ht, ← e2, hq.eval t ht one_ne_zero]

/-- C119. Scaling, shifting, negating. -/
theorem C119_scale (s : Spline V) (ds : List ℕ) (f : List K → V) (hs : s.Computes ds f) (c : K) :
    SameResult (do let r ← RSpline.ofSpline (K := K) s; r.smulOp c) (do let x ← s.smulOp c; RSpline.ofSpline x) := by
  obtain ⟨q, e, hq⟩ := C35_of_polynomial s ds f hs
  obtain ⟨x, e1, hx⟩ := C20_scale s ds f hs c
  obtain ⟨y, e2, -, hy⟩ := C39_scale q ds f _ hq c
  rw [e, e1]
  exact ⟨y, e2, ofSpline_unique hx hy (fun _ _ => rfl) fun _ _ => rfl⟩

@[inherit_doc C119_scale]
theorem C119_add_point (s : Spline V) (ds : List ℕ) (f : List K → V) (hs : s.Computes ds f) (p : V) :
    SameResult (do let r ← RSpline.ofSpline (K := K) s; r.addPoint p) (do let x ← s.addPoint p; RSpline.ofSpline x) := by
  obtain ⟨q, e, hq⟩ := C35_of_polynomial s ds f hs
  obtain ⟨x, e1, hx⟩ := C20_add_point s ds f hs p
  obtain ⟨y, e2, -, hy⟩ := C39_add_point q ds f _ hq p
  rw [e, e1]
  exact ⟨y, e2, ofSpline_unique hx hy (fun _ _ => rfl) fun _ _ => rfl⟩

@[inherit_doc C119_scale]
theorem C119_sub_point (s : Spline V) (ds : List ℕ) (f : List K → V) (hs : s.Computes ds f) (p : V) :
    SameResult (do let r ← RSpline.ofSpline (K := K) s; r.subPoint p) (do let x ← s.subPoint p; RSpline.ofSpline x) := by
  obtain ⟨q, e, hq⟩ := C35_of_polynomial s ds f hs
  obtain ⟨x, e1, hx⟩ := C20_sub_point s ds f hs p
  obtain ⟨y, e2, -, hy⟩ := C39_sub_point q ds f _ hq p
  rw [e, e1]
  exact ⟨y, e2, ofSpline_unique hx hy (fun _ _ => rfl) fun _ _ => rfl⟩

@[inherit_doc C119_scale]
theorem C119_neg (s : Spline V) (ds : List ℕ) (f : List K → V) (hs : s.Computes ds f) :
    SameResult (do let r ← RSpline.ofSpline (K := K) s; r.negOp) (do let x ← s.negOp; RSpline.ofSpline x) := by
  obtain ⟨q, e, hq⟩ := C35_of_polynomial s ds f hs
  obtain ⟨x, e1, hx⟩ := C20_neg s ds f hs
  obtain ⟨y, e2, hy⟩ := C39_neg q ds f _ hq
  rw [e, e1]
  exact ⟨y, e2, ofSpline_unique hx hy (fun _ _ => rfl) fun _ _ => rfl⟩

/-- C119. Order elevation. -/
theorem C119_elevate (s : Spline V) (ds : List ℕ) (f : List K → V) (hs : s.Computes ds f) (d p : ℕ) (hp : ds[d]? = some p)
    (hsize : size (ds.set d (p + 1)) < 2 ^ 31) :
    SameResult (do let r ← RSpline.ofSpline (K := K) s; r.orderElevate d) (do let x ← Spline.orderElevate K s d; RSpline.ofSpline x) := by
  obtain ⟨q, e, hq⟩ := C35_of_polynomial s ds f hs
  obtain ⟨x, e1, hx⟩ := C12_order_elevate s ds f hs d p hp hsize
  obtain ⟨y, e2, hy⟩ := C40_order_elevate q ds f _ hq d p hp hsize
  rw [e, e1]
  exact ⟨y, e2, ofSpline_unique hx hy (fun _ _ => rfl) fun _ _ => rfl⟩

/-- C119. Splitting. -/
theorem C119_split (s : Spline V) (ds : List ℕ) (f : List K → V) (hs : s.Computes ds f) (d : ℕ) (hd : d < ds.length) (z : K) (h0 : 0 < z)
    (h1 : z < 1) :
    SameResult (do let r ← RSpline.ofSpline (K := K) s; r.splitAt z d)
      (do let x ← s.splitAt z d; let a ← RSpline.ofSpline x.1; let b ← RSpline.ofSpline x.2; pure (a, b)) := by
  obtain ⟨q, e, hq⟩ := C35_of_polynomial s ds f hs
  obtain ⟨x, y, e1, hx, hy⟩ := C31_split s ds f hs d hd z h0 h1
  obtain ⟨x', y', e2, hx', hy'⟩ := C40_split q ds f _ hq d hd z h0 h1
  rw [e, e1]
  refine ⟨(x', y'), e2, ?_⟩
  simp only [bind_ok]
  rw [ofSpline_unique hx hx' (fun _ _ => rfl) fun _ _ => rfl, ofSpline_unique hy hy' (fun _ _ => rfl) fun _ _ => rfl]
  rfl

/-- C119. Splitting at several positions: part by part. -/
theorem C119_split_many (s : Spline V) (ds : List ℕ) (f : List K → V) (hs : s.Computes ds f) (d : ℕ) (hd : d < ds.length)
    (planes : List K) (hinc : planes.Pairwise (· < ·)) (h01 : ∀ z ∈ planes, 0 < z ∧ z < 1) :
    SameResult (do let r ← RSpline.ofSpline (K := K) s; r.splitAtMany planes d)
      (do let l ← s.splitAtMany planes d; l.mapM (RSpline.ofSpline (K := K))) := by
  obtain ⟨q, e, hq⟩ := C35_of_polynomial s ds f hs
  obtain ⟨l, e1, hl, h1⟩ := C33_split_many s ds f hs d hd planes hinc h01
  obtain ⟨l', e2, hl', h2⟩ := C40_split_many q ds f _ hq d hd planes hinc h01
  rw [e, e1]
  refine ⟨l', e2, ?_⟩
  have key : ∀ (i : ℕ) (a : Spline V) (b : RSpline K V), l[i]? = some a → l'[i]? = some b → RSpline.ofSpline a = .ok b := by
    intro i a b ha hb
    have hi : i < planes.length + 1 := by rw [← hl]; exact (List.getElem?_eq_some_iff.mp ha).1
    have hlen : (0 :: planes ++ [1]).length = planes.length + 2 := by simp
    have x1 := List.getElem?_eq_getElem (l := (0 :: planes ++ [1] : List K)) (i := i) (by omega)
    have x2 := List.getElem?_eq_getElem (l := (0 :: planes ++ [1] : List K)) (i := i + 1) (by omega)
    exact ofSpline_unique (h1 i a _ _ ha x1 x2) (h2 i b _ _ hb x1 x2) (fun _ _ => rfl) fun _ _ => rfl
  have : ∀ (l : List (Spline V)) (l' : List (RSpline K V)), l.length = l'.length →
      (∀ (i : ℕ) (a : Spline V) (b : RSpline K V), l[i]? = some a → l'[i]? = some b → RSpline.ofSpline a = .ok b) →
      l.mapM (RSpline.ofSpline (K := K)) = .ok l' := by
    intro l
    induction l with
    | nil =>
      intro l' hl _
      rw [List.length_nil, eq_comm, List.length_eq_zero_iff] at hl
      subst hl; rfl
    | cons a l ih =>
      intro l' hl h
      cases l' with
      | nil => simp at hl
      | cons b l' =>
        rw [List.mapM_cons, h 0 a b rfl rfl, ih l' (by simpa using hl) fun i x y hx hy => h (i + 1) x y (by simpa using hx) (by simpa using hy)]
        rfl
  exact this l l' (by rw [hl, hl']) key

omit [LinearOrder K] [IsStrictOrderedRing K] [AddCommGroup V] [Module K V] [ScalarDiv K V] [LawfulScalarDiv K V] in
theorem ofSpline_num {s : Spline V} {r : RSpline K V} (h : RSpline.ofSpline s = .ok r) : r.num = s := by
  unfold RSpline.ofSpline at h
  rw [bind_eq_ok] at h
  obtain ⟨w, -, h⟩ := h
  rw [bind_eq_ok] at h
  obtain ⟨-, -, h⟩ := h
  cases h; rfl

/-- C119. The sum of two converted splines of the same degrees is the converted sum. -/
theorem C119_add (cfg : Cfg) (a b : Spline V) (ds : List ℕ) (f g : List K → V) (ha : a.Computes ds f) (hb : b.Computes ds g)
    (h : Fits cfg ds ds) :
    SameResult (do let x ← RSpline.ofSpline (K := K) a; let y ← RSpline.ofSpline b; RSpline.addOp cfg x y)
      (do let x ← Spline.addOp K cfg a b; RSpline.ofSpline x) := by
  obtain ⟨x, e1, hx⟩ := C35_of_polynomial (K := K) a ds f ha
  obtain ⟨y, e2, hy⟩ := C35_of_polynomial (K := K) b ds g hb
  have hw : x.wt.eqOp y.wt = true := (eqOp_iff hx.wt_wf hy.wt_wf).mpr (hx.wt_computes.unique hy.wt_computes)
  obtain ⟨s, e4, hs⟩ := C16_add (K := K) cfg a b ds ds f g ha hb h
  rw [maxDegrees_self] at hs
  have hr := RSpline.computes_of hs hx.wt_computes
  refine ⟨⟨s, x.wt⟩, ?_, ?_⟩
  · rw [e1, e2]
    simp only [bind_ok, RSpline.addOp]
    rw [if_pos hw, ofSpline_num e1, ofSpline_num e2, e4]
    exact RSpline.ofSplines_ok (by rw [hs.degrees_eq, hx.wt_degrees])
  · rw [e4]
    exact ofSpline_unique hs hr (fun _ _ => rfl) fun _ _ => by simp

/-- C119. The difference of two converted splines of the same degrees is the converted difference. -/
theorem C119_sub (cfg : Cfg) (a b : Spline V) (ds : List ℕ) (f g : List K → V) (ha : a.Computes ds f) (hb : b.Computes ds g)
    (h : Fits cfg ds ds) :
    SameResult (do let x ← RSpline.ofSpline (K := K) a; let y ← RSpline.ofSpline b; RSpline.subOp cfg x y)
      (do let x ← Spline.subOp K cfg a b; RSpline.ofSpline x) := by
  obtain ⟨x, e1, hx⟩ := C35_of_polynomial (K := K) a ds f ha
  obtain ⟨y, e2, hy⟩ := C35_of_polynomial (K := K) b ds g hb
  have hw : x.wt.eqOp y.wt = true := (eqOp_iff hx.wt_wf hy.wt_wf).mpr (hx.wt_computes.unique hy.wt_computes)
  obtain ⟨s, e4, hs⟩ := C18_sub_partial (K := K) cfg a b ds ds f g ha hb h (fun d p q hp hq => by
    rw [hp] at hq; exact (Option.some.inj hq).ge)
  rw [maxDegrees_self] at hs
  have hr := RSpline.computes_of hs hx.wt_computes
  refine ⟨⟨s, x.wt⟩, ?_, ?_⟩
  · rw [e1, e2]
    simp only [bind_ok, RSpline.subOp]
    rw [if_pos hw, ofSpline_num e1, ofSpline_num e2, e4]
    exact RSpline.ofSplines_ok (by rw [hs.degrees_eq, hx.wt_degrees])
  · rw [e4]
    exact ofSpline_unique hs hr (fun _ _ => rfl) fun _ _ => by simp

/-- C119. `a += b` of converted splines of the same degrees. -/
theorem C119_add_assign (cfg : Cfg) (a b : Spline V) (ds : List ℕ) (f g : List K → V) (ha : a.Computes ds f) (hb : b.Computes ds g)
    (h : Fits cfg ds ds) :
    SameResult (do let x ← RSpline.ofSpline (K := K) a; let y ← RSpline.ofSpline b; RSpline.addAssign cfg x y)
      (do let x ← Spline.addAssign K cfg a b; RSpline.ofSpline x) := by
  obtain ⟨x, e1, hx⟩ := C35_of_polynomial (K := K) a ds f ha
  obtain ⟨y, e2, hy⟩ := C35_of_polynomial (K := K) b ds g hb
  have hw : x.wt.eqOp y.wt = true := (eqOp_iff hx.wt_wf hy.wt_wf).mpr (hx.wt_computes.unique hy.wt_computes)
  obtain ⟨s, e4, hs⟩ := C17_add_assign (K := K) cfg a b ds ds f g ha hb h
  rw [maxDegrees_self] at hs
  have hr := RSpline.computes_of hs hx.wt_computes
  refine ⟨⟨s, x.wt⟩, ?_, ?_⟩
  · rw [e1, e2]
    simp only [bind_ok, RSpline.addAssign]
    rw [if_pos hw, ofSpline_num e1, ofSpline_num e2, e4]
    rfl
  · rw [e4]
    exact ofSpline_unique hs hr (fun _ _ => rfl) fun _ _ => by simp

/-- C119. `a -= b` of converted splines of the same degrees. -/
theorem C119_sub_assign (cfg : Cfg) (a b : Spline V) (ds : List ℕ) (f g : List K → V) (ha : a.Computes ds f) (hb : b.Computes ds g)
    (h : Fits cfg ds ds) :
    SameResult (do let x ← RSpline.ofSpline (K := K) a; let y ← RSpline.ofSpline b; RSpline.subAssign cfg x y)
      (do let x ← Spline.subAssign K cfg a b; RSpline.ofSpline x) := by
  obtain ⟨x, e1, hx⟩ := C35_of_polynomial (K := K) a ds f ha
  obtain ⟨y, e2, hy⟩ := C35_of_polynomial (K := K) b ds g hb
  have hw : x.wt.eqOp y.wt = true := (eqOp_iff hx.wt_wf hy.wt_wf).mpr (hx.wt_computes.unique hy.wt_computes)
  obtain ⟨s, e4, hs⟩ := C19_sub_assign (K := K) cfg a b ds ds f g ha hb h
  rw [maxDegrees_self] at hs
  have hr := RSpline.computes_of hs hx.wt_computes
  refine ⟨⟨s, x.wt⟩, ?_, ?_⟩
  · rw [e1, e2]
    simp only [bind_ok, RSpline.subAssign]
    rw [if_pos hw, ofSpline_num e1, ofSpline_num e2, e4]
    rfl
  · rw [e4]
    exact ofSpline_unique hs hr (fun _ _ => rfl) fun _ _ => by simp

/-- C119. Sums and differences of converted splines of different degrees are the same functions, with weight one, but of the degrees
`p_d + q_d` instead of `max(p_d, q_d)`. -/
theorem C119_add_degrees (cfg : Cfg) (hmax : cfg.maxBinom ≤ 68) (a b : Spline V) (da db : List ℕ) (f g : List K → V)
    (ha : a.Computes da f) (hb : b.Computes db g) (h : RFits cfg da db) (hne : da ≠ db) :
    ∃ x y r r', RSpline.ofSpline (K := K) a = .ok x ∧ RSpline.ofSpline (K := K) b = .ok y ∧
      RSpline.addOp cfg x y = .ok r ∧ r.Computes (sumDegrees da db) (fun t => f t + g t) (fun _ => 1) ∧
      RSpline.subOp cfg x y = .ok r' ∧ r'.Computes (sumDegrees da db) (fun t => f t - g t) (fun _ => 1) := by
  obtain ⟨x, e1, hx⟩ := C35_of_polynomial (K := K) a da f ha
  obtain ⟨y, e2, hy⟩ := C35_of_polynomial (K := K) b db g hb
  have hw : ¬ x.wt.eqOp y.wt = true := fun hw => hne (eqWeights hx hy hw).1.symm
  obtain ⟨r, e3, hr⟩ := C38_add cfg hmax x y da db f g _ _ hx hy h
  obtain ⟨r', e4, hr'⟩ := C38_sub cfg hmax x y da db f g _ _ hx hy h
  refine ⟨x, y, r, r', e1, e2, e3, ?_, e4, ?_⟩
  · rcases hr with ⟨h1, -⟩ | ⟨-, h1⟩
    · exact absurd h1 hw
    · exact h1.congr (fun _ _ => one_mul 1) fun _ _ _ => rfl
  · rcases hr' with ⟨h1, -⟩ | ⟨-, h1⟩
    · exact absurd h1 hw
    · exact h1.congr (fun _ _ => one_mul 1) fun _ _ _ => rfl

/-- C119. Products (of scalars, of scalars and points, and dot products). -/
theorem C119_mul {W U : Type} [AddCommGroup W] [Module K W] [ScalarDiv K W] [LawfulScalarDiv K W] [AddCommGroup U] [Module K U]
    [ScalarDiv K U] [LawfulScalarDiv K U] (cfg : Cfg) (hmax : cfg.maxBinom ≤ 68) (mul : V → W → U) (B : V →ₗ[K] W →ₗ[K] U)
    (hB : ∀ x y, mul x y = B x y) (a : Spline V) (b : Spline W) (da db : List ℕ) (f : List K → V) (g : List K → W)
    (ha : a.Computes da f) (hb : b.Computes db g) (hdim : db.length = da.length) (hdeg : ∀ p ∈ sumDegrees da db, p < cfg.maxBinom) :
    SameResult (do let x ← RSpline.ofSpline (K := K) a; let y ← RSpline.ofSpline b; RSpline.mulOp cfg mul x y)
      (do let x ← Spline.mulOp K cfg mul a b; RSpline.ofSpline x) := by
  obtain ⟨x, e1, hx⟩ := C35_of_polynomial (K := K) a da f ha
  obtain ⟨y, e2, hy⟩ := C35_of_polynomial (K := K) b db g hb
  obtain ⟨s, e3, hs⟩ := C21_mul cfg hmax mul B hB a b da db f g ha hb hdim hdeg
  obtain ⟨r, e4, hr⟩ := C38_mul cfg hmax mul B hB x y da db f g _ _ hx hy hdim hdeg
  rw [e1, e2, e3]
  exact ⟨r, e4, ofSpline_unique hs hr (fun _ _ => one_mul 1) fun _ _ => rfl⟩

end

section
variable {K V W : Type} [Field K] [LinearOrder K] [IsStrictOrderedRing K] [AddCommGroup V] [Module K V] [ScalarDiv K V]
  [LawfulScalarDiv K V] [AddCommGroup W] [Module K W] [Coords K W] [LawfulCoords K W] [ScalarDiv K W] [LawfulScalarDiv K W]

theorem euclid_ofSpline {s : Spline W} (hs : s.WF) {r : RSpline K W} (h : RSpline.ofSpline (K := K) s = .ok r) :
    r.euclid = s ∧ ∀ c ∈ r.wt.cps, c ≠ 0 := by
  rw [RSpline.ofSpline_inv hs h]
  constructor
  · unfold RSpline.euclid
    show (⟨s.degrees, s.ncp, s.offsets, _⟩ : Spline W) = ⟨s.degrees, s.ncp, s.offsets, s.cps⟩
    congr 1
    apply List.ext_getElem
    · simp [hs.cps_len]
    · intro i h1 h2
      simp [tab, List.getD_eq_getElem?_getD, h2]
  · intro c hc
    simp at hc
    rw [hc.2]; exact one_ne_zero

/-- C119. Bounding boxes and the unit cube check. -/
theorem C119_box (s : Spline W) (hs : s.WF) :
    SameResult (do let r ← RSpline.ofSpline (K := K) s; r.minimumCorner) (Spline.minimumCorner K s) ∧
    SameResult (do let r ← RSpline.ofSpline (K := K) s; r.maximumCorner) (Spline.maximumCorner K s) ∧
    SameResult (do let r ← RSpline.ofSpline (K := K) s; r.fitsIntoUnitCube) (Spline.fitsIntoUnitCube K s) := by
  obtain ⟨r, e, hr⟩ := C35_of_polynomial (K := K) s s.degrees s.value hs.computes
  obtain ⟨h1, h2⟩ := euclid_ofSpline hs e
  have a1 := RSpline.minimumCorner_eq hr.num_wf hr.wt_wf hr.deg_eq h2
  have a2 := RSpline.maximumCorner_eq hr.num_wf hr.wt_wf hr.deg_eq h2
  have a3 := RSpline.fitsIntoUnitCube_eq hr.num_wf hr.wt_wf hr.deg_eq h2
  rw [h1] at a1 a2 a3
  obtain ⟨lo, l1, -⟩ := Spline.minimumCorner_ok (K := K) hs
  obtain ⟨hi, l2, -⟩ := Spline.maximumCorner_ok (K := K) hs
  obtain ⟨b, b1, -⟩ := C25_fits_iff (K := K) s hs
  rw [e]
  exact ⟨⟨lo, a1.trans l1, l1⟩, ⟨hi, a2.trans l2, l2⟩, ⟨b, a3.trans b1, b1⟩⟩

/-- C119. Composition of a converted outer spline with a polynomial inner spline. -/
theorem C119_compose_outer (cfg : Cfg) (hmax : cfg.maxBinom ≤ 68) (outer : Spline V) (inner : Spline W) (dO dI : List ℕ)
    (f : List K → V) (g : List K → W) (ho : outer.Computes dO f) (hi : inner.Computes dI g) (hdim : dO.length = Coords.n K W)
    (hcube : Spline.fitsIntoUnitCube K inner = .ok true) (hf : ComposeFits cfg dO dI) :
    SameResult (do let x ← RSpline.ofSpline (K := K) outer; RSpline.compose cfg x inner)
      (do let x ← Spline.compose K cfg outer inner; RSpline.ofSpline x) := by
  obtain ⟨x, e1, hx⟩ := C35_of_polynomial (K := K) outer dO f ho
  obtain ⟨s, e2, hs⟩ := C26_compose cfg hmax outer inner dO dI f g ho hi hdim hcube hf.outer hf.result
  obtain ⟨r, e3, hr⟩ := C29_compose_polynomial cfg hmax x inner dO dI f _ g hx hi hdim hcube hf
  rw [e1, e2]
  exact ⟨r, e3, ofSpline_unique hs hr (fun _ _ => rfl) fun _ _ => rfl⟩

/-- C119. Composition of a polynomial outer spline with a converted inner spline. -/
theorem C119_compose_inner (cfg : Cfg) (hmax : cfg.maxBinom ≤ 68) (outer : Spline V) (inner : Spline W) (dO dI : List ℕ)
    (f : List K → V) (g : List K → W) (ho : outer.Computes dO f) (hi : inner.Computes dI g) (hdim : dO.length = Coords.n K W)
    (hcube : Spline.fitsIntoUnitCube K inner = .ok true) (hf : ComposeFits cfg dO dI) :
    SameResult (do let y ← RSpline.ofSpline (K := K) inner; Spline.composeRational cfg outer y)
      (do let x ← Spline.compose K cfg outer inner; RSpline.ofSpline x) := by
  obtain ⟨y, e1, hy⟩ := C35_of_polynomial (K := K) inner dI g hi
  obtain ⟨s, e2, hs⟩ := C26_compose cfg hmax outer inner dO dI f g ho hi hdim hcube hf.outer hf.result
  have hfit : y.fitsIntoUnitCube = .ok true := by
    obtain ⟨-, -, b, h1, h2⟩ := C119_box (K := K) inner hi.wf
    rw [e1] at h1
    rw [hcube] at h2
    cases h2
    exact h1
  obtain ⟨r, e3, hr⟩ := C28_compose cfg hmax outer y dO dI f g _ ho hy hdim hfit hf
  rw [e1, e2]
  exact ⟨r, e3, ofSpline_unique hs hr (fun _ _ => one_pow _) fun _ _ => rfl⟩

/-- C119. Composition of a rational outer spline with a converted inner spline. -/
theorem C119_compose_rational_inner (cfg : Cfg) (hmax : cfg.maxBinom ≤ 68) (outer : RSpline K V) (inner : Spline W) (dO dI : List ℕ)
    (f : List K → V) (w : List K → K) (g : List K → W) (ho : outer.Computes dO f w) (hi : inner.Computes dI g)
    (hdim : dO.length = Coords.n K W) (hcube : Spline.fitsIntoUnitCube K inner = .ok true) (hf : ComposeFits cfg dO dI) :
    SameResult (do let y ← RSpline.ofSpline (K := K) inner; RSpline.composeRational cfg outer y) (RSpline.compose cfg outer inner) := by
  obtain ⟨y, e1, hy⟩ := C35_of_polynomial (K := K) inner dI g hi
  have part : ∀ {U : Type} [AddCommGroup U] [Module K U] (s : Spline U) (h : List K → U), s.Computes dO h →
      ∃ r, Spline.compose K cfg s inner = .ok r ∧ s.composeNumeratorRational cfg y = .ok r ∧ r.degrees = dI.map (fun q => dO.sum * q) := by
    intro U _ _ s h hs
    obtain ⟨r, e2, hr⟩ := C26_compose cfg hmax s inner dO dI h g hs hi hdim hcube hf.outer hf.result
    have hd := hs.degrees_eq
    obtain ⟨n, n1, n2, n3, n4⟩ := composeNumeratorRational_ok (K := K) (s := s) hmax hs.wf hy hf.sub
      (by unfold Spline.dim; rw [hd, hdim]) (by rw [hd]; exact hf.outer) (by rw [hd]; exact hf.deg)
    refine ⟨r, e2, ?_, hr.degrees_eq⟩
    rw [n1]
    congr 1
    rw [hd] at n3
    refine (Spline.Computes.mk' (K := K) n2 n3 fun t ht => ?_).unique hr
    have ht' : t.length = dI.length := by simpa using ht
    rw [n4 t ht' (by rw [one_pow]; exact one_ne_zero), one_pow, one_smul, hs.value_eq (by rw [coordList_length, hdim])]
  obtain ⟨n, n1, n2, n3⟩ := part outer.num _ ho.num_computes
  obtain ⟨d, d1, d2, d3⟩ := part outer.wt _ ho.wt_computes
  refine ⟨⟨n, d⟩, ?_, ?_⟩
  · rw [e1]
    simp only [bind_ok, RSpline.composeRational]
    rw [n2, d2]
    exact RSpline.ofSplines_ok (by rw [n3, d3])
  · unfold RSpline.compose
    rw [n1, d1]
    exact RSpline.ofSplines_ok (by rw [n3, d3])

/-- the weights of a converted outer spline, composed with a rational spline, are a power of the weights of the inner spline -/
theorem compose_ones (cfg : Cfg) (hmax : cfg.maxBinom ≤ 68) (outer : Spline V) (inner : RSpline K W) (dI : List ℕ)
    (g : List K → W) (w : List K → K) (ho : outer.WF) (hi : inner.Computes dI g w) (hdim : outer.degrees.length = Coords.n K W)
    (hf : ComposeFits cfg outer.degrees dI) (x : RSpline K V) (e1 : RSpline.ofSpline (K := K) outer = .ok x) (d : Spline K)
    (d2 : d.Computes (dI.map (fun q => outer.degrees.sum * q)) (fun t => w t ^ outer.degrees.sum)) :
    x.wt.composeNumeratorRational cfg inner = .ok d := by
  obtain ⟨x', e1', hx⟩ := C35_of_polynomial (K := K) outer outer.degrees _ ho.computes
  rw [e1] at e1'
  cases e1'
  have hwd := hx.wt_degrees
  have hq : 0 < dI.length := by rw [← hi.num_degrees]; exact hi.num_wf.dim_pos
  have hdim' : x.wt.dim = Coords.n K W := by unfold Spline.dim; rw [hwd]; exact hdim
  unfold Spline.composeNumeratorRational
  obtain ⟨r, h1, h2, h3, h4⟩ := Spline.composeNumerator_ok (K := K) hmax hx.wt_wf hq
    (extract := fun d => inner.extractDimension d) (inverse := fun e => Spline.subOp K cfg inner.wt e)
    (x := fun d t => if h : d < Coords.n K W then Coords.coord (inner.num.value t) ⟨d, h⟩ else 0)
    (y := fun d t => if h : d < Coords.n K W then w t - Coords.coord (inner.num.value t) ⟨d, h⟩ else 0)
    (by
      intro d hd
      have hd' : d < Coords.n K W := by omega
      simp only [hd', dif_pos]
      exact rational_ext hi hf.sub ⟨d, hd'⟩) (by rw [hwd]; exact hf.outer) (by rw [hwd]; exact hf.deg)
  rw [hi.num_degrees, h1]
  congr 1
  rw [hwd] at h3 h4
  refine (Spline.Computes.mk' (K := K) h2 h3 fun t ht => ?_).unique d2
  have ht' : t.length = dI.length := by simpa using ht
  have hone : ∀ n, n < size outer.degrees → x.wt.cps.getD n 0 = 1 := by
    intro n hn
    rw [RSpline.ofSpline_inv ho e1]
    have : n < outer.cps.length := by rw [ho.cps_len]; exact hn
    simp [List.getD_eq_getElem?_getD, this]
  rw [h4 t ht', tens_congr hone, tens_hb_one (w t)]
  intro d hd
  have hd' : d < Coords.n K W := by rw [← hdim]; exact hd
  simp only [hd', dif_pos]
  ring

/-- C119. Composition of a converted outer spline with a rational inner spline: the overload for polynomial outer splines computes a
power of the weight function of the inner spline, the one for rational outer splines composes the weights; the results are identical. -/
theorem C119_compose_rational_outer (cfg : Cfg) (hmax : cfg.maxBinom ≤ 68) (outer : Spline V) (inner : RSpline K W) (dO dI : List ℕ)
    (f : List K → V) (g : List K → W) (w : List K → K) (ho : outer.Computes dO f) (hi : inner.Computes dI g w)
    (hdim : dO.length = Coords.n K W) (hcube : inner.fitsIntoUnitCube = .ok true) (hf : ComposeFits cfg dO dI) :
    SameResult (do let x ← RSpline.ofSpline (K := K) outer; RSpline.composeRational cfg x inner)
      (Spline.composeRational cfg outer inner) := by
  obtain ⟨x, e1, hx⟩ := C35_of_polynomial (K := K) outer dO f ho
  have hod := ho.degrees_eq
  subst hod
  obtain ⟨n, n1, n2, n3, -⟩ := composeNumeratorRational_ok (K := K) hmax ho.wf hi hf.sub hdim hf.outer hf.deg
  obtain ⟨d, d1, d2⟩ := C22_raise_power cfg hmax inner.wt dI w hi.wt_computes outer.degrees.sum hf.result
  have key := compose_ones cfg hmax outer inner dI g w ho.wf hi hdim hf x e1 d d2
  refine ⟨⟨n, d⟩, ?_, ?_⟩
  · rw [e1]
    simp only [bind_ok, RSpline.composeRational]
    rw [ofSpline_num e1, n1, key]
    exact RSpline.ofSplines_ok (by rw [n3, d2.degrees_eq])
  · unfold Spline.composeRational Spline.composeDenominator
    rw [hcube, n1, d1]
    exact RSpline.ofSplines_ok (by rw [n3, d2.degrees_eq])

theorem smulOp_one {n : Spline K} (hn : n.WF) : n.smulOp (1 : K) = .ok n := by
  obtain ⟨e, e1, e2⟩ := C20_scale (K := K) n _ _ hn.computes 1
  rw [e1]
  congr 1
  refine (e2.congr fun t _ => ?_).unique hn.computes
  rw [one_smul]

theorem rd_ones {s : Spline V} (hs : s.WF) {x : RSpline K V} (h : RSpline.ofSpline (K := K) s = .ok x) {i : ℕ} (hi : i < size s.degrees) :
    rd x.wt.cps i = .ok 1 := by
  rw [RSpline.ofSpline_inv hs h]
  have : i < s.cps.length := by rw [hs.cps_len]; exact hi
  exact rd_ok (by simp [this])

/-- C119. Sensitivities of the composition with a polynomial inner spline. -/
theorem C119_sensitivity_outer (cfg : Cfg) (hmax : cfg.maxBinom ≤ 68) (outer : Spline V) (inner : Spline W) (dI : List ℕ)
    (g : List K → W) (ho : outer.WF) (hi : inner.Computes dI g) (hdim : outer.dim = Coords.n K W)
    (hcube : Spline.fitsIntoUnitCube K inner = .ok true) (hf : ComposeFits cfg outer.degrees dI) :
    SameResult (do let x ← RSpline.ofSpline (K := K) outer; RSpline.composeSensitivity cfg x inner)
      (do let l ← Spline.composeSensitivity K cfg outer inner; l.mapM fun s => RSpline.ofSpline s) := by
  obtain ⟨x, e1, hx⟩ := C35_of_polynomial (K := K) outer _ _ ho.computes
  obtain ⟨b, h1, h2⟩ := Spline.fitsIntoUnitCube_ok (K := K) hi.wf
  rw [hcube] at h1
  cases h1
  have hdeg : Spline.DegOk cfg (inner.degrees.map (outer.degrees.sum * ·)) := by rw [hi.degrees_eq]; exact hf.deg
  obtain ⟨l, l1, l2, l3⟩ := Spline.composeSensitivity_ok (K := K) hmax ho hi.wf hdim (h2.mp rfl) hf.outer hdeg
  obtain ⟨d, d1, d2⟩ := C26_compose cfg hmax x.wt inner outer.degrees dI _ g hx.wt_computes hi hdim hcube hf.outer hf.result
  have hq : ∀ s ∈ l, RSpline.ofSpline (K := K) s = .ok ⟨s, d⟩ := by
    intro s hs
    obtain ⟨i, hil, rfl⟩ := List.getElem_of_mem hs
    obtain ⟨r, r1, r2, r3, -⟩ := l3 i (by omega)
    rw [List.getElem?_eq_getElem hil] at r1
    cases r1
    have hd : l[i].degrees = dI.map (fun q => outer.degrees.sum * q) := by rw [r3, hi.degrees_eq]
    exact ofSpline_unique r2.computes (RSpline.computes_of r2.computes (hd ▸ d2)) (fun _ _ => rfl) fun _ _ => by simp
  refine ⟨l.map fun s => ⟨s, d⟩, ?_, ?_⟩
  · rw [e1]
    simp only [bind_ok, RSpline.composeSensitivity]
    rw [ofSpline_num e1, l1, d1]
    simp only [bind_ok, RSpline.rescaleSensitivities]
    rw [loop_congr (g := fun i ret => (pure (ret ++ [(⟨l.getD i ⟨[], 0, [], []⟩, d⟩ : RSpline K K)]) : M _)), Microstructure.loop_push_tab]
    · congr 1
      apply List.ext_getElem
      · simp
      · intro i h1 h2
        simp only [List.length_map] at h2
        simp [tab, List.getD_eq_getElem?_getD, h2]
    · intro i hil ret
      obtain ⟨r, r1, r2, r3, -⟩ := l3 i (by omega)
      have hr := hq r (List.mem_of_getElem? r1)
      rw [rd_ok r1]
      simp only [bind_ok]
      rw [rd_ones ho e1 (by omega)]
      simp only [bind_ok]
      rw [smulOp_one r2]
      simp only [bind_ok]
      rw [RSpline.ofSplines_ok (by rw [r3, d2.degrees_eq, hi.degrees_eq])]
      simp [List.getD_eq_getElem?_getD, r1]
  · rw [l1]
    show l.mapM _ = _
    clear l1 l2 l3
    induction l with
    | nil => rfl
    | cons a l ih =>
      rw [List.mapM_cons, hq a (by simp), ih (fun s hs => hq s (by simp [hs]))]
      rfl

/-- C119. Sensitivities of the composition with a rational inner spline. -/
theorem C119_sensitivity_rational_outer (cfg : Cfg) (hmax : cfg.maxBinom ≤ 68) (outer : Spline V) (inner : RSpline K W) (dI : List ℕ)
    (g : List K → W) (w : List K → K) (ho : outer.WF) (hi : inner.Computes dI g w) (hdim : outer.dim = Coords.n K W)
    (hcube : inner.fitsIntoUnitCube = .ok true) (hf : ComposeFits cfg outer.degrees dI) :
    SameResult (do let x ← RSpline.ofSpline (K := K) outer; RSpline.composeSensitivityRational cfg x inner)
      (Spline.composeSensitivityRational cfg outer inner) := by
  obtain ⟨x, e1, -⟩ := C35_of_polynomial (K := K) outer _ _ ho.computes
  obtain ⟨d, d1, d2⟩ := C22_raise_power cfg hmax inner.wt dI w hi.wt_computes outer.degrees.sum hf.result
  have key := compose_ones cfg hmax outer inner dI g w ho hi hdim hf x e1 d d2
  obtain ⟨l, l1, l2, l3⟩ := composeNumeratorSensitivityRational_ok (K := K) hmax ho hi hf.sub hdim hf.outer hf.deg
  obtain ⟨m, m1, -⟩ := C30_sensitivity (K := K) cfg hmax outer inner dI g w ho hi hdim hcube hf
  refine ⟨m, ?_, m1⟩
  rw [← m1, e1]
  unfold Spline.composeSensitivityRational RSpline.composeSensitivityRational Spline.composeDenominator
  simp only [bind_ok]
  rw [ofSpline_num e1, l1, key, hcube, d1]
  simp only [bind_ok, RSpline.rescaleSensitivities]
  rw [l2, ho.ncp_eq]
  apply loop_congr
  intro i hil ret
  obtain ⟨r, r1, r2, -⟩ := l3 i hil
  rw [rd_ok r1]
  simp only [bind_ok]
  rw [rd_ones ho e1 hil]
  simp only [bind_ok]
  rw [smulOp_one r2]
  simp only [bind_ok]

end

section
variable {V : Type} [NormedAddCommGroup V] [NormedSpace ℝ V] [ScalarDiv ℝ V] [LawfulScalarDiv ℝ V]

/-- C119. Values of derivatives. -/
theorem C119_evaluate_derivative (cfg : Cfg) (hmax : cfg.maxBinom ≤ 68) (s : Spline V) (ds : List ℕ) (f : List ℝ → V)
    (hs : s.Computes ds f) (hdeg : ∀ p ∈ ds, p < cfg.maxBinom) (k : List ℕ) (hk : k.length = ds.length)
    (hord : ∀ x ∈ k, x < cfg.maxBinom) (hfit : BinomFits k) (t : List ℝ) (ht : t.length = ds.length) :
    SameResult (do let r ← RSpline.ofSpline (K := ℝ) s; r.evaluateDerivative cfg t k) (s.evaluateDerivative cfg t k) := by
  obtain ⟨q, e, hq⟩ := C35_of_polynomial s ds f hs
  rw [e]
  exact ⟨pderiv k f t, C42_evaluate_derivative cfg hmax q ds f _ hq hdeg k hk hord hfit t ht one_ne_zero,
    C14_evaluate_derivative cfg hmax s ds f hs hdeg k hk t ht⟩

/-- C119. Derivative splines are the same functions, with weight one, but of higher degrees. -/
theorem C119_derivative_spline (cfg : Cfg) (hmax : cfg.maxBinom ≤ 68) (s : Spline V) (ds : List ℕ) (f : List ℝ → V)
    (hs : s.Computes ds f) (orders : List ℕ) (hl : orders.length = ds.length)
    (hpos : ∀ d o p : ℕ, orders[d]? = some o → ds[d]? = some p → 1 ≤ o → 1 ≤ p) (hfit : DerivFits cfg ds orders.sum) :
    ∃ r r', RSpline.ofSpline (K := ℝ) s = .ok r ∧ r.derivativeSpline cfg orders = .ok r' ∧
      r'.Computes (ds.map (· * 2 ^ orders.sum)) (pderiv orders f) (fun _ => 1) := by
  obtain ⟨q, e, hq⟩ := C35_of_polynomial s ds f hs
  obtain ⟨r', e', h⟩ := C41_derivative_spline cfg hmax q ds f _ hq orders hl hpos hfit
  exact ⟨q, r', e, e', h.congr (fun _ _ => one_pow _) fun _ _ _ => rfl⟩

end

/-! The hypotheses are met by the example splines. -/

example : SameResult (do let x ← RSpline.ofSpline (K := ℚ) Ex.A; let y ← RSpline.ofSpline Ex.A; RSpline.addOp Ex.cfg x y)
    (do let x ← Spline.addOp ℚ Ex.cfg Ex.A Ex.A; RSpline.ofSpline x) :=
  C119_add Ex.cfg Ex.A Ex.A _ _ _ Ex.A_wf.computes Ex.A_wf.computes ⟨rfl, by decide, by decide, by decide⟩
example : ComposeFits Ex.cfg [2, 1] [2, 1] ∧ Spline.fitsIntoUnitCube ℚ Q = .ok true ∧ RQ.fitsIntoUnitCube = .ok true :=
  ⟨cfits, Q_fits, RQ_fits⟩

end Bezman.Props
