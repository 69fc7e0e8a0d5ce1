import Verif.Props.Hull
import Verif.Props.Arith
import Verif.Props.Affine

/-! # Properties: convex sets and the control points of sums and products -/

namespace Bezman.Props
open Spec Finset
variable {K V W U : Type} [Field K] [LinearOrder K] [IsStrictOrderedRing K] [AddCommGroup V] [Module K V]
  [AddCommGroup W] [Module K W] [AddCommGroup U] [Module K U]

theorem nonneg_basis (ps : List ℕ) {n : ℕ} : NonnegNet ps (fun t : List K => pw (bernFns ps t) (unflat ps n)) := by
  refine (nonneg_restrict (K := K) ps (lo := 0) (hi := 1) le_rfl zero_le_one zero_le_one le_rfl ps.length (n := n)).congr fun t ht => ?_
  have : t.modify ps.length (fun x => (0 : K) + (1 - 0) * x) = t := by
    have : (fun x : K => (0 : K) + (1 - 0) * x) = id := by funext x; simp
    rw [this, List.modify_id]
  rw [this]

/-- the basis functions of degrees `da`, written with the larger degrees `maxDegrees da db` -/
theorem nonneg_raise {da db : List ℕ} (hl : db.length = da.length) {n : ℕ} :
    NonnegNet (maxDegrees da db) (fun t : List K => pw (bernFns da t) (unflat da n)) := by
  have h := (nonneg_basis (K := K) da (n := n)).mul (NonnegNet.const (List.zipWith (fun p q => q - p) da db) zero_le_one) (by simp [hl])
  have e : sumDegrees da (List.zipWith (fun p q => q - p) da db) = maxDegrees da db := by
    apply List.ext_getElem
    · simp [sumDegrees, maxDegrees]
    · intro i h3 h4
      simp only [sumDegrees, maxDegrees, List.getElem_zipWith]
      omega
  rw [e] at h
  exact h.congr fun t _ => mul_one _

/-- a spline that traces the function of `a` with the degrees `maxDegrees da db` keeps its control points in every convex set -/
theorem raise_hull {a r : Spline V} {da db : List ℕ} {f g : List K → V} (ha : a.Computes da f) (hl : db.length = da.length)
    (hr : r.Computes (maxDegrees da db) g) (hg : ∀ t : List K, t.length = da.length → g t = f t) {C : Set V} (hC : Convex K C)
    (hc : ∀ x ∈ a.cps, x ∈ C) : ∀ x ∈ r.cps, x ∈ C := by
  have hlm : (maxDegrees da db).length = da.length := by simp [maxDegrees, hl]
  refine NonnegNet.hull (K := K) (N := size da) (fun n _ => nonneg_raise hl) (fun t ht => sum_pw_bern (by rw [ht, hlm])) hC
    (fun n hn => hc _ (Spline.getD_mem ha.wf (by rw [ha.degrees_eq]; exact hn))) hr fun t ht => ?_
  rw [hlm] at ht
  rw [hg t ht]
  exact ha.sum_pw ht

def zeroSpline (V : Type) [Zero V] (ds : List ℕ) : Spline V := ⟨ds, size ds, offsetsOf ds, List.replicate (size ds) 0⟩

theorem zeroSpline_computes {ds : List ℕ} (h : 0 < ds.length) : (zeroSpline V ds).Computes ds (fun _ : List K => (0 : V)) := by
  refine Spline.Computes.mk' ⟨h, rfl, rfl, by simp [zeroSpline]⟩ rfl fun t ht => ?_
  rw [Spline.value_eq_neval]
  have : (fun n => (zeroSpline V ds).cps.getD n 0) = fun _ => (0 : V) := by
    funext n
    simp only [zeroSpline, List.getD_eq_getElem?_getD, List.getElem?_replicate]
    split <;> rfl
  rw [this]
  exact neval_const ht 0

/-- the spline of the pairs of control points -/
theorem exists_pair {U : Type} {s : Spline V} {s' : Spline U} (hs : s.WF) (hs' : s'.WF) (hd : s'.degrees = s.degrees) :
    ∃ Z : Spline (V × U), s = Z.map Prod.fst ∧ s' = Z.map Prod.snd ∧ Z.WF := by
  have hl : s.cps.length = s'.cps.length := by rw [hs.4, hs'.4, hd]
  refine ⟨⟨s.degrees, s.ncp, s.offsets, s.cps.zip s'.cps⟩, ?_, ?_, ⟨hs.1, hs.2, hs.3, ?_⟩⟩
  · simp only [Spline.map, List.map_fst_zip hl.le]
  · have e1 : s.ncp = s'.ncp := by rw [hs.2, hs'.2, hd]
    have e2 : s.offsets = s'.offsets := by rw [hs.3, hs'.3, hd]
    simp only [Spline.map, List.map_snd_zip hl.ge, ← hd, e1, e2]
  · simp [hs.4, hs'.4, hd]

omit [LinearOrder K] [IsStrictOrderedRing K] [AddCommGroup V] [Module K V] [AddCommGroup W] [Module K W] [AddCommGroup U] [Module K U] [Field K] in
theorem fits_swap {cfg : Cfg} {da db : List ℕ} (h : Fits cfg da db) : Fits cfg db da :=
  ⟨h.dims.symm, fun p hp => h.rounds p (by simpa [or_comm] using hp), h.rounds2, by
    have : maxDegrees db da = maxDegrees da db := Spline.maxDeg_comm db da
    rw [this]; exact h.small⟩

/-- the control points of a spline that traces a sum (or another combination) of two splines -/
theorem zip_hull {cfg : Cfg} {a b r : Spline V} {da db : List ℕ} {f g : List K → V} (ha : a.Computes da f) (hb : b.Computes db g)
    (h : Fits cfg da db) (op : V → V → V) (hop : ∃ φ ψ : V →ₗ[K] V, ∀ x y, op x y = φ x + ψ y)
    (hr : r.Computes (maxDegrees da db) (fun t => op (f t) (g t))) {C C' E : Set V} (hC : Convex K C) (hC' : Convex K C')
    (hc : ∀ x ∈ a.cps, x ∈ C) (hc' : ∀ x ∈ b.cps, x ∈ C') (hE : ∀ x ∈ C, ∀ y ∈ C', op x y ∈ E) : ∀ x ∈ r.cps, x ∈ E := by
  obtain ⟨φ, ψ, hop⟩ := hop
  have h' : Fits cfg db da := fits_swap h
  have hla : 0 < da.length := by rw [← ha.degrees_eq]; exact ha.wf.dim_pos
  have hlb : 0 < db.length := by rw [← hb.degrees_eq]; exact hb.wf.dim_pos
  obtain ⟨A, _, cA⟩ := C16_add cfg a (zeroSpline V db) da db f _ ha (zeroSpline_computes hlb) h
  obtain ⟨B, _, cB⟩ := C16_add cfg b (zeroSpline V da) db da g _ hb (zeroSpline_computes hla) h'
  have hA := raise_hull ha h.dims cA (fun t _ => add_zero _) hC hc
  have hB := raise_hull hb h'.dims cB (fun t _ => add_zero _) hC' hc'
  have hm : maxDegrees db da = maxDegrees da db := Spline.maxDeg_comm db da
  rw [hm] at cB
  have hlm : (maxDegrees da db).length = da.length := by simp [maxDegrees, h.dims]
  obtain ⟨Z, rfl, rfl, hZ⟩ := exists_pair cA.wf cB.wf (by rw [cA.degrees_eq, cB.degrees_eq])
  have hd : Z.degrees = maxDegrees da db := cA.degrees_eq
  have c1 := (hZ.computes (K := K)).affine (LinearMap.fst K V V).toAffineMap
  have c2 := (hZ.computes (K := K)).affine (LinearMap.snd K V V).toAffineMap
  have c3 := (hZ.computes (K := K)).affine (φ.comp (LinearMap.fst K V V) + ψ.comp (LinearMap.snd K V V)).toAffineMap
  rw [hd] at c1 c2 c3
  have e : r = Z.map (φ.comp (LinearMap.fst K V V) + ψ.comp (LinearMap.snd K V V)).toAffineMap := by
    refine hr.unique (c3.congr fun t ht => ?_)
    have e1 : (Z.value t).1 = f t + 0 := Except.ok.inj ((c1.eval t ht).symm.trans (cA.eval t ht))
    have e2 : (Z.value t).2 = g t + 0 := Except.ok.inj ((c2.eval t ht).symm.trans (cB.eval t ht))
    show φ (Z.value t).1 + ψ (Z.value t).2 = _
    rw [e1, e2, add_zero, add_zero, ← hop]
  rw [e]
  intro x hx
  obtain ⟨p, hp, rfl⟩ := List.mem_map.mp hx
  have := hE _ (hA p.1 (List.mem_map_of_mem hp)) _ (hB p.2 (List.mem_map_of_mem hp))
  rwa [hop] at this

/-- C73. The control points of `a + b` are sums of a point of `C` and a point of `C'`, for convex sets `C` and `C'` that contain the control
points of `a` and `b`. -/
theorem C73_add (cfg : Cfg) (a b : Spline V) (ha : a.WF) (hb : b.WF) (h : Fits cfg a.degrees b.degrees) (C C' : Set V) (hC : Convex K C)
    (hC' : Convex K C') (hc : ∀ x ∈ a.cps, x ∈ C) (hc' : ∀ x ∈ b.cps, x ∈ C') :
    ∃ r, Spline.addOp K cfg a b = .ok r ∧ Spline.addAssign K cfg a b = .ok r ∧ ∀ x ∈ r.cps, ∃ y ∈ C, ∃ z ∈ C', x = y + z := by
  obtain ⟨r, e, cr⟩ := C16_add cfg a b _ _ _ _ (ha.computes (K := K)) (hb.computes (K := K)) h
  obtain ⟨r', e', cr'⟩ := C17_add_assign cfg a b _ _ _ _ (ha.computes (K := K)) (hb.computes (K := K)) h
  obtain rfl := cr.unique cr'
  exact ⟨r, e, e', zip_hull ha.computes hb.computes h (· + ·) ⟨LinearMap.id, LinearMap.id, fun _ _ => rfl⟩ cr hC hC' hc hc'
    (E := {x | ∃ y ∈ C, ∃ z ∈ C', x = y + z}) fun x hx y hy => ⟨x, hx, y, hy, rfl⟩⟩

/-- C73. The control points of `a -= b` are differences of a point of `C` and a point of `C'`. -/
theorem C73_sub (cfg : Cfg) (a b : Spline V) (ha : a.WF) (hb : b.WF) (h : Fits cfg a.degrees b.degrees) (C C' : Set V) (hC : Convex K C)
    (hC' : Convex K C') (hc : ∀ x ∈ a.cps, x ∈ C) (hc' : ∀ x ∈ b.cps, x ∈ C') :
    ∃ r, Spline.subAssign K cfg a b = .ok r ∧ (∀ r', Spline.subOp K cfg a b = .ok r' → r' = r) ∧
      ∀ x ∈ r.cps, ∃ y ∈ C, ∃ z ∈ C', x = y - z := by
  obtain ⟨r, e, cr⟩ := C19_sub_assign cfg a b _ _ _ _ (ha.computes (K := K)) (hb.computes (K := K)) h
  refine ⟨r, e, fun r' e' => ?_, zip_hull ha.computes hb.computes h (· - ·) ⟨LinearMap.id, -LinearMap.id, fun x y => sub_eq_add_neg x y⟩ cr hC hC' hc hc'
    (E := {x | ∃ y ∈ C, ∃ z ∈ C', x = y - z}) fun x hx y hy => ⟨x, hx, y, hy, rfl⟩⟩
  by_cases hle : ∀ d p q : ℕ, a.degrees[d]? = some p → b.degrees[d]? = some q → q ≤ p
  · obtain ⟨r'', e'', cr''⟩ := C18_sub_partial cfg a b _ _ _ _ (ha.computes (K := K)) (hb.computes (K := K)) h hle
    rw [e'] at e''
    obtain rfl := Except.ok.inj e''
    exact cr''.unique cr
  · push_neg at hle
    obtain ⟨d, p, q, h1, h2, h3⟩ := hle
    exact absurd e' (C18_sub_never_returns (K := K) cfg a b d p q h1 h2 h3 r')

omit [LinearOrder K] [IsStrictOrderedRing K] [AddCommGroup V] [Module K V] [AddCommGroup W] [Module K W] [AddCommGroup U] [Module K U] [Field K] in
theorem sum_range_pairs {A : Type} [AddCommMonoid A] (m : ℕ) (F : ℕ → A) :
    ∀ n, ∑ k ∈ range (n * m), F k = ∑ i ∈ range n, ∑ j ∈ range m, F (i * m + j)
  | 0 => by simp
  | n + 1 => by rw [Nat.succ_mul, Finset.sum_range_add, sum_range_pairs m F n, Finset.sum_range_succ]

/-- the control points of a spline that traces a product -/
theorem product_hull {a : Spline V} {b : Spline W} {r : Spline U} {da db : List ℕ} {f : List K → V} {g : List K → W} (ha : a.Computes da f)
    (hb : b.Computes db g) (hl : db.length = da.length) (B : V →ₗ[K] W →ₗ[K] U)
    (hr : r.Computes (sumDegrees da db) (fun t => B (f t) (g t))) {C : Set V} {C' : Set W} {E : Set U} (hE : Convex K E)
    (hc : ∀ x ∈ a.cps, x ∈ C) (hc' : ∀ x ∈ b.cps, x ∈ C') (h : ∀ x ∈ C, ∀ y ∈ C', B x y ∈ E) : ∀ x ∈ r.cps, x ∈ E := by
  have hls : (sumDegrees da db).length = da.length := by simp [sumDegrees, hl]
  have hp : 0 < size db := size_pos _
  have dm : ∀ i j, j < size db → (i * size db + j) / size db = i ∧ (i * size db + j) % size db = j := by
    intro i j hj
    rw [mul_comm]
    exact ⟨by rw [Nat.mul_add_div hp, Nat.div_eq_of_lt hj, add_zero], by rw [Nat.mul_add_mod, Nat.mod_eq_of_lt hj]⟩
  refine NonnegNet.hull (K := K) (N := size da * size db)
    (w := fun k t => pw (bernFns da t) (unflat da (k / size db)) * pw (bernFns db t) (unflat db (k % size db)))
    (fun n _ => (nonneg_basis da).mul (nonneg_basis db) hl) (fun t ht => ?_) hE
    (c := fun k => B (a.cps.getD (k / size db) 0) (b.cps.getD (k % size db) 0)) (fun k hk => ?_) hr fun t ht => ?_
  · rw [hls] at ht
    rw [sum_range_pairs]
    have : ∀ i ∈ range (size da), ∑ j ∈ range (size db), pw (bernFns da t) (unflat da ((i * size db + j) / size db)) *
        pw (bernFns db t) (unflat db ((i * size db + j) % size db)) = pw (bernFns da t) (unflat da i) := by
      intro i _
      rw [Finset.sum_congr rfl fun j hj => by rw [(dm i j (Finset.mem_range.mp hj)).1, (dm i j (Finset.mem_range.mp hj)).2], ← Finset.mul_sum,
        sum_pw_bern (by rw [ht, hl]), mul_one]
    rw [Finset.sum_congr rfl this]
    exact sum_pw_bern ht
  · refine h _ (hc _ (Spline.getD_mem ha.wf ?_)) _ (hc' _ (Spline.getD_mem hb.wf ?_))
    · rw [ha.degrees_eq]; exact Nat.div_lt_of_lt_mul (by rw [mul_comm]; exact hk)
    · rw [hb.degrees_eq]; exact Nat.mod_lt _ hp
  · rw [hls] at ht
    rw [sum_range_pairs, ha.sum_pw ht, hb.sum_pw (by rw [ht, hl])]
    simp only [map_sum, LinearMap.sum_apply, map_smul, LinearMap.smul_apply]
    rw [Finset.sum_comm]
    conv_rhs => rw [Finset.sum_comm]
    rw [Finset.sum_comm]
    refine Finset.sum_congr rfl fun j hj => ?_
    rw [Finset.smul_sum]
    refine Finset.sum_congr rfl fun i _ => ?_
    rw [(dm i j (Finset.mem_range.mp hj)).1, (dm i j (Finset.mem_range.mp hj)).2, smul_smul, mul_comm]

/-- C73. The control points of `a * b` lie in every convex set that contains the products of the points of `C` and `C'`, if these contain the
control points of the factors. -/
theorem C73_mul (cfg : Cfg) (hmax : cfg.maxBinom ≤ 68) (mul : V → W → U) (B : V →ₗ[K] W →ₗ[K] U) (hB : ∀ x y, mul x y = B x y)
    (a : Spline V) (b : Spline W) (ha : a.WF) (hb : b.WF) (hdim : b.dim = a.dim) (hdeg : ∀ p ∈ sumDegrees a.degrees b.degrees, p < cfg.maxBinom)
    (C : Set V) (C' : Set W) (E : Set U) (hE : Convex K E) (hc : ∀ x ∈ a.cps, x ∈ C) (hc' : ∀ x ∈ b.cps, x ∈ C')
    (h : ∀ x ∈ C, ∀ y ∈ C', mul x y ∈ E) : ∃ r, Spline.mulOp K cfg mul a b = .ok r ∧ ∀ x ∈ r.cps, x ∈ E := by
  obtain ⟨r, e, cr⟩ := C21_mul cfg hmax mul B hB a b _ _ _ _ (ha.computes (K := K)) (hb.computes (K := K)) hdim hdeg
  exact ⟨r, e, product_hull ha.computes hb.computes hdim B (cr.congr fun t _ => hB _ _) hE hc hc' fun x hx y hy => by rw [← hB]; exact h x hx y hy⟩

/-! ## Concrete cases -/

theorem A_range : ∀ x ∈ Ex.A.cps, x ∈ Set.Icc (-3 : ℚ) 6 := by
  have : ∀ x ∈ Ex.A.cps, -3 ≤ x ∧ x ≤ 6 := by decide +kernel
  exact this
theorem B_range : ∀ x ∈ Ex.B.cps, x ∈ Set.Icc (-1 : ℚ) 5 := by
  have : ∀ x ∈ Ex.B.cps, -1 ≤ x ∧ x ≤ 5 := by decide +kernel
  exact this

example := C73_add (K := ℚ) Ex.cfg Ex.A Ex.B Ex.A_wf Ex.B_wf fits_AB _ _ (convex_Icc (-3 : ℚ) 6) (convex_Icc (-1 : ℚ) 5) A_range B_range
example := C73_sub (K := ℚ) Ex.cfg Ex.A Ex.B Ex.A_wf Ex.B_wf fits_AB _ _ (convex_Icc (-3 : ℚ) 6) (convex_Icc (-1 : ℚ) 5) A_range B_range
example := C73_mul (K := ℚ) Ex.cfg Ex.cfg_ok (fun x y : ℚ => x * y) (LinearMap.mul ℚ ℚ) (fun _ _ => rfl) Ex.A Ex.B Ex.A_wf Ex.B_wf rfl (by decide)
  _ _ _ (convex_Icc (-15 : ℚ) 30) A_range B_range (by
    rintro x ⟨h1, h2⟩ y ⟨h3, h4⟩
    constructor <;> nlinarith)

end Bezman.Props
