import Verif.Proofs.Expr
import Verif.Proofs.PderivLaws
import Verif.Props.Hull

/-! # Properties: laws between operations, as equalities of spline objects -/

namespace Bezman.Props
open Spec

/-! ## C71 -/

section
variable {K V : Type} [Field K] [CharZero K] [AddCommGroup V] [Module K V]

/-- C71. `RaisePower(m) * RaisePower(n) = RaisePower(m + n)`. -/
theorem C71_power_add (cfg : Cfg) (hmax : cfg.maxBinom ≤ 68) (a : Spline K) (ds : List ℕ) (f : List K → K)
    (ha : a.Computes ds f) (m n : ℕ) (hdeg : ∀ p ∈ ds, (m + n) * p < cfg.maxBinom) :
    ∃ x y r, Spline.raisePower cfg a m = .ok x ∧ Spline.raisePower cfg a n = .ok y ∧
      Spline.mulScalar cfg x y = .ok r ∧ Spline.raisePower cfg a (m + n) = .ok r := by
  have e : sumDegrees (ds.map (fun p => m * p)) (ds.map (fun p => n * p)) = ds.map (fun p => (m + n) * p) := by
    apply List.ext_getElem
    · simp [sumDegrees]
    · intro i h1 h2; simp [sumDegrees, add_mul]
  have le1 : ∀ p, m * p ≤ (m + n) * p := fun p => Nat.mul_le_mul_right _ (Nat.le_add_right _ _)
  have le2 : ∀ p, n * p ≤ (m + n) * p := fun p => Nat.mul_le_mul_right _ (Nat.le_add_left _ _)
  obtain ⟨x, e1, h1⟩ := C22_raise_power cfg hmax a ds f ha m (fun p hp => (le1 p).trans_lt (hdeg p hp))
  obtain ⟨y, e2, h2⟩ := C22_raise_power cfg hmax a ds f ha n (fun p hp => (le2 p).trans_lt (hdeg p hp))
  obtain ⟨r, e3, h3⟩ := C21_mul_scalar cfg hmax x y _ _ _ _ h1 h2 (by simp) (by rw [e]; simpa using hdeg)
  obtain ⟨r', e4, h4⟩ := C22_raise_power cfg hmax a ds f ha (m + n) hdeg
  rw [e] at h3
  rw [h4.unique (h3.congr fun t _ => (pow_add _ _ _).symm)] at e4
  exact ⟨x, y, r, e1, e2, e3, e4⟩

/-- C71. `RaisePower(m)` of `RaisePower(n)` is `RaisePower(m n)`. -/
theorem C71_power_power (cfg : Cfg) (hmax : cfg.maxBinom ≤ 68) (a : Spline K) (ds : List ℕ) (f : List K → K)
    (ha : a.Computes ds f) (m n : ℕ) (hdeg : ∀ p ∈ ds, n * p < cfg.maxBinom) (hdeg' : ∀ p ∈ ds, m * n * p < cfg.maxBinom) :
    ∃ x r, Spline.raisePower cfg a n = .ok x ∧ Spline.raisePower cfg x m = .ok r ∧
      Spline.raisePower cfg a (m * n) = .ok r := by
  obtain ⟨x, e1, h1⟩ := C22_raise_power cfg hmax a ds f ha n hdeg
  obtain ⟨r, e2, h2⟩ := C22_raise_power cfg hmax x _ _ h1 m (by
    intro p hp
    obtain ⟨q, hq, rfl⟩ := List.mem_map.mp hp
    rw [← mul_assoc]; exact hdeg' q hq)
  obtain ⟨r', e3, h3⟩ := C22_raise_power cfg hmax a ds f ha (m * n) hdeg'
  have e : (ds.map (fun p => n * p)).map (fun p => m * p) = ds.map (fun p => m * n * p) := by
    simp [Function.comp_def, mul_assoc]
  rw [e] at h2
  rw [h3.unique (h2.congr fun t _ => by rw [← pow_mul, mul_comm])] at e3
  exact ⟨x, r, e1, e2, e3⟩

end

section
variable {K V W : Type} [Field K] [LinearOrder K] [IsStrictOrderedRing K] [AddCommGroup V] [Module K V]
  [AddCommGroup W] [Module K W] [Coords K W] [LawfulCoords K W]

omit [AddCommGroup W] [Module K W] [Coords K W] [LawfulCoords K W] in
/-- C71. Splitting a product gives the products of the parts. -/
theorem C71_split_mul (cfg : Cfg) (hmax : cfg.maxBinom ≤ 68) (a : Spline K) (b : Spline V) (da db : List ℕ) (f : List K → K)
    (g : List K → V) (ha : a.Computes da f) (hb : b.Computes db g) (hdim : db.length = da.length)
    (hdeg : ∀ p ∈ sumDegrees da db, p < cfg.maxBinom) (d : ℕ) (hd : d < da.length) (z : K) (h0 : 0 < z) (h1 : z < 1) :
    ∃ ab a₁ a₂ b₁ b₂ r₁ r₂, Spline.mulOp K cfg (fun (c : K) (x : V) => c • x) a b = .ok ab ∧ a.splitAt z d = .ok (a₁, a₂) ∧
      b.splitAt z d = .ok (b₁, b₂) ∧ Spline.mulOp K cfg (fun (c : K) (x : V) => c • x) a₁ b₁ = .ok r₁ ∧
      Spline.mulOp K cfg (fun (c : K) (x : V) => c • x) a₂ b₂ = .ok r₂ ∧ ab.splitAt z d = .ok (r₁, r₂) := by
  obtain ⟨ab, e1, h2⟩ := C21_mul_scalar_point cfg hmax a b da db f g ha hb hdim hdeg
  obtain ⟨a₁, a₂, e2, ha₁, ha₂⟩ := C31_split a da f ha d hd z h0 h1
  obtain ⟨b₁, b₂, e3, hb₁, hb₂⟩ := C31_split b db g hb d (by omega) z h0 h1
  obtain ⟨r₁, e4, hr₁⟩ := C21_mul_scalar_point cfg hmax a₁ b₁ da db _ _ ha₁ hb₁ hdim hdeg
  obtain ⟨r₂, e5, hr₂⟩ := C21_mul_scalar_point cfg hmax a₂ b₂ da db _ _ ha₂ hb₂ hdim hdeg
  obtain ⟨s₁, s₂, e6, hs₁, hs₂⟩ := C31_split ab _ _ h2 d (by simp [sumDegrees]; omega) z h0 h1
  rw [hs₁.unique hr₁, hs₂.unique hr₂] at e6
  exact ⟨ab, a₁, a₂, b₁, b₂, r₁, r₂, e1, e2, e3, e4, e5, e6⟩

omit [AddCommGroup W] [Module K W] [Coords K W] [LawfulCoords K W] in
/-- C71. Splitting a sum gives the sums of the parts. -/
theorem C71_split_add (cfg : Cfg) (a b : Spline V) (da db : List ℕ) (f g : List K → V) (ha : a.Computes da f)
    (hb : b.Computes db g) (hf : Fits cfg da db) (d : ℕ) (hd : d < da.length) (z : K) (h0 : 0 < z) (h1 : z < 1) :
    ∃ ab a₁ a₂ b₁ b₂ r₁ r₂, Spline.addOp K cfg a b = .ok ab ∧ a.splitAt z d = .ok (a₁, a₂) ∧
      b.splitAt z d = .ok (b₁, b₂) ∧ Spline.addOp K cfg a₁ b₁ = .ok r₁ ∧ Spline.addOp K cfg a₂ b₂ = .ok r₂ ∧
      ab.splitAt z d = .ok (r₁, r₂) := by
  have hdim := hf.dims
  obtain ⟨ab, e1, h2⟩ := C16_add cfg a b da db f g ha hb hf
  obtain ⟨a₁, a₂, e2, ha₁, ha₂⟩ := C31_split a da f ha d hd z h0 h1
  obtain ⟨b₁, b₂, e3, hb₁, hb₂⟩ := C31_split b db g hb d (by omega) z h0 h1
  obtain ⟨r₁, e4, hr₁⟩ := C16_add cfg a₁ b₁ da db _ _ ha₁ hb₁ hf
  obtain ⟨r₂, e5, hr₂⟩ := C16_add cfg a₂ b₂ da db _ _ ha₂ hb₂ hf
  obtain ⟨s₁, s₂, e6, hs₁, hs₂⟩ := C31_split ab _ _ h2 d (by simp [maxDegrees]; omega) z h0 h1
  rw [hs₁.unique hr₁, hs₂.unique hr₂] at e6
  exact ⟨ab, a₁, a₂, b₁, b₂, r₁, r₂, e1, e2, e3, e4, e5, e6⟩

/-- C71. `(a * b).Compose(c) = a.Compose(c) * b.Compose(c)`. -/
theorem C71_compose_mul (cfg : Cfg) (hmax : cfg.maxBinom ≤ 68) (a : Spline K) (b : Spline V) (c : Spline W) (da db dc : List ℕ)
    (f : List K → K) (g : List K → V) (h : List K → W) (ha : a.Computes da f) (hb : b.Computes db g) (hc : c.Computes dc h)
    (hda : da.length = Coords.n K W) (hdb : db.length = Coords.n K W) (hcube : Spline.fitsIntoUnitCube K c = .ok true)
    (hdeg : ∀ p ∈ sumDegrees da db, p < cfg.maxBinom) (hdeg' : ∀ q ∈ dc, (da.sum + db.sum) * q < cfg.maxBinom) :
    ∃ ab ac bc r, Spline.mulOp K cfg (fun (c : K) (x : V) => c • x) a b = .ok ab ∧ Spline.compose K cfg a c = .ok ac ∧
      Spline.compose K cfg b c = .ok bc ∧ Spline.mulOp K cfg (fun (c : K) (x : V) => c • x) ac bc = .ok r ∧
      Spline.compose K cfg ab c = .ok r := by
  have hsum : ∀ (x y : List ℕ), x.length = y.length → (sumDegrees x y).sum = x.sum + y.sum := by
    intro x
    induction x with
    | nil => intro y h; cases y <;> simp_all [sumDegrees]
    | cons p x ih =>
      intro y h
      cases y with
      | nil => simp at h
      | cons q y =>
        have := ih y (by simpa using h)
        simp only [sumDegrees, List.zipWith_cons_cons, List.sum_cons] at this ⊢
        omega
  have hpa : ∀ p ∈ da, p < cfg.maxBinom := by
    intro p hp
    obtain ⟨i, hi, rfl⟩ := List.mem_iff_getElem.mp hp
    have := hdeg ((sumDegrees da db)[i]'(by simp [sumDegrees]; omega)) (List.getElem_mem _)
    simp only [sumDegrees, List.getElem_zipWith] at this
    omega
  have hpb : ∀ p ∈ db, p < cfg.maxBinom := by
    intro p hp
    obtain ⟨i, hi, rfl⟩ := List.mem_iff_getElem.mp hp
    have := hdeg ((sumDegrees da db)[i]'(by simp [sumDegrees]; omega)) (List.getElem_mem _)
    simp only [sumDegrees, List.getElem_zipWith] at this
    omega
  obtain ⟨ab, e1, h1⟩ := C21_mul_scalar_point cfg hmax a b da db f g ha hb (by omega) hdeg
  obtain ⟨ac, e2, h2⟩ := C26_compose (K := K) cfg hmax a c da dc f h ha hc hda hcube hpa
    (fun q hq => (Nat.mul_le_mul_right _ (Nat.le_add_right _ _)).trans_lt (hdeg' q hq))
  obtain ⟨bc, e3, h3⟩ := C26_compose (K := K) cfg hmax b c db dc g h hb hc hdb hcube hpb
    (fun q hq => (Nat.mul_le_mul_right _ (Nat.le_add_left _ _)).trans_lt (hdeg' q hq))
  have e : sumDegrees (dc.map (fun q => da.sum * q)) (dc.map (fun q => db.sum * q)) =
      dc.map (fun q => (da.sum + db.sum) * q) := by
    apply List.ext_getElem
    · simp [sumDegrees]
    · intro i h1 h2; simp [sumDegrees, add_mul]
  obtain ⟨r, e4, h4⟩ := C21_mul_scalar_point cfg hmax ac bc _ _ _ _ h2 h3 (by simp) (by rw [e]; simpa using hdeg')
  obtain ⟨r', e5, h5⟩ := C26_compose (K := K) cfg hmax ab c _ dc _ h h1 hc (by simp [sumDegrees]; omega) hcube hdeg
    (by rw [hsum da db (by omega)]; exact hdeg')
  rw [hsum da db (by omega)] at h5
  rw [e] at h4
  rw [h5.unique h4] at e5
  exact ⟨ab, ac, bc, r, e1, e2, e3, e4, e5⟩

/-- C71. Composition is associative. The inner composition of the right-hand side passes the check on the unit cube. -/
theorem C71_compose_assoc {U : Type} [AddCommGroup U] [Module K U] [Coords K U] [LawfulCoords K U] (cfg : Cfg)
    (hmax : cfg.maxBinom ≤ 68) (a : Spline V) (b : Spline W) (c : Spline U) (da db dc : List ℕ)
    (f : List K → V) (g : List K → W) (h : List K → U) (ha : a.Computes da f) (hb : b.Computes db g) (hc : c.Computes dc h)
    (hda : da.length = Coords.n K W) (hdb : db.length = Coords.n K U) (hb' : Spline.fitsIntoUnitCube K b = .ok true)
    (hc' : Spline.fitsIntoUnitCube K c = .ok true)
    (hpa : ∀ p ∈ da, p < cfg.maxBinom) (hpb : ∀ p ∈ db, da.sum * p < cfg.maxBinom) (hpb' : ∀ p ∈ db, p < cfg.maxBinom)
    (hdeg : ∀ q ∈ dc, da.sum * (db.sum * q) < cfg.maxBinom) (hdeg' : ∀ q ∈ dc, db.sum * q < cfg.maxBinom) :
    ∃ ab bc r, Spline.compose K cfg a b = .ok ab ∧ Spline.compose K cfg b c = .ok bc ∧
      Spline.compose K cfg ab c = .ok r ∧ Spline.compose K cfg a bc = .ok r := by
  obtain ⟨ab, e1, h1⟩ := C26_compose (K := K) cfg hmax a b da db f g ha hb hda hb' hpa hpb
  obtain ⟨bc, e2, h2⟩ := C26_compose (K := K) cfg hmax b c db dc g h hb hc hdb hc' hpb' hdeg'
  obtain ⟨bc', e2', hbc'⟩ := C73_compose_fits (K := K) cfg hmax b c hb.wf hc.wf (by rw [hb.dim_eq]; exact hdb) hb' hc'
    (by rw [hb.degrees_eq]; exact hpb') (by rw [hb.degrees_eq, hc.degrees_eq]; exact hdeg')
  obtain rfl := Except.ok.inj (e2.symm.trans e2')
  have hsum : (db.map (fun q => da.sum * q)).sum = da.sum * db.sum := by
    rw [List.sum_map_mul_left, List.map_id']
  obtain ⟨r, e3, h3⟩ := C26_compose (K := K) cfg hmax ab c _ dc _ h h1 hc (by simpa using hdb) hc'
    (by simpa using hpb) (by rw [hsum]; simpa [mul_assoc] using hdeg)
  obtain ⟨r', e4, h4⟩ := C26_compose (K := K) cfg hmax a bc da _ f _ ha h2 hda hbc' hpa (by simpa using hdeg)
  have e : (dc.map (fun q => db.sum * q)).map (fun q => da.sum * q) = dc.map (fun q => (db.map (fun q => da.sum * q)).sum * q) := by
    rw [hsum]
    simp [Function.comp_def, mul_assoc]
  rw [e] at h4
  rw [h4.unique h3] at e4
  exact ⟨ab, bc, r, e1, e2, e3, e4⟩

end

section
variable {V : Type} [NormedAddCommGroup V] [NormedSpace ℝ V]

/-- C71. Derivative of a sum. -/
theorem C71_derivative_add (cfg : Cfg) (hmax : cfg.maxBinom ≤ 68) (a b : Spline V) (da db : List ℕ) (f g : List ℝ → V)
    (ha : a.Computes da f) (hb : b.Computes db g) (h : Fits cfg da db) (k : List ℕ) (hk : k.length = da.length)
    (hka : ∀ (d o p : ℕ), k[d]? = some o → da[d]? = some p → o ≤ p)
    (hkb : ∀ (d o p : ℕ), k[d]? = some o → db[d]? = some p → o ≤ p) (hord : ∀ o ∈ k, o < cfg.maxBinom) :
    ∃ ab xa xb r, Spline.addOp ℝ cfg a b = .ok ab ∧ Spline.derivativeSpline ℝ cfg a k = .ok xa ∧
      Spline.derivativeSpline ℝ cfg b k = .ok xb ∧ Spline.addOp ℝ cfg xa xb = .ok r ∧
      Spline.derivativeSpline ℝ cfg ab k = .ok r := by
  have hl := h.dims
  have hlm := maxDegrees_length hl
  have small : ∀ x, ValidIdx (maxDegrees da db) x → size x < 2 ^ 31 := fun x hx =>
    (size_le_of_valid hx).trans_lt h.small
  have va : ValidIdx (maxDegrees da db) da := by
    refine List.forall₂_iff_get.mpr ⟨by simp [maxDegrees, hl], fun i h1 h2 => ?_⟩
    simp [maxDegrees]
  have vb : ValidIdx (maxDegrees da db) db := by
    refine List.forall₂_iff_get.mpr ⟨by simp [maxDegrees, hl], fun i h1 h2 => ?_⟩
    simp [maxDegrees]
  have e : maxDegrees (List.zipWith (· - ·) da k) (List.zipWith (· - ·) db k) = List.zipWith (· - ·) (maxDegrees da db) k := by
    apply List.ext_getElem
    · simp [maxDegrees]
    · intro i h1 h2; simp only [maxDegrees, List.getElem_zipWith]; omega
  have v3 : ValidIdx (maxDegrees da db) (List.zipWith (· - ·) (maxDegrees da db) k) := by
    refine List.forall₂_iff_get.mpr ⟨by simp [hlm, hk], fun i h1 h2 => ?_⟩
    simp
  obtain ⟨ab, e1, h1⟩ := C16_add cfg a b da db f g ha hb h
  obtain ⟨xa, e2, h2⟩ := C13_derivative_spline (𝕜 := ℝ) cfg hmax a da f ha k hk hka hord ((small _ va).trans (by norm_num))
  obtain ⟨xb, e3, h3⟩ := C13_derivative_spline (𝕜 := ℝ) cfg hmax b db g hb k (by omega) hkb hord ((small _ vb).trans (by norm_num))
  obtain ⟨r, e4, h4⟩ := C16_add cfg xa xb _ _ _ _ h2 h3 ⟨by simp; omega, by
      intro p hp
      rcases List.mem_append.mp hp with hp | hp <;> obtain ⟨i, hi, rfl⟩ := List.mem_iff_getElem.mp hp <;>
        simp only [List.getElem_zipWith]
      · exact (Nat.sub_le _ _).trans_lt (h.rounds _ (List.mem_append_left _ (List.getElem_mem _)))
      · exact (Nat.sub_le _ _).trans_lt (h.rounds _ (List.mem_append_right _ (List.getElem_mem _))), h.rounds2, by
      rw [e]; exact small _ v3⟩
  obtain ⟨r', e5, h5⟩ := C13_derivative_spline (𝕜 := ℝ) cfg hmax ab _ _ h1 k (by omega) (by
      intro d o p h6 h7
      obtain ⟨i1, i2⟩ := List.getElem?_eq_some_iff.mp h7
      simp only [maxDegrees, List.getElem_zipWith] at i2
      have i3 : d < da.length := by rw [hlm] at i1; exact i1
      have := hka d o _ h6 (List.getElem?_eq_getElem i3)
      omega) hord (h.small.trans (by norm_num))
  rw [e] at h4
  rw [h5.unique (h4.congr fun t ht => ?_)] at e5
  · exact ⟨ab, xa, xb, r, e1, e2, e3, e4, e5⟩
  · have ht' : t.length = da.length := by simpa [hlm, hk] using ht
    exact (ha.pderiv_add hb hl hlm h1 hk ht').symm

/-- C71. Product rule: `(a b)' = a' b + a b'` for the first derivative in direction `d`. -/
theorem C71_product_rule (cfg : Cfg) (hmax : cfg.maxBinom ≤ 68) (a : Spline ℝ) (b : Spline V) (da db : List ℕ) (f : List ℝ → ℝ)
    (g : List ℝ → V) (ha : a.Computes da f) (hb : b.Computes db g) (hl : db.length = da.length)
    (hdeg : ∀ p ∈ sumDegrees da db, p < cfg.maxBinom) (hfuel : ∀ p ∈ sumDegrees da db, p < cfg.fuel) (hfuel2 : 2 ≤ cfg.fuel)
    (hsize : size (sumDegrees da db) < 2 ^ 31) (d p q : ℕ) (hp : da[d]? = some (p + 1)) (hq : db[d]? = some (q + 1))
    (k : List ℕ) (hk : k = (List.replicate da.length 0).set d 1) :
    ∃ ab xa xb y z r, Spline.mulOp ℝ cfg (fun (c : ℝ) (x : V) => c • x) a b = .ok ab ∧
      Spline.derivativeSpline ℝ cfg a k = .ok xa ∧ Spline.derivativeSpline ℝ cfg b k = .ok xb ∧
      Spline.mulOp ℝ cfg (fun (c : ℝ) (x : V) => c • x) xa b = .ok y ∧
      Spline.mulOp ℝ cfg (fun (c : ℝ) (x : V) => c • x) a xb = .ok z ∧
      Spline.addOp ℝ cfg y z = .ok r ∧ Spline.derivativeSpline ℝ cfg ab k = .ok r := by
  obtain ⟨hd, hpe⟩ := List.getElem?_eq_some_iff.mp hp
  obtain ⟨hd', hqe⟩ := List.getElem?_eq_some_iff.mp hq
  have hkl : k.length = da.length := by simp [hk]
  have hki : ∀ i (h : i < k.length), k[i] = if d = i then 1 else 0 := by
    intro i h
    subst hk
    rw [List.getElem_set]; simp
  have hka : ∀ i (h : i < da.length) (h' : i < k.length), k[i] ≤ da[i] := by
    intro i h h'
    rw [hki]; split
    · next e => subst e; omega
    · omega
  have hkb : ∀ i (h : i < db.length) (h' : i < k.length), k[i] ≤ db[i] := by
    intro i h h'
    rw [hki]; split
    · next e => subst e; omega
    · omega
  have toOpt : ∀ (l : List ℕ), (∀ i (h : i < l.length) (h' : i < k.length), k[i] ≤ l[i]) →
      ∀ (d o p : ℕ), k[d]? = some o → l[d]? = some p → o ≤ p := by
    intro l hle i o p h1 h2
    obtain ⟨i1, rfl⟩ := List.getElem?_eq_some_iff.mp h1
    obtain ⟨i2, rfl⟩ := List.getElem?_eq_some_iff.mp h2
    exact hle i i2 i1
  have hmb : 1 < cfg.maxBinom := by
    have := hdeg ((sumDegrees da db)[d]'(by simp [sumDegrees]; omega)) (List.getElem_mem _)
    simp only [sumDegrees, List.getElem_zipWith, hpe, hqe] at this
    omega
  have hord : ∀ o ∈ k, o < cfg.maxBinom := by
    intro o ho
    obtain ⟨i, hi, rfl⟩ := List.mem_iff_getElem.mp ho
    rw [hki]; split <;> omega
  have sumle : ∀ (x y : List ℕ), x.length = da.length → y.length = da.length → (∀ i (h : i < x.length) (h' : i < da.length), x[i] ≤ da[i]) →
      (∀ i (h : i < y.length) (h' : i < db.length), y[i] ≤ db[i]) → ValidIdx (sumDegrees da db) (sumDegrees x y) := by
    intro x y hx hy h1 h2
    refine List.forall₂_iff_get.mpr ⟨by simp [sumDegrees, hx, hy, hl], fun i h3 h4 => ?_⟩
    simp only [sumDegrees, List.get_eq_getElem, List.getElem_zipWith]
    exact Nat.add_le_add (h1 _ _ _) (h2 _ _ _)
  have bound : ∀ (x : List ℕ), ValidIdx (sumDegrees da db) x → ∀ (P : ℕ → Prop), (∀ m n, m ≤ n → P n → P m) →
      (∀ p ∈ sumDegrees da db, P p) → ∀ p ∈ x, P p := by
    intro x hx P hP hall p hp
    obtain ⟨i, hi, rfl⟩ := List.mem_iff_getElem.mp hp
    have hlen := hx.length_eq
    exact hP _ _ (List.forall₂_iff_get.mp hx |>.2 i hi (by omega)) (hall _ (List.getElem_mem _))
  have mono : ∀ (c m n : ℕ), m ≤ n → n < c → m < c := fun c m n h1 h2 => h1.trans_lt h2
  let da' := List.zipWith (· - ·) da k
  let db' := List.zipWith (· - ·) db k
  have lda' : da'.length = da.length := by simp [da', hkl]
  have ldb' : db'.length = da.length := by simp [db', hkl, hl]
  have v1 : ValidIdx (sumDegrees da db) (sumDegrees da' db) :=
    sumle _ _ lda' hl (fun i h h' => by simp [da']) (fun i h h' => le_rfl)
  have v2 : ValidIdx (sumDegrees da db) (sumDegrees da db') :=
    sumle _ _ rfl ldb' (fun i h h' => le_rfl) (fun i h h' => by simp [db'])
  have e : maxDegrees (sumDegrees da' db) (sumDegrees da db') = List.zipWith (· - ·) (sumDegrees da db) k := by
    apply List.ext_getElem
    · simp [maxDegrees, sumDegrees, da', db', hl, hkl]
    · intro i h1 h2
      have h3 : i < da.length := by simp [sumDegrees] at h2; omega
      have := hka i h3 (by omega)
      have := hkb i (by omega) (by omega)
      simp only [maxDegrees, sumDegrees, List.getElem_zipWith, da', db']
      omega
  have v3 : ValidIdx (sumDegrees da db) (List.zipWith (· - ·) (sumDegrees da db) k) := by
    refine List.forall₂_iff_get.mpr ⟨by simp [sumDegrees, hl, hkl], fun i h1 h2 => ?_⟩
    simp
  have sz : ∀ (l : List ℕ), l.length = da.length → (∀ i (h : i < l.length) (h' : i < (sumDegrees da db).length), l[i] ≤ (sumDegrees da db)[i]) →
      size l < 2 ^ 64 := by
    intro l h1 h2
    refine ((size_le_of_valid ?_).trans_lt hsize).trans (by norm_num)
    exact List.forall₂_iff_get.mpr ⟨by simp [sumDegrees, h1, hl], fun i h3 h4 => h2 i h3 h4⟩
  obtain ⟨ab, e1, h1⟩ := C21_mul_scalar_point cfg hmax a b da db f g ha hb hl hdeg
  obtain ⟨xa, e2, h2⟩ := C13_derivative_spline (𝕜 := ℝ) cfg hmax a da f ha k hkl (toOpt _ hka) hord
    (sz da rfl (fun i h h' => by simp [sumDegrees]))
  obtain ⟨xb, e3, h3⟩ := C13_derivative_spline (𝕜 := ℝ) cfg hmax b db g hb k (by omega) (toOpt _ hkb) hord
    (sz db hl (fun i h h' => by simp [sumDegrees]))
  obtain ⟨y, e4, h4⟩ := C21_mul_scalar_point cfg hmax xa b _ _ _ _ h2 hb (by rw [hl]; exact lda'.symm) (bound _ v1 _ (mono _) hdeg)
  obtain ⟨z, e5, h5⟩ := C21_mul_scalar_point cfg hmax a xb _ _ _ _ ha h3 ldb' (bound _ v2 _ (mono _) hdeg)
  obtain ⟨r, e6, h6⟩ := C16_add cfg y z _ _ _ _ h4 h5 ⟨by simp [sumDegrees, hl, hkl], by
      intro p hp
      rcases List.mem_append.mp hp with hp | hp
      · exact bound _ v1 _ (mono _) hfuel p hp
      · exact bound _ v2 _ (mono _) hfuel p hp, hfuel2, by rw [e]; exact (size_le_of_valid v3).trans_lt hsize⟩
  have lsum : (sumDegrees da db).length = da.length := by simp [sumDegrees, hl]
  obtain ⟨r', e7, h7⟩ := C13_derivative_spline (𝕜 := ℝ) cfg hmax ab _ _ h1 k (by omega) (toOpt _ (by
      intro i h h'
      have := hka i (by omega) h'
      simp only [sumDegrees, List.getElem_zipWith]; omega)) hord (hsize.trans (by norm_num))
  rw [e] at h6
  rw [h7.unique (h6.congr fun t ht => ?_)] at e7
  · exact ⟨ab, xa, xb, y, z, r, e1, e2, e3, e4, e5, e6, e7⟩
  · have ht' : t.length = da.length := by simpa [lsum, hkl] using ht
    rw [hk]
    exact (ha.pderiv_smul hb hl lsum h1 hd ht').symm

/-- C71. Derivatives of derivatives: the orders add up, in any order of differentiation. -/
theorem C71_derivative_derivative (cfg : Cfg) (hmax : cfg.maxBinom ≤ 68) (s : Spline V) (ds : List ℕ) (f : List ℝ → V)
    (hs : s.Computes ds f) (k l : List ℕ) (hk : k.length = ds.length) (hl : l.length = ds.length)
    (hle : ∀ (d o o' p : ℕ), k[d]? = some o → l[d]? = some o' → ds[d]? = some p → o + o' ≤ p)
    (hord : ∀ o ∈ sumDegrees k l, o < cfg.maxBinom) (hsize : size ds < 2 ^ 64) :
    ∃ x r, Spline.derivativeSpline ℝ cfg s k = .ok x ∧ Spline.derivativeSpline ℝ cfg x l = .ok r ∧
      Spline.derivativeSpline ℝ cfg s (sumDegrees k l) = .ok r := by
  have hle' : ∀ i (h : i < ds.length), k[i]'(by omega) + l[i]'(by omega) ≤ ds[i] := fun i h =>
    hle i _ _ _ (List.getElem?_eq_getElem _) (List.getElem?_eq_getElem _) (List.getElem?_eq_getElem _)
  have hord' : ∀ i (h : i < ds.length), k[i]'(by omega) + l[i]'(by omega) < cfg.maxBinom := by
    intro i h
    have := hord ((sumDegrees k l)[i]'(by simp [sumDegrees]; omega)) (List.getElem_mem _)
    simpa [sumDegrees] using this
  obtain ⟨x, e1, h1⟩ := C13_derivative_spline (𝕜 := ℝ) cfg hmax s ds f hs k hk (by
      intro d o p h2 h3
      obtain ⟨i1, rfl⟩ := List.getElem?_eq_some_iff.mp h2
      obtain ⟨i2, rfl⟩ := List.getElem?_eq_some_iff.mp h3
      have := hle' d i2
      omega) (by
      intro o ho
      obtain ⟨i, hi, rfl⟩ := List.mem_iff_getElem.mp ho
      have := hord' i (by omega)
      omega) hsize
  have hx : (List.zipWith (· - ·) ds k).length = ds.length := by simp [hk]
  obtain ⟨r, e2, h2⟩ := C13_derivative_spline (𝕜 := ℝ) cfg hmax x _ _ h1 l (by omega) (by
      intro d o p h2 h3
      obtain ⟨i1, rfl⟩ := List.getElem?_eq_some_iff.mp h2
      obtain ⟨i2, rfl⟩ := List.getElem?_eq_some_iff.mp h3
      have := hle' d (by omega)
      simp only [List.getElem_zipWith]
      omega) (by
      intro o ho
      obtain ⟨i, hi, rfl⟩ := List.mem_iff_getElem.mp ho
      have := hord' i (by omega)
      omega) ((size_le_of_valid (ps := ds) (List.forall₂_iff_get.mpr ⟨hx, fun i h1 h2 => by simp⟩)).trans_lt hsize)
  have hkl : (sumDegrees k l).length = ds.length := by simp [sumDegrees]; omega
  obtain ⟨r', e3, h3⟩ := C13_derivative_spline (𝕜 := ℝ) cfg hmax s ds f hs (sumDegrees k l) hkl (by
      intro d o p h2 h3
      obtain ⟨i1, rfl⟩ := List.getElem?_eq_some_iff.mp h2
      obtain ⟨i2, rfl⟩ := List.getElem?_eq_some_iff.mp h3
      have := hle' d i2
      simpa [sumDegrees] using this) hord hsize
  have e : List.zipWith (· - ·) (List.zipWith (· - ·) ds k) l = List.zipWith (· - ·) ds (sumDegrees k l) := by
    apply List.ext_getElem
    · simp [sumDegrees]
    · intro i h1 h2; simp only [sumDegrees, List.getElem_zipWith]; omega
  rw [e] at h2
  rw [h3.unique (h2.congr fun t ht => ?_)] at e3
  · exact ⟨x, r, e1, e2, e3⟩
  · have ht' : t.length = ds.length := by simpa [hkl] using ht
    exact hs.pderiv_pderiv hk h1 hx hl ht'

/-- C71. Derivatives of the parts of a split are the parts of the derivative, scaled by the powers of the lengths of the
two parameter intervals. -/
theorem C71_derivative_split (cfg : Cfg) (hmax : cfg.maxBinom ≤ 68) (s : Spline V) (ds : List ℕ) (f : List ℝ → V)
    (hs : s.Computes ds f) (k : List ℕ) (hk : k.length = ds.length)
    (hle : ∀ (d o p : ℕ), k[d]? = some o → ds[d]? = some p → o ≤ p) (hord : ∀ o ∈ k, o < cfg.maxBinom) (hsize : size ds < 2 ^ 64)
    (d o : ℕ) (ho : k[d]? = some o) (z : ℝ) (h0 : 0 < z) (h1 : z < 1) :
    ∃ a b x xa xb y₁ y₂, s.splitAt z d = .ok (a, b) ∧ Spline.derivativeSpline ℝ cfg s k = .ok x ∧ x.splitAt z d = .ok (xa, xb) ∧
      xa.smulOp (z ^ o) = .ok y₁ ∧ xb.smulOp ((1 - z) ^ o) = .ok y₂ ∧
      Spline.derivativeSpline ℝ cfg a k = .ok y₁ ∧ Spline.derivativeSpline ℝ cfg b k = .ok y₂ := by
  obtain ⟨hd, hde⟩ := List.getElem?_eq_some_iff.mp ho
  have hlen : (List.zipWith (· - ·) ds k).length = ds.length := by simp [hk]
  have hg : k.getD d 0 = o := by rw [List.getD_eq_getElem?_getD, ho]; rfl
  obtain ⟨a, b, e1, ha, hb⟩ := C31_split (K := ℝ) s ds f hs d (by omega) z h0 h1
  obtain ⟨x, e2, hx⟩ := C13_derivative_spline (𝕜 := ℝ) cfg hmax s ds f hs k hk hle hord hsize
  obtain ⟨xa, xb, e3, hxa, hxb⟩ := C31_split (K := ℝ) x _ _ hx d (by omega) z h0 h1
  obtain ⟨y₁, e4, hy₁⟩ := C20_scale xa _ _ hxa (z ^ o)
  obtain ⟨y₂, e5, hy₂⟩ := C20_scale xb _ _ hxb ((1 - z) ^ o)
  obtain ⟨a', e6, ha'⟩ := C13_derivative_spline (𝕜 := ℝ) cfg hmax a ds _ ha k hk hle hord hsize
  obtain ⟨b', e7, hb'⟩ := C13_derivative_spline (𝕜 := ℝ) cfg hmax b ds _ hb k hk hle hord hsize
  have ha2 : a.Computes ds (fun t => f (t.modify d (fun x => 0 + z * x))) := by simpa using ha
  rw [ha'.unique (hy₁.congr fun t ht => ?_)] at e6
  · rw [hb'.unique (hy₂.congr fun t ht => ?_)] at e7
    · exact ⟨a, b, x, xa, xb, y₁, y₂, e1, e2, e3, e4, e5, e6, e7⟩
    · have := hs.pderiv_modify (by omega) z (1 - z) hb hk (t := t) (by omega)
      rw [hg] at this
      exact this.symm
  · have := hs.pderiv_modify (by omega) 0 z ha2 hk (t := t) (by omega)
    rw [hg] at this
    simpa using this.symm

end

/-! ### Examples -/

theorem ord_le {k ds : List ℕ} (h : k.length = ds.length) (hle : ∀ i (h' : i < k.length), k[i] ≤ ds[i]) (d o p : ℕ)
    (h1 : k[d]? = some o) (h2 : ds[d]? = some p) : o ≤ p := by
  obtain ⟨i1, rfl⟩ := List.getElem?_eq_some_iff.mp h1
  obtain ⟨i2, rfl⟩ := List.getElem?_eq_some_iff.mp h2
  exact hle d i1

example : ∃ x y r, Spline.raisePower Ex.cfg Ex.A 2 = .ok x ∧ Spline.raisePower Ex.cfg Ex.A 3 = .ok y ∧
    Spline.mulScalar Ex.cfg x y = .ok r ∧ Spline.raisePower Ex.cfg Ex.A 5 = .ok r :=
  C71_power_add Ex.cfg Ex.cfg_ok Ex.A _ _ Ex.A_wf.computes 2 3 (by decide)

example : ∃ x r, Spline.raisePower Ex.cfg Ex.A 3 = .ok x ∧ Spline.raisePower Ex.cfg x 2 = .ok r ∧
    Spline.raisePower Ex.cfg Ex.A 6 = .ok r :=
  C71_power_power Ex.cfg Ex.cfg_ok Ex.A _ _ Ex.A_wf.computes 2 3 (by decide) (by decide)

example := C71_split_mul (K := ℚ) Ex.cfg Ex.cfg_ok Ex.B Ex.P _ _ _ _ Ex.B_wf.computes Ex.P_wf.computes rfl (by decide) 0
  (by decide) (1 / 3) (by norm_num) (by norm_num)

example := C71_split_add (K := ℚ) Ex.cfg Ex.A Ex.B _ _ _ _ Ex.A_wf.computes Ex.B_wf.computes fits_AB 1 (by decide) (1 / 3)
  (by norm_num) (by norm_num)

example := C71_compose_mul (K := ℚ) Ex.cfg Ex.cfg_ok Ex.B Ex.P Q _ _ _ _ _ _ Ex.B_wf.computes Ex.P_wf.computes Q_wf.computes rfl rfl
  Q_fits (by decide) (by decide)

/-- three surfaces, degrees (1,2), (2,1) and (2,1) -/
example := C71_compose_assoc (K := ℚ) Ex.cfg Ex.cfg_ok Ex.B Q Q _ _ _ _ _ _ Ex.B_wf.computes Q_wf.computes Q_wf.computes rfl rfl Q_fits
  Q_fits (by decide) (by decide) (by decide) (by decide) (by decide)

/-- scalar surfaces over the reals, degrees (2,1) and (1,2) -/
noncomputable def AR : Spline ℝ := Ex.surf 1 2 (-3) 4 (1 / 2) 6
noncomputable def BR : Spline ℝ := Ex.surf' 0 1 0 2 5 (-1)
theorem AR_wf : AR.WF := Ex.surf_wf ..
theorem BR_wf : BR.WF := Ex.surf'_wf ..

example := C71_derivative_add Ex.cfg Ex.cfg_ok AR BR _ _ _ _ AR_wf.computes BR_wf.computes fits_AB [1, 1] rfl
  (ord_le rfl (by decide)) (ord_le rfl (by decide)) (by decide)

example := C71_product_rule Ex.cfg Ex.cfg_ok AR BR _ _ _ _ AR_wf.computes BR_wf.computes rfl (by decide) (by decide) (by decide)
  (by decide) 1 0 1 rfl rfl _ rfl

example := C71_derivative_derivative Ex.cfg Ex.cfg_ok AR _ _ AR_wf.computes [1, 0] [1, 1] rfl rfl (by
    intro d o o' p h1 h2 h3
    match d with
    | 0 => simp [AR, Ex.surf] at h1 h2 h3; omega
    | 1 => simp [AR, Ex.surf] at h1 h2 h3; omega
    | d + 2 => simp at h1) (by decide) (by decide)

example := C71_derivative_split Ex.cfg Ex.cfg_ok AR _ _ AR_wf.computes [2, 1] rfl (ord_le rfl (by decide)) (by decide) (by decide) 0 2 rfl
  (1 / 3) (by norm_num) (by norm_num)

/-! ## C72 -/

variable {n : ℕ}

/-- C72. Every program over spline operations whose calls meet their preconditions runs without error, and its result has the
degrees and the function that calculus assigns to the expression. -/
theorem C72_scalar (cfg : Cfg) (hmax : cfg.maxBinom ≤ 68) (σ : Vars ℝ n) (μ : Meaning n) (h : μ.Of σ) (e : SExpr ℝ n)
    (he : e.Admissible cfg σ μ) : ∃ r, e.run cfg σ = .ok r ∧ r.Computes (e.degrees μ) (e.denote μ) :=
  SExpr.run_ok hmax h e he

/-- C72 for point valued results. -/
theorem C72_point (cfg : Cfg) (hmax : cfg.maxBinom ≤ 68) (σ : Vars ℝ n) (μ : Meaning n) (h : μ.Of σ) (e : PExpr ℝ n)
    (he : e.Admissible cfg σ μ) : ∃ r, e.run cfg σ = .ok r ∧ r.Computes (e.degrees μ) (e.denote μ) :=
  PExpr.run_ok hmax h e he

/-- C72. Two programs that mean the same function and have results of the same degrees return the same spline, control point by
control point. -/
theorem C72_same_spline (cfg : Cfg) (hmax : cfg.maxBinom ≤ 68) (σ : Vars ℝ n) (μ : Meaning n) (h : μ.Of σ) (e e' : PExpr ℝ n)
    (he : e.Admissible cfg σ μ) (he' : e'.Admissible cfg σ μ) (hd : e'.degrees μ = e.degrees μ)
    (hf : ∀ t : List ℝ, t.length = (e.degrees μ).length → e'.denote μ t = e.denote μ t) : e'.run cfg σ = e.run cfg σ := by
  obtain ⟨r, e1, h1⟩ := C72_point cfg hmax σ μ h e he
  obtain ⟨r', e2, h2⟩ := C72_point cfg hmax σ μ h e' he'
  rw [hd] at h2
  rw [e1, e2, h2.unique (h1.congr fun t ht => (hf t ht).symm)]

/-- C72. The same for scalar valued programs. -/
theorem C72_same_scalar_spline (cfg : Cfg) (hmax : cfg.maxBinom ≤ 68) (σ : Vars ℝ n) (μ : Meaning n) (h : μ.Of σ) (e e' : SExpr ℝ n)
    (he : e.Admissible cfg σ μ) (he' : e'.Admissible cfg σ μ) (hd : e'.degrees μ = e.degrees μ)
    (hf : ∀ t : List ℝ, t.length = (e.degrees μ).length → e'.denote μ t = e.denote μ t) : e'.run cfg σ = e.run cfg σ := by
  obtain ⟨r, e1, h1⟩ := C72_scalar cfg hmax σ μ h e he
  obtain ⟨r', e2, h2⟩ := C72_scalar cfg hmax σ μ h e' he'
  rw [hd] at h2
  rw [e1, e2, h2.unique (h1.congr fun t ht => (hf t ht).symm)]

/-! ### Examples -/

/-- a program variable for each kind of spline: two scalar surfaces and a surface in the plane that lies in the unit square -/
noncomputable def σE : Vars ℝ 2 where
  s i := if i = 0 then AR else BR
  p _ := Ex.surf ⟨![0, 0]⟩ ⟨![1, 0]⟩ ⟨![1, 1]⟩ ⟨![0, 1 / 2]⟩ ⟨![1, 1]⟩ ⟨![1 / 3, 1]⟩

noncomputable def μE : Meaning 2 where
  ds i := if i = 0 then [2, 1] else [1, 2]
  fs i := (σE.s i).value
  dp _ := [2, 1]
  fp i := (σE.p i).value

theorem μE_of : μE.Of σE := by
  refine ⟨fun i => ?_, fun i => (Ex.surf_wf ..).computes⟩
  by_cases h : i = 0
  · subst h; exact AR_wf.computes
  · have e1 : σE.s i = BR := if_neg h
    have e2 : μE.ds i = [1, 2] := if_neg h
    have e3 : μE.fs i = BR.value := by show (σE.s i).value = _; rw [e1]
    rw [e1, e2, e3]; exact BR_wf.computes

theorem σE_fits : Spline.fitsIntoUnitCube ℝ (σE.p 0) = .ok true := by
  have hw : (σE.p 0).WF := Ex.surf_wf ..
  rw [fits_iff hw]
  intro x hx j
  simp only [σE, Ex.surf, List.mem_cons, List.not_mem_nil, or_false] at hx
  have hj : j = (0 : Fin 2) ∨ j = (1 : Fin 2) := by
    obtain ⟨i, hi⟩ := j
    have hi' : i < 2 := hi
    interval_cases i
    · exact Or.inl rfl
    · exact Or.inr rfl
  rcases hx with rfl | rfl | rfl | rfl | rfl | rfl <;> rcases hj with rfl | rfl <;>
    simp [Coords.coord] <;> norm_num

/-- the program `(A * B).Compose(P) * P`, then its first derivative in direction 0, then the left part of a split -/
noncomputable def prog : PExpr ℝ 2 :=
  .splitLeft (.deriv (.mulLeft (.compose (.mul (.leaf 0) (.leaf 1)) (.leaf 0)) (.leaf 0)) [1, 0]) (1 / 3) 0

theorem prog_admissible : prog.Admissible Ex.cfg σE μE := by
  refine ⟨⟨⟨⟨⟨trivial, trivial, rfl, ?_⟩, trivial, rfl, ?_, ?_, ?_⟩, trivial, rfl, ?_⟩, rfl, ?_, ?_, ?_⟩, ?_, by norm_num, by norm_num⟩
  · simp [SExpr.degrees, μE, sumDegrees, Ex.cfg]
  · intro r hr
    obtain rfl : σE.p 0 = r := Except.ok.inj hr
    exact σE_fits
  · simp [SExpr.degrees, μE, sumDegrees, Ex.cfg]
  · simp [SExpr.degrees, PExpr.degrees, μE, sumDegrees, Ex.cfg]
  · simp [SExpr.degrees, PExpr.degrees, μE, sumDegrees, Ex.cfg]
  · intro d o p h1 h2
    match d with
    | 0 => simp [SExpr.degrees, PExpr.degrees, μE, sumDegrees] at h1 h2; omega
    | 1 => simp [SExpr.degrees, PExpr.degrees, μE, sumDegrees] at h1 h2; omega
    | d + 2 => simp at h1
  · simp [Ex.cfg]
  · simp [SExpr.degrees, PExpr.degrees, μE, sumDegrees, size]
  · simp [SExpr.degrees, PExpr.degrees, μE, sumDegrees]

example : ∃ r, prog.run Ex.cfg σE = .ok r ∧ r.Computes (prog.degrees μE) (prog.denote μE) :=
  C72_point Ex.cfg Ex.cfg_ok σE μE μE_of prog prog_admissible

example : prog.degrees μE = [13, 7] := by
  simp [prog, SExpr.degrees, PExpr.degrees, μE, sumDegrees]

example : (SExpr.mul (.leaf 0) (.leaf 1) : SExpr ℝ 2).run Ex.cfg σE = (SExpr.mul (.leaf 1) (.leaf 0) : SExpr ℝ 2).run Ex.cfg σE :=
  C72_same_scalar_spline Ex.cfg Ex.cfg_ok σE μE μE_of _ _
    ⟨trivial, trivial, rfl, by simp [SExpr.degrees, μE, sumDegrees, Ex.cfg]⟩
    ⟨trivial, trivial, rfl, by simp [SExpr.degrees, μE, sumDegrees, Ex.cfg]⟩
    (by simp [SExpr.degrees, μE, sumDegrees]) (fun t _ => mul_comm _ _)

/-- `A * (P + P)` and `A * P * 2` are the same spline -/
example : (PExpr.mulLeft (.leaf 0) (.add (.leaf 0) (.leaf 0)) : PExpr ℝ 2).run Ex.cfg σE =
    (PExpr.scale (.mulLeft (.leaf 0) (.leaf 0)) 2 : PExpr ℝ 2).run Ex.cfg σE :=
  C72_same_spline Ex.cfg Ex.cfg_ok σE μE μE_of _ _
    ⟨trivial, trivial, rfl, by simp [SExpr.degrees, PExpr.degrees, μE, sumDegrees, Ex.cfg]⟩
    ⟨trivial, ⟨trivial, trivial, rfl, by simp [PExpr.degrees, μE, Ex.cfg], by decide, by simp [PExpr.degrees, μE, maxDegrees, size]⟩, rfl,
      by simp [SExpr.degrees, PExpr.degrees, μE, sumDegrees, maxDegrees, Ex.cfg]⟩
    (by simp [SExpr.degrees, PExpr.degrees, μE, sumDegrees, maxDegrees])
    (fun t _ => by simp only [SExpr.denote, PExpr.denote]; rw [two_smul, smul_add])

end Bezman.Props
