import Verif.Props.RLaws
import Verif.Props.Hull

/-! # Property C121, continued: compositions with rational inner splines, as equalities of the returned objects -/

namespace Bezman.Props
open Spec Coords Finset

section
variable {K V W : Type} [Field K] [LinearOrder K] [IsStrictOrderedRing K] [AddCommGroup V] [Module K V]
  [AddCommGroup W] [Module K W] [Coords K W] [LawfulCoords K W] [ScalarDiv K W] [LawfulScalarDiv K W]

/-- the numerator of a composition at the numerator `x` and the weight `v` of the inner spline -/
def homogAt (ps : List ℕ) (c : List V) (x : W) (v : K) : V :=
  ∑ n ∈ range (size ps), pw (Spline.hbFns ps (fun d => if h : d < Coords.n K W then coord x ⟨d, h⟩ else 0)
    (fun d => if h : d < Coords.n K W then v - coord x ⟨d, h⟩ else 0)) (unflat ps n) • c.getD n 0

theorem numer_compose {cfg : Cfg} (hmax : cfg.maxBinom ≤ 68) {a : Spline V} {b : RSpline K W} {dO dI : List ℕ} {f : List K → V}
    {G : List K → W} {w : List K → K} (ha : a.Computes dO f) (hb : RParts b dI G w) (hdim : dO.length = Coords.n K W)
    (hf : ComposeFits cfg dO dI) : ∃ n, a.composeNumeratorRational cfg b = .ok n ∧
      n.Computes (dI.map fun q => dO.sum * q) (fun t => homogAt dO a.cps (G t) (w t)) := by
  have hod := ha.degrees_eq
  have hc := RSpline.computes_of hb.1 hb.2
  obtain ⟨n, n1, -⟩ := composeNumeratorRational_ok (K := K) hmax ha.wf hc hf.sub (by rw [ha.dim_eq, hdim])
    (by rw [hod]; exact hf.outer) (by rw [hod]; exact hf.deg)
  refine ⟨n, n1, (composeNumeratorRational_tens (K := K) hmax ha hc hf.sub hdim hf.outer hf.deg n1).congr fun t ht => ?_⟩
  rw [hb.1.value_eq (by simpa using ht)]
  rfl

/-- what the composition of a polynomial with a rational spline is made of -/
theorem rparts_compose_inner {cfg : Cfg} (hmax : cfg.maxBinom ≤ 68) {a : Spline V} {b : RSpline K W} {dO dI : List ℕ} {f : List K → V}
    {G : List K → W} {w : List K → K} (ha : a.Computes dO f) (hb : RParts b dI G w) (hdim : dO.length = Coords.n K W)
    (hcube : b.fitsIntoUnitCube = .ok true) (hf : ComposeFits cfg dO dI) : ∃ r, Spline.composeRational cfg a b = .ok r ∧
      RParts r (dI.map fun q => dO.sum * q) (fun t => homogAt dO a.cps (G t) (w t)) (fun t => w t ^ dO.sum) := by
  obtain ⟨n, n1, n2⟩ := numer_compose hmax ha hb hdim hf
  obtain ⟨d, d1, d2⟩ := C22_raise_power cfg hmax b.wt dI w hb.2 dO.sum hf.result
  refine ⟨⟨n, d⟩, ?_, n2, d2⟩
  unfold Spline.composeRational Spline.composeDenominator
  rw [hcube, n1, ha.degrees_eq, d1]
  exact RSpline.ofSplines_ok (by rw [n2.degrees_eq, d2.degrees_eq])

/-- what the composition of two rational splines is made of -/
theorem rparts_compose_both {cfg : Cfg} (hmax : cfg.maxBinom ≤ 68) {a : RSpline K V} {b : RSpline K W} {dO dI : List ℕ} {N : List K → V}
    {v : List K → K} {G : List K → W} {w : List K → K} (ha : RParts a dO N v) (hb : RParts b dI G w) (hdim : dO.length = Coords.n K W)
    (hf : ComposeFits cfg dO dI) : ∃ r, RSpline.composeRational cfg a b = .ok r ∧
      RParts r (dI.map fun q => dO.sum * q) (fun t => homogAt dO a.num.cps (G t) (w t)) (fun t => homogAt dO a.wt.cps (G t) (w t)) := by
  obtain ⟨n, n1, n2⟩ := numer_compose hmax ha.1 hb hdim hf
  obtain ⟨d, d1, d2⟩ := numer_compose hmax ha.2 hb hdim hf
  refine ⟨⟨n, d⟩, ?_, n2, d2⟩
  unfold RSpline.composeRational
  rw [n1, d1]
  exact RSpline.ofSplines_ok (by rw [n2.degrees_eq, d2.degrees_eq])

/-- C121. A polynomial spline composed with a rational one of positive weights: splitting the composition gives the compositions with the
parts of the inner spline, as objects. -/
theorem C121_split_compose_inner (cfg : Cfg) (hmax : cfg.maxBinom ≤ 68) (a : Spline V) (b : RSpline K W) (dO dI : List ℕ) (f : List K → V)
    (G : List K → W) (w : List K → K) (ha : a.Computes dO f) (hb : RParts b dI G w) (hdim : dO.length = Coords.n K W)
    (hpos : ∀ x ∈ b.wt.cps, 0 < x) (hcube : b.fitsIntoUnitCube = .ok true) (hf : ComposeFits cfg dO dI)
    (d : ℕ) (hd : d < dI.length) (z : K) (h0 : 0 < z) (h1 : z < 1) :
    ∃ r b₁ b₂ r₁ r₂, Spline.composeRational cfg a b = .ok r ∧ b.splitAt z d = .ok (b₁, b₂) ∧ Spline.composeRational cfg a b₁ = .ok r₁ ∧
      Spline.composeRational cfg a b₂ = .ok r₂ ∧ r.splitAt z d = .ok (r₁, r₂) := by
  obtain ⟨r, e1, c1⟩ := rparts_compose_inner hmax ha hb hdim hcube hf
  obtain ⟨b₁, b₂, e2, cb₁, cb₂⟩ := rparts_split hb hd h0 h1
  obtain ⟨x₁, x₂, ex, f₁, f₂⟩ := C73_rational_split_fits b dI _ _ (RSpline.computes_of hb.1 hb.2) hpos hcube d hd z h0 h1
  cases e2.symm.trans ex
  obtain ⟨r₁, e3, c3⟩ := rparts_compose_inner hmax ha cb₁ hdim f₁ hf
  obtain ⟨r₂, e4, c4⟩ := rparts_compose_inner hmax ha cb₂ hdim f₂ hf
  obtain ⟨x, y, e6, cx, cy⟩ := rparts_split c1 (by simpa using hd) h0 h1
  refine ⟨r, b₁, b₂, r₁, r₂, e1, e2, e3, e4, ?_⟩
  rw [e6, rparts_unique cx c3 (fun t _ => rfl) fun t _ => rfl, rparts_unique cy c4 (fun t _ => rfl) fun t _ => rfl]

/-- C121. Two rational splines: splitting the composition gives the compositions with the parts of the inner spline, as objects. The weights
may have any sign, and the inner spline may leave the unit cube, which this function does not check. -/
theorem C121_split_compose_both (cfg : Cfg) (hmax : cfg.maxBinom ≤ 68) (a : RSpline K V) (b : RSpline K W) (dO dI : List ℕ) (N : List K → V)
    (v : List K → K) (G : List K → W) (w : List K → K) (ha : RParts a dO N v) (hb : RParts b dI G w) (hdim : dO.length = Coords.n K W)
    (hf : ComposeFits cfg dO dI) (d : ℕ) (hd : d < dI.length) (z : K) (h0 : 0 < z) (h1 : z < 1) :
    ∃ r b₁ b₂ r₁ r₂, RSpline.composeRational cfg a b = .ok r ∧ b.splitAt z d = .ok (b₁, b₂) ∧ RSpline.composeRational cfg a b₁ = .ok r₁ ∧
      RSpline.composeRational cfg a b₂ = .ok r₂ ∧ r.splitAt z d = .ok (r₁, r₂) := by
  obtain ⟨r, e1, c1⟩ := rparts_compose_both hmax ha hb hdim hf
  obtain ⟨b₁, b₂, e2, cb₁, cb₂⟩ := rparts_split hb hd h0 h1
  obtain ⟨r₁, e3, c3⟩ := rparts_compose_both hmax ha cb₁ hdim hf
  obtain ⟨r₂, e4, c4⟩ := rparts_compose_both hmax ha cb₂ hdim hf
  obtain ⟨x, y, e6, cx, cy⟩ := rparts_split c1 (by simpa using hd) h0 h1
  refine ⟨r, b₁, b₂, r₁, r₂, e1, e2, e3, e4, ?_⟩
  rw [e6, rparts_unique cx c3 (fun t _ => rfl) fun t _ => rfl, rparts_unique cy c4 (fun t _ => rfl) fun t _ => rfl]

section
variable {U : Type} [AddCommGroup U] [Module K U] [Coords K U] [LawfulCoords K U] [ScalarDiv K U] [LawfulScalarDiv K U]

/-- what a composition with a polynomial spline needs, from what the larger composition needs -/
theorem compose_sum (da db : List ℕ) : (db.map fun q => da.sum * q).sum = da.sum * db.sum := by rw [List.sum_map_mul_left, List.map_id']

/-- C121. `a` polynomial, `b` rational with positive weights, `c` polynomial: composing `a` with `b ∘ c` gives the same object as composing
`a ∘ b` with `c`. -/
theorem C121_compose_assoc_inner (cfg : Cfg) (hmax : cfg.maxBinom ≤ 68) (a : Spline V) (b : RSpline K W) (c : Spline U) (da db dc : List ℕ)
    (f : List K → V) (G : List K → W) (w : List K → K) (h : List K → U) (ha : a.Computes da f) (hb : RParts b db G w) (hc : c.Computes dc h)
    (hda : da.length = Coords.n K W) (hdb : db.length = Coords.n K U) (hpos : ∀ x ∈ b.wt.cps, 0 < x)
    (hb' : b.fitsIntoUnitCube = .ok true) (hc' : Spline.fitsIntoUnitCube K c = .ok true) (h1 : ComposeFits cfg da db)
    (h2 : ComposeFits cfg db dc) (h3 : ComposeFits cfg da (dc.map fun q => db.sum * q)) :
    ∃ ab bc r, Spline.composeRational cfg a b = .ok ab ∧ RSpline.compose cfg b c = .ok bc ∧ RSpline.compose cfg ab c = .ok r ∧
      Spline.composeRational cfg a bc = .ok r := by
  obtain ⟨ab, e1, c1⟩ := rparts_compose_inner hmax ha hb hda hb' h1
  obtain ⟨bc, e2, c2⟩ := rparts_compose hmax hb hc hdb hc' h2.outer h2.result
  have hbc := RSpline.computes_of hb.1 hb.2
  obtain ⟨bc', e2', k⟩ := C73_rational_compose_polynomial cfg hmax b c db dc _ _ _ hbc hc hdb hc' h2 _ convex_cube
    ((rinside_iff hbc).mpr ⟨hpos, (rfits_iff hbc hpos).mp hb'⟩)
  cases e2.symm.trans e2'
  have hbc' := RSpline.computes_of c2.1 c2.2
  have k' := (rinside_iff hbc').mp k
  obtain ⟨r', e4, c4⟩ := rparts_compose_inner hmax ha c2 hda ((rfits_iff hbc' k'.1).mpr k'.2) h3
  obtain ⟨r, e3, c3⟩ := rparts_compose hmax c1 hc (by simpa using hdb) hc'
    (fun p hp => by obtain ⟨q, hq, rfl⟩ := List.mem_map.mp hp; exact h1.result q hq)
    (fun q hq => by
      rw [compose_sum, mul_assoc]
      exact h3.result _ (List.mem_map_of_mem hq))
  refine ⟨ab, bc, r, e1, e2, e3, ?_⟩
  have hm : (dc.map fun q => (db.map fun q => da.sum * q).sum * q) = (dc.map fun q => db.sum * q).map fun q => da.sum * q := by
    rw [compose_sum, List.map_map]; simp [Function.comp_def, mul_assoc]
  rw [hm] at c3
  rw [e4, rparts_unique c4 c3 (fun t _ => rfl) fun t _ => rfl]

/-- C121. `a` and `b` rational, `c` polynomial: composing `a` with `b ∘ c` gives the same object as composing `a ∘ b` with `c`. -/
theorem C121_compose_assoc_both (cfg : Cfg) (hmax : cfg.maxBinom ≤ 68) (a : RSpline K V) (b : RSpline K W) (c : Spline U) (da db dc : List ℕ)
    (N : List K → V) (v : List K → K) (G : List K → W) (w : List K → K) (h : List K → U) (ha : RParts a da N v) (hb : RParts b db G w)
    (hc : c.Computes dc h) (hda : da.length = Coords.n K W) (hdb : db.length = Coords.n K U)
    (hc' : Spline.fitsIntoUnitCube K c = .ok true) (h1 : ComposeFits cfg da db)
    (h2 : ComposeFits cfg db dc) (h3 : ComposeFits cfg da (dc.map fun q => db.sum * q)) :
    ∃ ab bc r, RSpline.composeRational cfg a b = .ok ab ∧ RSpline.compose cfg b c = .ok bc ∧ RSpline.compose cfg ab c = .ok r ∧
      RSpline.composeRational cfg a bc = .ok r := by
  obtain ⟨ab, e1, c1⟩ := rparts_compose_both hmax ha hb hda h1
  obtain ⟨bc, e2, c2⟩ := rparts_compose hmax hb hc hdb hc' h2.outer h2.result
  obtain ⟨r', e4, c4⟩ := rparts_compose_both hmax ha c2 hda h3
  obtain ⟨r, e3, c3⟩ := rparts_compose hmax c1 hc (by simpa using hdb) hc'
    (fun p hp => by obtain ⟨q, hq, rfl⟩ := List.mem_map.mp hp; exact h1.result q hq)
    (fun q hq => by
      rw [compose_sum, mul_assoc]
      exact h3.result _ (List.mem_map_of_mem hq))
  refine ⟨ab, bc, r, e1, e2, e3, ?_⟩
  have hm : (dc.map fun q => (db.map fun q => da.sum * q).sum * q) = (dc.map fun q => db.sum * q).map fun q => da.sum * q := by
    rw [compose_sum, List.map_map]; simp [Function.comp_def, mul_assoc]
  rw [hm] at c3
  rw [e4, rparts_unique c4 c3 (fun t _ => rfl) fun t _ => rfl]

end

/-- C121. A rational spline whose weights are all 1 composed with a rational spline that fits into the unit cube gives the same object as
its numerator, taken as a polynomial spline, composed with it. -/
theorem C121_compose_unit_weights (cfg : Cfg) (hmax : cfg.maxBinom ≤ 68) (a : RSpline K V) (b : RSpline K W) (dO dI : List ℕ) (N : List K → V)
    (v : List K → K) (G : List K → W) (w : List K → K) (ha : RParts a dO N v) (hone : ∀ x ∈ a.wt.cps, x = 1) (hb : RParts b dI G w)
    (hdim : dO.length = Coords.n K W) (hcube : b.fitsIntoUnitCube = .ok true) (hf : ComposeFits cfg dO dI) :
    ∃ r, RSpline.composeRational cfg a b = .ok r ∧ Spline.composeRational cfg a.num b = .ok r := by
  obtain ⟨r, e1, c1⟩ := rparts_compose_both hmax ha hb hdim hf
  obtain ⟨q, e2, c2⟩ := rparts_compose_inner hmax ha.1 hb hdim hcube hf
  refine ⟨r, e1, ?_⟩
  rw [e2, rparts_unique c2 c1 (fun t _ => rfl) fun t ht => ?_]
  have h1 : homogAt dO a.wt.cps (G t) (w t) = homogAt dO (List.replicate (size dO) (1 : K)) (G t) (w t) := by
    refine sum_congr rfl fun n hn => ?_
    have hn' := mem_range.mp hn
    rw [hone _ (Spline.getD_mem ha.2.wf (by rw [ha.2.degrees_eq]; exact hn'))]
    simp [hn']
  have h2 : homogAt dO (List.replicate (size dO) (1 : K)) (G t) (w t) = ∑ n ∈ range (size dO), pw (Spline.hbFns dO
      (fun d => if h : d < Coords.n K W then coord (G t) ⟨d, h⟩ else 0)
      (fun d => if h : d < Coords.n K W then w t - coord (G t) ⟨d, h⟩ else 0)) (unflat dO n) • (1 : K) := by
    refine sum_congr rfl fun n hn => ?_
    have hn' := mem_range.mp hn
    simp [hn']
  rw [h1, h2]
  have := Bezman.sum_pw (K := K) dO (Spline.hbFns_length _ _ _ : (Spline.hbFns dO
    (fun d => if h : d < Coords.n K W then coord (G t) ⟨d, h⟩ else 0)
    (fun d => if h : d < Coords.n K W then w t - coord (G t) ⟨d, h⟩ else 0)).length = _) (fun _ => (1 : K))
  rw [this, tens_hb_one (w t)]
  intro d hd
  have hd' : d < Coords.n K W := by omega
  simp only [hd', dif_pos]
  ring

end

/-! ## The hypotheses are met -/

/-- a rational line with weights 1 and 3 inside the unit interval -/
theorem exInner : RParts (⟨Ex.line 0 (3 / 2), Ex.line 1 3⟩ : RSpline ℚ ℚ) [1] (fun t => (Ex.line 0 (3 / 2)).value t) (fun t => (Ex.line (1 : ℚ) 3).value t) :=
  exLineR ..

example := C121_split_compose_inner Ex.cfg Ex.cfg_ok _ _ _ _ _ _ _ (Ex.curve_wf (0 : ℚ) 3 1).computes exInner rfl (by decide +kernel)
  (by decide +kernel) ⟨by decide, by decide, by decide, by decide, by decide⟩ 0 (by decide) (1 / 3) (by norm_num) (by norm_num)
/-- weights of both signs -/
example := C121_split_compose_both Ex.cfg Ex.cfg_ok _ _ _ _ _ _ _ _ (exCurveR 0 3 1 1 (-2) 3) (exLineR 4 1 3 (-2)) rfl
  ⟨by decide, by decide, by decide, by decide, by decide⟩ 0 (by decide) (1 / 3) (by norm_num) (by norm_num)
example := C121_compose_assoc_inner Ex.cfg Ex.cfg_ok _ _ _ _ _ _ _ _ _ _ (Ex.curve_wf (0 : ℚ) 3 1).computes exInner
  (Ex.surf_wf (0 : ℚ) 1 (1 / 2) 0 (1 / 3) 1).computes rfl rfl (by decide +kernel) (by decide +kernel) (by decide +kernel)
  ⟨by decide, by decide, by decide, by decide, by decide⟩ ⟨by decide, by decide, by decide, by decide, by decide⟩
  ⟨by decide, by decide, by decide, by decide, by decide⟩
example := C121_compose_assoc_both Ex.cfg Ex.cfg_ok _ _ _ _ _ _ _ _ _ _ _ (exCurveR 0 3 1 1 (-2) 3) exInner
  (Ex.surf_wf (0 : ℚ) 1 (1 / 2) 0 (1 / 3) 1).computes rfl rfl (by decide +kernel)
  ⟨by decide, by decide, by decide, by decide, by decide⟩ ⟨by decide, by decide, by decide, by decide, by decide⟩
  ⟨by decide, by decide, by decide, by decide, by decide⟩
example := C121_compose_unit_weights Ex.cfg Ex.cfg_ok _ _ _ _ _ _ _ _ (exCurveR 0 3 1 1 1 1) (by decide +kernel) exInner rfl (by decide +kernel)
  ⟨by decide, by decide, by decide, by decide, by decide⟩

end Bezman.Props
