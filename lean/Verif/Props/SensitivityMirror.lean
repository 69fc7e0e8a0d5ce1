import Verif.Props.SensitivityPoints
import Verif.Props.ExchangeRational
import Verif.Props.MirrorCompose

/-! # Property C124, continued: orientation and numbering of the dimensions of the inner spline, rational splines -/

namespace Bezman.Props
open Spec Coords Finset

section
variable {K V W : Type} [Field K] [LinearOrder K] [IsStrictOrderedRing K] [AddCommGroup V] [Module K V] [AddCommGroup W] [Module K W]
  [Coords K W] [LawfulCoords K W]

theorem composeFits_swapAt {cfg : Cfg} {dO dI : List ℕ} (d : ℕ) (hf : ComposeFits cfg dO dI) : ComposeFits cfg dO (swapAt d dI) :=
  ⟨hf.outer, fun q hq => hf.result q ((swapAt_perm d _).mem_iff.mp hq), fun q hq => hf.rounds q ((swapAt_perm d _).mem_iff.mp hq),
    hf.rounds2, by rw [size_swapAt]; exact hf.small⟩

/-- C124. Rational outer spline: reversing a dimension of the inner spline reverses it in every sensitivity. -/
theorem C124_rational_reversed (d : ℕ) (cfg : Cfg) (hmax : cfg.maxBinom ≤ 68) (outer : RSpline K V) (inner inner' : Spline W) (dO : List ℕ)
    (N : List K → V) (v : List K → K) (ho : RParts outer dO N v) (hd : d < inner.degrees.length) (h : Mirrored d inner inner')
    (hdim : dO.length = Coords.n K W) (hcube : inner.fitsIntoUnitCube K = .ok true) (hdeg : ∀ p ∈ dO, p < cfg.maxBinom)
    (hdeg' : ∀ q ∈ inner.degrees, dO.sum * q < cfg.maxBinom) :
    ∃ l l', RSpline.composeSensitivity cfg outer inner = .ok l ∧ RSpline.composeSensitivity cfg outer inner' = .ok l' ∧
      List.Forall₂ (RMirrored d) l l' := by
  have hcube' : inner'.fitsIntoUnitCube K = .ok true := by
    obtain ⟨u, h1, h2⟩ := (C120_box (K := K) d inner inner' hd h).2.2
    rw [hcube] at h2
    cases h2
    exact h1
  obtain ⟨l, a1, a2, a3⟩ := C124_rational_composition (K := K) cfg hmax outer inner dO N v ho h.wf hdim hcube hdeg hdeg'
  obtain ⟨l', b1, b2, b3⟩ := C124_rational_composition (K := K) cfg hmax outer inner' dO N v ho h.wf' hdim hcube' hdeg
    (by rw [h.degrees]; exact hdeg')
  refine ⟨l, l', a1, b1, List.forall₂_iff_get.mpr ⟨a2.trans b2.symm, fun n g1 g2 => ?_⟩⟩
  obtain ⟨u, hu⟩ := RUnitAt.ex (K := K) ho.2.wf (n := n) (by omega)
  obtain ⟨x, x1, x2⟩ := a3 n u hu
  obtain ⟨y, y1, y2⟩ := b3 n u hu
  obtain ⟨_, rfl⟩ := List.getElem?_eq_some_iff.mp x1
  obtain ⟨_, rfl⟩ := List.getElem?_eq_some_iff.mp y1
  have hp := hu.parts ho.2
  have hed := hp.1.degrees_eq
  obtain ⟨r, r', k1, k2, k3⟩ := C120_rational_compose_inner (K := K) d cfg hmax u inner inner' hu.wf hp.2.wf (hed.trans hp.2.degrees_eq.symm) hd h
    (by rw [hed]; exact hdim) hcube (by rw [hed]; exact hdeg) (by rw [hed]; exact hdeg')
  cases x2.symm.trans k1
  cases y2.symm.trans k2
  exact k3

/-- C124. Rational inner spline with weights other than 0: reversing a dimension reverses it in every sensitivity. -/
theorem C124_reversed_rational [ScalarDiv K W] [LawfulScalarDiv K W] (d : ℕ) (cfg : Cfg) (hmax : cfg.maxBinom ≤ 68) (outer : Spline V)
    (inner inner' : RSpline K W) (ho : outer.WF) (hd : d < inner.num.degrees.length) (h : RMirrored d inner inner')
    (hdim : outer.degrees.length = Coords.n K W) (hne : ∀ c ∈ inner.wt.cps, c ≠ 0) (hcube : inner.fitsIntoUnitCube = .ok true)
    (hf : ComposeFits cfg outer.degrees inner.num.degrees) :
    ∃ l l', Spline.composeSensitivityRational cfg outer inner = .ok l ∧ Spline.composeSensitivityRational cfg outer inner' = .ok l' ∧
      List.Forall₂ (RMirrored d) l l' := by
  have hcube' : inner'.fitsIntoUnitCube = .ok true := by
    obtain ⟨u, h1, h2⟩ := (C120_rational_box d inner inner' hd h hne).2.2
    rw [hcube] at h2
    cases h2
    exact h1
  have c := rparts_of (K := K) h.num.wf h.wt.wf h.same
  have c' := rparts_of (K := K) h.num.wf' h.wt.wf' (by rw [h.num.degrees, h.wt.degrees, h.same])
  rw [h.num.degrees] at c'
  obtain ⟨l, a1, a2, a3⟩ := C124_composition_rational (K := K) cfg hmax outer inner _ _ _ ho c hdim hcube hf
  obtain ⟨l', b1, b2, b3⟩ := C124_composition_rational (K := K) cfg hmax outer inner' _ _ _ ho c' hdim hcube' hf
  refine ⟨l, l', a1, b1, List.forall₂_iff_get.mpr ⟨a2.trans b2.symm, fun n g1 g2 => ?_⟩⟩
  obtain ⟨u, hu⟩ := UnitAt.ex (K := K) ho (n := n) (by omega)
  obtain ⟨x, x1, x2⟩ := a3 n u hu
  obtain ⟨y, y1, y2⟩ := b3 n u hu
  obtain ⟨_, rfl⟩ := List.getElem?_eq_some_iff.mp x1
  obtain ⟨_, rfl⟩ := List.getElem?_eq_some_iff.mp y1
  obtain ⟨r, r', k1, k2, k3⟩ := C120_compose_rational (K := K) d cfg hmax u inner inner' hu.wf hd h (by rw [hu.degrees]; exact hdim) hne hcube
    (by rw [hu.degrees]; exact hf)
  cases x2.symm.trans k1
  cases y2.symm.trans k2
  exact k3

/-- C124. Rational outer and rational inner spline, weights of any sign: reversing a dimension reverses it in every sensitivity. -/
theorem C124_rational_reversed_rational [ScalarDiv K W] [LawfulScalarDiv K W] (d : ℕ) (cfg : Cfg) (hmax : cfg.maxBinom ≤ 68)
    (outer : RSpline K V) (inner inner' : RSpline K W) (dO : List ℕ) (N : List K → V) (v : List K → K) (ho : RParts outer dO N v)
    (hd : d < inner.num.degrees.length) (h : RMirrored d inner inner') (hdim : dO.length = Coords.n K W) (hf : ComposeFits cfg dO inner.num.degrees) :
    ∃ l l', RSpline.composeSensitivityRational cfg outer inner = .ok l ∧ RSpline.composeSensitivityRational cfg outer inner' = .ok l' ∧
      List.Forall₂ (RMirrored d) l l' := by
  have c := rparts_of (K := K) h.num.wf h.wt.wf h.same
  have c' := rparts_of (K := K) h.num.wf' h.wt.wf' (by rw [h.num.degrees, h.wt.degrees, h.same])
  rw [h.num.degrees] at c'
  obtain ⟨l, a1, a2, a3⟩ := C124_rational_composition_rational (K := K) cfg hmax outer inner dO _ N v _ _ ho c hdim hf
  obtain ⟨l', b1, b2, b3⟩ := C124_rational_composition_rational (K := K) cfg hmax outer inner' dO _ N v _ _ ho c' hdim hf
  refine ⟨l, l', a1, b1, List.forall₂_iff_get.mpr ⟨a2.trans b2.symm, fun n g1 g2 => ?_⟩⟩
  obtain ⟨u, hu⟩ := RUnitAt.ex (K := K) ho.2.wf (n := n) (by omega)
  obtain ⟨x, x1, x2⟩ := a3 n u hu
  obtain ⟨y, y1, y2⟩ := b3 n u hu
  obtain ⟨_, rfl⟩ := List.getElem?_eq_some_iff.mp x1
  obtain ⟨_, rfl⟩ := List.getElem?_eq_some_iff.mp y1
  have hp := hu.parts ho.2
  have hed := hp.1.degrees_eq
  obtain ⟨r, r', k1, k2, k3⟩ := C120_rational_compose_rational (K := K) d cfg hmax u inner inner' hu.wf hp.2.wf (hed.trans hp.2.degrees_eq.symm) hd h
    (by rw [hed]; exact hdim) (by rw [hed]; exact hf)
  cases x2.symm.trans k1
  cases y2.symm.trans k2
  exact k3

/-- C124. Rational outer spline: exchanging two dimensions of the inner spline exchanges them in every sensitivity. -/
theorem C124_rational_exchanged (d : ℕ) (cfg : Cfg) (hmax : cfg.maxBinom ≤ 68) (outer : RSpline K V) (inner inner' : Spline W) (dO : List ℕ)
    (N : List K → V) (v : List K → K) (ho : RParts outer dO N v) (h : Exchanged d inner inner')
    (hdim : dO.length = Coords.n K W) (hcube : inner.fitsIntoUnitCube K = .ok true) (hdeg : ∀ p ∈ dO, p < cfg.maxBinom)
    (hdeg' : ∀ q ∈ inner.degrees, dO.sum * q < cfg.maxBinom) :
    ∃ l l', RSpline.composeSensitivity cfg outer inner = .ok l ∧ RSpline.composeSensitivity cfg outer inner' = .ok l' ∧
      List.Forall₂ (RExchanged d) l l' := by
  have hcube' : inner'.fitsIntoUnitCube K = .ok true := by
    obtain ⟨u, h1, h2⟩ := (C120_exchange_box (K := K) d inner inner' h).2.2
    rw [hcube] at h2
    cases h2
    exact h1
  obtain ⟨l, a1, a2, a3⟩ := C124_rational_composition (K := K) cfg hmax outer inner dO N v ho h.wf hdim hcube hdeg hdeg'
  obtain ⟨l', b1, b2, b3⟩ := C124_rational_composition (K := K) cfg hmax outer inner' dO N v ho h.wf' hdim hcube' hdeg
    (by rw [h.degrees]; exact fun q hq => hdeg' q ((swapAt_perm d _).mem_iff.mp hq))
  refine ⟨l, l', a1, b1, List.forall₂_iff_get.mpr ⟨a2.trans b2.symm, fun n g1 g2 => ?_⟩⟩
  obtain ⟨u, hu⟩ := RUnitAt.ex (K := K) ho.2.wf (n := n) (by omega)
  obtain ⟨x, x1, x2⟩ := a3 n u hu
  obtain ⟨y, y1, y2⟩ := b3 n u hu
  obtain ⟨_, rfl⟩ := List.getElem?_eq_some_iff.mp x1
  obtain ⟨_, rfl⟩ := List.getElem?_eq_some_iff.mp y1
  have hp := hu.parts ho.2
  have hed := hp.1.degrees_eq
  obtain ⟨r, r', k1, k2, k3⟩ := C120_exchange_rational_compose_inner (K := K) d cfg hmax u inner inner' hu.wf hp.2.wf (hed.trans hp.2.degrees_eq.symm) h
    (by rw [hed]; exact hdim) hcube (by rw [hed]; exact hdeg) (by rw [hed]; exact hdeg')
  cases x2.symm.trans k1
  cases y2.symm.trans k2
  exact k3

/-- C124. Rational inner spline with weights other than 0: exchanging two dimensions exchanges them in every sensitivity. -/
theorem C124_exchanged_rational [ScalarDiv K W] [LawfulScalarDiv K W] (d : ℕ) (cfg : Cfg) (hmax : cfg.maxBinom ≤ 68) (outer : Spline V)
    (inner inner' : RSpline K W) (ho : outer.WF) (h : RExchanged d inner inner')
    (hdim : outer.degrees.length = Coords.n K W) (hne : ∀ c ∈ inner.wt.cps, c ≠ 0) (hcube : inner.fitsIntoUnitCube = .ok true)
    (hf : ComposeFits cfg outer.degrees inner.num.degrees) :
    ∃ l l', Spline.composeSensitivityRational cfg outer inner = .ok l ∧ Spline.composeSensitivityRational cfg outer inner' = .ok l' ∧
      List.Forall₂ (RExchanged d) l l' := by
  have hcube' : inner'.fitsIntoUnitCube = .ok true := by
    obtain ⟨u, h1, h2⟩ := (C120_exchange_rational_box d inner inner' h hne).2.2
    rw [hcube] at h2
    cases h2
    exact h1
  have c := rparts_of (K := K) h.num.wf h.wt.wf h.same
  have c' := rparts_of (K := K) h.num.wf' h.wt.wf' (by rw [h.num.degrees, h.wt.degrees, h.same])
  rw [h.num.degrees] at c'
  obtain ⟨l, a1, a2, a3⟩ := C124_composition_rational (K := K) cfg hmax outer inner _ _ _ ho c hdim hcube hf
  obtain ⟨l', b1, b2, b3⟩ := C124_composition_rational (K := K) cfg hmax outer inner' _ _ _ ho c' hdim hcube' (composeFits_swapAt d hf)
  refine ⟨l, l', a1, b1, List.forall₂_iff_get.mpr ⟨a2.trans b2.symm, fun n g1 g2 => ?_⟩⟩
  obtain ⟨u, hu⟩ := UnitAt.ex (K := K) ho (n := n) (by omega)
  obtain ⟨x, x1, x2⟩ := a3 n u hu
  obtain ⟨y, y1, y2⟩ := b3 n u hu
  obtain ⟨_, rfl⟩ := List.getElem?_eq_some_iff.mp x1
  obtain ⟨_, rfl⟩ := List.getElem?_eq_some_iff.mp y1
  obtain ⟨r, r', k1, k2, k3⟩ := C120_exchange_compose_rational (K := K) d cfg hmax u inner inner' hu.wf h (by rw [hu.degrees]; exact hdim) hne hcube
    (by rw [hu.degrees]; exact hf)
  cases x2.symm.trans k1
  cases y2.symm.trans k2
  exact k3

/-- C124. Rational outer and rational inner spline, weights of any sign: exchanging two dimensions exchanges them in every sensitivity. -/
theorem C124_rational_exchanged_rational [ScalarDiv K W] [LawfulScalarDiv K W] (d : ℕ) (cfg : Cfg) (hmax : cfg.maxBinom ≤ 68)
    (outer : RSpline K V) (inner inner' : RSpline K W) (dO : List ℕ) (N : List K → V) (v : List K → K) (ho : RParts outer dO N v)
    (h : RExchanged d inner inner') (hdim : dO.length = Coords.n K W) (hf : ComposeFits cfg dO inner.num.degrees) :
    ∃ l l', RSpline.composeSensitivityRational cfg outer inner = .ok l ∧ RSpline.composeSensitivityRational cfg outer inner' = .ok l' ∧
      List.Forall₂ (RExchanged d) l l' := by
  have c := rparts_of (K := K) h.num.wf h.wt.wf h.same
  have c' := rparts_of (K := K) h.num.wf' h.wt.wf' (by rw [h.num.degrees, h.wt.degrees, h.same])
  rw [h.num.degrees] at c'
  obtain ⟨l, a1, a2, a3⟩ := C124_rational_composition_rational (K := K) cfg hmax outer inner dO _ N v _ _ ho c hdim hf
  obtain ⟨l', b1, b2, b3⟩ := C124_rational_composition_rational (K := K) cfg hmax outer inner' dO _ N v _ _ ho c' hdim (composeFits_swapAt d hf)
  refine ⟨l, l', a1, b1, List.forall₂_iff_get.mpr ⟨a2.trans b2.symm, fun n g1 g2 => ?_⟩⟩
  obtain ⟨u, hu⟩ := RUnitAt.ex (K := K) ho.2.wf (n := n) (by omega)
  obtain ⟨x, x1, x2⟩ := a3 n u hu
  obtain ⟨y, y1, y2⟩ := b3 n u hu
  obtain ⟨_, rfl⟩ := List.getElem?_eq_some_iff.mp x1
  obtain ⟨_, rfl⟩ := List.getElem?_eq_some_iff.mp y1
  have hp := hu.parts ho.2
  have hed := hp.1.degrees_eq
  obtain ⟨r, r', k1, k2, k3⟩ := C120_exchange_rational_compose_rational (K := K) d cfg hmax u inner inner' hu.wf hp.2.wf (hed.trans hp.2.degrees_eq.symm) h
    (by rw [hed]; exact hdim) (by rw [hed]; exact hf)
  cases x2.symm.trans k1
  cases y2.symm.trans k2
  exact k3

end

/-! ## The hypotheses are met -/

example := C124_rational_reversed (K := ℚ) 0 Ex.cfg Ex.cfg_ok _ exIn _ _ _ _ (exCurveR 3 1 4 1 2 5) (by decide) (exMirror ..) rfl (by decide +kernel)
  (by decide) (by decide)
example := C124_rational_exchanged (K := ℚ) 0 Ex.cfg Ex.cfg_ok _ exIn _ _ _ _ (exCurveR 3 1 4 1 2 5) (exExchange ..) rfl (by decide +kernel)
  (by decide) (by decide)
example := C124_reversed_rational (K := ℚ) 0 Ex.cfg Ex.cfg_ok (Ex.curve (0 : ℚ) 3 1) (⟨Ex.surf 0 1 1 2 3 6, Ex.surf 1 2 3 4 5 6⟩ : RSpline ℚ ℚ)
  (⟨Ex.surf 1 1 0 6 3 2, Ex.surf 3 2 1 6 5 4⟩ : RSpline ℚ ℚ) (Ex.curve_wf ..) (by decide) ⟨rfl, exMirror .., exMirror ..⟩ rfl (by decide +kernel)
  (by decide +kernel) ⟨by decide, by decide, by decide, by decide, by decide⟩
example := C124_exchanged_rational (K := ℚ) 0 Ex.cfg Ex.cfg_ok (Ex.curve (0 : ℚ) 3 1) (⟨Ex.surf 0 1 1 2 3 6, Ex.surf 1 2 3 4 5 6⟩ : RSpline ℚ ℚ)
  (⟨Ex.surf' 0 2 1 3 1 6, Ex.surf' 1 4 2 5 3 6⟩ : RSpline ℚ ℚ) (Ex.curve_wf ..) ⟨rfl, exExchange .., exExchange ..⟩ rfl (by decide +kernel)
  (by decide +kernel) ⟨by decide, by decide, by decide, by decide, by decide⟩
example := C124_rational_reversed_rational (K := ℚ) 0 Ex.cfg Ex.cfg_ok _ (⟨Ex.surf 0 1 4 5 7 9, Ex.surf 1 2 3 4 5 6⟩ : RSpline ℚ ℚ) _ _ _ _
  (exCurveR 3 1 4 1 (-2) 5) (by decide) exRMirror rfl ⟨by decide, by decide, by decide, by decide, by decide⟩
example := C124_rational_exchanged_rational (K := ℚ) 0 Ex.cfg Ex.cfg_ok _ (⟨Ex.surf 0 1 4 5 7 9, Ex.surf 1 2 3 4 5 6⟩ : RSpline ℚ ℚ) _ _ _ _
  (exCurveR 3 1 4 1 (-2) 5) exRExchange rfl ⟨by decide, by decide, by decide, by decide, by decide⟩

end Bezman.Props
