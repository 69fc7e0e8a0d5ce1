import Verif.Props.Units
import Verif.Props.MirrorRational
import Verif.Spec.UnitAt

/-! # Property C124: the sensitivities of a composition as objects -/

namespace Bezman.Props
open Spec Coords Finset

section
variable {K V W : Type} [Field K] [LinearOrder K] [IsStrictOrderedRing K] [AddCommGroup V] [Module K V] [AddCommGroup W] [Module K W]
  [Coords K W] [LawfulCoords K W]

theorem _root_.Bezman.Spec.UnitAt.ex {s : Spline V} (hs : s.WF) {n : ℕ} (hn : n < s.ncp) : ∃ e : Spline K, UnitAt n s e :=
  ⟨⟨s.degrees, s.ncp, s.offsets, (List.replicate s.ncp 0).set n 1⟩, hn,
    ⟨hs.dim_pos, hs.ncp_eq, hs.offsets_eq, by simp [hs.ncp_eq]⟩, rfl, rfl⟩

theorem _root_.Bezman.Spec.UnitAt.getD {s : Spline V} {n : ℕ} {e : Spline K} (h : UnitAt n s e) (m : ℕ) (hm : m < s.ncp) :
    e.cps.getD m 0 = if m = n then 1 else 0 := by
  rw [h.points, List.getD_eq_getElem?_getD, List.getElem?_set]
  by_cases hmn : n = m
  · subst hmn; simp [hm]
  · simp [hmn, hm, Ne.symm hmn]

theorem _root_.Bezman.Spec.UnitAt.sum {s : Spline V} (hs : s.WF) {n : ℕ} {e : Spline K} (h : UnitAt n s e) (F : ℕ → K) :
    ∑ m ∈ range (size s.degrees), F m • e.cps.getD m 0 = F n := by
  have hn := h.inside
  rw [hs.ncp_eq] at hn
  rw [sum_eq_single_of_mem n (mem_range.mpr hn)]
  · rw [h.getD n h.inside, if_pos rfl, smul_eq_mul, mul_one]
  · intro m hm hmn
    rw [h.getD m (by rw [hs.ncp_eq]; exact mem_range.mp hm), if_neg hmn, smul_zero]

/-- C124. Polynomial inner spline: sensitivity number `n` is, as an object, the composition of the spline of numbers that is 1 at control point
`n` of the outer spline and 0 at the others. -/
theorem C124_composition (cfg : Cfg) (hmax : cfg.maxBinom ≤ 68) (outer : Spline V) (inner : Spline W) (ho : outer.WF) (hi : inner.WF)
    (hdim : outer.degrees.length = Coords.n K W) (hcube : Spline.fitsIntoUnitCube K inner = .ok true)
    (hdeg : ∀ p ∈ outer.degrees, p < cfg.maxBinom) (hdeg' : ∀ q ∈ inner.degrees, outer.degrees.sum * q < cfg.maxBinom) :
    ∃ l, Spline.composeSensitivity K cfg outer inner = .ok l ∧ l.length = outer.ncp ∧
      ∀ (n : ℕ) (e : Spline K), UnitAt n outer e → ∃ q, l[n]? = some q ∧ Spline.compose K cfg e inner = .ok q := by
  obtain ⟨b, h1, h2⟩ := Spline.fitsIntoUnitCube_ok (K := K) hi
  rw [hcube] at h1
  injection h1 with h1
  have hd : Spline.DegOk cfg (inner.degrees.map (outer.degrees.sum * ·)) := by
    intro p hp
    obtain ⟨q, hq, rfl⟩ := List.mem_map.mp hp
    exact hdeg' q hq
  obtain ⟨l, l1, l2, l3⟩ := Spline.composeSensitivity_ok (K := K) hmax ho hi hdim (h2.mp h1.symm) hdeg hd
  refine ⟨l, l1, by rw [l2, ho.ncp_eq], fun n e he => ?_⟩
  have hn := he.inside
  rw [ho.ncp_eq] at hn
  obtain ⟨q, q1, q2, q3, q4⟩ := l3 n hn
  have ce := he.wf.computes (K := K)
  obtain ⟨r, r1, r2⟩ := C26_compose (K := K) cfg hmax e inner _ _ _ _ ce hi.computes (by rw [he.degrees]; exact hdim) hcube
    (by rw [he.degrees]; exact hdeg) (by rw [he.degrees]; exact hdeg')
  refine ⟨q, q1, ?_⟩
  have cq : q.Computes (inner.degrees.map fun x => outer.degrees.sum * x)
      (fun t : List K => pw (bernFns outer.degrees (coordList K (inner.value t))) (unflat outer.degrees n)) :=
    Spline.Computes.mk' q2 q3 fun t ht => q4 t (by unfold Spline.dim; simpa using ht)
  rw [he.degrees] at r2
  rw [r1, r2.unique (cq.congr fun t ht => ?_)]
  rw [ce.sum_pw (by rw [coordList_length, he.degrees, hdim]), he.degrees, he.sum ho]

/-- C124. Every control point of the composition is the sum of the control points of the outer spline, weighted with the control points of the
sensitivities. -/
theorem C124_points (cfg : Cfg) (hmax : cfg.maxBinom ≤ 68) (outer : Spline V) (inner : Spline W) (ho : outer.WF) (hi : inner.WF)
    (hdim : outer.degrees.length = Coords.n K W) (hcube : Spline.fitsIntoUnitCube K inner = .ok true)
    (hdeg : ∀ p ∈ outer.degrees, p < cfg.maxBinom) (hdeg' : ∀ q ∈ inner.degrees, outer.degrees.sum * q < cfg.maxBinom) :
    ∃ r l, Spline.compose K cfg outer inner = .ok r ∧ Spline.composeSensitivity K cfg outer inner = .ok l ∧
      ∀ k < r.ncp, (∀ q ∈ l, k < q.cps.length) ∧
        r.cps[k]? = some (List.zipWith (fun (q : Spline K) c => q.cps.getD k 0 • c) l outer.cps).sum := by
  obtain ⟨b, h1, h2⟩ := Spline.fitsIntoUnitCube_ok (K := K) hi
  rw [hcube] at h1
  injection h1 with h1
  have hd : Spline.DegOk cfg (inner.degrees.map (outer.degrees.sum * ·)) := by
    intro p hp
    obtain ⟨q, hq, rfl⟩ := List.mem_map.mp hp
    exact hdeg' q hq
  obtain ⟨l, l1, l2, l3⟩ := Spline.composeSensitivity_ok (K := K) hmax ho hi hdim (h2.mp h1.symm) hdeg hd
  obtain ⟨r, r1, r2⟩ := C26_compose (K := K) cfg hmax outer inner _ _ _ _ ho.computes hi.computes hdim hcube hdeg hdeg'
  refine ⟨r, l, r1, l1, ?_⟩
  let P : ℕ → V := fun k => (List.zipWith (fun (q : Spline K) c => q.cps.getD k 0 • c) l outer.cps).sum
  have hP : ∀ k, P k = ∑ n ∈ range (size outer.degrees), (l.getD n ⟨[], 0, [], []⟩).cps.getD k 0 • outer.cps.getD n 0 := by
    intro k
    have e : List.zipWith (fun (q : Spline K) c => q.cps.getD k 0 • c) l outer.cps =
        tab (size outer.degrees) (fun n => (l.getD n ⟨[], 0, [], []⟩).cps.getD k 0 • outer.cps.getD n 0) := by
      apply List.ext_getElem
      · simp [l2, ho.cps_len]
      · intro i i1 i2
        simp only [List.length_zipWith, l2, ho.cps_len, min_self] at i1
        simp [List.getElem_zipWith, tab_getElem, List.getD_eq_getElem?_getD, l2, ho.cps_len, i1]
    show (List.zipWith _ l outer.cps).sum = _
    rw [e, list_sum_tab]
  let R : Spline V := ⟨r.degrees, r.ncp, r.offsets, tab (size r.degrees) P⟩
  have Rw : R.WF := ⟨r2.wf.dim_pos, r2.wf.ncp_eq, r2.wf.offsets_eq, by simp [R]⟩
  have key : r = R := by
    refine r2.unique (Spline.Computes.mk' Rw r2.degrees_eq fun t ht => ?_)
    have ht' : t.length = inner.degrees.length := by simpa using ht
    rw [ho.computes.sum_pw (by rw [coordList_length, hdim])]
    show bezier R.degrees t _ = _
    have hRd : R.degrees = inner.degrees.map fun x => outer.degrees.sum * x := r2.degrees_eq
    rw [hRd, bezier_congr (Q := fun idx => ∑ n ∈ range (size outer.degrees),
      (l.getD n ⟨[], 0, [], []⟩).cps.getD (flatIndex (inner.degrees.map fun x => outer.degrees.sum * x) idx) 0 • outer.cps.getD n 0)
      (fun idx hv => ?_), bezier_sum]
    · refine sum_congr rfl fun n hn => ?_
      obtain ⟨q, q1, q2, q3, q4⟩ := l3 n (mem_range.mp hn)
      have e : l.getD n ⟨[], 0, [], []⟩ = q := by rw [List.getD_eq_getElem?_getD, q1]; rfl
      rw [e, ← q4 t ht']
      unfold Spline.value
      rw [q3]
      exact (bezier_map (LinearMap.toSpanSingleton K V (outer.cps.getD n 0)) _ _ _)
    · have hlt := flatIndex_lt hv
      show (tab (size r.degrees) P).getD _ 0 = _
      rw [List.getD_eq_getElem?_getD, r2.degrees_eq]
      rw [List.getElem?_eq_getElem (by simpa using hlt)]
      simp only [tab_getElem, Option.getD_some]
      exact hP _
  intro k hk
  have hk' : k < size r.degrees := by rw [← r2.wf.ncp_eq]; exact hk
  refine ⟨fun q hq => ?_, ?_⟩
  · obtain ⟨n, hn, rfl⟩ := List.getElem_of_mem hq
    obtain ⟨q, q1, q2, q3, -⟩ := l3 n (by omega)
    obtain ⟨_, rfl⟩ := List.getElem?_eq_some_iff.mp q1
    rw [q2.cps_len, q3, ← r2.degrees_eq]
    exact hk'
  · conv_lhs => rw [key]
    show (tab (size r.degrees) P)[k]? = _
    rw [List.getElem?_eq_getElem (by simpa using hk')]
    simp [P]

/-- C124. The control points of the sensitivities lie between 0 and 1, and at every index they add up to 1. -/
theorem C124_partition (cfg : Cfg) (hmax : cfg.maxBinom ≤ 68) (outer : Spline V) (inner : Spline W) (ho : outer.WF) (hi : inner.WF)
    (hdim : outer.degrees.length = Coords.n K W) (hcube : Spline.fitsIntoUnitCube K inner = .ok true)
    (hdeg : ∀ p ∈ outer.degrees, p < cfg.maxBinom) (hdeg' : ∀ q ∈ inner.degrees, outer.degrees.sum * q < cfg.maxBinom) :
    ∃ l, Spline.composeSensitivity K cfg outer inner = .ok l ∧ (∀ q ∈ l, ∀ x ∈ q.cps, 0 ≤ x ∧ x ≤ 1) ∧
      ∀ k < size (inner.degrees.map fun q => outer.degrees.sum * q), (l.map fun q => q.cps.getD k 0).sum = 1 := by
  obtain ⟨l, l1, l2, l3⟩ := C124_composition (K := K) cfg hmax outer inner ho hi hdim hcube hdeg hdeg'
  refine ⟨l, l1, fun q hq => ?_, fun k hk => ?_⟩
  · obtain ⟨n, hn, rfl⟩ := List.getElem_of_mem hq
    obtain ⟨e, he⟩ := UnitAt.ex (K := K) ho (n := n) (by omega)
    obtain ⟨q, q1, q2⟩ := l3 n e he
    obtain ⟨_, rfl⟩ := List.getElem?_eq_some_iff.mp q1
    obtain ⟨r, r1, r2⟩ := C73_compose (K := K) cfg hmax e inner he.wf hi (by unfold Spline.dim; rw [he.degrees]; exact hdim) hcube
      (by rw [he.degrees]; exact hdeg) (by rw [he.degrees]; exact hdeg') (Set.Icc 0 1) (convex_Icc 0 1) (by
        intro x hx
        rw [he.points] at hx
        rcases List.mem_or_eq_of_mem_set hx with h | rfl
        · rw [(List.mem_replicate.mp h).2]; exact ⟨le_rfl, zero_le_one⟩
        · exact ⟨zero_le_one, le_rfl⟩)
    cases q2.symm.trans r1
    exact r2
  · let u : Spline K := ⟨outer.degrees, outer.ncp, outer.offsets, List.replicate outer.ncp 1⟩
    have uw : u.WF := ⟨ho.dim_pos, ho.ncp_eq, ho.offsets_eq, by simp [u, ho.ncp_eq]⟩
    obtain ⟨r, m, r1, m1, h⟩ := C124_points (K := K) cfg hmax u inner uw hi hdim hcube hdeg hdeg'
    obtain ⟨r', r1', rw', rc⟩ := C123_compose_constant (K := K) cfg hmax u inner _ _ 1 uw (fun x hx => (List.mem_replicate.mp hx).2) hi.computes
      hdim hcube hdeg hdeg'
    cases r1.symm.trans r1'
    obtain ⟨r'', r1'', c⟩ := C26_compose (K := K) cfg hmax u inner _ _ _ _ uw.computes hi.computes hdim hcube hdeg hdeg'
    cases r1.symm.trans r1''
    have e : m = l := by
      have : Spline.composeSensitivity K cfg u inner = Spline.composeSensitivity K cfg outer inner := rfl
      rw [this, l1] at m1
      exact (Except.ok.inj m1).symm
    subst e
    have hk' := (h k (by rw [rw'.ncp_eq, c.degrees_eq]; exact hk)).2
    have h1 := rc _ (List.mem_of_getElem? hk')
    rw [← h1]
    congr 1
    apply List.ext_getElem
    · simp [u, l2]
    · intro i i1 i2
      simp [List.getElem_zipWith, u]

/-- C124. Splitting the sensitivities gives the sensitivities of the compositions with the parts of the inner spline. -/
theorem C124_split (cfg : Cfg) (hmax : cfg.maxBinom ≤ 68) (outer : Spline V) (inner : Spline W) (ho : outer.WF) (hi : inner.WF)
    (hdim : outer.degrees.length = Coords.n K W) (hcube : Spline.fitsIntoUnitCube K inner = .ok true)
    (hdeg : ∀ p ∈ outer.degrees, p < cfg.maxBinom) (hdeg' : ∀ q ∈ inner.degrees, outer.degrees.sum * q < cfg.maxBinom)
    (d : ℕ) (hd : d < inner.degrees.length) (z : K) (h0 : 0 < z) (h1 : z < 1) :
    ∃ i₁ i₂ l l₁ l₂, inner.splitAt z d = .ok (i₁, i₂) ∧ Spline.composeSensitivity K cfg outer inner = .ok l ∧
      Spline.composeSensitivity K cfg outer i₁ = .ok l₁ ∧ Spline.composeSensitivity K cfg outer i₂ = .ok l₂ ∧ l.length = outer.ncp ∧
      l₁.length = outer.ncp ∧ l₂.length = outer.ncp ∧ ∀ (n : ℕ) (q q₁ q₂ : Spline K), l[n]? = some q → l₁[n]? = some q₁ → l₂[n]? = some q₂ →
        q.splitAt z d = .ok (q₁, q₂) := by
  obtain ⟨i₁, i₂, e, c1, c2⟩ := C31_split inner _ _ (hi.computes (K := K)) d hd z h0 h1
  obtain ⟨i₁', i₂', e', f1, f2⟩ := C73_split_fits (K := K) inner hi hcube d hd z h0 h1
  cases e.symm.trans e'
  obtain ⟨l, a1, a2, a3⟩ := C124_composition (K := K) cfg hmax outer inner ho hi hdim hcube hdeg hdeg'
  obtain ⟨l₁, b1, b2, b3⟩ := C124_composition (K := K) cfg hmax outer i₁ ho c1.wf hdim f1 hdeg (by rw [c1.degrees_eq]; exact hdeg')
  obtain ⟨l₂, d1, d2, d3⟩ := C124_composition (K := K) cfg hmax outer i₂ ho c2.wf hdim f2 hdeg (by rw [c2.degrees_eq]; exact hdeg')
  refine ⟨i₁, i₂, l, l₁, l₂, e, a1, b1, d1, a2, b2, d2, fun n q q₁ q₂ hq hq₁ hq₂ => ?_⟩
  have hn : n < outer.ncp := by rw [← a2]; exact (List.getElem?_eq_some_iff.mp hq).1
  obtain ⟨u, hu⟩ := UnitAt.ex (K := K) ho hn
  obtain ⟨x, x1, x2⟩ := a3 n u hu
  obtain ⟨x₁, y1, y2⟩ := b3 n u hu
  obtain ⟨x₂, z1, z2⟩ := d3 n u hu
  cases hq.symm.trans x1
  cases hq₁.symm.trans y1
  cases hq₂.symm.trans z1
  obtain ⟨r, j₁, j₂, r₁, r₂, k1, k2, k3, k4, k5⟩ := C71_split_compose (K := K) cfg hmax u inner _ _ _ _ hu.wf.computes hi.computes
    (by rw [hu.degrees]; exact hdim) hcube (by rw [hu.degrees]; exact hdeg) (by rw [hu.degrees]; exact hdeg') d hd z h0 h1
  cases e.symm.trans k2
  cases x2.symm.trans k1
  cases y2.symm.trans k3
  cases z2.symm.trans k4
  exact k5

/-- C124. Reversing a dimension of the inner spline reverses it in every sensitivity. -/
theorem C124_reversed (d : ℕ) (cfg : Cfg) (hmax : cfg.maxBinom ≤ 68) (outer : Spline V) (inner inner' : Spline W) (ho : outer.WF)
    (hd : d < inner.degrees.length) (h : Mirrored d inner inner') (hdim : outer.degrees.length = Coords.n K W)
    (hcube : inner.fitsIntoUnitCube K = .ok true) (hdeg : ∀ p ∈ outer.degrees, p < cfg.maxBinom)
    (hdeg' : ∀ q ∈ inner.degrees, outer.degrees.sum * q < cfg.maxBinom) :
    ∃ l l', Spline.composeSensitivity K cfg outer inner = .ok l ∧ Spline.composeSensitivity K cfg outer inner' = .ok l' ∧
      List.Forall₂ (Mirrored d) l l' := by
  have hcube' : inner'.fitsIntoUnitCube K = .ok true := by
    obtain ⟨u, h1, h2⟩ := (C120_box (K := K) d inner inner' hd h).2.2
    rw [hcube] at h2
    cases h2
    exact h1
  obtain ⟨l, a1, a2, a3⟩ := C124_composition (K := K) cfg hmax outer inner ho h.wf hdim hcube hdeg hdeg'
  obtain ⟨l', b1, b2, b3⟩ := C124_composition (K := K) cfg hmax outer inner' ho h.wf' hdim hcube' hdeg (by rw [h.degrees]; exact hdeg')
  refine ⟨l, l', a1, b1, List.forall₂_iff_get.mpr ⟨a2.trans b2.symm, fun n g1 g2 => ?_⟩⟩
  obtain ⟨u, hu⟩ := UnitAt.ex (K := K) ho (n := n) (by omega)
  obtain ⟨x, x1, x2⟩ := a3 n u hu
  obtain ⟨y, y1, y2⟩ := b3 n u hu
  obtain ⟨_, rfl⟩ := List.getElem?_eq_some_iff.mp x1
  obtain ⟨_, rfl⟩ := List.getElem?_eq_some_iff.mp y1
  obtain ⟨r, r', k1, k2, k3⟩ := C120_compose_inner (K := K) d cfg hmax u inner inner' hu.wf hd h (by rw [hu.degrees]; exact hdim) hcube
    (by rw [hu.degrees]; exact hdeg) (by rw [hu.degrees]; exact hdeg')
  cases x2.symm.trans k1
  cases y2.symm.trans k2
  exact k3

/-- C124. Exchanging two dimensions of the inner spline exchanges them in every sensitivity. -/
theorem C124_exchanged (d : ℕ) (cfg : Cfg) (hmax : cfg.maxBinom ≤ 68) (outer : Spline V) (inner inner' : Spline W) (ho : outer.WF)
    (h : Exchanged d inner inner') (hdim : outer.degrees.length = Coords.n K W)
    (hcube : inner.fitsIntoUnitCube K = .ok true) (hdeg : ∀ p ∈ outer.degrees, p < cfg.maxBinom)
    (hdeg' : ∀ q ∈ inner.degrees, outer.degrees.sum * q < cfg.maxBinom) :
    ∃ l l', Spline.composeSensitivity K cfg outer inner = .ok l ∧ Spline.composeSensitivity K cfg outer inner' = .ok l' ∧
      List.Forall₂ (Exchanged d) l l' := by
  have hcube' : inner'.fitsIntoUnitCube K = .ok true := by
    obtain ⟨u, h1, h2⟩ := (C120_exchange_box (K := K) d inner inner' h).2.2
    rw [hcube] at h2
    cases h2
    exact h1
  obtain ⟨l, a1, a2, a3⟩ := C124_composition (K := K) cfg hmax outer inner ho h.wf hdim hcube hdeg hdeg'
  obtain ⟨l', b1, b2, b3⟩ := C124_composition (K := K) cfg hmax outer inner' ho h.wf' hdim hcube' hdeg
    (by rw [h.degrees]; exact fun q hq => hdeg' q ((swapAt_perm d _).mem_iff.mp hq))
  refine ⟨l, l', a1, b1, List.forall₂_iff_get.mpr ⟨a2.trans b2.symm, fun n g1 g2 => ?_⟩⟩
  obtain ⟨u, hu⟩ := UnitAt.ex (K := K) ho (n := n) (by omega)
  obtain ⟨x, x1, x2⟩ := a3 n u hu
  obtain ⟨y, y1, y2⟩ := b3 n u hu
  obtain ⟨_, rfl⟩ := List.getElem?_eq_some_iff.mp x1
  obtain ⟨_, rfl⟩ := List.getElem?_eq_some_iff.mp y1
  obtain ⟨r, r', k1, k2, k3⟩ := C120_exchange_compose_inner (K := K) d cfg hmax u inner inner' hu.wf h (by rw [hu.degrees]; exact hdim) hcube
    (by rw [hu.degrees]; exact hdeg) (by rw [hu.degrees]; exact hdeg')
  cases x2.symm.trans k1
  cases y2.symm.trans k2
  exact k3

section
variable [ScalarDiv K W] [LawfulScalarDiv K W]

/-- C124. Rational inner spline: sensitivity number `n` is, as an object, the composition of the spline of numbers that is 1 at control point
`n` of the outer spline and 0 at the others. -/
theorem C124_composition_rational (cfg : Cfg) (hmax : cfg.maxBinom ≤ 68) (outer : Spline V) (inner : RSpline K W) (dI : List ℕ) (G : List K → W)
    (w : List K → K) (ho : outer.WF) (hi : RParts inner dI G w) (hdim : outer.degrees.length = Coords.n K W)
    (hcube : inner.fitsIntoUnitCube = .ok true) (hf : ComposeFits cfg outer.degrees dI) :
    ∃ l, Spline.composeSensitivityRational cfg outer inner = .ok l ∧ l.length = outer.ncp ∧
      ∀ (n : ℕ) (e : Spline K), UnitAt n outer e → ∃ q, l[n]? = some q ∧ Spline.composeRational cfg e inner = .ok q := by
  have hc := RSpline.computes_of hi.1 hi.2
  have hq : 0 < dI.length := by rw [← hc.num_degrees]; exact hc.num_wf.dim_pos
  obtain ⟨l, l1, l2, l3⟩ := Spline.composeNumeratorSensitivity_ok (K := K) (s := outer) hmax ho hq
    (extract := fun d => inner.extractDimension d) (inverse := fun e => Spline.subOp K cfg inner.wt e)
    (x := fun d t => if h : d < Coords.n K W then coord (inner.num.value t) ⟨d, h⟩ else 0)
    (y := fun d t => if h : d < Coords.n K W then w t - coord (inner.num.value t) ⟨d, h⟩ else 0)
    (by
      intro d hd
      have hd' : d < Coords.n K W := by unfold Spline.dim at hd; omega
      simp only [hd', dif_pos]
      exact rational_ext hc hf.sub ⟨d, hd'⟩) hf.outer hf.deg
  obtain ⟨D, d1, d2⟩ := C22_raise_power cfg hmax inner.wt dI w hi.2 outer.degrees.sum hf.result
  obtain ⟨m, m1, m2, m3⟩ := loop_push (n := size outer.degrees)
    (f := fun i ret => do
      let n ← rd l i
      let q ← RSpline.ofSplines n D
      pure (ret ++ [q]))
    (P := fun n r => RParts r (dI.map fun q => outer.degrees.sum * q)
      (fun t => pw (Spline.hbFns outer.degrees (fun d => if h : d < Coords.n K W then coord (G t) ⟨d, h⟩ else 0)
        (fun d => if h : d < Coords.n K W then w t - coord (G t) ⟨d, h⟩ else 0)) (unflat outer.degrees n))
      (fun t => w t ^ outer.degrees.sum)) (by
      intro i hil
      obtain ⟨r, r1, r2⟩ := l3 i hil
      refine ⟨⟨r, D⟩, ⟨Spline.Computes.mk' r2.wf r2.deg fun t ht => ?_, d2⟩, ?_⟩
      · rw [r2.val t (by simpa using ht), hi.1.value_eq (by simpa using ht)]
      · intro ret
        rw [rd_ok r1]
        simp only [bind_ok]
        rw [RSpline.ofSplines_ok (by rw [r2.deg, d2.degrees_eq])]
        rfl)
  refine ⟨m, ?_, by rw [m2, ho.ncp_eq], fun n e he => ?_⟩
  · unfold Spline.composeSensitivityRational Spline.composeDenominator Spline.composeNumeratorSensitivityRational
    rw [hcube, hi.1.degrees_eq, l1, d1, ho.ncp_eq]
    exact m1
  · obtain ⟨r, r1, r2⟩ := m3 n (by rw [← ho.ncp_eq]; exact he.inside)
    obtain ⟨x, x1, x2⟩ := rparts_compose_inner (K := K) hmax he.wf.computes hi (by rw [he.degrees]; exact hdim) hcube
      (by rw [he.degrees]; exact hf)
    refine ⟨r, r1, ?_⟩
    rw [he.degrees] at x2
    rw [x1, rparts_unique x2 r2 (fun t _ => ?_) fun t _ => rfl]
    unfold homogAt
    rw [he.sum ho]

/-- C124. Rational inner spline with positive weights: splitting the sensitivities gives those of the compositions with its parts. -/
theorem C124_split_rational (cfg : Cfg) (hmax : cfg.maxBinom ≤ 68) (outer : Spline V) (inner : RSpline K W) (dI : List ℕ) (G : List K → W)
    (w : List K → K) (ho : outer.WF) (hi : RParts inner dI G w) (hdim : outer.degrees.length = Coords.n K W)
    (hpos : ∀ x ∈ inner.wt.cps, 0 < x) (hcube : inner.fitsIntoUnitCube = .ok true) (hf : ComposeFits cfg outer.degrees dI)
    (d : ℕ) (hd : d < dI.length) (z : K) (h0 : 0 < z) (h1 : z < 1) :
    ∃ i₁ i₂ l l₁ l₂, inner.splitAt z d = .ok (i₁, i₂) ∧ Spline.composeSensitivityRational cfg outer inner = .ok l ∧
      Spline.composeSensitivityRational cfg outer i₁ = .ok l₁ ∧ Spline.composeSensitivityRational cfg outer i₂ = .ok l₂ ∧
      l.length = outer.ncp ∧ l₁.length = outer.ncp ∧ l₂.length = outer.ncp ∧
      ∀ (n : ℕ) (q q₁ q₂ : RSpline K K), l[n]? = some q → l₁[n]? = some q₁ → l₂[n]? = some q₂ → q.splitAt z d = .ok (q₁, q₂) := by
  obtain ⟨i₁, i₂, e, c1, c2⟩ := rparts_split hi hd h0 h1
  obtain ⟨i₁', i₂', e', f1, f2⟩ := C73_rational_split_fits inner dI _ _ (RSpline.computes_of hi.1 hi.2) hpos hcube d hd z h0 h1
  cases e.symm.trans e'
  obtain ⟨l, a1, a2, a3⟩ := C124_composition_rational (K := K) cfg hmax outer inner _ _ _ ho hi hdim hcube hf
  obtain ⟨l₁, b1, b2, b3⟩ := C124_composition_rational (K := K) cfg hmax outer i₁ _ _ _ ho c1 hdim f1 hf
  obtain ⟨l₂, d1, d2, d3⟩ := C124_composition_rational (K := K) cfg hmax outer i₂ _ _ _ ho c2 hdim f2 hf
  refine ⟨i₁, i₂, l, l₁, l₂, e, a1, b1, d1, a2, b2, d2, fun n q q₁ q₂ hq hq₁ hq₂ => ?_⟩
  have hn : n < outer.ncp := by rw [← a2]; exact (List.getElem?_eq_some_iff.mp hq).1
  obtain ⟨u, hu⟩ := UnitAt.ex (K := K) ho hn
  obtain ⟨x, x1, x2⟩ := a3 n u hu
  obtain ⟨x₁, y1, y2⟩ := b3 n u hu
  obtain ⟨x₂, z1, z2⟩ := d3 n u hu
  cases hq.symm.trans x1
  cases hq₁.symm.trans y1
  cases hq₂.symm.trans z1
  obtain ⟨r, j₁, j₂, r₁, r₂, k1, k2, k3, k4, k5⟩ := C121_split_compose_inner (K := K) cfg hmax u inner _ _ _ _ _ hu.wf.computes hi
    (by rw [hu.degrees]; exact hdim) hpos hcube (by rw [hu.degrees]; exact hf) d hd z h0 h1
  cases e.symm.trans k2
  cases x2.symm.trans k1
  cases y2.symm.trans k3
  cases z2.symm.trans k4
  exact k5

/-- the list of rescaled sensitivities of a rational outer spline -/
theorem rescale_parts {outer : RSpline K V} {dO nd : List ℕ} (hw : outer.wt.WF) (hwd : outer.wt.degrees = dO) {l : List (Spline K)}
    (hl : l.length = size dO) {F : ℕ → List K → K} (h : ∀ n < size dO, ∃ r, l[n]? = some r ∧ r.Computes nd (F n)) {D : Spline K} {u : List K → K}
    (hD : D.Computes nd u) : ∃ m, outer.rescaleSensitivities l D = .ok m ∧ m.length = size dO ∧
      ∀ n < size dO, ∃ r, m[n]? = some r ∧ RParts r nd (fun t => outer.wt.cps.getD n 0 * F n t) u := by
  obtain ⟨m, m1, m2, m3⟩ := loop_push (n := l.length)
    (f := fun i ret => do
      let n ← rd l i
      let w ← rd outer.wt.cps i
      let n ← n.smulOp w
      let q ← RSpline.ofSplines n D
      pure (ret ++ [q]))
    (P := fun n r => RParts r nd (fun t => outer.wt.cps.getD n 0 * F n t) u) (by
      intro i hil
      rw [hl] at hil
      obtain ⟨r, r1, r2⟩ := h i hil
      obtain ⟨e, e1, e2⟩ := C20_scale (K := K) r _ _ r2 (outer.wt.cps.getD i 0)
      refine ⟨⟨e, D⟩, ⟨e2, hD⟩, ?_⟩
      intro ret
      rw [rd_ok r1]
      simp only [bind_ok]
      rw [rd_ok (x := outer.wt.cps.getD i 0) (by
        rw [List.getD_eq_getElem?_getD, List.getElem?_eq_getElem (by rw [hw.cps_len, hwd]; exact hil)]; rfl)]
      simp only [bind_ok]
      rw [e1]
      simp only [bind_ok]
      rw [RSpline.ofSplines_ok (by rw [e2.degrees_eq, hD.degrees_eq])]
      rfl)
  refine ⟨m, ?_, by rw [m2, hl], fun n hn => m3 n (by rw [hl]; exact hn)⟩
  unfold RSpline.rescaleSensitivities
  exact m1

theorem _root_.Bezman.Spec.RUnitAt.sum {r : RSpline K V} (hw : r.wt.WF) {n : ℕ} {e : RSpline K K} (h : RUnitAt n r e) (F : ℕ → K) :
    ∑ m ∈ range (size r.wt.degrees), F m • e.num.cps.getD m 0 = r.wt.cps.getD n 0 * F n := by
  have hn := h.inside
  rw [hw.ncp_eq] at hn
  have g : ∀ m < size r.wt.degrees, e.num.cps.getD m 0 = if m = n then r.wt.cps.getD n 0 else 0 := by
    intro m hm
    rw [h.points, List.getD_eq_getElem?_getD, List.getElem?_set, hw.ncp_eq]
    by_cases hmn : n = m
    · subst hmn; simp [hm]
    · simp [hmn, hm, Ne.symm hmn]
  rw [sum_eq_single_of_mem n (mem_range.mpr hn)]
  · rw [g n hn, if_pos rfl, smul_eq_mul, mul_comm]
  · intro m hm hmn
    rw [g m (mem_range.mp hm), if_neg hmn, smul_zero]

omit [ScalarDiv K W] [LawfulScalarDiv K W] in
/-- C124. Rational outer spline, polynomial inner spline: sensitivity number `n` is, as an object, the composition of the rational spline of
numbers that has the weights of the outer spline, is 1 at control point `n` and 0 at the others. -/
theorem C124_rational_composition (cfg : Cfg) (hmax : cfg.maxBinom ≤ 68) (outer : RSpline K V) (inner : Spline W) (dO : List ℕ) (N : List K → V)
    (v : List K → K) (ho : RParts outer dO N v) (hi : inner.WF) (hdim : dO.length = Coords.n K W)
    (hcube : Spline.fitsIntoUnitCube K inner = .ok true) (hdeg : ∀ p ∈ dO, p < cfg.maxBinom) (hdeg' : ∀ q ∈ inner.degrees, dO.sum * q < cfg.maxBinom) :
    ∃ l, RSpline.composeSensitivity cfg outer inner = .ok l ∧ l.length = outer.wt.ncp ∧
      ∀ (n : ℕ) (e : RSpline K K), RUnitAt n outer e → ∃ q, l[n]? = some q ∧ RSpline.compose cfg e inner = .ok q := by
  have hnd := ho.1.degrees_eq
  have hwd := ho.2.degrees_eq
  obtain ⟨b, h1, h2⟩ := Spline.fitsIntoUnitCube_ok (K := K) hi
  rw [hcube] at h1
  injection h1 with h1
  have hd : Spline.DegOk cfg (inner.degrees.map (dO.sum * ·)) := by
    intro p hp
    obtain ⟨q, hq, rfl⟩ := List.mem_map.mp hp
    exact hdeg' q hq
  obtain ⟨l, l1, l2, l3⟩ := Spline.composeSensitivity_ok (K := K) (s := outer.num) hmax ho.1.wf hi (by unfold Spline.dim; rw [hnd, hdim])
    (h2.mp h1.symm) (by rw [hnd]; exact hdeg) (by rw [hnd]; exact hd)
  rw [hnd] at l2 l3
  obtain ⟨D, d1, d2⟩ := C26_compose (K := K) cfg hmax outer.wt inner dO _ _ _ ho.2 hi.computes hdim hcube hdeg hdeg'
  obtain ⟨m, m1, m2, m3⟩ := rescale_parts (outer := outer) ho.2.wf hwd l2 (nd := inner.degrees.map fun q => dO.sum * q)
    (F := fun n t => pw (bernFns dO (coordList K (inner.value t))) (unflat dO n)) (fun n hn => by
      obtain ⟨r, r1, r2, r3, r4⟩ := l3 n hn
      exact ⟨r, r1, Spline.Computes.mk' r2 r3 fun t ht => r4 t (by unfold Spline.dim; simpa using ht)⟩) d2
  refine ⟨m, ?_, by rw [m2, ho.2.wf.ncp_eq, hwd], fun n e he => ?_⟩
  · unfold RSpline.composeSensitivity
    rw [l1, d1]
    exact m1
  · obtain ⟨r, r1, r2⟩ := m3 n (by rw [← hwd, ← ho.2.wf.ncp_eq]; exact he.inside)
    have ce := he.wf.computes (K := K)
    have hed : e.num.degrees = dO := he.degrees.trans hwd
    rw [hed] at ce
    have hp : RParts e dO (fun t : List K => e.num.value t) v := ⟨ce, by rw [he.weights]; exact ho.2⟩
    obtain ⟨x, x1, x2⟩ := rparts_compose hmax hp hi.computes hdim hcube hdeg hdeg'
    refine ⟨r, r1, ?_⟩
    rw [x1, rparts_unique x2 r2 (fun t _ => ?_) fun t _ => rfl]
    have hs := he.sum ho.2.wf fun m => pw (bernFns dO (coordList K (inner.value t))) (unflat dO m)
    rw [hwd] at hs
    rw [ce.sum_pw (by rw [coordList_length, hdim]), hs]

/-- C124. Rational outer and rational inner spline, weights of any sign. -/
theorem C124_rational_composition_rational (cfg : Cfg) (hmax : cfg.maxBinom ≤ 68) (outer : RSpline K V) (inner : RSpline K W) (dO dI : List ℕ)
    (N : List K → V) (v : List K → K) (G : List K → W) (w : List K → K) (ho : RParts outer dO N v) (hi : RParts inner dI G w)
    (hdim : dO.length = Coords.n K W) (hf : ComposeFits cfg dO dI) :
    ∃ l, RSpline.composeSensitivityRational cfg outer inner = .ok l ∧ l.length = outer.wt.ncp ∧
      ∀ (n : ℕ) (e : RSpline K K), RUnitAt n outer e → ∃ q, l[n]? = some q ∧ RSpline.composeRational cfg e inner = .ok q := by
  have hnd := ho.1.degrees_eq
  have hwd := ho.2.degrees_eq
  have hc := RSpline.computes_of hi.1 hi.2
  have hq : 0 < dI.length := by rw [← hc.num_degrees]; exact hc.num_wf.dim_pos
  obtain ⟨l, l1, l2, l3⟩ := Spline.composeNumeratorSensitivity_ok (K := K) (s := outer.num) hmax ho.1.wf hq
    (extract := fun d => inner.extractDimension d) (inverse := fun e => Spline.subOp K cfg inner.wt e)
    (x := fun d t => if h : d < Coords.n K W then coord (inner.num.value t) ⟨d, h⟩ else 0)
    (y := fun d t => if h : d < Coords.n K W then w t - coord (inner.num.value t) ⟨d, h⟩ else 0)
    (by
      intro d hd
      have hd' : d < Coords.n K W := by unfold Spline.dim at hd; rw [hnd] at hd; omega
      simp only [hd', dif_pos]
      exact rational_ext hc hf.sub ⟨d, hd'⟩) (by rw [hnd]; exact hf.outer) (by rw [hnd]; exact hf.deg)
  rw [hnd] at l2 l3
  obtain ⟨D, d1, d2⟩ := numer_compose hmax ho.2 hi hdim hf
  obtain ⟨m, m1, m2, m3⟩ := rescale_parts (outer := outer) ho.2.wf hwd l2 (nd := dI.map fun q => dO.sum * q)
    (F := fun n t => pw (Spline.hbFns dO (fun d => if h : d < Coords.n K W then coord (G t) ⟨d, h⟩ else 0)
        (fun d => if h : d < Coords.n K W then w t - coord (G t) ⟨d, h⟩ else 0)) (unflat dO n)) (fun n hn => by
      obtain ⟨r, r1, r2⟩ := l3 n hn
      refine ⟨r, r1, Spline.Computes.mk' r2.wf r2.deg fun t ht => ?_⟩
      rw [r2.val t (by simpa using ht), hi.1.value_eq (by simpa using ht)]) d2
  refine ⟨m, ?_, by rw [m2, ho.2.wf.ncp_eq, hwd], fun n e he => ?_⟩
  · unfold RSpline.composeSensitivityRational Spline.composeNumeratorSensitivityRational
    rw [hi.1.degrees_eq, l1, d1]
    exact m1
  · obtain ⟨r, r1, r2⟩ := m3 n (by rw [← hwd, ← ho.2.wf.ncp_eq]; exact he.inside)
    have ce := he.wf.computes (K := K)
    have hed : e.num.degrees = dO := he.degrees.trans hwd
    rw [hed] at ce
    have hp : RParts e dO (fun t : List K => e.num.value t) v := ⟨ce, by rw [he.weights]; exact ho.2⟩
    obtain ⟨x, x1, x2⟩ := rparts_compose_both hmax hp hi hdim hf
    refine ⟨r, r1, ?_⟩
    rw [x1, rparts_unique x2 r2 (fun t _ => ?_) fun t _ => by rw [he.weights]]
    have hs := he.sum ho.2.wf fun m => pw (Spline.hbFns dO (fun d => if h : d < Coords.n K W then coord (G t) ⟨d, h⟩ else 0)
        (fun d => if h : d < Coords.n K W then w t - coord (G t) ⟨d, h⟩ else 0)) (unflat dO m)
    rw [hwd] at hs
    unfold homogAt
    rw [hs]

end
end

/-! ## The hypotheses are met -/

section
/-- a surface inside the unit interval -/
def exIn : Spline ℚ := Ex.surf (0 : ℚ) 1 (1 / 2) 0 (1 / 3) 1

example := C124_composition (K := ℚ) Ex.cfg Ex.cfg_ok (Ex.curve (3 : ℚ) 1 4) exIn (Ex.curve_wf ..) (Ex.surf_wf ..) rfl (by decide +kernel)
  (by decide) (by decide)
/-- the second of the three control points -/
example : UnitAt 1 (Ex.curve (3 : ℚ) 1 4) (Ex.curve (0 : ℚ) 1 0) := ⟨by decide, Ex.curve_wf .., rfl, rfl⟩
example := C124_points (K := ℚ) Ex.cfg Ex.cfg_ok (Ex.curve (3 : ℚ) 1 4) exIn (Ex.curve_wf ..) (Ex.surf_wf ..) rfl (by decide +kernel)
  (by decide) (by decide)
example := C124_partition (K := ℚ) Ex.cfg Ex.cfg_ok (Ex.curve (3 : ℚ) 1 4) exIn (Ex.curve_wf ..) (Ex.surf_wf ..) rfl (by decide +kernel)
  (by decide) (by decide)
example := C124_split (K := ℚ) Ex.cfg Ex.cfg_ok (Ex.curve (3 : ℚ) 1 4) exIn (Ex.curve_wf ..) (Ex.surf_wf ..) rfl (by decide +kernel)
  (by decide) (by decide) 1 (by decide) (1 / 3) (by norm_num) (by norm_num)
example := C124_reversed (K := ℚ) 0 Ex.cfg Ex.cfg_ok (Ex.curve (3 : ℚ) 1 4) exIn _ (Ex.curve_wf ..) (by decide) (exMirror ..) rfl (by decide +kernel)
  (by decide) (by decide)
example := C124_exchanged (K := ℚ) 0 Ex.cfg Ex.cfg_ok (Ex.curve (3 : ℚ) 1 4) exIn _ (Ex.curve_wf ..) (exExchange ..) rfl (by decide +kernel)
  (by decide) (by decide)
example := C124_composition_rational (K := ℚ) Ex.cfg Ex.cfg_ok (Ex.curve (3 : ℚ) 1 4) _ _ _ _ (Ex.curve_wf ..) exInner rfl (by decide +kernel)
  ⟨by decide, by decide, by decide, by decide, by decide⟩
example := C124_split_rational (K := ℚ) Ex.cfg Ex.cfg_ok (Ex.curve (3 : ℚ) 1 4) _ _ _ _ (Ex.curve_wf ..) exInner rfl (by decide +kernel)
  (by decide +kernel) ⟨by decide, by decide, by decide, by decide, by decide⟩ 0 (by decide) (1 / 3) (by norm_num) (by norm_num)
example := C124_rational_composition (K := ℚ) Ex.cfg Ex.cfg_ok _ exIn _ _ _ (exCurveR 3 1 4 1 2 5) (Ex.surf_wf ..) rfl (by decide +kernel)
  (by decide) (by decide)
/-- the second control point, whose weight is 2 -/
example : RUnitAt 1 (⟨Ex.curve 3 1 4, Ex.curve 1 2 5⟩ : RSpline ℚ ℚ) ⟨Ex.curve 0 2 0, Ex.curve 1 2 5⟩ := ⟨by decide, Ex.curve_wf .., rfl, rfl, rfl⟩
example := C124_rational_composition_rational (K := ℚ) Ex.cfg Ex.cfg_ok _ _ _ _ _ _ _ _ (exCurveR 3 1 4 1 (-2) 5) exInner rfl
  ⟨by decide, by decide, by decide, by decide, by decide⟩
end

end Bezman.Props
