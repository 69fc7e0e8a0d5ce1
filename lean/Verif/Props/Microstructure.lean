import Verif.Proofs.Microstructure

/-! # Properties: the microstructure example

`realMath` are the exact functions of `<cmath>`; `1 / 2` and `-1` are the literals of the program. -/

namespace Bezman.Props
open Spec Microstructure

/-! ## C92: the ring -/

/-- C92. The ring consists of the requested number of segments.  Segment `i` is exactly circular: at `(x, y)` it has distance
`(1 - y) * outerR + y * innerR` from the centre, and its angle depends on `x` only and runs from the fraction `i / n` of the arc to
the fraction `(i + 1) / n`.  All weights are positive. -/
theorem C92_ring (innerR outerR arc : ℝ) (n : ℕ) (hn : 0 < n) (harc : |arc| < 2 * Real.pi * n) (hpi : |arc| ≠ Real.pi * n) :
    ∃ l, circleGroup realMath (1 / 2) (-1) innerR outerR n arc = .ok l ∧ l.length = n ∧ ∀ i, i < n → ∃ r, l[i]? = some r ∧
      ∃ f w angle, r.Computes [2, 1] f w ∧ RunsFromTo (i * arc / n) ((i + 1 : ℕ) * arc / n) angle ∧
        ∀ x y : ℝ, 0 < w [x, y] ∧ f [x, y] = polar ((1 - y) * outerR + y * innerR) (angle x) :=
  circleGroup_ok innerR outerR arc n hn harc hpi

/-- C92. Segments of exactly half a turn need a division by zero. -/
theorem C92_half_turn (innerR outerR : ℝ) (n : ℕ) (hn : 0 < n) :
    circleGroup realMath (1 / 2) (-1) innerR outerR n (Real.pi * n) = .error .divZero := by
  have hn' : (n:ℝ) ≠ 0 := by exact_mod_cast hn.ne'
  have d1 : divM (Real.pi * n) ((n : ℕ) : ℝ) = .ok Real.pi := by
    unfold divM
    rw [if_neg (by simpa using hn')]
    show Except.ok (Real.pi * n / n) = _
    rw [mul_div_assoc, div_self hn', mul_one]
  unfold circleGroup
  simp only [realMath, d1, bind_ok, Real.arccos_neg_one]
  rw [sub_self, Real.sin_zero]
  unfold divM
  rw [if_pos (by simp)]
  rfl

theorem polar_eval {r : RSpline ℝ (Point ℝ 2)} {ds : List ℕ} {f w} (h : r.Computes ds f w) {t : List ℝ} (ht : t.length = ds.length) (hw : 0 < w t) :
    r.evaluate t = .ok (f t) := h.eval t ht hw.ne'

/-- C92. The segments cover exactly the part of the ring between the radii and between angle 0 and the arc. -/
theorem C92_covers (innerR outerR arc : ℝ) (n : ℕ) (hn : 0 < n) (h0 : 0 < arc) (harc : arc < 2 * Real.pi * n) (hpi : arc ≠ Real.pi * n)
    (hR : innerR < outerR) :
    ∃ l, circleGroup realMath (1 / 2) (-1) innerR outerR n arc = .ok l ∧ ∀ p : Point ℝ 2,
      (∃ r ∈ l, ∃ x ∈ Set.Icc (0:ℝ) 1, ∃ y ∈ Set.Icc (0:ℝ) 1, r.evaluate [x, y] = .ok p) ↔
        ∃ ρ ∈ Set.Icc innerR outerR, ∃ θ ∈ Set.Icc 0 arc, p = polar ρ θ := by
  obtain ⟨l, h1, h2, h3⟩ := C92_ring innerR outerR arc n hn (by rwa [abs_of_pos h0]) (by rwa [abs_of_pos h0])
  have hn' : (0:ℝ) < n := by exact_mod_cast hn
  refine ⟨l, h1, fun p => ⟨?_, ?_⟩⟩
  · rintro ⟨r, hr, x, hx, y, hy, e⟩
    obtain ⟨i, hi, rfl⟩ := List.mem_iff_getElem.mp hr
    obtain ⟨r', e1, f, w, angle, c1, c2, c3⟩ := h3 i (by omega)
    rw [List.getElem?_eq_getElem hi] at e1
    obtain rfl := Option.some.inj e1
    obtain ⟨w1, v1⟩ := c3 x y
    rw [polar_eval c1 rfl w1, v1] at e
    have e := Except.ok.inj e
    have hin : (i:ℝ) + 1 ≤ n := by
      have : i + 1 ≤ n := by omega
      exact_mod_cast this
    have hlt : (i * arc / n : ℝ) < ((i + 1 : ℕ) * arc / n : ℝ) := by
      rw [div_lt_div_iff_of_pos_right hn']; push_cast; nlinarith
    have hm := (c2.increasing hlt).monotone
    refine ⟨_, ⟨?_, ?_⟩, angle x, ⟨?_, ?_⟩, e.symm⟩
    · nlinarith [hy.1, hy.2]
    · nlinarith [hy.1, hy.2]
    · calc (0:ℝ) ≤ i * arc / n := by positivity
        _ = angle 0 := c2.start.symm
        _ ≤ angle x := hm hx.1
    · calc angle x ≤ angle 1 := hm hx.2
        _ = (i + 1 : ℕ) * arc / n := c2.stop
        _ ≤ arc := by rw [div_le_iff₀ hn']; push_cast; nlinarith
  · rintro ⟨ρ, hρ, θ, hθ, rfl⟩
    obtain ⟨i, hi, hi1, hi2⟩ : ∃ i, i < n ∧ (i * arc / n : ℝ) ≤ θ ∧ θ ≤ (i + 1 : ℕ) * arc / n := by
      by_cases hlast : θ = arc
      · refine ⟨n - 1, by omega, ?_, ?_⟩
        · rw [hlast, div_le_iff₀ hn']
          have : ((n - 1 : ℕ) : ℝ) ≤ n := by exact_mod_cast Nat.sub_le n 1
          nlinarith
        · rw [hlast, Nat.sub_add_cancel hn, le_div_iff₀ hn', mul_comm]
      · have hθ' : θ < arc := lt_of_le_of_ne hθ.2 hlast
        have hq : 0 ≤ θ * n / arc := by have := hθ.1; positivity
        refine ⟨⌊θ * n / arc⌋₊, ?_, ?_, ?_⟩
        · rw [Nat.floor_lt hq, div_lt_iff₀ h0]; nlinarith
        · have := Nat.floor_le hq
          rw [le_div_iff₀ h0] at this
          rw [div_le_iff₀ hn']; exact this
        · have := Nat.lt_floor_add_one (θ * n / arc)
          rw [div_lt_iff₀ h0] at this
          rw [le_div_iff₀ hn']; push_cast; exact this.le
    obtain ⟨r, e1, f, w, angle, c1, c2, c3⟩ := h3 i hi
    obtain ⟨x, hx, hxθ⟩ : θ ∈ angle '' Set.Icc 0 1 :=
      intermediate_value_Icc zero_le_one c2.continuous.continuousOn ⟨by rw [c2.start]; exact hi1, by rw [c2.stop]; exact hi2⟩
    have hd : 0 < outerR - innerR := by linarith
    refine ⟨r, List.mem_of_getElem? e1, x, hx, (outerR - ρ) / (outerR - innerR), ⟨div_nonneg (by linarith [hρ.2]) hd.le, ?_⟩, ?_⟩
    · rw [div_le_one hd]; linarith [hρ.1]
    · obtain ⟨w1, v1⟩ := c3 x ((outerR - ρ) / (outerR - innerR))
      rw [polar_eval c1 rfl w1, v1, hxθ]
      congr 2
      field_simp
      ring

/-- C92. In any arithmetic in which natural numbers are counted exactly, neighbouring segments have identical weighted control points
and weights on their common face. -/
theorem C92_joined {K : Type} [Zero K] [One K] [Add K] [Sub K] [Mul K] [Div K] [NatCast K] [BEq K] (m : Libm K)
    (half minusOne innerR outerR arc : K) (n : ℕ) (l : List (RSpline K (Point K 2)))
    (h : circleGroup m half minusOne innerR outerR n arc = .ok l) (i : ℕ) (hcount : (i : K) + 1 = ((i + 1 : ℕ) : K))
    (a b : RSpline K (Point K 2)) (ha : l[i]? = some a) (hb : l[i + 1]? = some b) : RGlued 0 true false a b := by
  obtain ⟨h1, δ, c, mid, h2⟩ := circleGroup_any h
  have hi := (List.getElem?_eq_some_iff.mp hb).1
  rw [h2 i (by omega), hcount] at ha
  rw [h2 (i + 1) (by omega)] at hb
  obtain rfl := Option.some.inj ha
  obtain rfl := Option.some.inj hb
  constructor
  · refine ⟨⟨by simp [Spline.dim], rfl, rfl, rfl⟩, ⟨by simp [Spline.dim], rfl, rfl, rfl⟩, 2, 2, rfl, rfl, ?_⟩
    intro idx hidx
    cases hidx with
    | cons q1 hidx =>
      cases hidx with
      | cons q2 hidx =>
        cases hidx
        rename_i u v
        interval_cases v <;> exact ⟨_, rfl, rfl⟩
  · refine ⟨⟨by simp [Spline.dim], rfl, rfl, rfl⟩, ⟨by simp [Spline.dim], rfl, rfl, rfl⟩, 2, 2, rfl, rfl, ?_⟩
    intro idx hidx
    cases hidx with
    | cons q1 hidx =>
      cases hidx with
      | cons q2 hidx =>
        cases hidx
        rename_i u v
        interval_cases v <;> exact ⟨_, rfl, rfl⟩

/-- C92. A full circle is closed: the last segment ends where the first begins. -/
theorem C92_closed (innerR outerR : ℝ) (n : ℕ) (hn : 3 ≤ n) :
    ∃ l a b, circleGroup realMath (1 / 2) (-1) innerR outerR n (2 * Real.pi) = .ok l ∧ l[0]? = some a ∧ l[n - 1]? = some b ∧
      ∀ y : ℝ, ∃ p, a.evaluate [0, y] = .ok p ∧ b.evaluate [1, y] = .ok p := by
  have hpi := Real.pi_pos
  have hn' : (3:ℝ) ≤ n := by exact_mod_cast hn
  have h0 : (0:ℝ) < 2 * Real.pi := by positivity
  obtain ⟨l, h1, h2, h3⟩ := C92_ring innerR outerR (2 * Real.pi) n (by omega) (by rw [abs_of_pos h0]; nlinarith)
    (by rw [abs_of_pos h0]; nlinarith)
  obtain ⟨a, a1, f, w, angle, a2, a3, a4⟩ := h3 0 (by omega)
  obtain ⟨b, b1, f', w', angle', b2, b3, b4⟩ := h3 (n - 1) (by omega)
  refine ⟨l, a, b, h1, a1, b1, fun y => ?_⟩
  obtain ⟨w1, v1⟩ := a4 0 y
  obtain ⟨w2, v2⟩ := b4 1 y
  refine ⟨_, polar_eval a2 rfl w1, ?_⟩
  rw [polar_eval b2 rfl w2, v1, v2, a3.start, b3.stop, Nat.sub_add_cancel (by omega)]
  rw [show (n:ℝ) * (2 * Real.pi) / n = 2 * Real.pi by field_simp]
  simp [polar]

/-! ## C93: the microstructure -/

/-- C93. The program makes five patches per segment of the ring, in the order center, left, right, down, up.  Each of them is the
rectangle of the cross tile, laid into the segment: exactly, with positive weights. -/
theorem C93_microstructure (cfg : Cfg) (hc : cfg.maxBinom ≤ 68) (hd : 3 < cfg.maxBinom) (hfu : 2 ≤ cfg.fuel) (innerR outerR arc thickness : ℝ)
    (n : ℕ) (hn : 0 < n) (harc : |arc| < 2 * Real.pi * n) (hpi : |arc| ≠ Real.pi * n) (hth : |thickness| ≤ 1) :
    ∃ l, main realMath (1 / 2) (-1) cfg innerR outerR n arc thickness = .ok l ∧ l.length = 5 * n ∧
      ∀ i, i < n → ∃ angle, RunsFromTo (i * arc / n) ((i + 1 : ℕ) * arc / n) angle ∧
        ∀ (j : ℕ) a b c d, (crossTile thickness)[j]? = some (a, b, c, d) → ∃ r, l[5 * i + j]? = some r ∧ ∃ f w, r.Computes [3, 3] f w ∧
          ∀ x y : ℝ, 0 < w [x, y] ∧
            f [x, y] = polar ((1 - ((1 - y) * c + y * d)) * outerR + ((1 - y) * c + y * d) * innerR) (angle ((1 - x) * a + x * b)) :=
  main_ok hc hd hfu innerR outerR arc thickness n hn harc hpi (abs_le.mp hth).1 (abs_le.mp hth).2

/-- C93. Thicker tiles are rejected. -/
theorem C93_too_thick (cfg : Cfg) (innerR outerR arc thickness : ℝ) (n : ℕ) (hn : 0 < n) (harc : |arc| < 2 * Real.pi * n)
    (hpi : |arc| ≠ Real.pi * n) (hth : 1 < |thickness|) :
    main realMath (1 / 2) (-1) cfg innerR outerR n arc thickness = .error .throws := by
  obtain ⟨l, h1, h2, h3⟩ := C92_ring innerR outerR arc n hn harc hpi
  obtain ⟨r, l', rfl⟩ : ∃ r l', l = r :: l' := by
    cases l with
    | nil => simp at h2; omega
    | cons r l' => exact ⟨r, l', rfl⟩
  have hq : Spline.fitsIntoUnitCube ℝ (quad (1 / 2 - 1 / 2 * thickness) (1 / 2 + 1 / 2 * thickness) (1 / 2 - 1 / 2 * thickness)
      (1 / 2 + 1 / 2 * thickness)) = .ok false := by
    obtain ⟨v, v1, v2⟩ := C25_fits_iff (K := ℝ) _ (quad_wf (1 / 2 - 1 / 2 * thickness) (1 / 2 + 1 / 2 * thickness) (1 / 2 - 1 / 2 * thickness)
      (1 / 2 + 1 / 2 * thickness))
    rw [v1]
    cases v with
    | false => rfl
    | true =>
      exfalso
      have w1 := v2.mp rfl _ (List.mem_cons_self) (0 : Fin 2)
      rcases lt_abs.mp hth with h | h
      · have := w1.1
        change 0 ≤ 1 / 2 - 1 / 2 * thickness at this
        linarith
      · have := w1.2
        change 1 / 2 - 1 / 2 * thickness ≤ 1 at this
        linarith
  unfold main
  rw [simpleCrossTile_ok, bind_ok, h1, bind_ok]
  unfold composeAll tiles
  rw [List.foldlM_cons, List.foldlM_cons, C29_compose_throws cfg r _ (quad_wf ..) hq]
  rfl

/-- C93. In any arithmetic, the center patch in each segment and its four neighbours have identical weighted control points and
weights on their common faces. -/
theorem C93_glued {K : Type} [Zero K] [One K] [Add K] [Sub K] [Mul K] [Neg K] [Div K] [NatCast K] [BEq K] [LT K] [DecidableLT K]
    (m : Libm K) (half minusOne : K) (cfg : Cfg) (hc : cfg.maxBinom ≤ 68) (hd : 3 < cfg.maxBinom) (innerR outerR arc thickness : K) (n : ℕ)
    (l : List (RSpline K (Point K 2))) (h : main m half minusOne cfg innerR outerR n arc thickness = .ok l) :
    l.length = 5 * n ∧ ∀ i, i < n → ∃ center left right down up,
      l[5 * i]? = some center ∧ l[5 * i + 1]? = some left ∧ l[5 * i + 2]? = some right ∧ l[5 * i + 3]? = some down ∧ l[5 * i + 4]? = some up ∧
      RGlued 0 true false left center ∧ RGlued 0 true false center right ∧
      RGlued 1 true false down center ∧ RGlued 1 true false center up := by
  unfold main at h
  rw [simpleCrossTile_ok, bind_ok, bind_eq_ok] at h
  obtain ⟨ring, h1, h2⟩ := h
  obtain ⟨qss, rfl, hq⟩ := (foldlM_nested_iff _ _ _ _ _).mp h2
  obtain ⟨r1, δ, c, mid, r2⟩ := circleGroup_any h1
  have h5 : ∀ qs ∈ qss, qs.length = 5 := by
    intro qs hqs
    obtain ⟨i, hi, rfl⟩ := List.mem_iff_getElem.mp hqs
    have := (List.forall₂_iff_get.mp hq).2 i (by rw [hq.length_eq]; exact hi) hi
    have := this.length_eq
    simpa [tiles] using this.symm
  rw [List.nil_append]
  refine ⟨by rw [flatten_length_const h5, ← hq.length_eq, r1], fun i hi => ?_⟩
  obtain ⟨seg, hseg, n1, n2, d1, d2⟩ : ∃ seg, ring[i]? = some seg ∧ seg.num.WF ∧ seg.wt.WF ∧ seg.num.degrees = [2, 1] ∧ seg.wt.degrees = [2, 1] :=
    ⟨_, r2 i hi, ⟨by simp [Spline.dim], rfl, rfl, rfl⟩, ⟨by simp [Spline.dim], rfl, rfl, rfl⟩, rfl, rfl⟩
  obtain ⟨qs, q1, q2⟩ := forall₂_getElem? hq hseg
  have get : ∀ j, j < 5 → qss.flatten[5 * i + j]? = qs[j]? := fun j hj => flatten_getElem? h5 q1 hj
  unfold tiles at q2
  simp only [List.forall₂_cons_left_iff, List.forall₂_nil_left_iff] at q2
  obtain ⟨x0, _, c0, ⟨x1, _, c1, ⟨x2, _, c2, ⟨x3, _, c3, ⟨x4, _, c4, rfl, rfl⟩, rfl⟩, rfl⟩, rfl⟩, rfl⟩ := q2
  have hdeg : Spline.DegOk cfg (List.map (seg.num.degrees.sum * ·) [1, 1]) := by
    intro p hp; rw [d1] at hp; simp at hp; omega
  have key : ∀ {d : ℕ} {sa sb : Bool} {a b : Spline (Point K 2)} {ra rb : RSpline K (Point K 2)}, Glued d sa sb a b →
      a.degrees = [1, 1] → b.degrees = [1, 1] → RSpline.compose cfg seg a = .ok ra → RSpline.compose cfg seg b = .ok rb →
      RGlued d sa sb ra rb := fun hg ha hb => rglued_compose hc n1 n2 (by rw [d1, d2]) hg (by rw [d1]; rfl)
        (by rw [ha]; exact hdeg) (by rw [hb]; exact hdeg)
  refine ⟨x0, x1, x2, x3, x4, get 0 (by omega), get 1 (by omega), get 2 (by omega), get 3 (by omega), get 4 (by omega), ?_, ?_, ?_, ?_⟩
  · exact key (quad_glued0 _ _ _ _ _) rfl rfl c1 c0
  · exact key (quad_glued0 _ _ _ _ _) rfl rfl c0 c2
  · exact key (quad_glued1 _ _ _ _ _) rfl rfl c3 c0
  · exact key (quad_glued1 _ _ _ _ _) rfl rfl c0 c4

/-- C93. With exact arithmetic the arms of neighbouring segments meet, and those of the last and the first segment of a full circle. -/
theorem C93_arms_meet (cfg : Cfg) (hc : cfg.maxBinom ≤ 68) (hd : 3 < cfg.maxBinom) (hfu : 2 ≤ cfg.fuel) (innerR outerR arc thickness : ℝ)
    (n : ℕ) (hn : 0 < n) (harc : |arc| < 2 * Real.pi * n) (hpi : |arc| ≠ Real.pi * n) (hth : |thickness| ≤ 1) :
    ∃ l, main realMath (1 / 2) (-1) cfg innerR outerR n arc thickness = .ok l ∧
      (∀ i, i + 1 < n → ∃ right left, l[5 * i + 2]? = some right ∧ l[5 * (i + 1) + 1]? = some left ∧
        ∀ y : ℝ, ∃ p, right.evaluate [1, y] = .ok p ∧ left.evaluate [0, y] = .ok p) ∧
      (arc = 2 * Real.pi → ∃ right left, l[5 * (n - 1) + 2]? = some right ∧ l[1]? = some left ∧
        ∀ y : ℝ, ∃ p, right.evaluate [1, y] = .ok p ∧ left.evaluate [0, y] = .ok p) := by
  obtain ⟨l, h1, h2, h3⟩ := C93_microstructure cfg hc hd hfu innerR outerR arc thickness n hn harc hpi hth
  have hn' : (n:ℝ) ≠ 0 := by exact_mod_cast hn.ne'
  have key : ∀ i j, i < n → j < n → (∀ R, polar R ((i + 1 : ℕ) * arc / n) = polar R (j * arc / n)) →
      ∃ right left, l[5 * i + 2]? = some right ∧ l[5 * j + 1]? = some left ∧
        ∀ y : ℝ, ∃ p, right.evaluate [1, y] = .ok p ∧ left.evaluate [0, y] = .ok p := by
    intro i j hi hj hang
    obtain ⟨angle, a1, a2⟩ := h3 i hi
    obtain ⟨angle', b1, b2⟩ := h3 j hj
    obtain ⟨r, r1, f, w, r2, r3⟩ := a2 2 _ _ _ _ rfl
    obtain ⟨r', r1', f', w', r2', r3'⟩ := b2 1 _ _ _ _ rfl
    refine ⟨r, r', r1, r1', fun y => ?_⟩
    obtain ⟨w1, v1⟩ := r3 1 y
    obtain ⟨w2, v2⟩ := r3' 0 y
    refine ⟨_, polar_eval r2 rfl w1, ?_⟩
    rw [polar_eval r2' rfl w2, v1, v2]
    congr 1
    rw [show (1 - (1:ℝ)) * ((1 + thickness) / 2) + 1 * 1 = 1 by ring, show (1 - (0:ℝ)) * 0 + 0 * ((1 - thickness) / 2) = 0 by ring,
      a1.stop, b1.start]
    exact (hang _).symm
  refine ⟨l, h1, fun i hi => key i (i + 1) (by omega) hi fun R => rfl, fun e => ?_⟩
  have := key (n - 1) 0 (by omega) hn (fun R => by
    subst e
    rw [Nat.sub_add_cancel hn, show (n:ℝ) * (2 * Real.pi) / n = 2 * Real.pi by field_simp]
    simp [polar])
  exact this

/-! ## The values of the program -/

/-- the constants of `main`: 4 segments, radii 1 and 2, the full circle, thickness 0.3 -/
theorem program_arc : |2 * Real.pi| < 2 * Real.pi * (4 : ℕ) ∧ |2 * Real.pi| ≠ Real.pi * (4 : ℕ) := by
  have := Real.pi_pos
  rw [abs_of_pos (by positivity)]
  constructor
  · push_cast; linarith
  · push_cast; intro h; linarith

example : ∃ l, main realMath (1 / 2) (-1) ⟨30, 30⟩ 1 2 4 (2 * Real.arccos (-1)) (3 / 10) = .ok l ∧ l.length = 20 ∧
    (∃ right left, l[17]? = some right ∧ l[1]? = some left ∧
        ∀ y : ℝ, ∃ p, right.evaluate [1, y] = .ok p ∧ left.evaluate [0, y] = .ok p) := by
  rw [Real.arccos_neg_one]
  obtain ⟨l, h1, h2, -⟩ := C93_microstructure ⟨30, 30⟩ (by decide) (by decide) (by decide) 1 2 (2 * Real.pi) (3 / 10) 4 (by decide)
    program_arc.1 program_arc.2 (by rw [abs_of_pos] <;> norm_num)
  obtain ⟨l', h1', -, h3⟩ := C93_arms_meet ⟨30, 30⟩ (by decide) (by decide) (by decide) 1 2 (2 * Real.pi) (3 / 10) 4 (by decide)
    program_arc.1 program_arc.2 (by rw [abs_of_pos] <;> norm_num)
  rw [h1] at h1'
  cases h1'
  exact ⟨l, h1, h2, h3 rfl⟩

example : ∃ l center left, main realMath (1 / 2) (-1) ⟨30, 30⟩ 1 2 4 (2 * Real.pi) (3 / 10) = .ok l ∧ l[15]? = some center ∧
    l[16]? = some left ∧ RGlued 0 true false left center := by
  obtain ⟨l, h1, -⟩ := C93_microstructure ⟨30, 30⟩ (by decide) (by decide) (by decide) 1 2 (2 * Real.pi) (3 / 10) 4 (by decide)
    program_arc.1 program_arc.2 (by rw [abs_of_pos] <;> norm_num)
  obtain ⟨-, h2⟩ := C93_glued realMath (1 / 2) (-1) ⟨30, 30⟩ (by decide) (by decide) 1 2 (2 * Real.pi) (3 / 10) 4 l h1
  obtain ⟨center, left, _, _, _, a1, a2, _, _, _, a3, _⟩ := h2 3 (by decide)
  exact ⟨l, center, left, h1, a1, a2, a3⟩

example : ∃ l a b, circleGroup realMath (1 / 2) (-1) 1 2 4 (2 * Real.pi) = .ok l ∧ l[2]? = some a ∧ l[3]? = some b ∧
    RGlued 0 true false a b := by
  obtain ⟨l, h1, -, h2⟩ := C92_ring 1 2 (2 * Real.pi) 4 (by decide) program_arc.1 program_arc.2
  obtain ⟨a, a1, -⟩ := h2 2 (by decide)
  obtain ⟨b, b1, -⟩ := h2 3 (by decide)
  exact ⟨l, a, b, h1, a1, b1, C92_joined realMath _ _ _ _ _ 4 l h1 2 (by norm_num) a b a1 b1⟩

example : main realMath (1 / 2) (-1) ⟨30, 30⟩ 1 2 4 (2 * Real.pi) (3 / 2) = .error .throws :=
  C93_too_thick ⟨30, 30⟩ 1 2 (2 * Real.pi) (3 / 2) 4 (by decide) program_arc.1 program_arc.2 (by rw [abs_of_pos] <;> norm_num)

example : ∃ l, circleGroup realMath (1 / 2) (-1) 1 2 4 (2 * Real.pi) = .ok l ∧ ∀ p : Point ℝ 2,
      (∃ r ∈ l, ∃ x ∈ Set.Icc (0:ℝ) 1, ∃ y ∈ Set.Icc (0:ℝ) 1, r.evaluate [x, y] = .ok p) ↔
        ∃ ρ ∈ Set.Icc (1:ℝ) 2, ∃ θ ∈ Set.Icc 0 (2 * Real.pi), p = polar ρ θ :=
  C92_covers 1 2 (2 * Real.pi) 4 (by decide) (by positivity) (by have := Real.pi_pos; push_cast; linarith)
    (by have := Real.pi_pos; push_cast; intro h; linarith) (by norm_num)

end Bezman.Props
