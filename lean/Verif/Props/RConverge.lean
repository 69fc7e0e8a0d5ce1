import Verif.Spec.RConverge
import Verif.Props.Bend
import Verif.Props.Homogeneous
import Verif.Props.Positive
import Verif.Props.Variation

/-! # Properties: the control points of rational splines converge to the geometry -/

namespace Bezman.Props
open Spec Finset
variable {K V : Type} [Field K] [LinearOrder K] [IsStrictOrderedRing K] [AddCommGroup V] [Module K V] {N : V → K}

/-- the control points of the parts stay in every convex set that contains those of the spline -/
theorem part_hull {s : Spline V} (hs : s.WF) {C : Set V} (hC : Convex K C) (hc : ∀ x ∈ s.cps, x ∈ C) {box : List (K × K)} {a : Spline V}
    (h : PartOf s box a) : ∀ x ∈ a.cps, x ∈ C := by
  induction h with
  | whole => exact hc
  | @left box a l r d z h hd e ih =>
    obtain ⟨hl, hb, hok, f, ca⟩ := part_len hs h
    by_cases hz : 0 < z ∧ z < 1
    · obtain ⟨l', r', e', cl, cr⟩ := C73_split a ca.wf C hC ih d (by rw [← hl] at hd; exact hd) z hz.1 hz.2
      rw [e] at e'
      obtain ⟨rfl, rfl⟩ : l = l' ∧ r = r' := by simpa using Except.ok.inj e'
      exact cl
    · rw [C31_split_throws a d z hz] at e; cases e
  | @right box a l r d z h hd e ih =>
    obtain ⟨hl, hb, hok, f, ca⟩ := part_len hs h
    by_cases hz : 0 < z ∧ z < 1
    · obtain ⟨l', r', e', cl, cr⟩ := C73_split a ca.wf C hC ih d (by rw [← hl] at hd; exact hd) z hz.1 hz.2
      rw [e] at e'
      obtain ⟨rfl, rfl⟩ : l = l' ∧ r = r' := by simpa using Except.ok.inj e'
      exact cr
    · rw [C31_split_throws a d z hz] at e; cases e
  | @many box a l d r zs i u v h hd e hi hu hv ih =>
    obtain ⟨hl, hb, hok, f, ca⟩ := part_len hs h
    by_cases hz : zs.Pairwise (· < ·) ∧ ∀ z ∈ zs, 0 < z ∧ z < 1
    · obtain ⟨l', e', hls⟩ := C73_split_many a ca.wf C hC ih d (by rw [← hl] at hd; exact hd) zs hz.1 hz.2
      rw [e] at e'
      obtain rfl := Except.ok.inj e'
      exact hls r (List.mem_of_getElem? hi)
    · rw [C33_split_many_throws a ca.wf d (by rw [hl]; exact hd) zs hz] at e; cases e
  | @elevate box a d r h hd e hsz ih =>
    obtain ⟨hl, hb, hok, f, ca⟩ := part_len hs h
    have hd' : d < a.degrees.length := by rw [hl]; exact hd
    have hp := List.getElem?_eq_getElem hd'
    have hm : a.degrees.modify d (· + 1) = a.degrees.set d (a.degrees[d] + 1) := by
      rw [List.modify_eq_set_getElem?, hp]; rfl
    obtain ⟨r', e', cr⟩ := C73_order_elevate a _ ca.wf rfl C hC ih d _ hp (by rw [← hm]; exact hsz)
    rw [e] at e'
    obtain rfl := Except.ok.inj e'
    exact cr

/-- the parts of a rational spline are the parts of the polynomial spline with its homogeneous control points -/
theorem rpart_hom {H : Spline (V × K)} {box : List (K × K)} {a : RSpline K V} (h : RPartOf (RSpline.ofHom H) box a) :
    ∃ A, a = RSpline.ofHom A ∧ PartOf H box A := by
  induction h with
  | whole => exact ⟨H, rfl, .whole⟩
  | @left box a b c d z h hd e ih =>
    obtain ⟨A, rfl, hA⟩ := ih
    rw [RSpline.splitAt_hom] at e
    cases e' : A.splitAt z d with
    | error x => rw [e'] at e; cases e
    | ok l =>
      rw [e'] at e
      obtain ⟨rfl, rfl⟩ := Prod.mk.inj (Except.ok.inj e)
      exact ⟨l.1, rfl, .left hA hd e'⟩
  | @right box a b c d z h hd e ih =>
    obtain ⟨A, rfl, hA⟩ := ih
    rw [RSpline.splitAt_hom] at e
    cases e' : A.splitAt z d with
    | error x => rw [e'] at e; cases e
    | ok l =>
      rw [e'] at e
      obtain ⟨rfl, rfl⟩ := Prod.mk.inj (Except.ok.inj e)
      exact ⟨l.2, rfl, .right hA hd e'⟩
  | @many box a l d b zs i u v h hd e hi hu hv ih =>
    obtain ⟨A, rfl, hA⟩ := ih
    rw [RSpline.splitAtMany_hom] at e
    cases e' : A.splitAtMany zs d with
    | error x => rw [e'] at e; cases e
    | ok m =>
      rw [e'] at e
      obtain rfl := Except.ok.inj e
      rw [List.getElem?_map] at hi
      obtain ⟨B, hB, rfl⟩ := Option.map_eq_some_iff.mp hi
      exact ⟨B, rfl, .many hA hd e' hB hu hv⟩
  | @elevate box a d b h hd e hsz ih =>
    obtain ⟨A, rfl, hA⟩ := ih
    rw [(C85_operations ⟨0, 0⟩ A).1] at e
    cases e' : Spline.orderElevate K A d with
    | error x => rw [e'] at e; cases e
    | ok m =>
      rw [e'] at e
      obtain rfl := Except.ok.inj e
      exact ⟨m, rfl, .elevate hA hd e' hsz⟩

omit [LinearOrder K] [IsStrictOrderedRing K] [Field K] [AddCommGroup V] [Module K V] in
theorem controlPoint_map {V' : Type} (g : V → V') (s : Spline V) (idx : List ℕ) : (s.map g).controlPoint idx = (s.controlPoint idx).map g := by
  unfold Spline.controlPoint
  show (do let i ← s.globalToLocal idx; rd (s.cps.map g) i) = _
  cases s.globalToLocal idx with
  | error e => rfl
  | ok i =>
    simp only [bind_ok]
    unfold rd
    rw [List.getElem?_map]
    cases s.cps[i]? <;> rfl

omit [IsStrictOrderedRing K] in
theorem IsLength.fst (hN : IsLength N) : IsLength (fun p : V × K => N p.1) :=
  ⟨fun x y => hN.add_le x.1 y.1, fun c x => hN.smul c x.1⟩

theorem snd_length : IsLength (fun p : V × K => |p.2|) :=
  ⟨fun x y => abs_add_le x.2 y.2, fun c x => abs_mul c x.2⟩

omit [IsStrictOrderedRing K] in
theorem bendBound_map {V' : Type} [AddCommGroup V'] [Module K V'] {N : V' → K} {s : Spline V} {g : V → V'} (hg : ∀ x y, g (x - y) = g x - g y)
    {d : ℕ} {M : K} (h : BendBound N (s.map g) d M) : BendBound (fun x => N (g x)) s d M := by
  intro idx p j x y z hp hj hv hx hy hz
  have := h idx p j (g x) (g y) (g z) hp hj hv (by rw [controlPoint_map, hx]; rfl) (by rw [controlPoint_map, hy]; rfl)
    (by rw [controlPoint_map, hz]; rfl)
  rw [← hg, ← hg, ← hg] at this
  exact this

omit [IsStrictOrderedRing K] in
theorem stepBound_map {V' : Type} [AddCommGroup V'] [Module K V'] {N : V' → K} {s : Spline V} {g : V → V'} (hg : ∀ x y, g (x - y) = g x - g y)
    {d : ℕ} {L : K} (h : StepBound N (s.map g) d L) : StepBound (fun x => N (g x)) s d L := by
  intro idx p x y hp hv hx hy
  have := h idx p (g x) (g y) hp hv (by rw [controlPoint_map, hx]; rfl) (by rw [controlPoint_map, hy]; rfl)
  rw [← hg] at this
  exact this

omit [AddCommGroup V] [Module K V] in
theorem parameterOf_cube : ∀ {ds idx : List ℕ}, ValidIdx ds idx → InCube (parameterOf K ds idx)
  | _, _, .nil => by intro x hx; cases hx
  | _, _, .cons (a := p) (b := k) hk h => by
    intro x hx
    rcases List.mem_cons.mp hx with rfl | hx
    · exact ⟨by positivity, div_le_one_of_le₀ (by exact_mod_cast hk) (Nat.cast_nonneg _)⟩
    · exact parameterOf_cube h x hx

/-- the homogeneous points with weights of at least `w0` that stand for points of length at most `R` -/
def cone (N : V → K) (w0 R : K) : Set (V × K) := {p | w0 ≤ p.2 ∧ N p.1 ≤ R * p.2}

theorem cone_convex (hN : IsLength N) (w0 R : K) : Convex K (cone N w0 R) := by
  rintro ⟨X, W⟩ ⟨h1, h2⟩ ⟨Y, w⟩ ⟨h3, h4⟩ a b ha hb hab
  refine ⟨?_, ?_⟩
  · show w0 ≤ a * W + b * w
    have e : w0 = a * w0 + b * w0 := by rw [← add_mul, hab, one_mul]
    rw [e]
    exact add_le_add (mul_le_mul_of_nonneg_left h1 ha) (mul_le_mul_of_nonneg_left h3 hb)
  · show N (a • X + b • Y) ≤ R * (a * W + b * w)
    refine (hN.add_le _ _).trans ?_
    rw [hN.smul, hN.smul, abs_of_nonneg ha, abs_of_nonneg hb]
    have := add_le_add (mul_le_mul_of_nonneg_left h2 ha) (mul_le_mul_of_nonneg_left h4 hb)
    refine this.trans (le_of_eq ?_)
    ring

/-- two homogeneous points that are near to each other stand for points that are near to each other -/
theorem quotient_close (hN : IsLength N) {p q : V × K} {w0 R e e' : K} (hw0 : 0 < w0) (hp : p ∈ cone N w0 R) (hq : q ∈ cone N w0 R)
    (h1 : N (p - q).1 ≤ e) (h2 : |(p - q).2| ≤ e') : w0 * N (p.2⁻¹ • p.1 - q.2⁻¹ • q.1) ≤ e + R * e' := by
  obtain ⟨X, W⟩ := p
  obtain ⟨Y, w⟩ := q
  obtain ⟨hp1, hp2⟩ := hp
  obtain ⟨hq1, hq2⟩ := hq
  simp only [Prod.fst_sub, Prod.snd_sub] at *
  have hW : 0 < W := hw0.trans_le hp1
  have hw : 0 < w := hw0.trans_le hq1
  have hy : N (w⁻¹ • Y) ≤ R := by
    rw [hN.smul, abs_of_pos (inv_pos.mpr hw), inv_mul_le_iff₀ hw, mul_comm]
    exact hq2
  have hR : 0 ≤ R := (hN.nonneg _).trans hy
  have e1 : W • (W⁻¹ • X - w⁻¹ • Y) = (X - Y) + (w - W) • (w⁻¹ • Y) := by
    rw [smul_sub, smul_inv_smul₀ hW.ne', sub_smul, smul_inv_smul₀ hw.ne']
    abel
  have e2 : W * N (W⁻¹ • X - w⁻¹ • Y) = N ((X - Y) + (w - W) • (w⁻¹ • Y)) := by
    rw [← e1, hN.smul, abs_of_pos hW]
  calc w0 * N (W⁻¹ • X - w⁻¹ • Y) ≤ W * N (W⁻¹ • X - w⁻¹ • Y) := mul_le_mul_of_nonneg_right hp1 (hN.nonneg _)
    _ = N ((X - Y) + (w - W) • (w⁻¹ • Y)) := e2
    _ ≤ N (X - Y) + |w - W| * N (w⁻¹ • Y) := by
      refine (hN.add_le _ _).trans ?_
      rw [hN.smul]
    _ ≤ e + R * e' := by
      rw [abs_sub_comm]
      have := mul_le_mul h2 hy (hN.nonneg _) ((abs_nonneg _).trans h2)
      linarith [mul_comm R e']

section
variable [ScalarDiv K V] [LawfulScalarDiv K V]

/-- what the theorems assume of a rational spline -/
theorem exists_hom {r : RSpline K V} {ds : List ℕ} {f : List K → V} {w : List K → K} (hr : r.Computes ds f w) :
    ∃ H : Spline (V × K), r = RSpline.ofHom H ∧ H.WF ∧ H.degrees = ds := by
  obtain ⟨H, hH, _⟩ := C85_every ds r ⟨⟨hr.num_wf, hr.num_degrees⟩, hr.wt_wf, hr.wt_degrees⟩
  subst hH
  refine ⟨H, rfl, ⟨hr.num_wf.1, hr.num_wf.2, hr.num_wf.3, ?_⟩, hr.num_degrees⟩
  have := hr.num_wf.4
  simpa [RSpline.ofHom, Spline.map] using this

theorem hom_controlPoint {A : Spline (V × K)} {idx : List ℕ} {x : V} (hx : (RSpline.ofHom A).controlPoint idx = .ok x) :
    ∃ p, A.controlPoint idx = .ok p ∧ p.2 ≠ 0 ∧ x = p.2⁻¹ • p.1 := by
  simp only [RSpline.controlPoint, RSpline.ofHom, controlPoint_map] at hx
  cases e : A.controlPoint idx with
  | error y => rw [e] at hx; cases hx
  | ok p =>
    rw [e] at hx
    simp only [Except.map, bind_ok] at hx
    by_cases h0 : p.2 = 0
    · simp [divM, h0] at hx
    · rw [RSpline.divM_ok _ h0] at hx
      exact ⟨p, rfl, h0, (Except.ok.inj hx).symm⟩

theorem hom_evaluate {A : Spline (V × K)} {t : List K} {p : V × K} (h : A.evaluate t = .ok p) (h0 : p.2 ≠ 0) :
    (RSpline.ofHom A).evaluate t = .ok (p.2⁻¹ • p.1) := by
  rw [C85_evaluate, h]
  simp only [bind_ok]
  rw [RSpline.divM_ok _ h0]

theorem hom_cone (hN : IsLength N) {H : Spline (V × K)} (hH : H.WF) {w0 R : K} (hw0 : 0 < w0) (hw : ∀ c ∈ (RSpline.ofHom H).wt.cps, w0 ≤ c)
    (hR : ∀ idx x, ValidIdx H.degrees idx → (RSpline.ofHom H).controlPoint idx = .ok x → N x ≤ R) : ∀ p ∈ H.cps, p ∈ cone N w0 R := by
  intro p hp
  have h1 : w0 ≤ p.2 := hw _ (List.mem_map_of_mem hp)
  have h2 : 0 < p.2 := hw0.trans_le h1
  obtain ⟨idx, hv, e⟩ := hH.index_of_mem hp
  have h3 : (RSpline.ofHom H).controlPoint idx = .ok (p.2⁻¹ • p.1) := by
    simp only [RSpline.controlPoint, RSpline.ofHom, controlPoint_map, e, Except.map, bind_ok]
    rw [RSpline.divM_ok _ h2.ne']
  have h4 := hR idx _ hv h3
  rw [hN.smul, abs_of_pos (inv_pos.mpr h2), inv_mul_le_iff₀ h2, mul_comm] at h4
  exact ⟨h1, h4⟩

/-- C110. A part of a rational spline is the rational spline over the box: its values are those of the spline at the parameters of the
box, and so are its weights. -/
theorem C110_part (r : RSpline K V) (ds : List ℕ) (f : List K → V) (w : List K → K) (hr : r.Computes ds f w) (box : List (K × K))
    (a : RSpline K V) (h : RPartOf r box a) :
    a.num.degrees.length = ds.length ∧ box.length = ds.length ∧ (∀ I ∈ box, 0 ≤ I.1 ∧ I.1 < I.2 ∧ I.2 ≤ 1) ∧
      a.Computes a.num.degrees (fun t => f (inBox box t)) (fun t => w (inBox box t)) := by
  obtain ⟨H, rfl, hH, hd⟩ := exists_hom hr
  obtain ⟨A, rfl, hA⟩ := rpart_hom h
  obtain ⟨h1, h2, h3, h4⟩ := C100_part H _ (hH.computes (K := K)) box A hA
  rw [hd] at h1 h2
  refine ⟨h1, h2, h3, ?_⟩
  have hlen : ∀ t : List K, t.length = A.degrees.length → (inBox box t).length = ds.length := by
    intro t ht
    unfold inBox
    rw [List.length_zipWith, h2, ht, h1, min_self]
  have c1 := h4.affine (LinearMap.fst K V K).toAffineMap
  have c2 := h4.affine (LinearMap.snd K V K).toAffineMap
  have hv := (hH.computes (K := K)).affine (LinearMap.fst K V K).toAffineMap
  have hw := (hH.computes (K := K)).affine (LinearMap.snd K V K).toAffineMap
  have e2 : ∀ t : List K, t.length = ds.length → (H.value t).2 = w t := by
    intro t ht
    have := hw.eval t (by rw [hd]; exact ht)
    exact Except.ok.inj (this.symm.trans (hr.weight t ht))
  have e1 : ∀ t : List K, t.length = ds.length → w t ≠ 0 → (H.value t).1 = w t • f t := by
    intro t ht h0
    have := hr.num_value ht h0
    have e := hv.value_eq (t := t) (by rw [hd]; exact ht)
    exact e.symm.trans this
  refine (RSpline.computes_of c1 c2).congr (fun t ht => ?_) fun t ht h0 => ?_
  · exact e2 _ (hlen t ht)
  · have h0' : w (inBox box t) ≠ 0 := by rw [← e2 _ (hlen t ht)]; exact h0
    show (H.value (inBox box t)).2⁻¹ • (H.value (inBox box t)).1 = _
    rw [e1 _ (hlen t ht) h0', e2 _ (hlen t ht), inv_smul_smul₀ h0']

/-- C110. The weights of a part lie between those of the spline, and its control points in every convex set that contains those of
the spline. -/
theorem C110_hull (r : RSpline K V) (ds : List ℕ) (f : List K → V) (w : List K → K) (hr : r.Computes ds f w) (lo hi : K)
    (hw : ∀ c ∈ r.wt.cps, lo ≤ c ∧ c ≤ hi) (C : Set V) (hC : Convex K C) (hc : RInside r ds C) (box : List (K × K)) (a : RSpline K V)
    (h : RPartOf r box a) : (∀ c ∈ a.wt.cps, lo ≤ c ∧ c ≤ hi) ∧ RInside a a.num.degrees C := by
  obtain ⟨H, rfl, hH, hd⟩ := exists_hom hr
  obtain ⟨A, rfl, hA⟩ := rpart_hom h
  have hA4 := (C100_part H _ (hH.computes (K := K)) box A hA).2.2.2
  have hconv : Convex K {p : V × K | (lo ≤ p.2 ∧ p.2 ≤ hi) ∧ 0 < p.2 ∧ p.2⁻¹ • p.1 ∈ C} := by
    rintro ⟨X, W⟩ ⟨⟨h1, h2⟩, h3, h4⟩ ⟨Y, v⟩ ⟨⟨h5, h6⟩, h7, h8⟩ a b ha hb hab
    have hpos : 0 < a * W + b * v := by
      rcases eq_or_lt_of_le ha with rfl | ha'
      · have : b = 1 := by linarith
        subst this
        simpa using h7
      · have := mul_pos ha' h3
        have := mul_nonneg hb h7.le
        linarith
    have e : ∀ c : K, c = a * c + b * c := fun c => by rw [← add_mul, hab, one_mul]
    refine ⟨⟨?_, ?_⟩, hpos, ?_⟩
    · show lo ≤ a * W + b * v
      rw [e lo]
      exact add_le_add (mul_le_mul_of_nonneg_left h1 ha) (mul_le_mul_of_nonneg_left h5 hb)
    · show a * W + b * v ≤ hi
      rw [e hi]
      exact add_le_add (mul_le_mul_of_nonneg_left h2 ha) (mul_le_mul_of_nonneg_left h6 hb)
    · show (a * W + b * v)⁻¹ • (a • X + b • Y) ∈ C
      have hm := hC h4 h8 (a := a * W / (a * W + b * v)) (b := b * v / (a * W + b * v)) (by have := h3.le; positivity) (by have := h7.le; positivity)
        (by rw [← add_div, div_self hpos.ne'])
      have e' : (a * W + b * v)⁻¹ • (a • X + b • Y) = (a * W / (a * W + b * v)) • W⁻¹ • X + (b * v / (a * W + b * v)) • v⁻¹ • Y := by
        rw [smul_add, smul_smul, smul_smul, smul_smul, smul_smul]
        congr 2
        · field_simp
        · field_simp
      rw [e']
      exact hm
  have key := part_hull hH hconv (fun p hp => ?_) hA
  · refine ⟨fun c hc => ?_, fun c hc => ?_, fun idx hv => ?_⟩
    · obtain ⟨p, hp, rfl⟩ := List.mem_map.mp hc
      exact (key p hp).1
    · obtain ⟨p, hp, rfl⟩ := List.mem_map.mp hc
      exact (key p hp).2.1
    · have e := Spline.controlPoint_cp hA4.wf hv
      have hm := key _ (mem_of_controlPoint e)
      refine ⟨_, ?_, hm.2.2⟩
      simp only [RSpline.controlPoint, RSpline.ofHom, controlPoint_map, e, Except.map, bind_ok]
      rw [RSpline.divM_ok _ hm.2.1.ne']
  · obtain ⟨idx, hv, e⟩ := hH.index_of_mem hp
    refine ⟨hw _ (List.mem_map_of_mem hp), hc.pos _ (List.mem_map_of_mem hp), ?_⟩
    obtain ⟨x, hx, hxC⟩ := hc.mem idx (by rw [← hd]; exact hv)
    obtain ⟨q, hq, _, rfl⟩ := hom_controlPoint hx
    rw [e] at hq
    obtain rfl := Except.ok.inj hq
    exact hxC

/-- C110. The distance of the control points of a part to the geometry shrinks with the square of the part.  The control point `x` of the
part with index `idx`, and the point `y` of the spline at the parameter in the box that belongs to it: if all weights of the spline are at
least `w0`, its control points have at most the length `R`, and `M` and `m` bound the second differences of its weighted control points and
of its weights, then `w0 * N (x - y)` is at most the sum of the shares of the directions. -/
theorem C110_close (hN : IsLength N) (r : RSpline K V) (ds : List ℕ) (f : List K → V) (w : List K → K) (hr : r.Computes ds f w) (w0 R : K)
    (hw0 : 0 < w0) (hw : ∀ c ∈ r.wt.cps, w0 ≤ c) (hR : ∀ idx x, ValidIdx ds idx → r.controlPoint idx = .ok x → N x ≤ R) (M m : ℕ → K)
    (hM : ∀ d < ds.length, 0 ≤ M d ∧ BendBound N r.num d (M d)) (hm : ∀ d < ds.length, 0 ≤ m d ∧ BendBound (fun c : K => |c|) r.wt d (m d))
    (box : List (K × K)) (a : RSpline K V) (h : RPartOf r box a) (idx : List ℕ) (x : V) (hv : ValidIdx a.num.degrees idx)
    (hx : a.controlPoint idx = .ok x) :
    ∃ y, a.evaluate (parameterOf K a.num.degrees idx) = .ok y ∧ r.evaluate (inBox box (parameterOf K a.num.degrees idx)) = .ok y ∧
      w0 * N (x - y) ≤ (∑ d ∈ range ds.length, bendShare (M d) (width box d) (a.num.degrees.getD d 0)) +
        R * ∑ d ∈ range ds.length, bendShare (m d) (width box d) (a.num.degrees.getD d 0) := by
  obtain ⟨H, rfl, hH, rfl⟩ := exists_hom hr
  obtain ⟨A, rfl, hA⟩ := rpart_hom h
  have hcA := (C100_part H _ (hH.computes (K := K)) box A hA).2.2.2
  have hcone := part_hull hH (cone_convex hN w0 R) (hom_cone hN hH hw0 hw hR) hA
  obtain ⟨p, hp, _, rfl⟩ := hom_controlPoint hx
  obtain ⟨q, e1, e2, e3⟩ := C109_close (IsLength.fst hN) H hH M (fun d hd => ⟨(hM d hd).1, bendBound_map (fun _ _ => rfl) (hM d hd).2⟩) box A hA idx p hv hp
  obtain ⟨q', e1', _, e4⟩ := C109_close snd_length H hH m (fun d hd => ⟨(hm d hd).1, bendBound_map (fun _ _ => rfl) (hm d hd).2⟩) box A hA idx p hv hp
  obtain rfl : q = q' := Except.ok.inj (e1.symm.trans e1')
  have hlen : (parameterOf K A.degrees idx).length = A.degrees.length := by
    unfold parameterOf
    rw [List.length_zipWith, List.Forall₂.length_eq hv]
    exact min_self _
  obtain ⟨q', e5, hq⟩ := C73_evaluate A hcA.wf _ (cone_convex hN w0 R) hcone _ hlen (parameterOf_cube hv)
  obtain rfl : q = q' := Except.ok.inj (e1.symm.trans e5)
  have hq0 : q.2 ≠ 0 := (hw0.trans_le hq.1).ne'
  exact ⟨_, hom_evaluate e1 hq0, hom_evaluate e2 hq0, quotient_close hN hw0 (hcone p (mem_of_controlPoint hp)) hq e3 e4⟩

/-- C110. Every control point of a part is near to every point of the part, with bounds `L` and `l` for the distances of neighbouring weighted
control points and weights. -/
theorem C110_near (hN : IsLength N) (r : RSpline K V) (ds : List ℕ) (f : List K → V) (w : List K → K) (hr : r.Computes ds f w) (w0 R : K)
    (hw0 : 0 < w0) (hw : ∀ c ∈ r.wt.cps, w0 ≤ c) (hR : ∀ idx x, ValidIdx ds idx → r.controlPoint idx = .ok x → N x ≤ R) (L l : ℕ → K)
    (hL : ∀ d < ds.length, 0 ≤ L d ∧ StepBound N r.num d (L d)) (hl : ∀ d < ds.length, 0 ≤ l d ∧ StepBound (fun c : K => |c|) r.wt d (l d))
    (box : List (K × K)) (a : RSpline K V) (h : RPartOf r box a) (idx : List ℕ) (x : V) (hx : a.controlPoint idx = .ok x)
    (t : List K) (ht : t.length = ds.length) (h01 : InCube t) :
    ∃ y, a.evaluate t = .ok y ∧ r.evaluate (inBox box t) = .ok y ∧
      w0 * N (x - y) ≤ (∑ d ∈ range ds.length, L d * width box d) + R * ∑ d ∈ range ds.length, l d * width box d := by
  obtain ⟨H, rfl, hH, rfl⟩ := exists_hom hr
  obtain ⟨A, rfl, hA⟩ := rpart_hom h
  obtain ⟨hAl, _, _, hcA⟩ := C100_part H _ (hH.computes (K := K)) box A hA
  have hcone := part_hull hH (cone_convex hN w0 R) (hom_cone hN hH hw0 hw hR) hA
  obtain ⟨p, hp, _, rfl⟩ := hom_controlPoint hx
  have hpm := mem_of_controlPoint hp
  obtain ⟨q, e1, e2, e3⟩ := C100_close (IsLength.fst hN) H hH L (fun d hd => ⟨(hL d hd).1, stepBound_map (fun _ _ => rfl) (hL d hd).2⟩) box A hA p hpm t ht h01
  obtain ⟨q', e1', _, e4⟩ := C100_close snd_length H hH l (fun d hd => ⟨(hl d hd).1, stepBound_map (fun _ _ => rfl) (hl d hd).2⟩) box A hA p hpm t ht h01
  obtain rfl : q = q' := Except.ok.inj (e1.symm.trans e1')
  obtain ⟨q', e5, hq⟩ := C73_evaluate A hcA.wf _ (cone_convex hN w0 R) hcone t (by rw [← hAl] at ht; exact ht) h01
  obtain rfl : q = q' := Except.ok.inj (e1.symm.trans e5)
  have hq0 : q.2 ≠ 0 := (hw0.trans_le hq.1).ne'
  exact ⟨_, hom_evaluate e1 hq0, hom_evaluate e2 hq0, quotient_close hN hw0 (hcone p hpm) hq e3 e4⟩

/-- C110. Any two control points of a part have at most this distance. -/
theorem C110_diameter (hN : IsLength N) (r : RSpline K V) (ds : List ℕ) (f : List K → V) (w : List K → K) (hr : r.Computes ds f w) (w0 R : K)
    (hw0 : 0 < w0) (hw : ∀ c ∈ r.wt.cps, w0 ≤ c) (hR : ∀ idx x, ValidIdx ds idx → r.controlPoint idx = .ok x → N x ≤ R) (L l : ℕ → K)
    (hL : ∀ d < ds.length, 0 ≤ L d ∧ StepBound N r.num d (L d)) (hl : ∀ d < ds.length, 0 ≤ l d ∧ StepBound (fun c : K => |c|) r.wt d (l d))
    (box : List (K × K)) (a : RSpline K V) (h : RPartOf r box a) (i j : List ℕ) (x y : V) (hx : a.controlPoint i = .ok x)
    (hy : a.controlPoint j = .ok y) :
    w0 * N (x - y) ≤ (∑ d ∈ range ds.length, L d * width box d) + R * ∑ d ∈ range ds.length, l d * width box d := by
  obtain ⟨H, rfl, hH, rfl⟩ := exists_hom hr
  obtain ⟨A, rfl, hA⟩ := rpart_hom h
  have hcone := part_hull hH (cone_convex hN w0 R) (hom_cone hN hH hw0 hw hR) hA
  obtain ⟨p, hp, _, rfl⟩ := hom_controlPoint hx
  obtain ⟨q, hq, _, rfl⟩ := hom_controlPoint hy
  have hpm := mem_of_controlPoint hp
  have hqm := mem_of_controlPoint hq
  exact quotient_close hN hw0 (hcone p hpm) (hcone q hqm)
    (C100_diameter (IsLength.fst hN) H hH L (fun d hd => ⟨(hL d hd).1, stepBound_map (fun _ _ => rfl) (hL d hd).2⟩) box A hA p q hpm hqm)
    (C100_diameter snd_length H hH l (fun d hd => ⟨(hl d hd).1, stepBound_map (fun _ _ => rfl) (hl d hd).2⟩) box A hA p q hpm hqm)

/-- C110. `Evaluate` of a rational spline with positive weights is Lipschitz continuous on the unit cube. -/
theorem C110_lipschitz (hN : IsLength N) (r : RSpline K V) (ds : List ℕ) (f : List K → V) (w : List K → K) (hr : r.Computes ds f w) (w0 R : K)
    (hw0 : 0 < w0) (hw : ∀ c ∈ r.wt.cps, w0 ≤ c) (hR : ∀ idx x, ValidIdx ds idx → r.controlPoint idx = .ok x → N x ≤ R) (L l : ℕ → K)
    (hL : ∀ d < ds.length, 0 ≤ L d ∧ StepBound N r.num d (L d)) (hl : ∀ d < ds.length, 0 ≤ l d ∧ StepBound (fun c : K => |c|) r.wt d (l d))
    (t u : List K) (ht : t.length = ds.length) (hu : u.length = ds.length) (h01 : InCube t) (h01' : InCube u) :
    ∃ x y, r.evaluate t = .ok x ∧ r.evaluate u = .ok y ∧ w0 * N (x - y) ≤ (∑ d ∈ range ds.length, L d * |t.getD d 0 - u.getD d 0|) +
      R * ∑ d ∈ range ds.length, l d * |t.getD d 0 - u.getD d 0| := by
  obtain ⟨H, rfl, hH, rfl⟩ := exists_hom hr
  have hcone := hom_cone hN hH hw0 hw hR
  obtain ⟨p, q, e1, e2, e3⟩ := C100_lipschitz (IsLength.fst hN) H hH L (fun d hd => ⟨(hL d hd).1, stepBound_map (fun _ _ => rfl) (hL d hd).2⟩) t u ht hu
    h01 h01'
  obtain ⟨p', q', e1', e2', e4⟩ := C100_lipschitz snd_length H hH l (fun d hd => ⟨(hl d hd).1, stepBound_map (fun _ _ => rfl) (hl d hd).2⟩) t u ht hu
    h01 h01'
  obtain rfl : p = p' := Except.ok.inj (e1.symm.trans e1')
  obtain rfl : q = q' := Except.ok.inj (e2.symm.trans e2')
  obtain ⟨p', e5, hp⟩ := C73_evaluate H hH _ (cone_convex hN w0 R) hcone t ht h01
  obtain ⟨q', e6, hq⟩ := C73_evaluate H hH _ (cone_convex hN w0 R) hcone u hu h01'
  obtain rfl : p = p' := Except.ok.inj (e1.symm.trans e5)
  obtain rfl : q = q' := Except.ok.inj (e2.symm.trans e6)
  exact ⟨_, _, hom_evaluate e1 (hw0.trans_le hp.1).ne', hom_evaluate e2 (hw0.trans_le hq.1).ne', quotient_close hN hw0 hp hq e3 e4⟩

omit [AddCommGroup V] [Module K V] [ScalarDiv K V] [LawfulScalarDiv K V] in
theorem exists_lower : ∀ {l : List K}, (∀ c ∈ l, 0 < c) → ∃ w0 : K, 0 < w0 ∧ ∀ c ∈ l, w0 ≤ c
  | [], _ => ⟨1, zero_lt_one, fun c hc => by cases hc⟩
  | x :: l, h => by
    obtain ⟨w0, h0, hw⟩ := exists_lower fun c hc => h c (List.mem_cons_of_mem _ hc)
    refine ⟨min x w0, lt_min (h x (List.mem_cons_self ..)) h0, fun c hc => ?_⟩
    rcases List.mem_cons.mp hc with rfl | hc
    · exact min_le_left _ _
    · exact (min_le_right _ _).trans (hw c hc)

omit [ScalarDiv K V] [LawfulScalarDiv K V] in
theorem exists_upper (hN : IsLength N) (l : List V) : ∃ D : K, 0 ≤ D ∧ ∀ x ∈ l, N x ≤ D := by
  refine ⟨(l.map N).sum, List.sum_nonneg fun y hy => ?_, fun x hx => ?_⟩
  · obtain ⟨x, _, rfl⟩ := List.mem_map.mp hy
    exact hN.nonneg x
  · exact List.single_le_sum (fun y hy => by obtain ⟨x, _, rfl⟩ := List.mem_map.mp hy; exact hN.nonneg x) _ (List.mem_map_of_mem hx)

omit [ScalarDiv K V] [LawfulScalarDiv K V] in
theorem exists_bounds (hN : IsLength N) (s : Spline V) :
    ∃ C : K, 0 ≤ C ∧ ∀ d : ℕ, BendBound N s d C ∧ StepBound N s d C := by
  obtain ⟨D, hD0, hD⟩ := exists_upper hN s.cps
  have hq : ∀ (d p : ℕ), s.degrees[d]? = some p → p ≤ s.degrees.sum := fun d p hp =>
    List.single_le_sum (fun _ _ => Nat.zero_le _) p (List.mem_of_getElem? hp)
  have h1 : (0 : K) ≤ (s.degrees.sum : K) * s.degrees.sum * (4 * D) := by positivity
  have h2 : (0 : K) ≤ (s.degrees.sum : K) * (2 * D) := by positivity
  refine ⟨_, add_nonneg h1 h2, fun d => ⟨fun idx p j x y z a1 a2 a3 a4 a5 a6 => ?_, fun idx p x y a1 a2 a3 a4 => ?_⟩⟩
  · exact (bendBound_of_le hN hD d (hq d) idx p j x y z a1 a2 a3 a4 a5 a6).trans (by linarith)
  · exact (stepBound_of_le hN hD d (hq d) idx p x y a1 a2 a3 a4).trans (by linarith)

/-- C110. So the control points of the parts converge to the geometry: for each rational spline with positive weights there is a constant
such that, for all parts, the control points are within `C * ∑ width ^ 2` of the points they stand for, and within `C * ∑ width` of all
points of the part. -/
theorem C110_converges (hN : IsLength N) (r : RSpline K V) (ds : List ℕ) (f : List K → V) (w : List K → K) (hr : r.Computes ds f w)
    (hpos : ∀ c ∈ r.wt.cps, 0 < c) :
    ∃ C : K, 0 ≤ C ∧ ∀ (box : List (K × K)) (a : RSpline K V), RPartOf r box a → ∀ (idx : List ℕ) (x : V), ValidIdx a.num.degrees idx →
      a.controlPoint idx = .ok x →
        (∃ y, r.evaluate (inBox box (parameterOf K a.num.degrees idx)) = .ok y ∧ N (x - y) ≤ C * ∑ d ∈ range ds.length, width box d ^ 2) ∧
        ∀ t : List K, t.length = ds.length → InCube t → ∃ y, r.evaluate (inBox box t) = .ok y ∧
          N (x - y) ≤ C * ∑ d ∈ range ds.length, width box d := by
  obtain ⟨w0, hw0, hw⟩ := exists_lower hpos
  obtain ⟨R, hR0, hR⟩ : ∃ R : K, 0 ≤ R ∧ ∀ idx x, ValidIdx ds idx → r.controlPoint idx = .ok x → N x ≤ R := by
    obtain ⟨H, rfl, hH, rfl⟩ := exists_hom hr
    obtain ⟨R, h0, h1⟩ := exists_upper hN (H.cps.map fun p => p.2⁻¹ • p.1)
    refine ⟨R, h0, fun idx x _ hx => ?_⟩
    obtain ⟨p, hp, _, rfl⟩ := hom_controlPoint hx
    exact h1 _ (List.mem_map_of_mem (mem_of_controlPoint hp))
  obtain ⟨M, hM0, hM⟩ := exists_bounds hN r.num
  obtain ⟨m, hm0, hm⟩ := exists_bounds (N := fun c : K => |c|) (⟨abs_add_le, fun c x => abs_mul c x⟩ : IsLength fun c : K => |c|) r.wt
  have hC0 : 0 ≤ w0⁻¹ * (M + R * m) := mul_nonneg (inv_nonneg.mpr hw0.le) (add_nonneg hM0 (mul_nonneg hR0 hm0))
  refine ⟨_, hC0, fun box a h idx x hv hx => ⟨?_, fun t ht h01 => ?_⟩⟩
  · obtain ⟨y, _, e2, e3⟩ := C110_close hN r ds f w hr w0 R hw0 hw hR (fun _ => M) (fun _ => m) (fun d _ => ⟨hM0, (hM d).1⟩)
      (fun d _ => ⟨hm0, (hm d).1⟩) box a h idx x hv hx
    refine ⟨y, e2, ?_⟩
    have hs : ∀ {B : K}, 0 ≤ B → ∑ d ∈ range ds.length, bendShare B (width box d) (a.num.degrees.getD d 0) ≤
        B * ∑ d ∈ range ds.length, width box d ^ 2 := by
      intro B hB
      rw [mul_sum]
      refine sum_le_sum fun d _ => ?_
      have hw := mul_nonneg hB (sq_nonneg (width box d))
      unfold bendShare
      split_ifs with hp
      · exact hw
      · have : (2 : K) ≤ (a.num.degrees.getD d 0 : ℕ) := by exact_mod_cast (by omega : 2 ≤ a.num.degrees.getD d 0)
        refine div_le_self hw (by linarith)
    rw [mul_assoc, ← div_eq_inv_mul, le_div_iff₀' hw0, add_mul, mul_assoc]
    exact e3.trans (add_le_add (hs hM0) (mul_le_mul_of_nonneg_left (hs hm0) hR0))
  · obtain ⟨y, _, e2, e3⟩ := C110_near hN r ds f w hr w0 R hw0 hw hR (fun _ => M) (fun _ => m) (fun d _ => ⟨hM0, (hM d).2⟩)
      (fun d _ => ⟨hm0, (hm d).2⟩) box a h idx x hx t ht h01
    refine ⟨y, e2, ?_⟩
    rw [← mul_sum, ← mul_sum] at e3
    rw [mul_assoc, ← div_eq_inv_mul, le_div_iff₀' hw0, add_mul, mul_assoc]
    exact e3

end

/-- C110. The bounding boxes of the parts shrink: in coordinate `j`. -/
theorem C110_box {n : ℕ} (j : Fin n) (r : RSpline K (Point K n)) (ds : List ℕ) (f : List K → Point K n) (w : List K → K)
    (hr : r.Computes ds f w) (w0 R : K) (hw0 : 0 < w0) (hw : ∀ c ∈ r.wt.cps, w0 ≤ c)
    (hR : ∀ idx x, ValidIdx ds idx → r.controlPoint idx = .ok x → |x.val j| ≤ R) (L l : ℕ → K)
    (hL : ∀ d < ds.length, 0 ≤ L d ∧ StepBound (fun x : Point K n => |x.val j|) r.num d (L d))
    (hl : ∀ d < ds.length, 0 ≤ l d ∧ StepBound (fun c : K => |c|) r.wt d (l d))
    (box : List (K × K)) (a : RSpline K (Point K n)) (h : RPartOf r box a) :
    ∃ mn mx, a.minimumCorner = .ok mn ∧ a.maximumCorner = .ok mx ∧
      w0 * (mx.val j - mn.val j) ≤ (∑ d ∈ range ds.length, L d * width box d) + R * ∑ d ∈ range ds.length, l d * width box d := by
  have hN := coord_length (K := K) n j
  have hc := (C110_part r ds f w hr box a h).2.2.2
  have hp : ∀ c ∈ a.wt.cps, 0 < c := by
    obtain ⟨H, rfl, hH, rfl⟩ := exists_hom hr
    obtain ⟨A, rfl, hA⟩ := rpart_hom h
    intro c hc
    obtain ⟨p, hp, rfl⟩ := List.mem_map.mp hc
    exact hw0.trans_le (part_hull hH (cone_convex hN w0 R) (hom_cone hN hH hw0 hw hR) hA p hp).1
  obtain ⟨mn, mx, e1, e2, _, e3⟩ := C44_bounding_box a _ _ _ hc hp
  refine ⟨mn, mx, e1, e2, ?_⟩
  obtain ⟨⟨i1, y, hi1, hy, ey⟩, ⟨i2, x, hi2, hx, ex⟩⟩ := e3 j
  refine le_trans (mul_le_mul_of_nonneg_left ?_ hw0.le) (C110_diameter hN r ds f w hr w0 R hw0 hw hR L l hL hl box a h i2 i1 x y hx hy)
  have e1 : y.val j = mn.val j := ey
  have e2 : x.val j = mx.val j := ex
  rw [← e1, ← e2]
  exact le_abs_self _

/-! ### concrete cases -/

theorem R_small (idx : List ℕ) (x : Point ℚ 2) (hv : ValidIdx [2, 1] idx) (hx : R.controlPoint idx = .ok x) : |x.val 1| ≤ 3 := by
  have h : ∀ x ∈ R.euclid.cps, |x.val 1| ≤ 3 := by decide +kernel
  exact h x ((mem_euclid R_computes (fun c hc => (R_pos c hc).ne') x).mpr ⟨idx, hv, hx⟩)

theorem R_weights : ∀ c ∈ R.wt.cps, (1 / 2 : ℚ) ≤ c := by decide +kernel

theorem R_deg (d p : ℕ) (hp : ([2, 1] : List ℕ)[d]? = some p) : p ≤ 2 := by
  have : p ∈ [2, 1] := List.mem_of_getElem? hp
  simp only [List.mem_cons, List.not_mem_nil, or_false] at this
  omega

theorem R_bends (d : ℕ) (_ : d < [2, 1].length) :
    (0 : ℚ) ≤ (2 : ℕ) * (2 : ℕ) * (4 * 9) ∧ BendBound (fun x : Point ℚ 2 => |x.val 1|) R.num d ((2 : ℕ) * (2 : ℕ) * (4 * 9)) :=
  ⟨by norm_num, bendBound_of_le (coord_length 2 1) (by decide +kernel) d (R_deg d)⟩
theorem R_bends_weights (d : ℕ) (_ : d < [2, 1].length) :
    (0 : ℚ) ≤ (2 : ℕ) * (2 : ℕ) * (4 * 3) ∧ BendBound (fun c : ℚ => |c|) R.wt d ((2 : ℕ) * (2 : ℕ) * (4 * 3)) :=
  ⟨by norm_num, bendBound_of_le abs_length (by decide +kernel) d (R_deg d)⟩
theorem R_steps (d : ℕ) (_ : d < [2, 1].length) :
    (0 : ℚ) ≤ (2 : ℕ) * (2 * 9) ∧ StepBound (fun x : Point ℚ 2 => |x.val 1|) R.num d ((2 : ℕ) * (2 * 9)) :=
  ⟨by norm_num, stepBound_of_le (coord_length 2 1) (by decide +kernel) d (R_deg d)⟩
theorem R_steps_weights (d : ℕ) (_ : d < [2, 1].length) :
    (0 : ℚ) ≤ (2 : ℕ) * (2 * 3) ∧ StepBound (fun c : ℚ => |c|) R.wt d ((2 : ℕ) * (2 * 3)) :=
  ⟨by norm_num, stepBound_of_le abs_length (by decide +kernel) d (R_deg d)⟩

/-- a corner of the rational surface `R`: first cut in direction 0, then elevated, then cut in direction 1 -/
theorem R_part : ∃ a, RPartOf R [((0 : ℚ), 1 / 3), (1 / 2, 1)] a ∧ a.num.degrees = [3, 1] := by
  obtain ⟨a, b, e, ca, _⟩ := C40_split R _ _ _ R_computes 0 (by decide) (1 / 3) (by norm_num) (by norm_num)
  obtain ⟨c, e1, cc⟩ := C40_order_elevate a _ _ _ ca 0 2 rfl (by decide)
  obtain ⟨a', b', e', _, cb⟩ := C40_split c _ _ _ cc 1 (by decide) (1 / 2) (by norm_num) (by norm_num)
  have := RPartOf.right (RPartOf.elevate (RPartOf.left (RPartOf.whole (K := ℚ) (r := R)) (by decide) e) (by decide) e1
    (by rw [ca.num_degrees]; decide)) (by decide) e'
  refine ⟨b', ?_, cb.num_degrees⟩
  have e3 : (((List.replicate R.num.degrees.length ((0 : ℚ), (1 : ℚ))).modify 0 fun I => (I.1, I.1 + (I.2 - I.1) * (1 / 3))).modify 1
      fun I => (I.1 + (I.2 - I.1) * (1 / 2), I.2)) = [((0 : ℚ), 1 / 3), (1 / 2, 1)] := by decide +kernel
  rwa [e3] at this

example := fun a h => C110_part R _ _ _ R_computes [((0 : ℚ), 1 / 3), (1 / 2, 1)] a h
example := fun a h => C110_hull R _ _ _ R_computes (1 / 2) 3 (by decide +kernel) H H_convex R_in_H [((0 : ℚ), 1 / 3), (1 / 2, 1)] a h
example := fun a h idx x hv hx => C110_close (coord_length 2 1) R _ _ _ R_computes (1 / 2) 3 (by norm_num) R_weights R_small _ _ R_bends R_bends_weights
  [((0 : ℚ), 1 / 3), (1 / 2, 1)] a h idx x hv hx
example := fun a h idx x hx => C110_near (coord_length 2 1) R _ _ _ R_computes (1 / 2) 3 (by norm_num) R_weights R_small _ _ R_steps R_steps_weights
  [((0 : ℚ), 1 / 3), (1 / 2, 1)] a h idx x hx [1 / 3, 1] rfl (show InCube [(1 / 3 : ℚ), 1] by unfold InCube; decide +kernel)
example := fun a h i j x y hx hy => C110_diameter (coord_length 2 1) R _ _ _ R_computes (1 / 2) 3 (by norm_num) R_weights R_small _ _ R_steps R_steps_weights
  [((0 : ℚ), 1 / 3), (1 / 2, 1)] a h i j x y hx hy
example := C110_lipschitz (coord_length 2 1) R _ _ _ R_computes (1 / 2) 3 (by norm_num) R_weights R_small _ _ R_steps R_steps_weights
  [1 / 3, 1] [1, 0] rfl rfl (by unfold InCube; decide +kernel) (by unfold InCube; decide +kernel)
example := C110_converges (coord_length 2 1) R _ _ _ R_computes R_pos
example := fun a h => C110_box (1 : Fin 2) R _ _ _ R_computes (1 / 2) 3 (by norm_num) R_weights R_small _ _ R_steps R_steps_weights
  [((0 : ℚ), 1 / 3), (1 / 2, 1)] a h

end Bezman.Props
