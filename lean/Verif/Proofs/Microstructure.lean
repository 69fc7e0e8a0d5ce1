import Verif.Proofs.MicroTiles

/-! # Proofs: the microstructure -/

namespace Bezman.Microstructure
open Spec Finset

theorem tiles_eq (thickness : ℝ) : tiles (1 / 2) thickness = (crossTile thickness).map (fun q => quad q.1 q.2.1 q.2.2.1 q.2.2.2) := by
  have e1 : (1 - thickness) / 2 = 1 / 2 - 1 / 2 * thickness := by ring
  have e2 : (1 + thickness) / 2 = 1 / 2 + 1 / 2 * thickness := by ring
  simp [tiles, crossTile, e1, e2]

theorem crossTile_mem {thickness : ℝ} (h0 : -1 ≤ thickness) (h1 : thickness ≤ 1) {q : ℝ × ℝ × ℝ × ℝ} (hq : q ∈ crossTile thickness) :
    (0 ≤ q.1 ∧ q.1 ≤ 1) ∧ (0 ≤ q.2.1 ∧ q.2.1 ≤ 1) ∧ (0 ≤ q.2.2.1 ∧ q.2.2.1 ≤ 1) ∧ (0 ≤ q.2.2.2 ∧ q.2.2.2 ≤ 1) := by
  simp only [crossTile, List.mem_cons, List.not_mem_nil, or_false] at hq
  rcases hq with rfl | rfl | rfl | rfl | rfl <;> refine ⟨⟨?_, ?_⟩, ⟨?_, ?_⟩, ⟨?_, ?_⟩, ⟨?_, ?_⟩⟩ <;> simp only [] <;> linarith

theorem forall₂_of_exists {α β : Type} {R : α → β → Prop} : ∀ {l : List α}, (∀ a ∈ l, ∃ b, R a b) → ∃ m, List.Forall₂ R l m
  | [], _ => ⟨[], .nil⟩
  | a :: l, h => by
    obtain ⟨b, hb⟩ := h a (by simp)
    obtain ⟨m, hm⟩ := forall₂_of_exists (l := l) (fun x hx => h x (by simp [hx]))
    exact ⟨b :: m, .cons hb hm⟩

theorem compose_quad {cfg : Cfg} (hc : cfg.maxBinom ≤ 68) (hd : 3 < cfg.maxBinom) (hfu : 2 ≤ cfg.fuel) {r : RSpline ℝ (Point ℝ 2)}
    {f : List ℝ → Point ℝ 2} {w : List ℝ → ℝ} (hr : r.Computes [2, 1] f w) {a b c d : ℝ} (ha : 0 ≤ a ∧ a ≤ 1) (hb : 0 ≤ b ∧ b ≤ 1)
    (hc' : 0 ≤ c ∧ c ≤ 1) (hd' : 0 ≤ d ∧ d ≤ 1) :
    ∃ s f' w', RSpline.compose cfg r (quad a b c d) = .ok s ∧ s.Computes [3, 3] f' w' ∧
      ∀ x y : ℝ, f' [x, y] = f [(1 - x) * a + x * b, (1 - y) * c + y * d] ∧ w' [x, y] = w [(1 - x) * a + x * b, (1 - y) * c + y * d] := by
  obtain ⟨g, g1, g2⟩ := quad_computes a b c d
  obtain ⟨s, s1, s2⟩ := Props.C29_compose_polynomial cfg hc r (quad a b c d) [2, 1] [1, 1] f w g hr g1 rfl (quad_fits ha hb hc' hd')
    ⟨by simp; omega, by simp; omega, by simp; omega, hfu, by simp [size]⟩
  refine ⟨s, _, _, s1, s2, ?_⟩
  intro x y
  have e : coordList ℝ (g [x, y]) = [(1 - x) * a + x * b, (1 - y) * c + y * d] := by
    rw [g2]; rfl
  simp only [e, and_self]

theorem main_ok {cfg : Cfg} (hc : cfg.maxBinom ≤ 68) (hd : 3 < cfg.maxBinom) (hfu : 2 ≤ cfg.fuel) (innerR outerR arc thickness : ℝ) (n : ℕ)
    (hn : 0 < n) (harc : |arc| < 2 * Real.pi * n) (hpi : |arc| ≠ Real.pi * n) (h0 : -1 ≤ thickness) (h1 : thickness ≤ 1) :
    ∃ l, main realMath (1 / 2) (-1) cfg innerR outerR n arc thickness = .ok l ∧ l.length = 5 * n ∧
      ∀ i, i < n → ∃ angle, RunsFromTo (i * arc / n) ((i + 1 : ℕ) * arc / n) angle ∧
        ∀ (j : ℕ) a b c d, (crossTile thickness)[j]? = some (a, b, c, d) → ∃ r, l[5 * i + j]? = some r ∧ ∃ f w, r.Computes [3, 3] f w ∧
          ∀ x y : ℝ, 0 < w [x, y] ∧
            f [x, y] = polar ((1 - ((1 - y) * c + y * d)) * outerR + ((1 - y) * c + y * d) * innerR) (angle ((1 - x) * a + x * b)) := by
  obtain ⟨ring, r1, r2, r3⟩ := circleGroup_ok innerR outerR arc n hn harc hpi
  unfold main
  rw [simpleCrossTile_ok, bind_ok, r1, bind_ok]
  have hcomp : ∀ r ∈ ring, ∃ qs, List.Forall₂ (fun b q => RSpline.compose cfg r b = .ok q) (tiles (1 / 2) thickness) qs := by
    intro r hr
    obtain ⟨i, hi, rfl⟩ := List.mem_iff_getElem.mp hr
    obtain ⟨r', e1, f, w, angle, c1, -, -⟩ := r3 i (by omega)
    rw [List.getElem?_eq_getElem hi] at e1
    obtain rfl := Option.some.inj e1
    apply forall₂_of_exists
    intro b hb
    rw [tiles_eq, List.mem_map] at hb
    obtain ⟨⟨a, b, c, d⟩, hq, rfl⟩ := hb
    obtain ⟨m1, m2, m3, m4⟩ := crossTile_mem h0 h1 hq
    obtain ⟨s, -, -, s1, -⟩ := compose_quad hc hd hfu c1 m1 m2 m3 m4
    exact ⟨s, s1⟩
  obtain ⟨qss, hq⟩ := forall₂_of_exists hcomp
  have h5 : ∀ qs ∈ qss, qs.length = 5 := by
    intro qs hqs
    obtain ⟨i, hi, rfl⟩ := List.mem_iff_getElem.mp hqs
    have := (List.forall₂_iff_get.mp hq).2 i (by rw [hq.length_eq]; exact hi) hi
    have := this.length_eq
    simpa [tiles] using this.symm
  refine ⟨qss.flatten, (foldlM_nested_iff _ _ _ _ _).mpr ⟨qss, by simp, hq⟩, ?_, ?_⟩
  · rw [flatten_length_const h5, ← hq.length_eq, r2]
  intro i hi
  obtain ⟨r, e1, f, w, angle, c1, c2, c3⟩ := r3 i hi
  refine ⟨angle, c2, ?_⟩
  intro j a b c d hj
  obtain ⟨qs, q1, q2⟩ := forall₂_getElem? hq e1
  have hj5 : j < 5 := by
    have := (List.getElem?_eq_some_iff.mp hj).1
    simpa [crossTile] using this
  obtain ⟨q, q3, q4⟩ := forall₂_getElem? q2 (i := j) (a := quad a b c d) (by rw [tiles_eq, List.getElem?_map, hj]; rfl)
  obtain ⟨m1, m2, m3, m4⟩ := crossTile_mem h0 h1 (List.mem_of_getElem? hj)
  obtain ⟨s, f', w', s1, s2, s3⟩ := compose_quad hc hd hfu c1 m1 m2 m3 m4
  rw [s1] at q4
  cases q4
  refine ⟨q, by rw [flatten_getElem? h5 q1 hj5]; exact q3, f', w', s2, ?_⟩
  intro x y
  obtain ⟨t1, t2⟩ := s3 x y
  obtain ⟨u1, u2⟩ := c3 ((1 - x) * a + x * b) ((1 - y) * c + y * d)
  exact ⟨by rw [t2]; exact u1, by rw [t1, u2]⟩

/-! ## Any arithmetic -/

theorem loop_push_tab {α : Type} (n : ℕ) (g : ℕ → α) : loop n (fun i ret => (pure (ret ++ [g i]) : M (List α))) [] = .ok (tab n g) := by
  obtain ⟨l, h1, h2, h3⟩ := Props.loop_push (n := n) (f := fun i ret => (pure (ret ++ [g i]) : M (List α))) (P := fun i q => q = g i)
    (fun i _ => ⟨g i, rfl, fun _ => rfl⟩)
  rw [h1]
  congr 1
  apply List.ext_getElem?
  intro i
  by_cases hi : i < n
  · obtain ⟨q, q1, rfl⟩ := h3 i hi
    rw [q1, tab_getElem? _ hi]
  · rw [List.getElem?_eq_none (by omega), List.getElem?_eq_none (by simp; omega)]

section
variable {K V : Type} [Zero K] [Zero V] [SMul K V]

theorem ofPoints_any {ds : List ℕ} {points : List V} {weights : List K} (h : 0 < ds.length) (hp : points.length = size ds)
    (hw : weights.length = size ds) :
    RSpline.ofPoints ds points weights = .ok ⟨⟨ds, size ds, offsetsOf ds, List.zipWith (fun w x => w • x) weights points⟩,
      ⟨ds, size ds, offsetsOf ds, weights⟩⟩ := by
  unfold RSpline.ofPoints
  obtain ⟨s, h1, h2, h3, h4⟩ := Spline.ofDegrees_ok (V := V) h
  rw [h1, (Spline.ofPoints_ok h hw).1]
  simp only [bind_ok, h2.ncp_eq, h3, hp, hw, assertM_ok (beq_self_eq_true _), h4, tab_length]
  rw [RSpline.loop_update (G := fun i => weights.getD i 0 • points.getD i 0)]
  · simp only [bind_ok]
    have e : tab (size ds) (fun i => weights.getD i 0 • points.getD i 0)
        = List.zipWith (fun w x => w • x) weights points := by
      conv_rhs => rw [eq_tab weights 0, eq_tab points 0, hw, hp, zipWith_tab]
    rw [e]
    simp [RSpline.compatible, assertM, h2.offsets_eq, h3]
  · intro k H hk _
    rw [rd_getElem (by omega), rd_getElem (by omega)]
    simp only [bind_ok]
    rw [wr_tab _ _ hk]
    congr 2
    simp [hp, hw, hk]

end

section
variable {K : Type} [Zero K] [One K] [Add K] [Sub K] [Mul K] [Neg K] [Div K] [NatCast K] [LT K] [DecidableLT K]

theorem rglued_compose {V W : Type} [Zero V] [Add V] [SMul K V] [Zero W] [Coords K W] {d : ℕ} {sa sb : Bool} {cfg : Cfg} (hc : cfg.Ok) {s : RSpline K V}
    (hn : s.num.WF) (hw : s.wt.WF) (hnw : s.num.degrees = s.wt.degrees) {a b : Spline W} {ra rb : RSpline K V}
    (h : Glued d sa sb a b) (hdim : s.num.degrees.length = Coords.n K W) (hda : Spline.DegOk cfg (a.degrees.map (s.num.degrees.sum * ·)))
    (hdb : Spline.DegOk cfg (b.degrees.map (s.num.degrees.sum * ·))) (ea : RSpline.compose cfg s a = .ok ra) (eb : RSpline.compose cfg s b = .ok rb) :
    RGlued d sa sb ra rb := by
  unfold RSpline.compose at ea eb
  simp only [bind_eq_ok] at ea eb
  obtain ⟨x, a1, y, a2, a3⟩ := ea
  obtain ⟨x', b1, y', b2, b3⟩ := eb
  unfold RSpline.ofSplines at a3 b3
  rw [bind_eq_ok] at a3 b3
  obtain ⟨-, -, a3⟩ := a3
  obtain ⟨-, -, b3⟩ := b3
  cases a3
  cases b3
  exact ⟨Spline.glued_compose hc hn h hdim hda hdb a1 b1,
    Spline.glued_compose hc hw h (by rw [← hnw]; exact hdim) (by rw [← hnw]; exact hda) (by rw [← hnw]; exact hdb) a2 b2⟩

omit [Neg K] [LT K] [DecidableLT K] in
/-- the segments, whatever the arithmetic -/
theorem circleGroup_any [BEq K] {m : Libm K} {half minusOne innerR outerR arc : K} {n : ℕ} {l : List (RSpline K (Point K 2))}
    (h : circleGroup m half minusOne innerR outerR n arc = .ok l) :
    l.length = n ∧ ∃ (δ c : K) (mid : ℕ → Point K 2 × Point K 2), ∀ i, i < n → l[i]? = some ⟨⟨[2, 1], 6, offsetsOf [2, 1],
      List.zipWith (fun (w : K) x => w • x) [1, c, 1, 1, c, 1]
        [pt (m.cos (δ * (i : K)) * outerR) (m.sin (δ * (i : K)) * outerR), (mid i).1,
         pt (m.cos (δ * ((i : K) + 1)) * outerR) (m.sin (δ * ((i : K) + 1)) * outerR),
         pt (m.cos (δ * (i : K)) * innerR) (m.sin (δ * (i : K)) * innerR), (mid i).2,
         pt (m.cos (δ * ((i : K) + 1)) * innerR) (m.sin (δ * ((i : K) + 1)) * innerR)]⟩,
      ⟨[2, 1], 6, offsetsOf [2, 1], [1, c, 1, 1, c, 1]⟩⟩ := by
  unfold circleGroup at h
  simp only [bind_eq_ok] at h
  obtain ⟨δ, h1, f, h2, h3⟩ := h
  have h4 : ∀ a b c d e f : Point K 2, ∀ w : K, RSpline.ofPoints [2, 1] [a, b, c, d, e, f] [1, w, 1, 1, w, 1] = .ok
      ⟨⟨[2, 1], 6, offsetsOf [2, 1], List.zipWith (fun (w : K) x => w • x) [1, w, 1, 1, w, 1] [a, b, c, d, e, f]⟩,
        ⟨[2, 1], 6, offsetsOf [2, 1], [1, w, 1, 1, w, 1]⟩⟩ := fun a b c d e f w => ofPoints_any (by decide) rfl rfl
  simp only [h4, bind_ok] at h3
  rw [loop_push_tab] at h3
  cases h3
  exact ⟨by simp, δ, _, fun i => (_, _), fun i hi => tab_getElem? _ hi⟩

end
end Bezman.Microstructure
