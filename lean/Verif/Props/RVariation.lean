import Verif.Spec.RVariation
import Verif.Props.RConverge
import Verif.Props.Variation

/-! # Properties: changes of sides of rational splines -/

namespace Bezman.Props
open Spec
variable {K V : Type} [Field K] [LinearOrder K] [IsStrictOrderedRing K] [AddCommGroup V] [Module K V]

/-- the side of a plane, for homogeneous points with positive weights -/
def homSide (φ : V →ᵃ[K] K) : V × K →ₗ[K] K := φ.linear.comp (LinearMap.fst K V K) + φ 0 • LinearMap.snd K V K

theorem homSide_eq (φ : V →ᵃ[K] K) {p : V × K} (hp : 0 < p.2) : side φ (p.2⁻¹ • p.1) = side (homSide φ).toAffineMap p := by
  unfold side
  have e : (homSide φ).toAffineMap p = p.2 * φ (p.2⁻¹ • p.1) := by
    show φ.linear p.1 + φ 0 * p.2 = _
    rw [affine_apply φ (p.2⁻¹ • p.1), map_smul, smul_eq_mul]
    field_simp
  rw [e, sign_mul, sign_pos hp, one_mul]

omit [IsStrictOrderedRing K] [LinearOrder K] [AddCommGroup V] [Module K V] [Field K] in
theorem takesSigns_map {U : Type} {sg : V → SignType} {sg' : U → SignType} {π : U → V} {L : List U} (h : ∀ p ∈ L, sg (π p) = sg' p)
    (w : List SignType) : TakesSigns sg (L.map π) w ↔ TakesSigns sg' L w := by
  constructor
  · rintro ⟨l', h1, h2⟩
    obtain ⟨L', h3, rfl⟩ := List.sublist_map_iff.mp h1
    refine ⟨L', h3, ?_⟩
    rw [← h2, List.map_map]
    exact List.map_congr_left fun p hp => (h p (h3.subset hp)).symm
  · rintro ⟨L', h3, h2⟩
    refine ⟨L'.map π, h3.map π, ?_⟩
    rw [← h2, List.map_map]
    exact List.map_congr_left fun p hp => h p (h3.subset hp)

omit [IsStrictOrderedRing K] [LinearOrder K] [AddCommGroup V] [Module K V] [Field K] in
theorem calmer_map {U : Type} {sg : V → SignType} {sg' : U → SignType} {π : U → V} {L L' : List U} (h : ∀ p ∈ L, sg (π p) = sg' p)
    (h' : ∀ p ∈ L', sg (π p) = sg' p) (hc : Calmer sg' L' L) : Calmer sg (L'.map π) (L.map π) := fun w hw ht =>
  (takesSigns_map h w).mpr (hc w hw ((takesSigns_map h' w).mp ht))

variable [ScalarDiv K V] [LawfulScalarDiv K V]

theorem rrow_hom {H : Spline (V × K)} {d : ℕ} {idx : List ℕ} {l : List V} (h : RRowOf (RSpline.ofHom H) d idx l) :
    ∃ L, RowOf H d idx L ∧ l = L.map (fun p : V × K => p.2⁻¹ • p.1) ∧ ∀ p ∈ L, p ∈ H.cps := by
  obtain ⟨p, hp, hv, h⟩ := h
  have : ∀ (m : List ℕ) (l : List V), List.Forall₂ (fun j x => (RSpline.ofHom H).controlPoint (idx.set d j) = .ok x) m l →
      ∃ L, List.Forall₂ (fun j x => H.controlPoint (idx.set d j) = .ok x) m L ∧ l = L.map (fun p : V × K => p.2⁻¹ • p.1) ∧ ∀ p ∈ L, p ∈ H.cps := by
    intro m l h
    induction h with
    | nil => exact ⟨[], .nil, rfl, fun p hp => by cases hp⟩
    | cons h1 _ ih =>
      obtain ⟨L, h2, rfl, h3⟩ := ih
      obtain ⟨q, hq, _, rfl⟩ := hom_controlPoint h1
      refine ⟨q :: L, .cons hq h2, rfl, fun p hp => ?_⟩
      rcases List.mem_cons.mp hp with rfl | hp
      · exact mem_of_controlPoint hq
      · exact h3 p hp
  obtain ⟨L, h1, h2, h3⟩ := this _ _ h
  exact ⟨L, ⟨p, hp, hv, h1⟩, h2, h3⟩

omit [ScalarDiv K V] [LawfulScalarDiv K V] in
theorem pos_convex : Convex K {p : V × K | 0 < p.2} := by
  rintro ⟨X, W⟩ h1 ⟨Y, w⟩ h2 a b ha hb hab
  show 0 < a * W + b * w
  have h1' : 0 < W := h1
  have h2' : 0 < w := h2
  rcases eq_or_lt_of_le ha with rfl | ha'
  · have : b = 1 := by linarith
    subst this
    simpa using h2'
  · have := mul_pos ha' h1'
    have := mul_nonneg hb h2'.le
    linarith

omit [ScalarDiv K V] [LawfulScalarDiv K V] in
theorem rpieces_hom {r : RSpline K V} {d : ℕ} {ls : List (RSpline K V)} (h : RPiecesAlong r d ls) :
    ∀ {H : Spline (V × K)}, r = RSpline.ofHom H → H.WF → d < H.dim → (∀ p ∈ H.cps, p ∈ {p : V × K | 0 < p.2}) →
      ∃ Ls, ls = Ls.map RSpline.ofHom ∧ PiecesAlong K H d Ls ∧ ∀ L ∈ Ls, ∀ p ∈ L.cps, 0 < p.2 := by
  induction h with
  | whole r d =>
    rintro H rfl hH hd hp
    exact ⟨[H], rfl, .whole _ _, fun L hL => by rw [List.mem_singleton.mp hL]; exact hp⟩
  | @elevate r d r' l e hsz h ih =>
    rintro H rfl hH hd hp
    have hg := List.getElem?_eq_getElem hd
    have hm : H.degrees.modify d (· + 1) = H.degrees.set d (H.degrees[d] + 1) := by
      rw [List.modify_eq_set_getElem?, hg]; rfl
    obtain ⟨G, e', hG⟩ := C73_order_elevate H _ hH rfl _ pos_convex hp d _ hg (by rw [← hm]; exact hsz)
    obtain ⟨G', e'', cG⟩ := C12_order_elevate H _ _ (hH.computes (K := K)) d _ hg (by rw [← hm]; exact hsz)
    obtain rfl := Except.ok.inj (e'.symm.trans e'')
    rw [(C85_operations ⟨0, 0⟩ H).1, e'] at e
    obtain ⟨Ls, h1, h2, h3⟩ := ih (Except.ok.inj e).symm cG.wf (by
      show d < G.degrees.length
      rw [cG.degrees_eq, List.length_set]; exact hd) hG
    exact ⟨Ls, h1, .elevate e' hsz h2, h3⟩
  | @split r d a b l l' z e ha hb iha ihb =>
    rintro H rfl hH hd hp
    by_cases hz : 0 < z ∧ z < 1
    · obtain ⟨A, B, e', hA, hB⟩ := C73_split H hH _ pos_convex hp d hd z hz.1 hz.2
      obtain ⟨A', B', e'', cA, cB⟩ := C31_split H _ _ (hH.computes (K := K)) d hd z hz.1 hz.2
      obtain ⟨rfl, rfl⟩ := Prod.mk.inj (Except.ok.inj (e'.symm.trans e''))
      rw [RSpline.splitAt_hom, e'] at e
      obtain ⟨ea, eb⟩ := Prod.mk.inj (Except.ok.inj e)
      obtain ⟨La, h1, h2, h3⟩ := iha ea.symm cA.wf (by rw [cA.dim_eq]; exact hd) hA
      obtain ⟨Lb, h4, h5, h6⟩ := ihb eb.symm cB.wf (by rw [cB.dim_eq]; exact hd) hB
      refine ⟨La ++ Lb, by rw [List.map_append, h1, h4], .split e' h2 h5, fun L hL => ?_⟩
      rcases List.mem_append.mp hL with hL | hL
      · exact h3 L hL
      · exact h6 L hL
    · rw [RSpline.splitAt_hom, C31_split_throws H d z hz] at e; cases e

/-- C108, rational splines with positive weights, whatever the history of splits and elevations in one direction: in any row of control
points of the pieces, one piece after the other, the points change their side of a plane no more often than in the row of the spline. -/
theorem C108_rational_history (φ : V →ᵃ[K] K) (r : RSpline K V) (ds : List ℕ) (f : List K → V) (w : List K → K) (hr : r.Computes ds f w)
    (hpos : ∀ c ∈ r.wt.cps, 0 < c) (d : ℕ) (pieces : List (RSpline K V)) (h : RPiecesAlong r d pieces) (idx : List ℕ) (l : List V)
    (hl : RRowOf r d idx l) (rows : List (List V)) (hrow : List.Forall₂ (fun a la => RRowOf a d idx la) pieces rows) :
    Calmer (side φ) rows.flatten l := by
  obtain ⟨H, rfl, hH, rfl⟩ := exists_hom hr
  have hd : d < H.dim := by
    obtain ⟨p, hp, _⟩ := hl
    exact (List.getElem?_eq_some_iff.mp hp).1
  have hp : ∀ p ∈ H.cps, 0 < p.2 := fun p hp => hpos _ (List.mem_map_of_mem hp)
  obtain ⟨L, h1, rfl, h2⟩ := rrow_hom hl
  obtain ⟨Ls, rfl, h3, h4⟩ := rpieces_hom h rfl hH hd hp
  obtain ⟨Rs, h5, rfl, h6⟩ : ∃ Rs, List.Forall₂ (fun a la => RowOf a d idx la) Ls Rs ∧
      rows = Rs.map (List.map (fun p : V × K => p.2⁻¹ • p.1)) ∧ ∀ p ∈ Rs.flatten, 0 < p.2 := by
    clear h h3
    induction Ls generalizing rows with
    | nil => cases hrow; exact ⟨[], .nil, rfl, fun p hp => by cases hp⟩
    | cons A Ls ih =>
      cases hrow with
      | cons b1 b2 =>
        obtain ⟨Rs, c1, c2, c3⟩ := ih _ b2 (fun B hB => h4 B (List.mem_cons_of_mem _ hB))
        obtain ⟨R, a1, rfl, a2⟩ := rrow_hom b1
        refine ⟨R :: Rs, .cons a1 c1, by rw [List.map_cons, c2], fun p hp => ?_⟩
        rw [List.flatten_cons, List.mem_append] at hp
        rcases hp with hp | hp
        · exact h4 A List.mem_cons_self p (a2 p hp)
        · exact c3 p hp
  rw [← List.map_flatten]
  exact calmer_map (fun p hp' => homSide_eq φ (hp p (h2 p hp'))) (fun p hp' => homSide_eq φ (h6 p hp'))
    (C108_history (C108_exact (homSide φ).toAffineMap) H hH d Ls h3 idx L h1 Rs h5)

/-- C108. Values of a rational curve with positive weights, at parameters that increase: they change their side of a plane no more often
than the control points. -/
theorem C108_rational_values (φ : V →ᵃ[K] K) (r : RSpline K V) (p : ℕ) (f : List K → V) (w : List K → K) (hr : r.Computes [p] f w)
    (hpos : ∀ c ∈ r.wt.cps, 0 < c) (ts : List K) (h01 : ∀ t ∈ ts, 0 ≤ t ∧ t ≤ 1) (hts : ts.Pairwise (· ≤ ·)) (xs l : List V)
    (hx : List.Forall₂ (fun t x => r.evaluate [t] = .ok x) ts xs)
    (hl : List.Forall₂ (fun j x => r.controlPoint [j] = .ok x) (List.range (p + 1)) l) : Calmer (side φ) xs l := by
  obtain ⟨H, rfl, hH, hd⟩ := exists_hom hr
  have hp : ∀ p ∈ H.cps, p ∈ {p : V × K | 0 < p.2} := fun p hp => hpos _ (List.mem_map_of_mem hp)
  have hdim : H.dim = 1 := by show H.degrees.length = 1; rw [hd]; rfl
  have hrow : RRowOf (RSpline.ofHom H) 0 [0] l := ⟨p, by show H.degrees[0]? = _; rw [hd]; rfl, by
    show ValidIdx H.degrees _; rw [hd]; exact .cons (Nat.zero_le _) .nil, hl⟩
  obtain ⟨L, h1, rfl, h2⟩ := rrow_hom hrow
  obtain rfl : L = H.cps := by
    have a := (rowOf_iff (p := p) (by rw [hd]; rfl) (by rw [hd]; exact .cons (Nat.zero_le _) .nil) (hasPoints_self hH)).mp h1
    have b := (rowOf_iff (p := p) (by rw [hd]; rfl) (by rw [hd]; exact .cons (Nat.zero_le _) .nil) (hasPoints_self hH)).mp (rowOf_cps hH hd)
    exact a.trans b.symm
  obtain ⟨X, h3, rfl, h4⟩ : ∃ X, List.Forall₂ (fun t x => H.evaluate [t] = .ok x) ts X ∧ xs = X.map (fun p : V × K => p.2⁻¹ • p.1) ∧
      ∀ p ∈ X, 0 < p.2 := by
    clear hts
    induction hx with
    | nil => exact ⟨[], .nil, rfl, fun p hp => by cases hp⟩
    | @cons t x ts xs e _ ih =>
      obtain ⟨X, a1, rfl, a2⟩ := ih fun u hu => h01 u (List.mem_cons_of_mem _ hu)
      obtain ⟨q, b1, b2⟩ := C73_evaluate H hH _ pos_convex hp [t] (by rw [hdim]; rfl) (by
        intro u hu
        rw [List.mem_singleton.mp hu]
        exact h01 t List.mem_cons_self)
      have b3 : 0 < q.2 := b2
      rw [hom_evaluate b1 b3.ne'] at e
      refine ⟨q :: X, .cons b1 a1, by rw [← Except.ok.inj e]; rfl, fun p hp => ?_⟩
      rcases List.mem_cons.mp hp with rfl | hp
      · exact b3
      · exact a2 p hp
  exact calmer_map (fun q hq => homSide_eq φ (hp q hq)) (fun q hq => homSide_eq φ (h4 q hq))
    (C108_values (homSide φ).toAffineMap H hH hdim ts h01 hts X h3)

/-! ### concrete cases -/

/-- a rational curve on the line, with the weights 1, 2, 1 and the control points 1, -3, 1 -/
def exR : RSpline ℚ ℚ := ⟨Ex.curve 1 (-6) 1, Ex.curve 1 2 1⟩

theorem exR_computes : exR.Computes [2] (fun t : List ℚ => (exR.wt.value t)⁻¹ • exR.num.value t) (fun t => exR.wt.value t) :=
  RSpline.computes_of (n := exR.num) (d := exR.wt) (Spline.WF.computes (K := ℚ) (s := exR.num) (Ex.curve_wf ..))
    (Spline.WF.computes (K := ℚ) (s := exR.wt) (Ex.curve_wf ..))

theorem exR_row : RRowOf exR 0 [0] [1, -3, 1] :=
  ⟨2, rfl, .cons (Nat.zero_le _) .nil, .cons (by decide +kernel) (.cons (by decide +kernel) (.cons (by decide +kernel) .nil))⟩

/-- split at `1/2` -/
theorem exR_pieces : RPiecesAlong exR 0 [⟨Ex.curve 1 (-5/2) (-5/2), Ex.curve 1 (3/2) (3/2)⟩, ⟨Ex.curve (-5/2) (-5/2) 1, Ex.curve (3/2) (3/2) 1⟩] :=
  .split (z := 1 / 2) (a := ⟨Ex.curve 1 (-5/2) (-5/2), Ex.curve 1 (3/2) (3/2)⟩) (b := ⟨Ex.curve (-5/2) (-5/2) 1, Ex.curve (3/2) (3/2) 1⟩) (l := [_]) (l' := [_])
    (by decide +kernel) (.whole _ _) (.whole _ _)

example : Calmer (side idMap) [1, -5/3, -5/3, -5/3, -5/3, 1] [1, -3, 1] :=
  C108_rational_history idMap exR _ _ _ exR_computes (by decide +kernel) 0 _ exR_pieces [0] _ exR_row [[1, -5/3, -5/3], [-5/3, -5/3, 1]]
    (.cons ⟨2, rfl, .cons (Nat.zero_le _) .nil, .cons (by decide +kernel) (.cons (by decide +kernel) (.cons (by decide +kernel) .nil))⟩
      (.cons ⟨2, rfl, .cons (Nat.zero_le _) .nil, .cons (by decide +kernel) (.cons (by decide +kernel) (.cons (by decide +kernel) .nil))⟩ .nil))

example : Calmer (side idMap) [1, -5/3, 1] [1, -3, 1] :=
  C108_rational_values idMap exR 2 _ _ exR_computes (by decide +kernel) [0, 1 / 2, 1] (by decide +kernel) (by decide +kernel) _ _
    (.cons (by decide +kernel) (.cons (by decide +kernel) (.cons (by decide +kernel) .nil)))
    (.cons (by decide +kernel) (.cons (by decide +kernel) (.cons (by decide +kernel) .nil)))

end Bezman.Props
