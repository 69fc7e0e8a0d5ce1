import Verif.Proofs.FloatSteps

set_option linter.unusedSectionVars false

/-! # Rounding errors of single operations: the operations on one spline -/

namespace Bezman
open Spec
variable {A : FloatArith} {n : ℕ}

attribute [local instance] parTriX parScalarTriX parTriY parScalarTriY

theorem Spline.smulOp_cps {K V : Type} [SMul K V] {s r : Spline V} {c : K} (h : s.WF) (hr : s.smulOp c = .ok r) {P R : V → Prop}
    (hP : ∀ z ∈ s.cps, P z) (hR : ∀ a, P a → R (c • a)) : ∀ z ∈ r.cps, R z := by
  unfold Spline.smulOp at hr
  rw [Spline.mapCps_ok h] at hr
  cases hr
  simp only [List.mem_map]
  rintro _ ⟨a, ha, rfl⟩
  exact hR a (hP a ha)

theorem Spline.addPoint_cps {V : Type} [Add V] {s r : Spline V} {v : V} (h : s.WF) (hr : s.addPoint v = .ok r) {P R : V → Prop}
    (hP : ∀ z ∈ s.cps, P z) (hR : ∀ a, P a → R (a + v)) : ∀ z ∈ r.cps, R z := by
  unfold Spline.addPoint at hr
  rw [Spline.mapCps_ok h] at hr
  cases hr
  simp only [List.mem_map]
  rintro _ ⟨a, ha, rfl⟩
  exact hR a (hP a ha)

theorem Spline.subPoint_cps {V : Type} [Sub V] {s r : Spline V} {v : V} (h : s.WF) (hr : s.subPoint v = .ok r) {P R : V → Prop}
    (hP : ∀ z ∈ s.cps, P z) (hR : ∀ a, P a → R (a - v)) : r.WF ∧ ∀ z ∈ r.cps, R z := by
  unfold Spline.subPoint at hr
  rw [Spline.mapCps_ok h] at hr
  cases hr
  refine ⟨h.map _, ?_⟩
  simp only [List.mem_map]
  rintro _ ⟨a, ha, rfl⟩
  exact hR a (hP a ha)

theorem Spline.negOp_cps {V : Type} [Neg V] {s r : Spline V} (h : s.WF) (hr : s.negOp = .ok r) {P R : V → Prop}
    (hP : ∀ z ∈ s.cps, P z) (hR : ∀ a, P a → R (-a)) : ∀ z ∈ r.cps, R z := by
  rw [Spline.negOp_ok h] at hr
  cases hr
  simp only [List.mem_map]
  rintro _ ⟨a, ha, rfl⟩
  exact hR a (hP a ha)

/-- values of de Casteljau's scheme -/
theorem triangle_graded {K V : Type} [One K] [Sub K] [Add V] [SMul K V] {t : K} {P : ℕ → V} {R : ℕ → V → Prop} (h0 : ∀ j, R 0 (P j))
    (hs : ∀ r a b, R r a → R r b → R (r + 1) ((1 - t) • a + t • b)) : ∀ r j, R r (triangle t P r j)
  | 0, j => h0 j
  | r + 1, j => hs r _ _ (triangle_graded h0 hs r j) (triangle_graded h0 hs r (j + 1))

theorem triangle_map {K K' V V' : Type} [One K] [Sub K] [Add V] [SMul K V] [One K'] [Sub K'] [Add V'] [SMul K' V'] {f : K → K'} {g : V → V'}
    (hstep : ∀ (t : K) a b, g ((1 - t) • a + t • b) = (1 - f t) • g a + f t • g b) (t : K) (P : ℕ → V) :
    ∀ r j, g (triangle t P r j) = triangle (f t) (fun i => g (P i)) r j
  | 0, j => rfl
  | r + 1, j => by rw [triangle, triangle, hstep, triangle_map hstep t P r j, triangle_map hstep t P r (j + 1)]

theorem Spline.splitAt_map {K K' V V' : Type} [Zero K'] [One K'] [Sub K'] [LT K'] [DecidableLT K'] [One K] [Sub K] [Add V] [SMul K V] [Add V']
    [SMul K' V'] {f : K → K'} {g : V → V'} (hstep : ∀ (t : K) a b, g ((1 - t) • a + t • b) = (1 - f t) • g a + f t • g b) [Inhabited V]
    {s : Spline V} (h : s.WF) {d p : ℕ} (hp : s.degrees[d]? = some p) {z : K} (hz : 0 < f z ∧ f z < 1) :
    (s.map g).splitAt (f z) d = .ok
      ({ s with cps := tab (size s.degrees) (fun x =>
          triangle z (fibre (size (s.degrees.take d)) p (fun i => s.cps.getD i (_root_.Inhabited.default)) x)
            (x / size (s.degrees.take d) % (p + 1)) 0) : Spline V }.map g,
       { s with cps := tab (size s.degrees) (fun x =>
          triangle z (fibre (size (s.degrees.take d)) p (fun i => s.cps.getD i (_root_.Inhabited.default)) x)
            (p - x / size (s.degrees.take d) % (p + 1)) (x / size (s.degrees.take d) % (p + 1))) : Spline V }.map g) := by
  let _ : Inhabited V' := ⟨g _root_.Inhabited.default⟩
  rw [Spline.splitAt_mem (s := s.map g) (h.map g) (p := p) hp hz]
  have e : ∀ i, (s.map g).cps.getD i (_root_.Inhabited.default) = g (s.cps.getD i (_root_.Inhabited.default)) := by
    intro i
    show (s.cps.map g).getD i (g _root_.Inhabited.default) = _
    rw [List.getD_eq_getElem?_getD, List.getD_eq_getElem?_getD, List.getElem?_map]
    cases s.cps[i]? <;> rfl
  simp only [e]
  simp only [Spline.map, tab, List.map_map, Function.comp_def, triangle_map hstep]
  rfl

namespace Tri

section
variable {V V₁ V₂ : Type} [Par V V₁] [Par V V₂] [Zero V] [Add V] [Sub V] [Neg V] [SMul (Tri A) V]
  [Zero V₁] [Add V₁] [Sub V₁] [Neg V₁] [SMul (Fl A) V₁] [Zero V₂] [Add V₂] [Sub V₂] [Neg V₂] [SMul ℝ V₂]
  [h₁ : ParPoint (Tri A) (Fl A) V V₁] [h₂ : ParPoint (Tri A) ℝ V V₂] {x : V → V₁} {y : V → V₂}
  (hx : ∀ (a : V) (b : V₁), a ≋ b ↔ b = x a) (hy : ∀ (a : V) (b : V₂), a ≋ b ↔ b = y a)
  {P R : V → Prop} {s : Spline V} {ds : List ℕ} (hs : HasShape ds s) (hP : ∀ z ∈ s.cps, P z)
include hx hy hs hP h₁ h₂

theorem both_neg (hR : ∀ a, P a → R (-a)) : Both x y ds R (s.map x).negOp (s.map y).negOp :=
  Both.of (Spline.negOp_returns hs) (Spline.negOp_map (K := Tri A) (K' := Fl A) hx s) (Spline.negOp_map (K := Tri A) (K' := ℝ) hy s)
    fun _ hr => Spline.negOp_cps hs.1 hr hP hR

theorem both_smul (c : Tri A) (hR : ∀ a, P a → R (c • a)) : Both x y ds R ((s.map x).smulOp c.x) ((s.map y).smulOp c.y) :=
  Both.of (Spline.smulOp_returns hs c) (Spline.smulOp_map (K := Tri A) (K' := Fl A) x_iff hx s c) (Spline.smulOp_map (K := Tri A) (K' := ℝ) y_iff hy s c)
    fun _ hr => Spline.smulOp_cps hs.1 hr hP hR

theorem both_addPoint (v : V) (hR : ∀ a, P a → R (a + v)) : Both x y ds R ((s.map x).addPoint (x v)) ((s.map y).addPoint (y v)) :=
  Both.of (Spline.addPoint_returns hs v) (Spline.addPoint_map (K := Tri A) (K' := Fl A) hx s v)
    (Spline.addPoint_map (K := Tri A) (K' := ℝ) hy s v) fun _ hr => Spline.addPoint_cps hs.1 hr hP hR

theorem both_subPoint (v : V) (hR : ∀ a, P a → R (a - v)) : Both x y ds R ((s.map x).subPoint (x v)) ((s.map y).subPoint (y v)) :=
  Both.of (Spline.subPoint_returns hs v) (Spline.subPoint_map (K := Tri A) (K' := Fl A) hx s v)
    (Spline.subPoint_map (K := Tri A) (K' := ℝ) hy s v) fun _ hr => (Spline.subPoint_cps hs.1 hr hP hR).2

theorem both_pointSub (v : V) (hR : ∀ a, P a → R (-(a - v))) : Both x y ds R (Spline.pointSub (x v) (s.map x)) (Spline.pointSub (y v) (s.map y)) :=
  Both.of (Spline.pointSub_returns hs v) (Spline.pointSub_map (K := Tri A) (K' := Fl A) hx s v)
    (Spline.pointSub_map (K := Tri A) (K' := ℝ) hy s v) fun r hr => by
      obtain ⟨d, h1, h2⟩ := bind_eq_ok.mp hr
      obtain ⟨h3, h4⟩ := Spline.subPoint_cps (R := fun z => R (-z)) hs.1 h1 hP hR
      exact Spline.negOp_cps h3 h2 h4 fun _ h => h

theorem both_split {z : Fl A} (h0 : 0 < z.val) (h1 : z.val < 1) {d p : ℕ} (hp : ds[d]? = some p) {Q : ℕ → V → Prop}
    (hxs : ∀ (t : Tri A) a b, x ((1 - t) • a + t • b) = (1 - t.x) • x a + t.x • x b)
    (hys : ∀ (t : Tri A) a b, y ((1 - t) • a + t • b) = (1 - t.y) • y a + t.y • y b) (hz : P 0) (hQ : ∀ a, P a → Q 0 a)
    (hmono : ∀ r r' a, r ≤ r' → Q r a → Q r' a)
    (hstep : ∀ r a b, Q r a → Q r b → Q (r + 1) ((1 - (⟨z, z.val, 0⟩ : Tri A)) • a + (⟨z, z.val, 0⟩ : Tri A) • b)) :
    ∃ l r : Spline V, (s.map x).splitAt z d = .ok (l.map x, r.map x) ∧ (s.map y).splitAt z.val d = .ok (l.map y, r.map y) ∧
      (HasShape ds l ∧ ∀ z ∈ l.cps, Q p z) ∧ HasShape ds r ∧ ∀ z ∈ r.cps, Q p z := by
  obtain ⟨h, rfl⟩ := hs
  let _ : Inhabited V := ⟨0⟩
  have e1 := Spline.splitAt_map (K := Tri A) (K' := Fl A) hxs h hp (z := ⟨z, z.val, 0⟩) ⟨h0, h1⟩
  have e2 := Spline.splitAt_map (K := Tri A) (K' := ℝ) hys h hp (z := ⟨z, z.val, 0⟩) ⟨h0, h1⟩
  have hT : ∀ x k j, k ≤ p → Q p (triangle (⟨z, z.val, 0⟩ : Tri A)
      (Spline.fibre (size (s.degrees.take d)) p (fun i => s.cps.getD i (_root_.Inhabited.default)) x) k j) := by
    intro x k j hk
    refine hmono _ _ _ hk (triangle_graded (R := Q) (fun j => hQ _ ?_) hstep k j)
    unfold Spline.fibre
    simp only [List.getD_eq_getElem?_getD]
    cases ho : s.cps[x % size (s.degrees.take d) + size (s.degrees.take d) * (j + (p + 1) * (x / size (s.degrees.take d) / (p + 1)))]? with
    | none => exact hz
    | some a => exact hP a (List.mem_of_getElem? ho)
  refine ⟨_, _, e1, e2, ⟨⟨⟨h.1, h.2, h.3, by simp⟩, rfl⟩, ?_⟩, ⟨⟨h.1, h.2, h.3, by simp⟩, rfl⟩, ?_⟩
  · intro z hz
    simp only [tab, List.mem_map] at hz
    obtain ⟨i, -, rfl⟩ := hz
    exact hT _ _ _ (Nat.lt_succ_iff.mp (Nat.mod_lt _ (Nat.succ_pos p)))
  · intro z hz
    simp only [tab, List.mem_map] at hz
    obtain ⟨i, -, rfl⟩ := hz
    exact hT _ _ _ (Nat.sub_le _ _)

theorem both_deriv {cfg : Cfg} (hmax : cfg.maxBinom ≤ 68) {orders : List ℕ} (hl : orders.length = ds.length)
    (hle : ∀ d o p : ℕ, orders[d]? = some o → ds[d]? = some p → o ≤ p) (hord : ∀ o ∈ orders, o < cfg.maxBinom) (hsz : size ds < 2 ^ 64)
    {Q : ℕ → V → Prop} (hQ : ∀ a, P a → Q 0 a) (hskip : ∀ d, orders[d]? = some 0 → ∀ a, Q d a → Q (d + 1) a)
    (hstep : ∀ d o p : ℕ, orders[d]? = some o → ds[d]? = some p → 0 < o → o ≤ p → ∀ y : ℕ → V, (∀ j, j ≤ o → Q d (y j)) →
      Q (d + 1) (((if o % 2 = 0 then 1 else -1) * Spline.fallFactor (Tri A) p (o - 1)) • Spline.diffs (Tri A) o y o)) :
    Both x y (List.zipWith (· - ·) ds orders) (Q ds.length) (Spline.derivativeSpline (Fl A) cfg (s.map x) orders)
      (Spline.derivativeSpline ℝ cfg (s.map y) orders) := by
  refine Both.of (Spline.derivativeSpline_returns (K := Tri A) cfg hmax hs hl hle hord hsz) (Spline.derivativeSpline_map (K := Tri A) hx cfg s orders)
    (Spline.derivativeSpline_map (K := Tri A) hy cfg s orders) fun r hr => ?_
  obtain ⟨h, rfl⟩ := hs
  exact Spline.derivativeSpline_graded hmax h hl hle hord hsz hskip hstep (fun z hz => hQ z (hP z hz)) hr

end
end Tri
end Bezman
