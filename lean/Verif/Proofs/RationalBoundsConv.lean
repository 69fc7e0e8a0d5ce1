import Verif.Proofs.RationalBounds
import Verif.Proofs.FloatRational
import Verif.Props.Positive

set_option linter.unusedSectionVars false

/-! # Rounding errors of rational splines: from homogeneous triples to pairs of splines, products, quotients -/

namespace Bezman
open Spec
variable {A : FloatArith} {n : ℕ}

attribute [local instance] parTriX parScalarTriX parTriY parScalarTriY

namespace Tri

section
variable {V V₁ V₂ : Type} {x : V → V₁} {y : V → V₂}

theorem join_rshape {ds : List ℕ} {r : RSpline (Fl A) V₁} {r' : RSpline ℝ V₂} (h : HasRShape ds r) (h' : HasRShape ds r') {m : List (V × Tri A)}
    (hx : m.map (fun z => (x z.1, z.2.x)) = r.num.cps.zip r.wt.cps) (hy : m.map (fun z => (y z.1, z.2.y)) = r'.num.cps.zip r'.wt.cps) :
    ∃ H : Spline (V × Tri A), H.cps = m ∧ HasShape ds H ∧ r = (RSpline.ofHom H).map Tri.x x ∧ r' = (RSpline.ofHom H).map Tri.y y := by
  have len : ∀ {K V' : Type} {q : RSpline K V'}, HasRShape ds q → q.num.cps.length = q.wt.cps.length := fun h => by
    rw [h.1.1.4, h.2.1.4, h.1.2, h.2.2]
  have f1 : (m.map Prod.fst).map x = r.num.cps := by
    have := congrArg (List.map Prod.fst) hx
    rw [List.map_fst_zip (len h).le] at this
    rw [← this]; simp [Function.comp_def]
  have f2 : (m.map Prod.snd).map Tri.x = r.wt.cps := by
    have := congrArg (List.map Prod.snd) hx
    rw [List.map_snd_zip (len h).ge] at this
    rw [← this]; simp [Function.comp_def]
  have f3 : (m.map Prod.fst).map y = r'.num.cps := by
    have := congrArg (List.map Prod.fst) hy
    rw [List.map_fst_zip (len h').le] at this
    rw [← this]; simp [Function.comp_def]
  have f4 : (m.map Prod.snd).map Tri.y = r'.wt.cps := by
    have := congrArg (List.map Prod.snd) hy
    rw [List.map_snd_zip (len h').ge] at this
    rw [← this]; simp [Function.comp_def]
  obtain ⟨a, ha, ha1, ha2, ha3⟩ := join_shape h.1 h'.1 f1 f3
  obtain ⟨b, hb, hb1, hb2, hb3⟩ := join_shape h.2 h'.2 f2 f4
  refine ⟨⟨a.degrees, a.ncp, a.offsets, m⟩, rfl, ⟨⟨ha1.1.1, ha1.1.2, ha1.1.3, ?_⟩, ha1.2⟩, ?_, ?_⟩
  · have := ha1.1.4
    rw [ha, List.length_map] at this
    exact this
  · have e1 : (RSpline.ofHom (⟨a.degrees, a.ncp, a.offsets, m⟩ : Spline (V × Tri A))).num = a := by
      cases a; simp only [RSpline.ofHom, Spline.map] at *; rw [ha]
    have e2 : (RSpline.ofHom (⟨a.degrees, a.ncp, a.offsets, m⟩ : Spline (V × Tri A))).wt = b := by
      have h1 := ha1.1.2; have h2 := ha1.1.3; have h3 := hb1.1.2; have h4 := hb1.1.3
      have h5 := ha1.2.trans hb1.2.symm
      cases b; cases a; simp only [RSpline.ofHom, Spline.map] at *; subst h1 h2 h3 h4 h5; rw [hb]
    unfold RSpline.map
    rw [e1, e2, ha2, hb2]
  · have e1 : (RSpline.ofHom (⟨a.degrees, a.ncp, a.offsets, m⟩ : Spline (V × Tri A))).num = a := by
      cases a; simp only [RSpline.ofHom, Spline.map] at *; rw [ha]
    have e2 : (RSpline.ofHom (⟨a.degrees, a.ncp, a.offsets, m⟩ : Spline (V × Tri A))).wt = b := by
      have h1 := ha1.1.2; have h2 := ha1.1.3; have h3 := hb1.1.2; have h4 := hb1.1.3
      have h5 := ha1.2.trans hb1.2.symm
      cases b; cases a; simp only [RSpline.ofHom, Spline.map] at *; subst h1 h2 h3 h4 h5; rw [hb]
    unfold RSpline.map
    rw [e1, e2, ha3, hb3]

theorem hom_zip {K V' : Type} {f : Tri A → K} {g : V → V'} (H : Spline (V × Tri A)) :
    ((RSpline.ofHom H).map f g).num.cps.zip ((RSpline.ofHom H).map f g).wt.cps = H.cps.map fun z => (g z.1, f z.2) := by
  simp only [RSpline.map, RSpline.ofHom, Spline.map, List.map_map]
  rw [List.zip_map', ]
  rfl

theorem hom_shape {K V' : Type} {f : Tri A → K} {g : V → V'} {ds : List ℕ} {H : Spline (V × Tri A)} (h : HasShape ds H) :
    HasRShape ds ((RSpline.ofHom H).map f g) := ⟨⟨(h.1.map _).map _, h.2⟩, ⟨(h.1.map _).map _, h.2⟩⟩
end

/-- coordinates of points -/
abbrev coP (c : Fin n) (z : Point (Tri A) n) : Tri A := z.val c
/-- coordinates of numbers -/
abbrev co₁ (_ : Unit) (z : Tri A) : Tri A := z

theorem approxPoints_iff {ds : List ℕ} {k : ℕ} {B : Fin n → ℝ} {r : RSpline (Fl A) (Point (Fl A) n)} {r' : RSpline ℝ (Point ℝ n)} :
    r.ApproxPoints ds k B r' ↔ RBoth (Point.map Tri.x) (Point.map Tri.y) ds (HomPos coP B k) r r' := by
  constructor
  · intro h
    obtain ⟨m, h1, h2, h3⟩ := forall₂_join (x := fun z : Point (Tri A) n × Tri A => (z.1.map Tri.x, z.2.x)) (y := fun z => (z.1.map Tri.y, z.2.y))
      (Q := HomPos coP B k) (fun a b => ((⟨fun c => ⟨a.1.val c, b.1.val c, 0⟩⟩ : Point (Tri A) n), (⟨a.2, b.2, 0⟩ : Tri A)))
      (fun _ _ => rfl) (fun _ _ => rfl) (fun a b h => ⟨h.1, h.1.le, ⟨(abs_of_pos h.1).le, h.2.1⟩, fun c => h.2.2 c⟩) h.near
    obtain ⟨H, rfl, h4, h5, h6⟩ := join_rshape h.shape h.shape' h1 h2
    exact ⟨H, h5, h6, h4, h3⟩
  · rintro ⟨H, rfl, rfl, hH, hP⟩
    refine ⟨hom_shape hH, hom_shape hH, ?_⟩
    rw [hom_zip, hom_zip]
    simp only [List.forall₂_map_left_iff, List.forall₂_map_right_iff]
    exact List.forall₂_same.mpr fun z hz => ⟨(hP z hz).1, (hP z hz).2.2.1.2, fun c => (hP z hz).2.2.2 c⟩

theorem approx_iff {ds : List ℕ} {k : ℕ} {B : ℝ} {r : RSpline (Fl A) (Fl A)} {r' : RSpline ℝ ℝ} :
    r.Approx ds k B r' ↔ RBoth Tri.x Tri.y ds (HomPos co₁ (fun _ => B) k) r r' := by
  constructor
  · intro h
    obtain ⟨m, h1, h2, h3⟩ := forall₂_join (x := fun z : Tri A × Tri A => (z.1.x, z.2.x)) (y := fun z => (z.1.y, z.2.y))
      (Q := HomPos co₁ (fun _ => B) k) (fun a b => ((⟨a.1, b.1, 0⟩ : Tri A), (⟨a.2, b.2, 0⟩ : Tri A)))
      (fun _ _ => rfl) (fun _ _ => rfl) (fun a b h => ⟨h.1, h.1.le, ⟨(abs_of_pos h.1).le, h.2.1⟩, fun _ => h.2.2⟩) h.near
    obtain ⟨H, rfl, h4, h5, h6⟩ := join_rshape h.shape h.shape' h1 h2
    exact ⟨H, h5, h6, h4, h3⟩
  · rintro ⟨H, rfl, rfl, hH, hP⟩
    refine ⟨hom_shape hH, hom_shape hH, ?_⟩
    rw [hom_zip, hom_zip]
    simp only [List.forall₂_map_left_iff, List.forall₂_map_right_iff]
    exact List.forall₂_same.mpr fun z hz => ⟨(hP z hz).1, (hP z hz).2.2.1.2, (hP z hz).2.2.2 ()⟩

theorem approxRuns_iff {ds : List ℕ} {k : ℕ} {B : Fin n → ℝ} {r : M (RSpline (Fl A) (Point (Fl A) n))} {r' : M (RSpline ℝ (Point ℝ n))} :
    RApproxRuns ds k B r r' ↔ RBothRuns (Point.map Tri.x) (Point.map Tri.y) ds (HomPos coP B k) r r' := by
  simp only [RApproxRuns, RBothRuns, approxPoints_iff]

theorem approxRuns₁_iff {ds : List ℕ} {k : ℕ} {B : ℝ} {r : M (RSpline (Fl A) (Fl A))} {r' : M (RSpline ℝ ℝ)} :
    RApproxRuns₁ ds k B r r' ↔ RBothRuns Tri.x Tri.y ds (HomPos co₁ (fun _ => B) k) r r' := by
  simp only [RApproxRuns₁, RBothRuns, approx_iff]

/-! ## products -/

section
variable {V W U ι ι' ι'' : Type} {co : ι → V → Tri A} {co' : ι' → W → Tri A} {co'' : ι'' → U → Tri A}
  [Zero U] [Add U] [Sub U] [Neg U] [SMul (Tri A) U] (hco : Coordwise co'') (hη : A.η = 0)

include hco in
theorem HomNear.add {B : ι'' → ℝ} {k : ℕ} {a b : U × Tri A} (ha : HomNear co'' B k a) (hb : HomNear co'' B k b) :
    HomNear co'' B (k + 1) (a + b) := by
  refine ⟨add_nonneg ha.1 hb.1, NearM.add ha.2.1 hb.2.1, fun c => ?_⟩
  have := NearM.add (ha.2.2 c) (hb.2.2 c)
  rw [← mul_add, ← hco.add] at this
  exact this

theorem HomNear.zero (h0 : ∀ c, co'' c 0 = 0) {B : ι'' → ℝ} : HomNear co'' B 0 (0 : U × Tri A) := by
  have e : NearM 0 0 (0 : Tri A) := Near.zero
  refine ⟨le_rfl, e, fun c => ?_⟩
  show NearM (B c * 0) 0 (co'' c 0)
  rw [h0, mul_zero]; exact e

include hco hη in
theorem HomNear.smul {B : ι'' → ℝ} {j k : ℕ} {l : Tri A} (h0 : 0 ≤ l.y) (hl : NearM l.y j l) {a : U × Tri A} (ha : HomNear co'' B k a) :
    HomNear co'' B (j + k + 1) (l • a) := by
  refine ⟨mul_nonneg h0 ha.1, NearM.mul hη hl ha.2.1, fun c => ?_⟩
  show NearM (B c * (l.y * a.2.y)) _ (co'' c (l • a.1))
  rcases hco.smul c l a.1 with e | e
  · rw [e, show B c * (l.y * a.2.y) = l.y * (B c * a.2.y) by ring]
    exact NearM.mul hη hl (ha.2.2 c)
  · rw [e, show B c * (l.y * a.2.y) = B c * a.2.y * l.y by ring, Nat.add_comm j k]
    exact NearM.mul hη (ha.2.2 c) hl

include hη in
theorem HomNear.mul {mul : V → W → U} {i : ι'' → ι} {i' : ι'' → ι'}
    (hmul : ∀ c a b, co'' c (mul a b) = co (i c) a * co' (i' c) b ∨ co'' c (mul a b) = co' (i' c) b * co (i c) a)
    {B : ι → ℝ} {B' : ι' → ℝ} {j k : ℕ} {a : V × Tri A} {b : W × Tri A} (ha : HomNear co B j a) (hb : HomNear co' B' k b) :
    HomNear co'' (fun c => B (i c) * B' (i' c)) (j + k + 1) ((mul a.1 b.1, a.2 * b.2) : U × Tri A) := by
  refine ⟨mul_nonneg ha.1 hb.1, NearM.mul hη ha.2.1 hb.2.1, fun c => ?_⟩
  show NearM (B (i c) * B' (i' c) * (a.2.y * b.2.y)) _ (co'' c (mul a.1 b.1))
  rcases hmul c a.1 b.1 with e | e
  · rw [e, show B (i c) * B' (i' c) * (a.2.y * b.2.y) = B (i c) * a.2.y * (B' (i' c) * b.2.y) by ring]
    exact NearM.mul hη (ha.2.2 _) (hb.2.2 _)
  · rw [e, show B (i c) * B' (i' c) * (a.2.y * b.2.y) = B' (i' c) * b.2.y * (B (i c) * a.2.y) by ring, Nat.add_comm j k]
    exact NearM.mul hη (hb.2.2 _) (ha.2.2 _)

variable {V₁ V₂ W₁ W₂ U₁ U₂ : Type} [Par V V₁] [Par V V₂] [Par W W₁] [Par W W₂] [Par U U₁] [Par U U₂]
  [Zero V] [Add V] [Sub V] [Neg V] [SMul (Tri A) V] [Zero W] [Add W] [Sub W] [Neg W] [SMul (Tri A) W]
  [Zero V₁] [Add V₁] [Sub V₁] [Neg V₁] [SMul (Fl A) V₁] [Zero V₂] [Add V₂] [Sub V₂] [Neg V₂] [SMul ℝ V₂]
  [Zero W₁] [Add W₁] [Sub W₁] [Neg W₁] [SMul (Fl A) W₁] [Zero W₂] [Add W₂] [Sub W₂] [Neg W₂] [SMul ℝ W₂]
  [g₁ : ParPoint (Tri A) (Fl A) V V₁] [g₂ : ParPoint (Tri A) ℝ V V₂] [f₁ : ParPoint (Tri A) (Fl A) W W₁] [f₂ : ParPoint (Tri A) ℝ W W₂]
  [Zero U₁] [Add U₁] [Sub U₁] [Neg U₁] [SMul (Fl A) U₁] [Zero U₂] [Add U₂] [Sub U₂] [Neg U₂] [SMul ℝ U₂]
  [h₁ : ParPoint (Tri A) (Fl A) U U₁] [h₂ : ParPoint (Tri A) ℝ U U₂] {x : V → V₁} {y : V → V₂} {x' : W → W₁} {y' : W → W₂} {x'' : U → U₁} {y'' : U → U₂}
  (hx : ∀ (a : V) (b : V₁), a ≋ b ↔ b = x a) (hy : ∀ (a : V) (b : V₂), a ≋ b ↔ b = y a)
  (hx' : ∀ (a : W) (b : W₁), a ≋ b ↔ b = x' a) (hy' : ∀ (a : W) (b : W₂), a ≋ b ↔ b = y' a)
  (hx'' : ∀ (a : U) (b : U₁), a ≋ b ↔ b = x'' a) (hy'' : ∀ (a : U) (b : U₂), a ≋ b ↔ b = y'' a)
include h₁ h₂ g₁ g₂ f₁ f₂ hx hy hx' hy' hx'' hy'' hco hη

theorem rboth_mul (hu : A.u ≤ 1 / 2) (hco0 : ∀ c, co'' c 0 = 0) {cfg : Cfg} (hmax : cfg.maxBinom ≤ 68) {mul : V → W → U}
    {mul₁ : V₁ → W₁ → U₁} {mul₂ : V₂ → W₂ → U₂} (hm₁ : ∀ a b, x'' (mul a b) = mul₁ (x a) (x' b)) (hm₂ : ∀ a b, y'' (mul a b) = mul₂ (y a) (y' b))
    {ε : ℕ} {B'' : ι'' → ℝ} {da db : List ℕ} {B : ι → ℝ} {B' : ι' → ℝ} {ka kb : ℕ}
    (hmul : ∀ a b, HomNear co B ka a → HomNear co' B' kb b → HomNear co'' B'' (ka + kb + 1 + ε) ((mul a.1 b.1, a.2 * b.2) : U × Tri A))
    {a : RSpline (Fl A) V₁} {a' : RSpline ℝ V₂} {b : RSpline (Fl A) W₁} {b' : RSpline ℝ W₂} (ha : RBoth x y da (HomPos co B ka) a a') (hb : RBoth x' y' db (HomPos co' B' kb) b b') (hdim : db.length = da.length)
    (hdeg : ∀ p ∈ sumDegrees da db, p < cfg.maxBinom) :
    RBothRuns x'' y'' (sumDegrees da db) (HomPos co'' B'' (productRoundings da db ka kb + ε))
      (RSpline.mulOp cfg mul₁ a b) (RSpline.mulOp cfg mul₂ a' b') := by
  obtain ⟨H, rfl, rfl, hH, hP⟩ := ha
  obtain ⟨G, rfl, rfl, hG, hQ⟩ := hb
  have hU := Spline.mulOp_returns (K := Tri A) cfg hmax (fun (a : V × Tri A) (b : W × Tri A) => ((mul a.1 b.1, a.2 * b.2) : U × Tri A)) hH hG hdim hdeg
  obtain ⟨R, e, hR⟩ := hU
  have e' : RSpline.mulOp cfg mul (RSpline.ofHom H) (RSpline.ofHom G) = .ok (RSpline.ofHom R) := by
    have h1 := Props.C84_product (K := Tri A) (A := Prod.fst) (B := Prod.fst) cfg (linearOn_fst (K := Tri A) (V := U))
      (fun (a : V × Tri A) (b : W × Tri A) => (mul a.1 b.1, a.2 * b.2)) mul (fun _ _ => rfl) H G
    have h2 := Props.C84_product (K := Tri A) (A := Prod.snd) (B := Prod.snd) cfg (linearOn_snd (K := Tri A) (V := U))
      (fun (a : V × Tri A) (b : W × Tri A) => (mul a.1 b.1, a.2 * b.2)) (fun x y => x * y) (fun _ _ => rfl) H G
    simp only [RSpline.mulOp, RSpline.ofHom, Spline.mulScalar]
    rw [h1, h2, e]
    exact RSpline.ofSplines_hom R
  have m1 : ∀ a a' b b', a ≋ a' → b ≋ b' → mul a b ≋ mul₁ a' b' := fun a a' b b' h1 h2 => by
    rw [(hx _ _).1 h1, (hx' _ _).1 h2, ← hm₁]; exact (hx'' _ _).2 rfl
  have m2 : ∀ a a' b b', a ≋ a' → b ≋ b' → mul a b ≋ mul₂ a' b' := fun a a' b b' h1 h2 => by
    rw [(hy _ _).1 h1, (hy' _ _).1 h2, ← hm₂]; exact (hy'' _ _).2 rfl
  have near : ∀ z ∈ R.cps, HomNear co'' B'' (productRoundings da db ka kb + ε) z := by
    have := Spline.mulOp_graded (P := H) (Q := G) hmax (L := fun l : Tri A => 0 ≤ l.y ∧ NearM l.y 4 l) (F := fun j l => 0 ≤ l.y ∧ NearM l.y (5 * j) l)
      (T := HomNear co'' B'' (ka + kb + 5 * H.dim + 2 + ε))
      (G := fun j => HomNear co'' B'' (ka + kb + 5 * H.dim + 2 + ε + j))
      (fun c d hd => ⟨div_nonneg (Nat.cast_nonneg (α := ℝ) c) (Nat.cast_nonneg d), Near.ratio hη hu c hd⟩) ⟨zero_le_one, NearM.one⟩
      (fun j a b h1 h2 => ⟨mul_nonneg h1.1 h2.1, (NearM.mul hη h1.2 h2.2).mono (by omega)⟩)
      (by
        intro a l p q h1 h2 hp hq
        have := HomNear.smul hco hη h2.1 h2.2 (HomNear.smul hco hη h1.1 h1.2 (hmul _ _ (hP p hp).2 (hQ q hq).2))
        refine this.mono ?_
        have : 0 < H.dim := hH.1.1
        omega) ((HomNear.zero hco0).mono (Nat.zero_le _)) (fun j a b h1 h2 => HomNear.add hco h1 (h2.mono (Nat.le_add_right _ _)))
      (fun j a h => h.mono (by omega)) hH.1.1 (by unfold Spline.dim; rw [hG.2, hH.2]; exact hdim) e
    intro z hz
    refine (this z hz).mono (le_of_eq ?_)
    unfold productRoundings Spline.dim
    rw [hH.2, hG.2]
    show _ + _ + 5 * da.length + 2 + ε + (Spline.prodTerms da db).prod = _ + _ + 5 * da.length + 2 + (Spline.prodTerms da db).prod + ε
    omega
  refine RBothRuns.of hx'' hy'' (RSpline.parRMulOp cfg m1 (rel_x hx _) (rel_x hx' _)) (RSpline.parRMulOp cfg m2 (rel_y hy _) (rel_y hy' _)) e' hR ?_
  intro z hz
  refine ⟨?_, near z hz⟩
  -- the weights are positive
  have hw1 : HasShape da ((H.map Prod.snd).map Tri.y) := ⟨(hH.1.map _).map _, hH.2⟩
  have hw2 : HasShape db ((G.map Prod.snd).map Tri.y) := ⟨(hG.1.map _).map _, hG.2⟩
  have c1 := hw1.1.computes (K := ℝ)
  have c2 := hw2.1.computes (K := ℝ)
  rw [hw1.2] at c1
  rw [hw2.2] at c2
  obtain ⟨w, ew, cw⟩ := Props.C21_mul_scalar cfg hmax _ _ _ _ _ _ c1 c2 hdim hdeg
  have ew' := Props.C84_product (K := Tri A) (A := Prod.snd) (B := Prod.snd) cfg (linearOn_snd (K := Tri A) (V := U))
      (fun (a : V × Tri A) (b : W × Tri A) => (mul a.1 b.1, a.2 * b.2)) (fun x y => x * y) (fun _ _ => rfl) H G
  have ew'' := Spline.mulOp_map (K := Tri A) (K' := ℝ) y_iff y_iff y_iff cfg (mul := fun x y => x * y) (mul' := fun x y => x * y) (fun _ _ => rfl)
    (H.map Prod.snd) (G.map Prod.snd)
  rw [ew', e] at ew''
  have ew3 : Spline.mulOp ℝ cfg (fun x y => x * y) ((H.map Prod.snd).map Tri.y) ((G.map Prod.snd).map Tri.y) = .ok w := ew
  rw [ew3] at ew''
  obtain rfl : w = (R.map Prod.snd).map Tri.y := Except.ok.inj ew''
  have p1 := PosNet.of_computes c1 (by
    intro c hc
    simp only [Spline.map, List.map_map, List.mem_map] at hc
    obtain ⟨v, hv, rfl⟩ := hc
    exact (hP v hv).1)
  have p2 := PosNet.of_computes c2 (by
    intro c hc
    simp only [Spline.map, List.map_map, List.mem_map] at hc
    obtain ⟨v, hv, rfl⟩ := hc
    exact (hQ v hv).1)
  exact PosNet.cps_pos cw (p1.mul p2 hdim) z.2.y (by
    simp only [Spline.map, List.map_map, List.mem_map]
    exact ⟨z, hz, rfl⟩)
end

theorem NearM.dot (hη : A.η = 0) {j k : ℕ} {a b : Point (Tri A) n} {M N : Fin n → ℝ} (ha : ∀ c, NearM (M c) j (a.val c)) (hb : ∀ c, NearM (N c) k (b.val c)) :
    NearM (∑ c, M c * N c) (j + k + 1 + n) (a.dot b) := by
  unfold Point.dot Point.accumulate
  have : ∀ (l : List (Fin n)) (z : Tri A) (m : ℕ) (X : ℝ), NearM X (j + k + 1 + m) z →
      NearM (X + (l.map fun c => M c * N c).sum) (j + k + 1 + (m + l.length)) (l.foldl (fun acc i => acc + a.val i * b.val i) z) := by
    intro l
    induction l with
    | nil => intro z m X h; simpa using h
    | cons i l ih =>
      intro z m X h
      have := ih _ (m + 1) _ (NearM.add h ((NearM.mul hη (ha i) (hb i)).mono (Nat.le_add_right _ m)))
      rw [List.length_cons, List.foldl_cons, List.map_cons, List.sum_cons, ← add_assoc]
      exact this.mono (by omega)
  have e : NearM 0 (j + k + 1 + 0) (0 : Tri A) := NearM.mono (Nat.zero_le _) (show NearM 0 0 (0 : Tri A) from Near.zero)
  have := this (List.finRange n) 0 0 0 e
  rw [List.length_finRange, Nat.zero_add, zero_add] at this
  rw [← List.ofFn_eq_map, List.sum_ofFn] at this
  exact this

theorem neg_nearP (hη : A.η = 0) (i : Fin n) (a : Point (Tri A) n) (M : ℝ) (k : ℕ) (h : NearM M k (coP i a)) : NearM M (k + 1) (coP i (-a)) := by
  have := NearM.mul hη h (NearM.neg NearM.one)
  rw [mul_one] at this
  exact this

/-! ## quotients -/

/-- the quotient of the exact numbers and of the perturbed ones -/
theorem weighted_quotient {u B ε N' N W' W q : ℝ} {j : ℕ} (hW : 0 < W) (hε : ε < 1) (hu : 0 ≤ u) (hWe : |W' - W| ≤ ε * W) (hN : |N| ≤ B * W)
    (hNe : |N' - N| ≤ ε * (B * W)) (hq : |q - N' / W'| ≤ ((1 + u) ^ j - 1) * |N' / W'|) :
    0 < W' ∧ |q - N / W| ≤ ((1 + u) ^ j * (1 + ε) / (1 - ε) - 1) * B := by
  have hε0 : 0 ≤ ε := by
    by_contra h
    have := abs_nonneg (W' - W)
    nlinarith
  obtain ⟨h1, h2, h3⟩ := quot_err hNe hWe le_rfl (by nlinarith) hN
  have hW0 := hW.ne'
  have h1ε : 0 < 1 - ε := by linarith
  have e1 : B * W / W = B := by field_simp
  have e2 : (ε * (B * W) + B * W / W * (ε * W)) / (W - ε * W) = 2 * ε / (1 - ε) * B := by
    rw [e1, show W - ε * W = (1 - ε) * W by ring]
    field_simp
    ring
  rw [e2] at h2
  rw [e1] at h3
  refine ⟨h1, ?_⟩
  have hB : 0 ≤ B := (abs_nonneg _).trans h3
  have h4 : |N' / W'| ≤ (1 + ε) / (1 - ε) * B := by
    have := abs_add_le (N' / W' - N / W) (N / W)
    rw [sub_add_cancel] at this
    have e3 : (1 + ε) / (1 - ε) * B = 2 * ε / (1 - ε) * B + B := by field_simp; ring
    linarith
  have h5 : 0 ≤ (1 + u) ^ j - 1 := by linarith [one_le_pow₀ (n := j) (show (1 : ℝ) ≤ 1 + u by linarith)]
  have h6 := abs_add_le (q - N' / W') (N' / W' - N / W)
  rw [sub_add_sub_cancel] at h6
  have h7 := mul_le_mul_of_nonneg_left h4 h5
  have e4 : ((1 + u) ^ j * (1 + ε) / (1 - ε) - 1) * B = ((1 + u) ^ j - 1) * ((1 + ε) / (1 - ε) * B) + 2 * ε / (1 - ε) * B := by
    field_simp; ring
  linarith

theorem homPos_divP' {ι V : Type} {co : ι → V → Tri A} {B : ι → ℝ} {k : ℕ} {v : V × Tri A} (h : HomPos co B k v) (hk : (1 + A.u) ^ k < 2) : 0 < v.2.x.val := by
  have := (abs_le.mp h.2.2.1.2).1
  nlinarith [h.1]

theorem homPos_divP (hη : A.η = 0) {B : Fin n → ℝ} {k : ℕ} {v : Point (Tri A) n × Tri A} (h : HomPos coP B k v) (hk : (1 + A.u) ^ k < 2) :
    divM (v.1.map Tri.x) v.2.x = .ok ((v.1.map Tri.x).divScalar v.2.x) ∧ divM (v.1.map Tri.y) v.2.y = .ok ((v.1.map Tri.y).divScalar v.2.y) ∧
      0 < v.2.x.val ∧ ∀ c, |(((v.1.map Tri.x).divScalar v.2.x).val c).val - ((v.1.map Tri.y).divScalar v.2.y).val c| ≤
        ((1 + A.u) ^ (k + 2) / (2 - (1 + A.u) ^ k) - 1) * B c := by
  have hw : 0 < v.2.x.val := by
    have := (abs_le.mp h.2.2.1.2).1
    nlinarith [h.1]
  refine ⟨?_, ?_, hw, fun c => ?_⟩
  · unfold divM
    rw [if_neg (fun h => by rw [eq_of_beq h] at hw; simp at hw)]
    rfl
  · unfold divM
    rw [if_neg (fun h' => by have := eq_of_beq h'; have := h.1; linarith)]
    rfl
  · have d1 := A.div_err 1 v.2.x.val hw.ne'
    rw [hη, add_zero] at d1
    have d2 := mul_pert hη (α := 1) (β := 1 + A.u) (x := (v.1.val c).x.val) (y := 1 / v.2.x.val) (x' := (v.1.val c).x.val)
      (y' := A.div 1 v.2.x.val) le_rfl (by linarith [A.u_nonneg]) (by simp) (by rw [add_sub_cancel_left]; exact d1)
      (A.mul_err (v.1.val c).x.val (A.div 1 v.2.x.val))
    rw [one_mul, ← sq, ← abs_mul, mul_one_div] at d2
    have := (weighted_quotient (ε := (1 + A.u) ^ k - 1) h.1 (by linarith) A.u_nonneg h.2.2.1.2 (h.2.2.2 c).1 (h.2.2.2 c).2 d2).2
    rw [show (1 : ℝ) + ((1 + A.u) ^ k - 1) = (1 + A.u) ^ k by ring, show (1 : ℝ) - ((1 + A.u) ^ k - 1) = 2 - (1 + A.u) ^ k by ring, ← pow_add,
      Nat.add_comm 2 k] at this
    have e6 : ((v.1.map Tri.y).divScalar v.2.y).val c = (v.1.val c).y / v.2.y := by
      show (v.1.val c).y * (1 / v.2.y) = _
      rw [mul_one_div]
    rw [e6]
    exact this

theorem homPos_div₁ (hη : A.η = 0) {B : ℝ} {k : ℕ} {v : Tri A × Tri A} (h : HomPos co₁ (fun _ => B) k v) (hk : (1 + A.u) ^ k < 2) :
    divM v.1.x v.2.x = .ok (v.1.x / v.2.x) ∧ divM v.1.y v.2.y = .ok (v.1.y / v.2.y) ∧
      0 < v.2.x.val ∧ |(v.1.x / v.2.x).val - v.1.y / v.2.y| ≤ ((1 + A.u) ^ (k + 1) / (2 - (1 + A.u) ^ k) - 1) * B := by
  have hw : 0 < v.2.x.val := by
    have := (abs_le.mp h.2.2.1.2).1
    nlinarith [h.1]
  refine ⟨?_, ?_, hw, ?_⟩
  · unfold divM
    rw [if_neg (fun h => by rw [eq_of_beq h] at hw; simp at hw)]
    rfl
  · unfold divM
    rw [if_neg (fun h' => by have := eq_of_beq h'; have := h.1; linarith)]
    rfl
  · have d1 := A.div_err v.1.x.val v.2.x.val hw.ne'
    rw [hη, add_zero] at d1
    have := (weighted_quotient (j := 1) (ε := (1 + A.u) ^ k - 1) h.1 (by linarith) A.u_nonneg h.2.2.1.2 (h.2.2.2 ()).1 (h.2.2.2 ()).2
      (q := A.div v.1.x.val v.2.x.val) (by rw [pow_one, add_sub_cancel_left]; exact d1)).2
    rw [show (1 : ℝ) + ((1 + A.u) ^ k - 1) = (1 + A.u) ^ k by ring, show (1 : ℝ) - ((1 + A.u) ^ k - 1) = 2 - (1 + A.u) ^ k by ring, ← pow_add,
      Nat.add_comm 1 k] at this
    exact this
end Tri
end Bezman

namespace Bezman
open Spec
variable {A : FloatArith} {n : ℕ}

/-- the constructor from points and weights, in any arithmetic -/
theorem RSpline.ofPoints_any {K V : Type} [Zero K] [Zero V] [SMul K V] {ds : List ℕ} {points : List V} {weights : List K} (h : 0 < ds.length)
    (hp : points.length = size ds) (hw : weights.length = size ds) :
    RSpline.ofPoints ds points weights = .ok ⟨⟨ds, size ds, offsetsOf ds, List.zipWith (fun w x => w • x) weights points⟩,
      ⟨ds, size ds, offsetsOf ds, weights⟩⟩ := by
  unfold RSpline.ofPoints
  obtain ⟨s, h1, h2, h3, h4⟩ := Spline.ofDegrees_ok (V := V) h
  rw [h1, (Spline.ofPoints_ok h hw).1]
  simp only [bind_ok, h2.ncp_eq, h3, hp, hw, assertM_ok (beq_self_eq_true _), h4, tab_length]
  rw [loop_update (G := fun i => weights.getD i 0 • points.getD i 0)]
  · simp only [bind_ok]
    have e : tab (size ds) (fun i => weights.getD i 0 • points.getD i 0)
        = List.zipWith (fun w x => w • x) weights points := by
      conv_rhs => rw [eq_tab weights 0, eq_tab points 0, hw, hp, zipWith_tab]
    rw [e]
    simp [RSpline.compatible, assertM, h2.offsets_eq, h3]
  · intro k H hk _
    rw [rd_getElem (by omega), rd_getElem (by omega)]
    simp only [bind_ok]
    rw [wr_tab _ _ hk]
    congr 2
    simp [hp, hw, hk]

attribute [local instance] parTriX parScalarTriX parTriY parScalarTriY

namespace Tri
section
variable {V V₁ V₂ ι : Type} {x : V → V₁} {y : V → V₂} {R : V × Tri A → Prop}
  [Zero V₁] [Zero V₂]

theorem cps_at {W : Type} [Zero W] {ds : List ℕ} {s : Spline W} (h : HasShape ds s) {idx : List ℕ} (hv : ValidIdx ds idx)
    {v : W} (hget : s.cps[flatIndex ds idx]? = some v) : s.controlPoint idx = .ok v := by
  obtain ⟨h, rfl⟩ := h
  unfold Spline.controlPoint
  rw [Spline.globalToLocal_ok h hv.length]
  simp only [bind_ok]
  unfold rd
  rw [hget]

/-- reading a control point: the stored entries -/
theorem rboth_controlPoint {ds : List ℕ} {r : RSpline (Fl A) V₁} {r' : RSpline ℝ V₂} (h : RBoth x y ds R r r') {idx : List ℕ} (hv : ValidIdx ds idx) :
    ∃ v : V × Tri A, r.num.controlPoint idx = .ok (x v.1) ∧ r.wt.controlPoint idx = .ok v.2.x ∧ r'.num.controlPoint idx = .ok (y v.1) ∧
      r'.wt.controlPoint idx = .ok v.2.y ∧ R v := by
  obtain ⟨H, rfl, rfl, hH, hP⟩ := h
  have hlt : flatIndex ds idx < H.cps.length := by rw [hH.1.cps_len, hH.2]; exact flatIndex_lt hv
  refine ⟨H.cps[flatIndex ds idx], cps_at (hom_shape hH).1 hv ?_, cps_at (hom_shape hH).2 hv ?_, cps_at (hom_shape hH).1 hv ?_,
    cps_at (hom_shape hH).2 hv ?_, hP _ (List.getElem_mem _)⟩ <;>
  simp [RSpline.map, RSpline.ofHom, Spline.map, List.getElem?_eq_getElem hlt]
end

end Tri
end Bezman
