import Verif.Proofs.RationalBoundsConv
import Verif.Proofs.FacesOps

set_option linter.unusedSectionVars false

/-! # Rounding errors of sums and differences of rational splines with positive weights -/

namespace Bezman
open Spec

section
variable {K V : Type} [Zero K] [One K] [Add K] [Sub K] [Mul K] [Neg K] [Div K] [NatCast K] [BEq K]
  [Zero V] [Add V] [Sub V] [Neg V] [SMul K V]

omit [Zero V] [Add V] [Sub V] [Neg V] in
theorem Spline.zipCps_zip {ds : List ℕ} {a b : Spline V} (ha : HasShape ds a) (hb : HasShape ds b) (op : V → V → V) :
    Spline.zipCps a.ncp op a.cps b.cps = .ok (List.zipWith op a.cps b.cps) := by
  have hlen : 0 < a.cps.length := by rw [ha.1.4]; exact size_pos _
  obtain ⟨z, -⟩ : ∃ z : V, z = a.cps[0] := ⟨_, rfl⟩
  have la : a.cps.length = a.ncp := by rw [ha.1.4, ha.1.2]
  have lb : b.cps.length = a.ncp := by rw [hb.1.4, ha.1.2, ha.2, hb.2]
  have ea : a.cps = tab a.ncp (fun i => a.cps.getD i z) := by
    conv_lhs => rw [eq_tab a.cps z, la]
  have eb : b.cps = tab a.ncp (fun i => b.cps.getD i z) := by
    conv_lhs => rw [eq_tab b.cps z, lb]
  generalize (fun i => a.cps.getD i z) = A at ea
  generalize (fun i => b.cps.getD i z) = B at eb
  rw [ea, eb, Spline.zipCps_ok, zipWith_tab]

theorem Spline.elevateTo_same {cfg : Cfg} (hf : 0 < cfg.fuel) {ds : List ℕ} {a b : Spline V} (ha : HasShape ds a) (hb : HasShape ds b) :
    Spline.elevateTo K cfg a b.degrees = .ok a :=
  Spline.elevateTo_none hf (by rw [ha.2, hb.2]) (fun i p t hp ht => by
    rw [ha.2] at hp; rw [hb.2, hp] at ht; exact (Option.some.inj ht).symm.le)

theorem Spline.sum_same {cfg : Cfg} (hf : 0 < cfg.fuel) {ds : List ℕ} {a b : Spline V} (ha : HasShape ds a) (hb : HasShape ds b) :
    Spline.addOp K cfg a b = .ok { a with cps := List.zipWith (· + ·) a.cps b.cps } ∧
    Spline.addAssign K cfg a b = .ok { a with cps := List.zipWith (· + ·) a.cps b.cps } ∧
    Spline.subOp K cfg a b = .ok { a with cps := List.zipWith (· - ·) a.cps b.cps } ∧
    Spline.subAssign K cfg a b = .ok { a with cps := List.zipWith (· - ·) a.cps b.cps } := by
  have e1 := Spline.elevateTo_same (K := K) hf ha hb
  have e2 := Spline.elevateTo_same (K := K) hf hb ha
  have get : ∀ k, k < a.dim → ∃ p, a.degrees[k]? = some p ∧ b.degrees[k]? = some p := fun k hk =>
    ⟨a.degrees[k], List.getElem?_eq_getElem hk, by rw [hb.2, ← ha.2]; exact List.getElem?_eq_getElem hk⟩
  refine ⟨?_, ?_, ?_, ?_⟩
  · unfold Spline.addOp
    obtain ⟨m, hm⟩ : ∃ m, cfg.fuel = m + 1 := ⟨cfg.fuel - 1, by omega⟩
    rw [hm, Spline.addAux, Spline.ofPoints_self ha.1]
    have hl : loop a.dim (fun d (b' : Bool) => do
        let p ← rd a.degrees d
        let q ← rd b.degrees d
        pure (b' || decide (p > q))) false = .ok false := by
      apply loop_eq (fun _ => false) rfl
      intro k hk
      obtain ⟨p, h1, h2⟩ := get k hk
      rw [rd_ok h1, rd_ok h2]
      simp
    simp only [bind_ok, hl, e1, Bool.not_false, if_true]
    rw [Spline.zipCps_zip ha hb]
    rfl
  · unfold Spline.addAssign
    simp only [e1, bind_ok, e2]
    rw [Spline.zipCps_zip ha hb]
    rfl
  · unfold Spline.subOp
    rw [Spline.ofPoints_self ha.1]
    have hl : loop a.dim (fun d ret =>
        whileM cfg.fuel (fun (_ : Spline V) => do
          let q ← rd b.degrees d
          let p ← rd a.degrees d
          pure (decide (q > p))) (fun ret => Spline.orderElevate K ret d) ret) a = .ok a := by
      apply loop_eq (fun _ => a) rfl
      intro k hk
      obtain ⟨p, h1, h2⟩ := get k hk
      apply whileM_false hf
      rw [rd_ok h1, rd_ok h2]
      simp
    simp only [bind_ok, hl, e2]
    rw [Spline.zipCps_zip ha hb]
    rfl
  · unfold Spline.subAssign
    simp only [e1, bind_ok, e2]
    rw [Spline.zipCps_zip ha hb]
    rfl

/-- what the four operators do with equal and with different weights -/
structure RSpline.SumLike (cfg : Cfg) (op : V → V → V) (f : RSpline K V → RSpline K V → M (RSpline K V)) : Prop where
  eq : ∀ (ds : List ℕ) r q, HasRShape ds r → HasRShape ds q → r.wt.eqOp q.wt = true →
    f r q = .ok ⟨{ r.num with cps := List.zipWith op r.num.cps q.num.cps }, r.wt⟩
  ne : ∀ (ds : List ℕ) r q A B W, r.wt.eqOp q.wt = false → RSpline.mulWeight' cfg r.num q.wt = .ok A → RSpline.mulWeight cfg r.wt q.num = .ok B →
    Spline.mulScalar cfg r.wt q.wt = .ok W → HasShape ds A → HasShape ds B → HasShape ds W →
    f r q = .ok ⟨{ A with cps := List.zipWith op A.cps B.cps }, W⟩

theorem RSpline.compatible_shape {ds : List ℕ} {A : Spline V} {W : Spline K} (hA : HasShape ds A) (hW : HasShape ds W) (c : List V) :
    RSpline.compatible (⟨{ A with cps := c }, W⟩ : RSpline K V) = true := by
  simp [RSpline.compatible, hA.2, hW.2, hA.1.2, hW.1.2, hA.1.3, hW.1.3]

theorem RSpline.sums (cfg : Cfg) (hf : 0 < cfg.fuel) :
    RSpline.SumLike (K := K) (V := V) cfg (· + ·) (RSpline.addOp cfg) ∧ RSpline.SumLike (K := K) (V := V) cfg (· + ·) (RSpline.addAssign cfg) ∧
    RSpline.SumLike (K := K) (V := V) cfg (· - ·) (RSpline.subOp cfg) ∧ RSpline.SumLike (K := K) (V := V) cfg (· - ·) (RSpline.subAssign cfg) := by
  refine ⟨⟨?_, ?_⟩, ⟨?_, ?_⟩, ⟨?_, ?_⟩, ⟨?_, ?_⟩⟩
  · intro ds r q hr hq he
    simp only [RSpline.addOp, he, if_true, (Spline.sum_same (K := K) hf hr.1 hq.1).1, bind_ok, RSpline.ofSplines,
      RSpline.compatible_shape hr.1 hr.2, assertM, pure_eq_ok]
  · intro ds r q A B W he e1 e2 e3 hA hB hW
    simp only [RSpline.addOp, he, Bool.false_eq_true, if_false, e1, e2, e3, (Spline.sum_same (K := K) hf hA hB).1, bind_ok, RSpline.ofSplines,
      RSpline.compatible_shape hA hW, assertM, if_true, pure_eq_ok]
  · intro ds r q hr hq he
    simp only [RSpline.addAssign, he, if_true, (Spline.sum_same (K := K) hf hr.1 hq.1).2.1, bind_ok, pure_eq_ok]
  · intro ds r q A B W he e1 e2 e3 hA hB hW
    simp only [RSpline.addAssign, he, Bool.false_eq_true, if_false, e1, e2, e3, (Spline.sum_same (K := K) hf hA hB).2.1, bind_ok,
      RSpline.compatible_shape hA hW, assertM, if_true, pure_eq_ok]
  · intro ds r q hr hq he
    simp only [RSpline.subOp, he, if_true, (Spline.sum_same (K := K) hf hr.1 hq.1).2.2.1, bind_ok, RSpline.ofSplines,
      RSpline.compatible_shape hr.1 hr.2, assertM, pure_eq_ok]
  · intro ds r q A B W he e1 e2 e3 hA hB hW
    simp only [RSpline.subOp, he, Bool.false_eq_true, if_false, e1, e2, e3, (Spline.sum_same (K := K) hf hA hB).2.2.1, bind_ok, RSpline.ofSplines,
      RSpline.compatible_shape hA hW, assertM, if_true, pure_eq_ok]
  · intro ds r q hr hq he
    simp only [RSpline.subAssign, he, if_true, (Spline.sum_same (K := K) hf hr.1 hq.1).2.2.2, bind_ok, pure_eq_ok]
  · intro ds r q A B W he e1 e2 e3 hA hB hW
    simp only [RSpline.subAssign, he, Bool.false_eq_true, if_false, e1, e2, e3, (Spline.sum_same (K := K) hf hA hB).2.2.2, bind_ok,
      RSpline.compatible_shape hA hW, assertM, if_true, pure_eq_ok]
end
end Bezman

namespace Bezman
open Spec
variable {A : FloatArith}

attribute [local instance] parTriX parScalarTriX parTriY parScalarTriY

namespace Tri

/-- the weights of a product are positive -/
theorem product_pos {cfg : Cfg} (hmax : cfg.maxBinom ≤ 68) {da db : List ℕ} {H G W : Spline (Tri A)} (hH : HasShape da H) (hG : HasShape db G)
    (hP : ∀ z ∈ H.cps, 0 < z.y) (hQ : ∀ z ∈ G.cps, 0 < z.y) (hdim : db.length = da.length) (hdeg : ∀ p ∈ sumDegrees da db, p < cfg.maxBinom)
    (e : Spline.mulScalar cfg H G = .ok W) : ∀ z ∈ W.cps, 0 < z.y := by
  have hw1 : HasShape da (H.map Tri.y) := ⟨hH.1.map _, hH.2⟩
  have hw2 : HasShape db (G.map Tri.y) := ⟨hG.1.map _, hG.2⟩
  have c1 := hw1.1.computes (K := ℝ)
  have c2 := hw2.1.computes (K := ℝ)
  rw [hw1.2] at c1
  rw [hw2.2] at c2
  obtain ⟨w, ew, cw⟩ := Props.C21_mul_scalar cfg hmax _ _ _ _ _ _ c1 c2 hdim hdeg
  have ew'' := Spline.mulOp_map (K := Tri A) (K' := ℝ) y_iff y_iff y_iff cfg (mul := fun x y => x * y) (mul' := fun x y => x * y) (fun _ _ => rfl) H G
  have e0 : Spline.mulOp (Tri A) cfg (fun x y => x * y) H G = .ok W := e
  rw [e0] at ew''
  have ew3 : Spline.mulOp ℝ cfg (fun x y => x * y) (H.map Tri.y) (G.map Tri.y) = .ok w := ew
  rw [ew3] at ew''
  obtain rfl : w = W.map Tri.y := Except.ok.inj ew''
  have p1 := PosNet.of_computes c1 (by
    intro c hc
    simp only [Spline.map, List.mem_map] at hc
    obtain ⟨v, hv, rfl⟩ := hc
    exact hP v hv)
  have p2 := PosNet.of_computes c2 (by
    intro c hc
    simp only [Spline.map, List.mem_map] at hc
    obtain ⟨v, hv, rfl⟩ := hc
    exact hQ v hv)
  intro z hz
  exact PosNet.cps_pos cw (p1.mul p2 hdim) z.y (by
    simp only [Spline.map, List.mem_map]
    exact ⟨z, hz, rfl⟩)

section
variable {V V₁ V₂ ι : Type} [Par V V₁] [Par V V₂] [Zero V] [Add V] [Sub V] [Neg V] [SMul (Tri A) V]
  [Zero V₁] [Add V₁] [Sub V₁] [Neg V₁] [SMul (Fl A) V₁] [Zero V₂] [Add V₂] [Sub V₂] [Neg V₂] [SMul ℝ V₂]
  [h₁ : ParPoint (Tri A) (Fl A) V V₁] [h₂ : ParPoint (Tri A) ℝ V V₂] {x : V → V₁} {y : V → V₂} {co : ι → V → Tri A}
  (hx : ∀ (a : V) (b : V₁), a ≋ b ↔ b = x a) (hy : ∀ (a : V) (b : V₂), a ≋ b ↔ b = y a)
include hx hy h₁ h₂

theorem rboth_sum (hco : Coordwise co) (hco0 : ∀ c, co c 0 = 0) (hη : A.η = 0) (hu : A.u ≤ 1 / 2) {cfg : Cfg} (hmax : cfg.maxBinom ≤ 68)
    {op : V → V → V} {op₁ : V₁ → V₁ → V₁} {op₂ : V₂ → V₂ → V₂} {f₁ : RSpline (Fl A) V₁ → RSpline (Fl A) V₁ → M (RSpline (Fl A) V₁)}
    {f₂ : RSpline ℝ V₂ → RSpline ℝ V₂ → M (RSpline ℝ V₂)} (hf₁ : RSpline.SumLike cfg op₁ f₁) (hf₂ : RSpline.SumLike cfg op₂ f₂)
    (ho₁ : ∀ a b, x (op a b) = op₁ (x a) (x b)) (ho₂ : ∀ a b, y (op a b) = op₂ (y a) (y b))
    (hop : ∀ c a b (M N : ℝ) k, NearM M k (co c a) → NearM N k (co c b) → NearM (M + N) (k + 1) (co c (op a b)))
    {da db : List ℕ} {B B' : ι → ℝ} {ka kb : ℕ} {a b : RSpline (Fl A) V₁} {a' b' : RSpline ℝ V₂} (ha : RBoth x y da (HomPos co B ka) a a')
    (hb : RBoth x y db (HomPos co B' kb) b b') (hdim : db.length = da.length) (hdeg : ∀ p ∈ sumDegrees da db, p < cfg.maxBinom)
    (hbr : a.wt.eqOp b.wt = a'.wt.eqOp b'.wt) :
    (a.wt.eqOp b.wt = true → RBothRuns x y da (HomPos co (fun c => B c + B' c) (max ka kb + 1)) (f₁ a b) (f₂ a' b')) ∧
    (a.wt.eqOp b.wt = false →
      RBothRuns x y (sumDegrees da db) (HomPos co (fun c => B c + B' c) (productRoundings da db ka kb + 1)) (f₁ a b) (f₂ a' b')) := by
  obtain ⟨H, rfl, rfl, hH, hP⟩ := ha
  obtain ⟨G, rfl, rfl, hG, hQ⟩ := hb
  constructor
  · intro he
    have he' := he
    rw [hbr] at he'
    have hdd : db = da := by
      unfold Spline.eqOp at he
      split at he
      · rename_i h; rw [← hH.2, ← hG.2]; exact h
      · cases he
    subst hdd
    have hwy : (G.cps.map fun z => z.2.y) = H.cps.map fun z => z.2.y := by
      unfold Spline.eqOp at he'
      split at he'
      · have := eq_of_beq he'
        simpa [RSpline.map, RSpline.ofHom, Spline.map, Function.comp_def] using this
      · cases he'
    refine ⟨_, _, hf₁.eq db _ _ (hom_shape hH) (hom_shape hG) he, hf₂.eq db _ _ (hom_shape hH) (hom_shape hG) he',
      { H with cps := List.zipWith (fun a b => (op a.1 b.1, a.2)) H.cps G.cps }, ?_, ?_, ?_, ?_⟩
    · have hl : H.cps.length = G.cps.length := by rw [hH.1.4, hG.1.4, hH.2, hG.2]
      simp only [RSpline.map, RSpline.ofHom, Spline.map, RSpline.mk.injEq, Spline.mk.injEq, true_and, List.map_map, List.zipWith_map_left,
        List.zipWith_map_right, List.map_zipWith]
      constructor
      · simp [Function.comp_def, ho₁]
      · apply List.ext_getElem <;> simp [hl]
    · have hl : H.cps.length = G.cps.length := by rw [hH.1.4, hG.1.4, hH.2, hG.2]
      simp only [RSpline.map, RSpline.ofHom, Spline.map, RSpline.mk.injEq, Spline.mk.injEq, true_and, List.map_map, List.zipWith_map_left,
        List.zipWith_map_right, List.map_zipWith]
      constructor
      · simp [Function.comp_def, ho₂]
      · apply List.ext_getElem <;> simp [hl]
    · refine ⟨⟨hH.1.1, hH.1.2, hH.1.3, ?_⟩, hH.2⟩
      have e1 := hH.1.4; have e2 := hG.1.4
      rw [hH.2] at e1; rw [hG.2] at e2
      simp [e1, e2, hH.2]
    · intro z hz
      obtain ⟨i, hi, rfl⟩ := List.getElem_of_mem hz
      simp only [List.length_zipWith, lt_min_iff] at hi
      have hp := (hP H.cps[i] (List.getElem_mem _)).mono (show ka ≤ max ka kb from le_max_left _ _)
      have hq := (hQ G.cps[i] (List.getElem_mem _)).mono (show kb ≤ max ka kb from le_max_right _ _)
      have hw : G.cps[i].2.y = H.cps[i].2.y := by
        have := congrArg (fun l => l[i]?) hwy
        simpa [hi.1, hi.2] using this
      rw [List.getElem_zipWith]
      refine ⟨hp.1, hp.2.1, hp.2.2.1.mono (by omega), fun c => ?_⟩
      have := hop c _ _ _ _ _ (hp.2.2.2 c) (hq.2.2.2 c)
      rwa [hw, ← add_mul] at this
  · intro he
    have he' := he
    rw [hbr] at he'
    let mulH : V × Tri A → V × Tri A → (V × V) × Tri A := fun a b => ((b.2 • a.1, a.2 • b.1), a.2 * b.2)
    obtain ⟨R, e, hR⟩ := Spline.mulOp_returns (K := Tri A) cfg hmax mulH hH hG hdim hdeg
    have l1 : LinearOn (Tri A) (fun z : (V × V) × Tri A => z.1.1) := ⟨rfl, fun _ _ => rfl, fun _ _ => rfl, fun _ => rfl, fun _ _ => rfl⟩
    have l2 : LinearOn (Tri A) (fun z : (V × V) × Tri A => z.1.2) := ⟨rfl, fun _ _ => rfl, fun _ _ => rfl, fun _ => rfl, fun _ _ => rfl⟩
    have l3 : LinearOn (Tri A) (fun z : (V × V) × Tri A => z.2) := ⟨rfl, fun _ _ => rfl, fun _ _ => rfl, fun _ => rfl, fun _ _ => rfl⟩
    have e1 := Props.C84_product (A := Prod.fst) (B := Prod.snd) cfg l1 mulH (fun (x : V) (c : Tri A) => c • x) (fun _ _ => rfl) H G
    have e2 := Props.C84_product (A := Prod.snd) (B := Prod.fst) cfg l2 mulH (fun (c : Tri A) (x : V) => c • x) (fun _ _ => rfl) H G
    have e3 := Props.C84_product (A := Prod.snd) (B := Prod.snd) cfg l3 mulH (fun (c d : Tri A) => c * d) (fun _ _ => rfl) H G
    rw [e] at e1 e2 e3
    have sx : ∀ (c : Tri A) (a : V), x (c • a) = c.x • x a := fun c a => ((hx _ _).1 (h₁.smul (show c ≋ c.x from rfl) ((hx a _).2 rfl))).symm
    have sy : ∀ (c : Tri A) (a : V), y (c • a) = c.y • y a := fun c a => ((hy _ _).1 (h₂.smul (show c ≋ c.y from rfl) ((hy a _).2 rfl))).symm
    have x1 := Spline.mulOp_map (K := Tri A) (K' := Fl A) hx x_iff hx cfg (mul := fun (x : V) (c : Tri A) => c • x) (mul' := fun x c => c • x)
      (fun a c => sx c a) (H.map Prod.fst) (G.map Prod.snd)
    have x2 := Spline.mulOp_map (K := Tri A) (K' := Fl A) x_iff hx hx cfg (mul := fun (c : Tri A) (x : V) => c • x) (mul' := fun c x => c • x)
      (fun c a => sx c a) (H.map Prod.snd) (G.map Prod.fst)
    have x3 := Spline.mulOp_map (K := Tri A) (K' := Fl A) x_iff x_iff x_iff cfg (mul := fun c d => c * d) (mul' := fun c d => c * d)
      (fun _ _ => rfl) (H.map Prod.snd) (G.map Prod.snd)
    have y1 := Spline.mulOp_map (K := Tri A) (K' := ℝ) hy y_iff hy cfg (mul := fun (x : V) (c : Tri A) => c • x) (mul' := fun x c => c • x)
      (fun a c => sy c a) (H.map Prod.fst) (G.map Prod.snd)
    have y2 := Spline.mulOp_map (K := Tri A) (K' := ℝ) y_iff hy hy cfg (mul := fun (c : Tri A) (x : V) => c • x) (mul' := fun c x => c • x)
      (fun c a => sy c a) (H.map Prod.snd) (G.map Prod.fst)
    have y3 := Spline.mulOp_map (K := Tri A) (K' := ℝ) y_iff y_iff y_iff cfg (mul := fun c d => c * d) (mul' := fun c d => c * d)
      (fun _ _ => rfl) (H.map Prod.snd) (G.map Prod.snd)
    rw [e1] at x1 y1
    rw [e2] at x2 y2
    rw [e3] at x3 y3
    have sh : ∀ {Z Z' : Type} (g : (V × V) × Tri A → Z) (g' : Z → Z'), HasShape (sumDegrees da db) ((R.map g).map g') :=
      fun g g' => ⟨(hR.1.map _).map _, hR.2⟩
    have hW : ∀ z ∈ R.cps, 0 < z.2.y := by
      intro z hz
      exact product_pos hmax (H := H.map Prod.snd) (G := G.map Prod.snd) ⟨hH.1.map _, hH.2⟩ ⟨hG.1.map _, hG.2⟩ (by
        intro w hw; obtain ⟨v, hv, rfl⟩ := List.mem_map.mp hw; exact (hP v hv).1) (by
        intro w hw; obtain ⟨v, hv, rfl⟩ := List.mem_map.mp hw; exact (hQ v hv).1) hdim hdeg e3 z.2 (List.mem_map_of_mem hz)
    have near : ∀ z ∈ R.cps, HomNear co B (productRoundings da db ka kb) (z.1.1, z.2) ∧ HomNear co B' (productRoundings da db ka kb) (z.1.2, z.2) := by
      have := Spline.mulOp_graded (P := H) (Q := G) hmax (L := fun l : Tri A => 0 ≤ l.y ∧ NearM l.y 4 l) (F := fun j l => 0 ≤ l.y ∧ NearM l.y (5 * j) l)
        (T := fun z : (V × V) × Tri A => HomNear co B (ka + kb + 5 * H.dim + 2) (z.1.1, z.2) ∧ HomNear co B' (ka + kb + 5 * H.dim + 2) (z.1.2, z.2))
        (G := fun j z => HomNear co B (ka + kb + 5 * H.dim + 2 + j) (z.1.1, z.2) ∧ HomNear co B' (ka + kb + 5 * H.dim + 2 + j) (z.1.2, z.2))
        (fun c d hd => ⟨div_nonneg (Nat.cast_nonneg (α := ℝ) c) (Nat.cast_nonneg d), Near.ratio hη hu c hd⟩) ⟨zero_le_one, NearM.one⟩
        (fun j a b h1 h2 => ⟨mul_nonneg h1.1 h2.1, (NearM.mul hη h1.2 h2.2).mono (by omega)⟩)
        (by
          intro a l p q h1 h2 hp hq
          have hp := hP p hp
          have hq := hQ q hq
          have : 0 < H.dim := hH.1.1
          have w1 : HomNear co B (ka + kb + 1) ((q.2 • p.1, p.2 * q.2) : V × Tri A) := by
            refine ⟨mul_nonneg hp.2.1 hq.2.1, NearM.mul hη hp.2.2.1 hq.2.2.1, fun c => ?_⟩
            rcases hco.smul c q.2 p.1 with e | e
            · rw [show co c (q.2 • p.1, p.2 * q.2).1 = q.2 * co c p.1 from e,
                show B c * (p.2 * q.2).y = q.2.y * (B c * p.2.y) by show B c * (p.2.y * q.2.y) = _; ring, Nat.add_comm ka kb]
              exact NearM.mul hη hq.2.2.1 (hp.2.2.2 c)
            · rw [show co c (q.2 • p.1, p.2 * q.2).1 = co c p.1 * q.2 from e,
                show B c * (p.2 * q.2).y = B c * p.2.y * q.2.y by show B c * (p.2.y * q.2.y) = _; ring]
              exact NearM.mul hη (hp.2.2.2 c) hq.2.2.1
          have w2 : HomNear co B' (ka + kb + 1) ((p.2 • q.1, p.2 * q.2) : V × Tri A) := by
            refine ⟨mul_nonneg hp.2.1 hq.2.1, NearM.mul hη hp.2.2.1 hq.2.2.1, fun c => ?_⟩
            rcases hco.smul c p.2 q.1 with e | e
            · rw [show co c (p.2 • q.1, p.2 * q.2).1 = p.2 * co c q.1 from e,
                show B' c * (p.2 * q.2).y = p.2.y * (B' c * q.2.y) by show B' c * (p.2.y * q.2.y) = _; ring]
              exact NearM.mul hη hp.2.2.1 (hq.2.2.2 c)
            · rw [show co c (p.2 • q.1, p.2 * q.2).1 = co c q.1 * p.2 from e,
                show B' c * (p.2 * q.2).y = B' c * q.2.y * p.2.y by show B' c * (p.2.y * q.2.y) = _; ring, Nat.add_comm ka kb]
              exact NearM.mul hη (hq.2.2.2 c) hp.2.2.1
          exact ⟨(HomNear.smul hco hη h2.1 h2.2 (HomNear.smul hco hη h1.1 h1.2 w1)).mono (by omega),
            (HomNear.smul hco hη h2.1 h2.2 (HomNear.smul hco hη h1.1 h1.2 w2)).mono (by omega)⟩)
        ⟨(HomNear.zero hco0).mono (Nat.zero_le _), (HomNear.zero hco0).mono (Nat.zero_le _)⟩
        (fun j a b h1 h2 => ⟨HomNear.add hco h1.1 (h2.1.mono (Nat.le_add_right _ _)), HomNear.add hco h1.2 (h2.2.mono (Nat.le_add_right _ _))⟩)
        (fun j a h => ⟨h.1.mono (by omega), h.2.mono (by omega)⟩) hH.1.1 (by unfold Spline.dim; rw [hG.2, hH.2]; exact hdim) e
      intro z hz
      have h := this z hz
      have e : ka + kb + 5 * H.dim + 2 + (Spline.prodTerms H.degrees G.degrees).prod = productRoundings da db ka kb := by
        unfold productRoundings Spline.dim
        rw [hH.2, hG.2]
        rfl
      rw [← e]
      exact h
    refine ⟨_, _, hf₁.ne _ _ _ _ _ _ he x1 x2 x3 (sh _ _) (sh _ _) (sh _ _), hf₂.ne _ _ _ _ _ _ he' y1 y2 y3 (sh _ _) (sh _ _) (sh _ _),
      R.map (fun z => (op z.1.1 z.1.2, z.2)), ?_, ?_, ⟨hR.1.map _, hR.2⟩, ?_⟩
    · simp [RSpline.map, RSpline.ofHom, Spline.map, Function.comp_def, ho₁, List.zipWith_map_left, List.zipWith_map_right, List.zipWith_self]
    · simp [RSpline.map, RSpline.ofHom, Spline.map, Function.comp_def, ho₂, List.zipWith_map_left, List.zipWith_map_right, List.zipWith_self]
    · intro z hz
      obtain ⟨v, hv, rfl⟩ := List.mem_map.mp hz
      obtain ⟨n1, n2⟩ := near v hv
      refine ⟨hW v hv, (hW v hv).le, n1.2.1.mono (by omega), fun c => ?_⟩
      have := hop c _ _ _ _ _ (n1.2.2 c) (n2.2.2 c)
      rwa [← add_mul] at this
end
end Tri
end Bezman
