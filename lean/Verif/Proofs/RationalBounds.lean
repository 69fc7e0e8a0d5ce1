import Verif.Spec.RationalBounds
import Verif.Proofs.FloatRuns
import Verif.Proofs.FloatPrograms
import Verif.Props.Homogeneous

set_option linter.unusedSectionVars false

/-! # Rounding errors of rational splines, relative to the weights -/

namespace Bezman
open Spec
variable {A : FloatArith} {n : ℕ}

attribute [local instance] parTriX parScalarTriX parTriY parScalarTriY

namespace Tri

/-! ## steps -/

section
variable (hη : A.η = 0)
include hη

/-- interpolation with an exact position, different bounds -/
theorem NearM.lerpExact₂ {M N : ℝ} {k : ℕ} {z : Fl A} (h0 : 0 ≤ z.val) (h1 : z.val ≤ 1) {a b c d : Tri A} (ha : NearM M k a) (hb : NearM N k b)
    (hc : c = (1 - (⟨z, z.val, 0⟩ : Tri A)) * a ∨ c = a * (1 - (⟨z, z.val, 0⟩ : Tri A)))
    (hd : d = (⟨z, z.val, 0⟩ : Tri A) * b ∨ d = b * (⟨z, z.val, 0⟩ : Tri A)) :
    NearM ((1 - z.val) * M + z.val * N) (k + 3) (c + d) := by
  have w1 : NearM (1 - z.val) 1 (1 - (⟨z, z.val, 0⟩ : Tri A)) := by
    have e : |1 - z.val| = 1 - z.val := abs_of_nonneg (by linarith)
    refine ⟨e.le, ?_⟩
    rw [pow_one, add_sub_cancel_left]
    refine (A.sub_err 1 z.val).trans (le_of_eq ?_)
    rw [e]
  have w2 : NearM z.val 0 (⟨z, z.val, 0⟩ : Tri A) := by
    have := NearM.exact z 0
    rwa [abs_of_nonneg h0] at this
  have hc' : NearM ((1 - z.val) * M) (k + 2) c := by
    rcases hc with rfl | rfl
    · exact (NearM.mul hη w1 ha).mono (by omega)
    · have := NearM.mul hη ha w1
      rw [mul_comm] at this
      exact this.mono (by omega)
  have hd' : NearM (z.val * N) (k + 2) d := by
    rcases hd with rfl | rfl
    · exact (NearM.mul hη w2 hb).mono (by omega)
    · have := NearM.mul hη hb w2
      rw [mul_comm] at this
      exact this.mono (by omega)
  exact NearM.add hc' hd'

/-- the weights of a degree elevation -/
theorem NearM.elevWeights (hu : A.u ≤ 1 / 2) {p i : ℕ} (hip : i ≤ p) :
    NearM ((i : ℝ) * (1 / ((p + 1 : ℕ) : ℝ))) 5 ((i : Tri A) * (1 / ((p + 1 : ℕ) : Tri A))) ∧
    NearM (1 - (i : ℝ) * (1 / ((p + 1 : ℕ) : ℝ))) (5 * p + 1) (1 - (i : Tri A) * (1 / ((p + 1 : ℕ) : Tri A))) := by
  have hp : (0 : ℝ) < ((p + 1 : ℕ) : ℝ) := by positivity
  have h1 : NearM ((i : ℝ) * (1 / ((p + 1 : ℕ) : ℝ))) 5 ((i : Tri A) * (1 / ((p + 1 : ℕ) : Tri A))) := by
    have h2 : Near 3 ((1 : Tri A) / ((p + 1 : ℕ) : Tri A)) := (Near.divCast hη hu Near.one rfl (Nat.succ_pos p)).1
    have := NearM.mul hη (NearM.cast (A := A) i) (M := i) (N := 1 / ((p + 1 : ℕ) : ℝ)) h2
    exact this
  refine ⟨h1, ?_⟩
  set φ := (i : ℝ) * (1 / ((p + 1 : ℕ) : ℝ)) with hφ
  set f := (i : Tri A) * (1 / ((p + 1 : ℕ) : Tri A)) with hf
  have hφy : f.y = φ := rfl
  have hi : (i : ℝ) ≤ p := by exact_mod_cast hip
  have h2 : φ ≤ p * (1 - φ) := by
    rw [hφ, mul_one_div, div_le_iff₀ hp]
    have : (1 - (i : ℝ) / ((p + 1 : ℕ) : ℝ)) * ((p + 1 : ℕ) : ℝ) = ((p + 1 : ℕ) : ℝ) - i := by field_simp
    rw [mul_assoc, this]
    push_cast
    nlinarith [show (0 : ℝ) ≤ p from Nat.cast_nonneg p]
  have h3 : 0 ≤ 1 - φ := by
    rw [hφ, mul_one_div, sub_nonneg, div_le_one hp]; push_cast; linarith
  have hB : (p : ℝ) * ((1 + A.u) ^ 5 - 1) ≤ (1 + A.u) ^ (5 * p) - 1 := by
    have h5 := one_le_u (A := A) 5
    have := one_add_mul_le_pow (show (-2 : ℝ) ≤ (1 + A.u) ^ 5 - 1 by linarith) p
    rw [add_sub_cancel, ← pow_mul] at this
    linarith
  have e : |1 - φ| = 1 - φ := abs_of_nonneg h3
  refine ⟨e.le, ?_⟩
  have h4 : |1 - f.x.val - (1 - φ)| ≤ ((1 + A.u) ^ (5 * p) - 1) * (1 - φ) := by
    rw [show 1 - f.x.val - (1 - φ) = -(f.x.val - f.y) by rw [hφy]; ring, abs_neg]
    refine h1.2.trans ?_
    have h5 := one_le_u (A := A) 5
    calc ((1 + A.u) ^ 5 - 1) * φ ≤ ((1 + A.u) ^ 5 - 1) * (p * (1 - φ)) := mul_le_mul_of_nonneg_left h2 (by linarith)
      _ = p * ((1 + A.u) ^ 5 - 1) * (1 - φ) := by ring
      _ ≤ _ := mul_le_mul_of_nonneg_right hB h3
  refine (round_sum A.u_nonneg h4 e.le (A.sub_err 1 f.x.val)).trans (le_of_eq ?_)
  rw [pow_succ]; ring

/-- interpolation of a degree elevation, different bounds -/
theorem NearM.lerp₂ (hu : A.u ≤ 1 / 2) {M N : ℝ} {k p i : ℕ} (hi : 1 ≤ i) (hip : i ≤ p) {a b c d : Tri A} (ha : NearM M k a) (hb : NearM N k b)
    (hc : c = (1 - (i : Tri A) * (1 / ((p + 1 : ℕ) : Tri A))) * a ∨ c = a * (1 - (i : Tri A) * (1 / ((p + 1 : ℕ) : Tri A))))
    (hd : d = ((i : Tri A) * (1 / ((p + 1 : ℕ) : Tri A))) * b ∨ d = b * ((i : Tri A) * (1 / ((p + 1 : ℕ) : Tri A)))) :
    NearM ((1 - (i : ℝ) * (1 / ((p + 1 : ℕ) : ℝ))) * M + (i : ℝ) * (1 / ((p + 1 : ℕ) : ℝ)) * N) (k + (5 * p + 3)) (c + d) := by
  obtain ⟨w2, w1⟩ := NearM.elevWeights hη hu hip
  have hc' : NearM ((1 - (i : ℝ) * (1 / ((p + 1 : ℕ) : ℝ))) * M) (k + (5 * p + 2)) c := by
    rcases hc with rfl | rfl
    · exact (NearM.mul hη w1 ha).mono (by omega)
    · have := NearM.mul hη ha w1
      rw [mul_comm] at this
      exact this.mono (by omega)
  have hd' : NearM ((i : ℝ) * (1 / ((p + 1 : ℕ) : ℝ)) * N) (k + (5 * p + 2)) d := by
    rcases hd with rfl | rfl
    · exact (NearM.mul hη w2 hb).mono (by omega)
    · have := NearM.mul hη hb w2
      rw [mul_comm] at this
      exact this.mono (by omega)
  exact NearM.add hc' hd'
end

/-! ## homogeneous control points -/

/-- coordinates of the points -/
structure Coordwise {V ι : Type} [Add V] [SMul (Tri A) V] (co : ι → V → Tri A) : Prop where
  add : ∀ c a b, co c (a + b) = co c a + co c b
  smul : ∀ c t a, co c (t • a) = t * co c a ∨ co c (t • a) = co c a * t

theorem coordwise₁ : Coordwise (A := A) (fun (_ : Unit) (z : Tri A) => z) := ⟨fun _ _ _ => rfl, fun _ _ _ => .inl rfl⟩
theorem coordwiseP : Coordwise (A := A) (fun (c : Fin n) (z : Point (Tri A) n) => z.val c) := ⟨fun _ _ _ => rfl, fun _ _ _ => .inr rfl⟩

section
variable {V ι : Type} {co : ι → V → Tri A}

/-- errors relative to the weight -/
def HomNear (co : ι → V → Tri A) (B : ι → ℝ) (k : ℕ) (v : V × Tri A) : Prop :=
  0 ≤ v.2.y ∧ NearM v.2.y k v.2 ∧ ∀ c, NearM (B c * v.2.y) k (co c v.1)

/-- … and a positive weight -/
def HomPos (co : ι → V → Tri A) (B : ι → ℝ) (k : ℕ) (v : V × Tri A) : Prop := 0 < v.2.y ∧ HomNear co B k v

theorem HomNear.mono {B : ι → ℝ} {j k : ℕ} (h : j ≤ k) {v : V × Tri A} (hv : HomNear co B j v) : HomNear co B k v :=
  ⟨hv.1, hv.2.1.mono h, fun c => (hv.2.2 c).mono h⟩

theorem HomPos.mono {B : ι → ℝ} {j k : ℕ} (h : j ≤ k) {v : V × Tri A} (hv : HomPos co B j v) : HomPos co B k v := ⟨hv.1, hv.2.mono h⟩

variable [Zero V] [Add V] [Sub V] [Neg V] [SMul (Tri A) V] (hco : Coordwise co) (hη : A.η = 0)
include hco hη

theorem HomPos.lerpExact {B : ι → ℝ} {k : ℕ} {z : Fl A} (h0 : 0 ≤ z.val) (h1 : z.val ≤ 1) {a b : V × Tri A} (ha : HomPos co B k a)
    (hb : HomPos co B k b) : HomPos co B (k + 3) ((1 - (⟨z, z.val, 0⟩ : Tri A)) • a + (⟨z, z.val, 0⟩ : Tri A) • b) := by
  have hp : 0 < (1 - z.val) * a.2.y + z.val * b.2.y := by
    rcases h0.eq_or_lt with h | h
    · rw [← h]; simpa using ha.1
    · exact add_pos_of_nonneg_of_pos (mul_nonneg (by linarith) ha.1.le) (mul_pos h hb.1)
  refine ⟨hp, hp.le, NearM.lerpExact₂ hη h0 h1 ha.2.2.1 hb.2.2.1 (.inl rfl) (.inl rfl), fun c => ?_⟩
  have := NearM.lerpExact₂ hη h0 h1 (ha.2.2.2 c) (hb.2.2.2 c) (hco.smul c (1 - (⟨z, z.val, 0⟩ : Tri A)) a.1)
    (hco.smul c (⟨z, z.val, 0⟩ : Tri A) b.1)
  rw [← hco.add] at this
  rw [show (1 - z.val) * (B c * a.2.y) + z.val * (B c * b.2.y) = B c * ((1 - z.val) * a.2.y + z.val * b.2.y) by ring] at this
  exact this

theorem HomPos.lerp (hu : A.u ≤ 1 / 2) {B : ι → ℝ} {k p i : ℕ} (hi : 1 ≤ i) (hip : i ≤ p) {a b : V × Tri A} (ha : HomPos co B k a)
    (hb : HomPos co B k b) : HomPos co B (k + (5 * p + 3))
      ((1 - (i : Tri A) * (1 / ((p + 1 : ℕ) : Tri A))) • a + ((i : Tri A) * (1 / ((p + 1 : ℕ) : Tri A))) • b) := by
  have hpp : (0 : ℝ) < ((p + 1 : ℕ) : ℝ) := by positivity
  have hφ : 0 < (i : ℝ) * (1 / ((p + 1 : ℕ) : ℝ)) := by
    have : (0 : ℝ) < i := by exact_mod_cast hi
    positivity
  have hφ1 : 0 ≤ 1 - (i : ℝ) * (1 / ((p + 1 : ℕ) : ℝ)) := by
    have : (i : ℝ) ≤ p := by exact_mod_cast hip
    rw [mul_one_div, sub_nonneg, div_le_one hpp]; push_cast; linarith
  have hp : 0 < (1 - (i : ℝ) * (1 / ((p + 1 : ℕ) : ℝ))) * a.2.y + (i : ℝ) * (1 / ((p + 1 : ℕ) : ℝ)) * b.2.y :=
    add_pos_of_nonneg_of_pos (mul_nonneg hφ1 ha.1.le) (mul_pos hφ hb.1)
  refine ⟨hp, hp.le, NearM.lerp₂ hη hu hi hip ha.2.2.1 hb.2.2.1 (.inl rfl) (.inl rfl), fun c => ?_⟩
  have := NearM.lerp₂ hη hu hi hip (ha.2.2.2 c) (hb.2.2.2 c) (hco.smul c (1 - (i : Tri A) * (1 / ((p + 1 : ℕ) : Tri A))) a.1)
    (hco.smul c ((i : Tri A) * (1 / ((p + 1 : ℕ) : Tri A))) b.1)
  rw [← hco.add] at this
  rw [show ∀ φ : ℝ, (1 - φ) * (B c * a.2.y) + φ * (B c * b.2.y) = B c * ((1 - φ) * a.2.y + φ * b.2.y) from fun φ => by ring] at this
  exact this
end

/-! ## rational splines -/

end Tri

theorem Spline.map_comp {V V' V'' : Type} (s : Spline V) (f : V → V') (g : V' → V'') : (s.map f).map g = s.map (g ∘ f) := by
  simp [Spline.map]

/-- the loop of adding or subtracting a point -/
theorem shift_hom {K V : Type} [SMul K V] (op : V → V → V) (v : V) (l : List (V × K)) :
    loop l.length (fun i cps => do
      let x ← rd cps i
      let w ← rd (l.map Prod.snd) i
      wr cps i (op x (w • v))) (l.map Prod.fst) = .ok (l.map fun z => op z.1 (z.2 • v)) := by
  have h := loop_eq (n := l.length) (f := fun i cps => do
      let x ← rd cps i
      let w ← rd (l.map Prod.snd) i
      wr cps i (op x (w • v))) (s := l.map Prod.fst)
    (fun k => (l.take k).map (fun z => op z.1 (z.2 • v)) ++ (l.drop k).map Prod.fst) (by simp) (by
      intro k hk
      have hl : ((l.take k).map (fun z => op z.1 (z.2 • v))).length = k := by simp; omega
      have h1 : rd ((l.take k).map (fun z => op z.1 (z.2 • v)) ++ (l.drop k).map Prod.fst) k = .ok l[k].1 := by
        refine rd_ok ?_
        rw [List.getElem?_append_right (by omega), hl, Nat.sub_self]
        simp [hk]
      rw [h1, bind_ok, rd_ok (show (l.map Prod.snd)[k]? = some l[k].2 by simp [hk]), bind_ok, wr_ok _ (by simp; omega)]
      congr 1
      rw [List.set_append_right _ _ (by omega), hl, Nat.sub_self, List.drop_eq_getElem_cons hk, List.map_cons, List.set_cons_zero,
        List.take_succ_eq_append_getElem hk, List.map_append, List.append_assoc]
      rfl)
  rw [h]
  simp

theorem RSpline.addPoint_hom {K V : Type} [Add V] [SMul K V] {H : Spline (V × K)} (h : H.WF) (v : V) :
    (RSpline.ofHom H).addPoint v = .ok (RSpline.ofHom (H.map fun z => (z.1 + z.2 • v, z.2))) ∧
    (RSpline.ofHom H).addPointAssign v = .ok (RSpline.ofHom (H.map fun z => (z.1 + z.2 • v, z.2))) := by
  have h1 : (RSpline.ofHom H).addPointAssign v = .ok (RSpline.ofHom (H.map fun z => (z.1 + z.2 • v, z.2))) := by
    unfold RSpline.addPointAssign RSpline.ofHom
    simp only [Spline.map]
    rw [show H.ncp = H.cps.length by rw [h.2, h.4], shift_hom (· + ·) v H.cps]
    simp [RSpline.compatible, assertM, bind_ok, pure_eq_ok, Function.comp_def]
  refine ⟨?_, h1⟩
  unfold RSpline.addPoint
  rw [RSpline.ofSplines_ok (show (RSpline.ofHom H).num.degrees = (RSpline.ofHom H).wt.degrees from rfl)]
  exact h1

theorem RSpline.subPoint_hom {K V : Type} [Sub V] [SMul K V] {H : Spline (V × K)} (h : H.WF) (v : V) :
    (RSpline.ofHom H).subPoint v = .ok (RSpline.ofHom (H.map fun z => (z.1 - z.2 • v, z.2))) ∧
    (RSpline.ofHom H).subPointAssign v = .ok (RSpline.ofHom (H.map fun z => (z.1 - z.2 • v, z.2))) := by
  have h1 : (RSpline.ofHom H).subPointAssign v = .ok (RSpline.ofHom (H.map fun z => (z.1 - z.2 • v, z.2))) := by
    unfold RSpline.subPointAssign RSpline.ofHom
    simp only [Spline.map]
    rw [show H.ncp = H.cps.length by rw [h.2, h.4], shift_hom (· - ·) v H.cps]
    simp [bind_ok, pure_eq_ok, Function.comp_def]
  refine ⟨?_, h1⟩
  unfold RSpline.subPoint
  rw [RSpline.ofSplines_ok (show (RSpline.ofHom H).num.degrees = (RSpline.ofHom H).wt.degrees from rfl)]
  exact h1

theorem RSpline.smulOp_hom {K V : Type} [SMul K V] {H : Spline (V × K)} (h : H.WF) (c : K) :
    (RSpline.ofHom H).smulOp c = .ok (RSpline.ofHom (H.map fun z => (c • z.1, z.2))) ∧
    (RSpline.ofHom H).smulAssign c = .ok (RSpline.ofHom (H.map fun z => (c • z.1, z.2))) := by
  have e : (RSpline.ofHom H).num.smulOp c = .ok (RSpline.ofHom (H.map fun z => (c • z.1, z.2))).num := by
    unfold Spline.smulOp
    rw [Spline.mapCps_ok (s := (RSpline.ofHom H).num) (h.map Prod.fst)]
    simp [RSpline.ofHom, Spline.map, Function.comp_def]
  have e2 : (RSpline.ofHom H).wt = (RSpline.ofHom (H.map fun z => (c • z.1, z.2))).wt := by
    simp [RSpline.ofHom, Spline.map, Function.comp_def]
  constructor
  · unfold RSpline.smulOp
    rw [e, bind_ok, RSpline.ofSplines_ok (by rfl), e2]
  · unfold RSpline.smulAssign
    rw [e, bind_ok, e2, assertM_ok (by simp [RSpline.compatible, RSpline.ofHom, Spline.map])]
    rfl

theorem RSpline.negOp_hom {K V : Type} [Neg V] {H : Spline (V × K)} (h : H.WF) :
    (RSpline.ofHom H).negOp = .ok (RSpline.ofHom (H.map fun z => (-z.1, z.2))) := by
  have e : (RSpline.ofHom H).num.negOp = .ok (RSpline.ofHom (H.map fun z => (-z.1, z.2))).num := by
    rw [Spline.negOp_ok (s := (RSpline.ofHom H).num) (h.map Prod.fst)]
    simp [RSpline.ofHom, Spline.map, Function.comp_def]
  unfold RSpline.negOp
  rw [e, bind_ok, RSpline.ofSplines_ok (by rfl)]
  simp [RSpline.ofHom, Spline.map, Function.comp_def]

namespace Tri

section
variable {V V₁ V₂ ι : Type} [Par V V₁] [Par V V₂] [Zero V] [Add V] [Sub V] [Neg V] [SMul (Tri A) V]
  [Zero V₁] [Add V₁] [Sub V₁] [Neg V₁] [SMul (Fl A) V₁] [Zero V₂] [Add V₂] [Sub V₂] [Neg V₂] [SMul ℝ V₂]
  [h₁ : ParPoint (Tri A) (Fl A) V V₁] [h₂ : ParPoint (Tri A) ℝ V V₂] {x : V → V₁} {y : V → V₂} {co : ι → V → Tri A}

/-- Both splines are projections of one with homogeneous control points of triples. -/
def RBoth (x : V → V₁) (y : V → V₂) (ds : List ℕ) (R : V × Tri A → Prop) (fl : RSpline (Fl A) V₁) (ex : RSpline ℝ V₂) : Prop :=
  ∃ H : Spline (V × Tri A), fl = (RSpline.ofHom H).map Tri.x x ∧ ex = (RSpline.ofHom H).map Tri.y y ∧ HasShape ds H ∧ ∀ z ∈ H.cps, R z

/-- Both runs are projections of one. -/
def RBothRuns (x : V → V₁) (y : V → V₂) (ds : List ℕ) (R : V × Tri A → Prop) (fl : M (RSpline (Fl A) V₁)) (ex : M (RSpline ℝ V₂)) : Prop :=
  ∃ q q', fl = .ok q ∧ ex = .ok q' ∧ RBoth x y ds R q q'

variable (hx : ∀ (a : V) (b : V₁), a ≋ b ↔ b = x a) (hy : ∀ (a : V) (b : V₂), a ≋ b ↔ b = y a)

omit h₁ h₂ in
include hx in
theorem rel_x (r : RSpline (Tri A) V) : r ≋ r.map Tri.x x :=
  ⟨Spline.rel_map hx r.num, Spline.rel_map x_iff r.wt⟩
omit h₁ h₂ in
include hy in
theorem rel_y (r : RSpline (Tri A) V) : r ≋ r.map Tri.y y :=
  ⟨Spline.rel_map hy r.num, Spline.rel_map y_iff r.wt⟩

omit h₁ h₂ in
include hx hy in
theorem RBothRuns.of {t : M (RSpline (Tri A) V)} {fl : M (RSpline (Fl A) V₁)} {ex : M (RSpline ℝ V₂)} (h1 : RelM strict t fl)
    (h2 : RelM strict t ex) {G : Spline (V × Tri A)} (e : t = .ok (RSpline.ofHom G)) {ds : List ℕ} (hG : HasShape ds G) {R : V × Tri A → Prop}
    (hR : ∀ z ∈ G.cps, R z) : RBothRuns x y ds R fl ex := by
  subst e
  refine ⟨_, _, ?_, ?_, G, rfl, rfl, hG, hR⟩
  · rw [RelM.toMap (fun a b h => eq_rspline_map (fun _ _ => (x_iff _ _).1) (fun _ _ => (hx _ _).1) h) h1]; rfl
  · rw [RelM.toMap (fun a b h => eq_rspline_map (fun _ _ => (y_iff _ _).1) (fun _ _ => (hy _ _).1) h) h2]; rfl

include hx hy h₁ h₂

theorem rboth_elevate (hco : Coordwise co) (hη : A.η = 0) (hu : A.u ≤ 1 / 2) {ds : List ℕ} {B : ι → ℝ} {k : ℕ} {r : RSpline (Fl A) V₁}
    {r' : RSpline ℝ V₂} (h : RBoth x y ds (HomPos co B k) r r') {d p : ℕ} (hd : ds[d]? = some p) (hsz : size (ds.modify d (· + 1)) < 2 ^ 31) :
    RBothRuns x y (ds.modify d (· + 1)) (HomPos co B (k + (5 * p + 3))) (r.orderElevate d) (r'.orderElevate d) := by
  obtain ⟨H, rfl, rfl, hH, hP⟩ := h
  obtain ⟨hdl, rfl⟩ := List.getElem?_eq_some_iff.mp hd
  obtain ⟨G, e, hG⟩ := Spline.orderElevate_returns (K := Tri A) hH hdl hsz
  have e' : (RSpline.ofHom H).orderElevate d = .ok (RSpline.ofHom G) := by
    simp only [RSpline.orderElevate, RSpline.ofHom]
    have h1 := (Props.C84_linear_operations ⟨0, 0⟩ (linearOn_fst (K := Tri A) (V := V)) H H).2.2.2.2.2.2.2.2.2.1 d
    have h2 := (Props.C84_linear_operations ⟨0, 0⟩ (linearOn_snd (K := Tri A) (V := V)) H H).2.2.2.2.2.2.2.2.2.1 d
    rw [h1, h2, e]
    simp [Except.map, RSpline.compatible, Spline.map, assertM, pure_eq_ok, bind_ok]
  refine RBothRuns.of hx hy (RSpline.parROrderElevate (rel_x hx _) d) (RSpline.parROrderElevate (rel_y hy _) d) e' hG ?_
  obtain ⟨h1, rfl⟩ := hH
  rw [modify_eq_set' hdl (· + 1)] at hsz
  exact (Spline.orderElevate_graded_at (P := HomPos co B k) (fun a ha => ha.mono (by omega))
    (fun i hi hip a b ha hb => HomPos.lerp hco hη hu hi hip ha hb) h1 hd hsz e hP).2.2

theorem rboth_scale (hco : Coordwise co) (hη : A.η = 0) {ds : List ℕ} {B : ι → ℝ} {k : ℕ} {r : RSpline (Fl A) V₁}
    {r' : RSpline ℝ V₂} (h : RBoth x y ds (HomPos co B k) r r') (c : Fl A) :
    RBothRuns x y ds (HomPos co (fun i => |c.val| * B i) (k + 1)) (r.smulOp c) (r'.smulOp c.val) := by
  obtain ⟨H, rfl, rfl, hH, hP⟩ := h
  refine RBothRuns.of hx hy (RSpline.parRSmulOp (rel_x hx _) (show (⟨c, c.val, 0⟩ : Tri A) ≋ c from rfl))
    (RSpline.parRSmulOp (rel_y hy _) (show (⟨c, c.val, 0⟩ : Tri A) ≋ c.val from rfl)) (RSpline.smulOp_hom hH.1 _).1 ⟨hH.1.map _, hH.2⟩ ?_
  intro z hz
  obtain ⟨a, ha, rfl⟩ := List.mem_map.mp hz
  have h := hP a ha
  refine ⟨h.1, h.2.1, h.2.2.1.mono (by omega), fun i => ?_⟩
  have w := NearM.exact c 0
  rcases hco.smul i (⟨c, c.val, 0⟩ : Tri A) a.1 with e | e
  · rw [e]
    have := (NearM.mul hη w (h.2.2.2 i)).mono (show 0 + k + 1 ≤ k + 1 by omega)
    rwa [← mul_assoc] at this
  · rw [e]
    have := (NearM.mul hη (h.2.2.2 i) w).mono (show k + 0 + 1 ≤ k + 1 by omega)
    rwa [show B i * a.2.y * |c.val| = |c.val| * B i * a.2.y by ring] at this

theorem rboth_neg (hneg : ∀ i a (M : ℝ) k, NearM M k (co i a) → NearM M (k + 1) (co i (-a))) {ds : List ℕ} {B : ι → ℝ} {k : ℕ} {r : RSpline (Fl A) V₁}
    {r' : RSpline ℝ V₂} (h : RBoth x y ds (HomPos co B k) r r') : RBothRuns x y ds (HomPos co B (k + 1)) r.negOp r'.negOp := by
  obtain ⟨H, rfl, rfl, hH, hP⟩ := h
  refine RBothRuns.of hx hy (RSpline.parRNegOp (rel_x hx _)) (RSpline.parRNegOp (rel_y hy _)) (RSpline.negOp_hom hH.1) ⟨hH.1.map _, hH.2⟩ ?_
  intro z hz
  obtain ⟨a, ha, rfl⟩ := List.mem_map.mp hz
  have h := hP a ha
  exact ⟨h.1, h.2.1, h.2.2.1.mono (by omega), fun i => hneg i _ _ _ (h.2.2.2 i)⟩

omit h₁ h₂ hx hy in
theorem HomPos.shift (hco : Coordwise co) (hη : A.η = 0) {B : ι → ℝ} {k : ℕ} {a : V × Tri A} (h : HomPos co B k a) {v : V} {b : ι → ℝ}
    (hv : ∀ i, NearM (b i) 0 (co i v)) {v' : V} (hv' : (∀ i, co i v' = co i a.1 + co i (a.2 • v)) ∨ ∀ i, co i v' = co i a.1 - co i (a.2 • v)) :
    HomPos co (fun i => B i + b i) (k + 2) (v', a.2) := by
  refine ⟨h.1, h.2.1, h.2.2.1.mono (by omega), fun i => ?_⟩
  have h1 : NearM (b i * a.2.y) (k + 1) (co i (a.2 • v)) := by
    rcases hco.smul i a.2 v with e | e
    · rw [e]
      have := (NearM.mul hη h.2.2.1 (hv i)).mono (show k + 0 + 1 ≤ k + 1 by omega)
      rwa [mul_comm] at this
    · rw [e]
      exact (NearM.mul hη (hv i) h.2.2.1).mono (show 0 + k + 1 ≤ k + 1 by omega)
  have h2 := (h.2.2.2 i).mono (Nat.le_succ k)
  show NearM ((B i + b i) * a.2.y) (k + 2) (co i v')
  rw [add_mul]
  rcases hv' with e | e
  · rw [e]; exact NearM.add h2 h1
  · rw [e]; exact NearM.sub h2 h1

theorem rboth_addPoint (hco : Coordwise co) (hη : A.η = 0) {ds : List ℕ} {B : ι → ℝ} {k : ℕ} {r : RSpline (Fl A) V₁}
    {r' : RSpline ℝ V₂} (h : RBoth x y ds (HomPos co B k) r r') (v : V) {b : ι → ℝ} (hv : ∀ i, NearM (b i) 0 (co i v)) :
    RBothRuns x y ds (HomPos co (fun i => B i + b i) (k + 2)) (r.addPoint (x v)) (r'.addPoint (y v)) := by
  obtain ⟨H, rfl, rfl, hH, hP⟩ := h
  refine RBothRuns.of hx hy (RSpline.parRAddPoint (rel_x hx _) ((hx _ _).2 rfl)) (RSpline.parRAddPoint (rel_y hy _) ((hy _ _).2 rfl))
    (RSpline.addPoint_hom hH.1 _).1 ⟨hH.1.map _, hH.2⟩ ?_
  intro z hz
  obtain ⟨a, ha, rfl⟩ := List.mem_map.mp hz
  exact HomPos.shift hco hη (hP a ha) hv (.inl fun i => hco.add i _ _)

theorem rboth_subPoint (hco : Coordwise co) (hη : A.η = 0) (hsub : ∀ i a b, co i (a - b) = co i a - co i b) {ds : List ℕ} {B : ι → ℝ} {k : ℕ}
    {r : RSpline (Fl A) V₁} {r' : RSpline ℝ V₂} (h : RBoth x y ds (HomPos co B k) r r') (v : V) {b : ι → ℝ} (hv : ∀ i, NearM (b i) 0 (co i v)) :
    RBothRuns x y ds (HomPos co (fun i => B i + b i) (k + 2)) (r.subPoint (x v)) (r'.subPoint (y v)) := by
  obtain ⟨H, rfl, rfl, hH, hP⟩ := h
  refine RBothRuns.of hx hy (RSpline.parRSubPoint (rel_x hx _) ((hx _ _).2 rfl)) (RSpline.parRSubPoint (rel_y hy _) ((hy _ _).2 rfl))
    (RSpline.subPoint_hom hH.1 _).1 ⟨hH.1.map _, hH.2⟩ ?_
  intro z hz
  obtain ⟨a, ha, rfl⟩ := List.mem_map.mp hz
  exact HomPos.shift hco hη (hP a ha) hv (.inr fun i => hsub i _ _)

theorem rboth_split (hco : Coordwise co) (hη : A.η = 0) {ds : List ℕ} {B : ι → ℝ} {k : ℕ} {r : RSpline (Fl A) V₁}
    {r' : RSpline ℝ V₂} (h : RBoth x y ds (HomPos co B k) r r') {z : Fl A} (h0 : 0 < z.val) (h1 : z.val < 1) {d p : ℕ} (hp : ds[d]? = some p) :
    ∃ a b a' b', r.splitAt z d = .ok (a, b) ∧ r'.splitAt z.val d = .ok (a', b') ∧
      RBoth x y ds (HomPos co B (k + 3 * p)) a a' ∧ RBoth x y ds (HomPos co B (k + 3 * p)) b b' := by
  obtain ⟨H, rfl, rfl, ⟨hH, rfl⟩, hP⟩ := h
  have hlen : 0 < H.cps.length := by rw [hH.4]; exact size_pos _
  let _ : Inhabited (V × Tri A) := ⟨H.cps[0]⟩
  have hx' : ∀ (a : V), a ≋ x a := fun a => (hx _ _).2 rfl
  have hy' : ∀ (a : V), a ≋ y a := fun a => (hy _ _).2 rfl
  have s1 : ∀ (t : Tri A) (a b : V × Tri A), (x ∘ Prod.fst) ((1 - t) • a + t • b) = (1 - t.x) • (x ∘ Prod.fst) a + t.x • (x ∘ Prod.fst) b :=
    fun t a b => ((hx _ _).1 (h₁.add (h₁.smul (show (1 - t : Tri A) ≋ (1 - t.x : Fl A) from rfl) (hx' a.1))
      (h₁.smul (show t ≋ t.x from rfl) (hx' b.1)))).symm
  have s2 : ∀ (t : Tri A) (a b : V × Tri A), (y ∘ Prod.fst) ((1 - t) • a + t • b) = (1 - t.y) • (y ∘ Prod.fst) a + t.y • (y ∘ Prod.fst) b :=
    fun t a b => ((hy _ _).1 (h₂.add (h₂.smul (show (1 - t : Tri A) ≋ (1 - t.y : ℝ) from rfl) (hy' a.1))
      (h₂.smul (show t ≋ t.y from rfl) (hy' b.1)))).symm
  have e1 := Spline.splitAt_map (K := Tri A) (K' := Fl A) (f := Tri.x) s1 hH hp (z := ⟨z, z.val, 0⟩) ⟨h0, h1⟩
  have e2 := Spline.splitAt_map (K := Tri A) (K' := ℝ) (f := Tri.y) s2 hH hp (z := ⟨z, z.val, 0⟩) ⟨h0, h1⟩
  have e3 := Spline.splitAt_map (K := Tri A) (K' := Fl A) (f := Tri.x) (g := Tri.x ∘ Prod.snd) (fun _ _ _ => rfl) hH hp (z := ⟨z, z.val, 0⟩) ⟨h0, h1⟩
  have e4 := Spline.splitAt_map (K := Tri A) (K' := ℝ) (f := Tri.y) (g := Tri.y ∘ Prod.snd) (fun _ _ _ => rfl) hH hp (z := ⟨z, z.val, 0⟩) ⟨h0, h1⟩
  have hT : ∀ x k' j, k' ≤ p → HomPos co B (k + 3 * p) (triangle (⟨z, z.val, 0⟩ : Tri A)
      (Spline.fibre (size (H.degrees.take d)) p (fun i => H.cps.getD i (_root_.Inhabited.default)) x) k' j) := by
    intro x k' j hk
    refine (triangle_graded (R := fun r => HomPos co B (k + 3 * r)) (fun j => ?_) (fun r a b ha hb => ?_) k' j).mono (by omega)
    · unfold Spline.fibre
      simp only [List.getD_eq_getElem?_getD]
      cases ho : H.cps[x % size (H.degrees.take d) + size (H.degrees.take d) * (j + (p + 1) * (x / size (H.degrees.take d) / (p + 1)))]? with
      | none => exact hP _ (List.getElem_mem hlen)
      | some a => exact hP a (List.mem_of_getElem? ho)
    · exact HomPos.lerpExact hco hη h0.le h1.le ha hb
  set L : Spline (V × Tri A) := { H with cps := tab (size H.degrees) (fun x =>
          triangle (⟨z, z.val, 0⟩ : Tri A) (Spline.fibre (size (H.degrees.take d)) p (fun i => H.cps.getD i (_root_.Inhabited.default)) x)
            (x / size (H.degrees.take d) % (p + 1)) 0) } with hL
  set R : Spline (V × Tri A) := { H with cps := tab (size H.degrees) (fun x =>
          triangle (⟨z, z.val, 0⟩ : Tri A) (Spline.fibre (size (H.degrees.take d)) p (fun i => H.cps.getD i (_root_.Inhabited.default)) x)
            (p - x / size (H.degrees.take d) % (p + 1)) (x / size (H.degrees.take d) % (p + 1))) } with hR
  have m1 : ((RSpline.ofHom H).map Tri.x x).splitAt z d = .ok ((RSpline.ofHom L).map Tri.x x, (RSpline.ofHom R).map Tri.x x) := by
    unfold RSpline.splitAt RSpline.map RSpline.ofHom
    simp only [Spline.map_comp]
    have e1' : Spline.splitAt (H.map (x ∘ Prod.fst)) z d = _ := e1
    have e3' : Spline.splitAt (H.map (Tri.x ∘ Prod.snd)) z d = _ := e3
    rw [e1', e3']
    simp only [bind_ok]
    rw [RSpline.ofSplines_ok (by rfl), RSpline.ofSplines_ok (by rfl)]
    rfl
  have m2 : ((RSpline.ofHom H).map Tri.y y).splitAt z.val d = .ok ((RSpline.ofHom L).map Tri.y y, (RSpline.ofHom R).map Tri.y y) := by
    unfold RSpline.splitAt RSpline.map RSpline.ofHom
    simp only [Spline.map_comp]
    have e1' : Spline.splitAt (H.map (y ∘ Prod.fst)) z.val d = _ := e2
    have e3' : Spline.splitAt (H.map (Tri.y ∘ Prod.snd)) z.val d = _ := e4
    rw [e1', e3']
    simp only [bind_ok]
    rw [RSpline.ofSplines_ok (by rfl), RSpline.ofSplines_ok (by rfl)]
    rfl
  refine ⟨_, _, _, _, m1, m2, ⟨L, rfl, rfl, ⟨⟨hH.1, hH.2, hH.3, by simp [hL]⟩, rfl⟩, ?_⟩, R, rfl, rfl, ⟨⟨hH.1, hH.2, hH.3, by simp [hR]⟩, rfl⟩, ?_⟩
  · intro w hw
    simp only [hL, tab, List.mem_map] at hw
    obtain ⟨i, -, rfl⟩ := hw
    exact hT _ _ _ (Nat.lt_succ_iff.mp (Nat.mod_lt _ (Nat.succ_pos p)))
  · intro w hw
    simp only [hR, tab, List.mem_map] at hw
    obtain ⟨i, -, rfl⟩ := hw
    exact hT _ _ _ (Nat.sub_le _ _)

/-- values of numerator and weight -/
theorem rboth_evaluate (hco : Coordwise co) (hη : A.η = 0) {ds : List ℕ} {B : ι → ℝ} {k : ℕ} {r : RSpline (Fl A) V₁}
    {r' : RSpline ℝ V₂} (h : RBoth x y ds (HomPos co B k) r r') {t : List (Fl A)} (ht : t.length = ds.length) (h01 : ∀ z ∈ t, 0 ≤ z.val ∧ z.val ≤ 1) :
    ∃ v : V × Tri A, r.num.evaluate t = .ok (x v.1) ∧ r.wt.evaluate t = .ok v.2.x ∧ r'.num.evaluate (t.map Fl.val) = .ok (y v.1) ∧
      r'.wt.evaluate (t.map Fl.val) = .ok v.2.y ∧ HomPos co B (k + 3 * ds.sum) v := by
  obtain ⟨H, rfl, rfl, hH, hP⟩ := h
  obtain ⟨v, ev⟩ := Spline.evaluate_returns hH (t.map fun z => (⟨z, z.val, 0⟩ : Tri A)) (by simpa using ht)
  have hx' : ∀ (a : V), a ≋ x a := fun a => (hx _ _).2 rfl
  have hy' : ∀ (a : V), a ≋ y a := fun a => (hy _ _).2 rfl
  have key : ∀ {K' V' : Type} [One K'] [Sub K'] [Add V'] [SMul K' V'] (f : Fl A → K') (g : V × Tri A → V'),
      (∀ (t : Fl A) (a b : V × Tri A), (1 - f t) • g a + f t • g b = g ((1 - (⟨t, t.val, 0⟩ : Tri A)) • a + (⟨t, t.val, 0⟩ : Tri A) • b)) →
      (H.map g).evaluate (t.map f) = .ok (g v) ∧ HomPos co B (k + 3 * ds.sum) v := by
    intro K' V' _ _ _ _ f g hg
    obtain ⟨q, e, hq⟩ := Spline.evaluate_graded
      (P := fun (z : K') (z' : Tri A) => ∃ w : Fl A, z = f w ∧ z' = ⟨w, w.val, 0⟩ ∧ 0 ≤ w.val ∧ w.val ≤ 1)
      (Q := fun j (a : V') (a' : V × Tri A) => a = g a' ∧ HomPos co B (k + 3 * j) a') (fun j a a' h => ⟨h.1, h.2.mono (by omega)⟩)
      (by
        rintro j z z' a a' b b' ⟨w, rfl, rfl, w0, w1⟩ ⟨rfl, ha⟩ ⟨rfl, hb⟩
        exact ⟨hg w a' b', HomPos.lerpExact hco hη w0 w1 ha hb⟩) (s := H.map g) hH.1 rfl rfl rfl
      (by
        simp only [Spline.map, List.forall₂_map_left_iff]
        exact List.forall₂_same.mpr fun z hz => ⟨rfl, hP z hz⟩) (t := t.map f)
      (by
        simp only [List.forall₂_map_left_iff, List.forall₂_map_right_iff]
        exact List.forall₂_same.mpr fun z hz => ⟨z, rfl, rfl, h01 z hz⟩) ev
    rw [e, hq.1, ← hH.2]
    exact ⟨rfl, hq.2⟩
  have k1 := key (K' := Fl A) id (x ∘ Prod.fst) fun t a b => (hx _ _).1 (h₁.add (h₁.smul (show (1 - ⟨t, t.val, 0⟩ : Tri A) ≋ (1 - t : Fl A) from rfl) (hx' a.1))
      (h₁.smul (show (⟨t, t.val, 0⟩ : Tri A) ≋ t from rfl) (hx' b.1)))
  have k2 := key (K' := ℝ) Fl.val (y ∘ Prod.fst) fun t a b => (hy _ _).1 (h₂.add (h₂.smul (show (1 - ⟨t, t.val, 0⟩ : Tri A) ≋ (1 - t.val : ℝ) from rfl) (hy' a.1))
      (h₂.smul (show (⟨t, t.val, 0⟩ : Tri A) ≋ t.val from rfl) (hy' b.1)))
  have k3 := key (K' := Fl A) id (Tri.x ∘ Prod.snd) fun t a b => rfl
  have k4 := key (K' := ℝ) Fl.val (Tri.y ∘ Prod.snd) fun t a b => rfl
  rw [List.map_id] at k1 k3
  refine ⟨v, ?_, ?_, ?_, ?_, k1.2⟩
  · show ((H.map Prod.fst).map x).evaluate t = _
    rw [Spline.map_comp]; exact k1.1
  · show ((H.map Prod.snd).map Tri.x).evaluate t = _
    rw [Spline.map_comp]; exact k3.1
  · show ((H.map Prod.fst).map y).evaluate _ = _
    rw [Spline.map_comp]; exact k2.1
  · show ((H.map Prod.snd).map Tri.y).evaluate _ = _
    rw [Spline.map_comp]; exact k4.1
end
end Tri
end Bezman
