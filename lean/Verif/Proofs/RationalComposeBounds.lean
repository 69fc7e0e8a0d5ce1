import Verif.Proofs.FloatCompose
import Verif.Proofs.RationalBoundsConv

set_option linter.unusedSectionVars false

/-! # Rounding errors of compositions of rational splines with polynomial ones, relative to the weights -/

namespace Bezman
open Spec

theorem Spline.composeNumerator_linear {K V V' : Type} [Zero K] [One K] [Add K] [Sub K] [Mul K] [Neg K] [Div K] [NatCast K]
    [Zero V] [Add V] [Sub V] [Neg V] [SMul K V] [Zero V'] [Add V'] [Sub V'] [Neg V'] [SMul K V'] {L : V → V'} (cfg : Cfg) (h : LinearOn K L)
    (s : Spline V) (q : List ℕ) (ex : ℕ → M (Spline K)) (inv : Spline K → M (Spline K)) :
    Spline.composeNumerator cfg (s.map L) q ex inv = (Spline.composeNumerator cfg s q ex inv).map (Spline.map L) := by
  let _ := parSame K
  let _ := parMap L
  have i1 : ParScalar K K := parScalarSame
  have i2 : ParPoint K K V V' := parPointLinear h
  have hs : s ≋ s.map L := spline_map_rel fun _ _ => rfl
  have refl : ∀ x : M (Spline K), RelM strict x x := fun x => by
    cases x with
    | error e => exact .err _
    | ok e => exact .ok (parSplineSame (fun _ => (rfl : _ = _)) e)
  have same : ∀ e e' : Spline K, e ≋ e' → e' = e := fun e e' he => by
    have := eq_spline_map (g := id) (fun a b (hab : a = b) => hab.symm) he
    rw [this]; cases e; simp [Spline.map]
  refine RelM.toMap (fun _ _ => eq_spline_map fun _ _ => Eq.symm) (Spline.parComposeNumerator (K := K) (K' := K) cfg hs q (fun d => refl _) fun e e' he => ?_)
  rw [same e e' he]
  exact refl _

variable {A : FloatArith} {n : ℕ}

namespace Tri
attribute [local instance] parTriX parScalarTriX parTriY parScalarTriY

/-- nonnegative numbers, with errors relative to themselves -/
def NearP₀ (k : ℕ) (z : Tri A) : Prop := 0 ≤ z.y ∧ NearM z.y k z

section
variable (hη : A.η = 0)

theorem NearP₀.mono {j k : ℕ} {z : Tri A} (h : NearP₀ j z) (hjk : j ≤ k) : NearP₀ k z := ⟨h.1, h.2.mono hjk⟩

include hη in
theorem NearP₀.mul {j k : ℕ} {a b : Tri A} (ha : NearP₀ j a) (hb : NearP₀ k b) : NearP₀ (j + k + 1) (a * b) :=
  ⟨mul_nonneg ha.1 hb.1, NearM.mul hη ha.2 hb.2⟩

theorem NearP₀.add {k : ℕ} {a b : Tri A} (ha : NearP₀ k a) (hb : NearP₀ k b) : NearP₀ (k + 1) (a + b) :=
  ⟨add_nonneg ha.1 hb.1, NearM.add ha.2 hb.2⟩

theorem NearP₀.zero : NearP₀ 0 (0 : Tri A) := ⟨le_rfl, Near.zero⟩
theorem NearP₀.one : NearP₀ 0 (1 : Tri A) := ⟨zero_le_one, NearM.one⟩

theorem costsPos (hη : A.η = 0) (hu : A.u ≤ 1 / 2) {cfg : Cfg} (hmax : cfg.maxBinom ≤ 68) {q : List ℕ} (hq : 0 < q.length) {P : ℕ}
    (hdeg : ∀ x ∈ q, P * x < cfg.maxBinom) :
    Spline.Costs cfg q.length P (5 * q.length + 2 + size (q.map (P / 2 * ·)))
      (fun a k (s : Spline (Tri A)) => HasShape (q.map (a * ·)) s ∧ ∀ z ∈ s.cps, NearP₀ k z) where
  one := by
    have h := Spline.ofPoints_ok (ps := List.replicate q.length 0) (pts := [(1 : Tri A)]) (by simpa using hq) (by simp [Spline.size_replicate_zero])
    refine ⟨_, h.1, ⟨h.2, ?_⟩, ?_⟩
    · show List.replicate q.length 0 = _
      rw [Spline.map_zero_mul]
    · intro z hz
      rw [List.mem_singleton.mp hz]
      exact NearP₀.one
  mul := by
    rintro a b j k s t ⟨hs, hs'⟩ ⟨ht, ht'⟩ hab
    have hdim : (q.map (b * ·)).length = (q.map (a * ·)).length := by simp
    have hsum : sumDegrees (q.map (a * ·)) (q.map (b * ·)) = q.map ((a + b) * ·) := Spline.zipWith_map_mul _ _ _
    obtain ⟨r, hr, hr'⟩ := Spline.mulOp_returns (K := Tri A) cfg hmax (fun a b => a * b) hs ht hdim (by
      rw [hsum]
      intro p hp
      obtain ⟨x, hx, rfl⟩ := List.mem_map.mp hp
      exact (Nat.mul_le_mul_right x hab).trans_lt (hdeg x hx))
    refine ⟨r, hr, hsum ▸ hr', fun z hz => ?_⟩
    have hd1 : s.dim = q.length := by show s.degrees.length = _; rw [hs.2]; simp
    have hd2 : t.dim = q.length := by show t.degrees.length = _; rw [ht.2]; simp
    have := Spline.mulOp_graded hmax (L := NearP₀ 4) (F := fun j => NearP₀ (5 * j)) (T := NearP₀ (j + k + 5 * s.dim + 2))
      (G := fun i => NearP₀ (j + k + 5 * s.dim + 2 + i))
      (fun c d hd => ⟨div_nonneg (Nat.cast_nonneg (α := ℝ) c) (Nat.cast_nonneg d), Near.ratio hη hu c hd⟩) NearP₀.one
      (fun j a b ha hb => (NearP₀.mul hη ha hb).mono (by omega)) (fun a l x y h1 h2 h3 h4 => by
        have h5 := NearP₀.mul hη h2 (NearP₀.mul hη h1 (NearP₀.mul hη (hs' x h3) (ht' y h4)))
        exact h5.mono (by omega)) (NearP₀.zero.mono (Nat.zero_le _))
      (fun j x t hx ht => NearP₀.add hx (ht.mono (Nat.le_add_right _ _))) (fun j x hx => hx.mono (by omega)) (by omega) (by omega) hr z hz
    refine this.mono ?_
    have hp := min_prod_le (P := P) q hab
    rw [hs.2, ht.2]
    have : (Spline.prodTerms (q.map (a * ·)) (q.map (b * ·))).prod ≤ size (q.map (P / 2 * ·)) := hp
    omega
  smul := by
    rintro a k s ⟨hs, hs'⟩ c
    obtain ⟨r, hr, hr'⟩ := Spline.smulOp_returns (K := Tri A) hs ((c : ℕ) : Tri A)
    refine ⟨r, hr, hr', Spline.smulOp_cps hs.1 hr hs' fun z hz => ?_⟩
    exact (NearP₀.mul hη ⟨Nat.cast_nonneg (α := ℝ) c, NearM.cast c⟩ hz).mono (by omega)
  mono := fun h hjk => ⟨h.1, fun z hz => (h.2 z hz).mono hjk⟩

/-- exact coordinates in the unit interval -/
theorem nearP₀_unit {x : Fl A} (h0 : 0 ≤ x.val) (h1 : x.val ≤ 1) :
    NearP₀ 0 (⟨x, x.val, x.val⟩ : Tri A) ∧ NearP₀ (0 + 1) (compl 1 (⟨x, x.val, x.val⟩ : Tri A)) := by
  obtain ⟨h2, h3, h4⟩ := near_unit h0 h1
  have e : (compl 1 (⟨x, x.val, x.val⟩ : Tri A)).m = (compl 1 (⟨x, x.val, x.val⟩ : Tri A)).y := by
    show 1 - x.val = -(x.val - 1); ring
  rw [e] at h3 h4
  exact ⟨⟨h0, h2⟩, by show 0 ≤ -(x.val - 1); linarith, h3, h4⟩

variable {V V₁ V₂ ι : Type} {co : ι → V → Tri A} [Zero V] [Add V] [Sub V] [Neg V] [SMul (Tri A) V]
  [Par V V₁] [Par V V₂] [Zero V₁] [Add V₁] [Sub V₁] [Neg V₁] [SMul (Fl A) V₁] [Zero V₂] [Add V₂] [Sub V₂] [Neg V₂] [SMul ℝ V₂]
  [h₁ : ParPoint (Tri A) (Fl A) V V₁] [h₂ : ParPoint (Tri A) ℝ V V₂] {x : V → V₁} {y : V → V₂}
  (hx : ∀ (a : V) (b : V₁), a ≋ b ↔ b = x a) (hy : ∀ (a : V) (b : V₂), a ≋ b ↔ b = y a)
  (hco : Coordwise co) (hco0 : ∀ c, co c 0 = 0) (hu : A.u ≤ 1 / 2) {cfg : Cfg} (hmax : cfg.maxBinom ≤ 68) {dO dI : List ℕ} (hI : 0 < dI.length)
  (hdeg : ∀ p ∈ dO, p < cfg.maxBinom) (hdeg' : ∀ q ∈ dI, dO.sum * q < cfg.maxBinom) {k : ℕ} {E : ℕ → Spline (Tri A)}
  (hE : ∀ d < dO.length, HasShape dI (E d) ∧ ∀ z ∈ (E d).cps, NearP₀ 0 z ∧ NearP₀ (0 + 1) (compl 1 z))
  {ex : ℕ → M (Spline (Fl A))} {ex' : ℕ → M (Spline ℝ)} (hex : ∀ d < dO.length, ex d = .ok ((E d).map Tri.x))
  (hex' : ∀ d < dO.length, ex' d = .ok ((E d).map Tri.y))
include hη hu hmax hI hdeg hdeg' hE hex hex' hx hy hco hco0 h₁ h₂

theorem hom_compose {B : ι → ℝ} {H : Spline (V × Tri A)} (hH : HasShape dO H) (hP : ∀ z ∈ H.cps, HomNear co B k z) :
    ∃ R : Spline (V × Tri A), HasShape (dI.map (dO.sum * ·)) R ∧ (∀ z ∈ R.cps, HomNear co B (composeRoundings dO dI k 0) z) ∧
      Spline.composeNumerator cfg ((H.map Prod.fst).map x) dI ex (fun e => Spline.pointSub (1 : Fl A) e) = .ok ((R.map Prod.fst).map x) ∧
      Spline.composeNumerator cfg ((H.map Prod.snd).map Tri.x) dI ex (fun e => Spline.pointSub (1 : Fl A) e) = .ok ((R.map Prod.snd).map Tri.x) ∧
      Spline.composeNumerator cfg ((H.map Prod.fst).map y) dI ex' (fun e => Spline.pointSub (1 : ℝ) e) = .ok ((R.map Prod.fst).map y) ∧
      Spline.composeNumerator cfg ((H.map Prod.snd).map Tri.y) dI ex' (fun e => Spline.pointSub (1 : ℝ) e) = .ok ((R.map Prod.snd).map Tri.y) := by
  obtain ⟨hH, rfl⟩ := hH
  obtain ⟨R, h1, h2, h3⟩ := Spline.Costs.numerator (k := 0 + 1) (kO := k) hI (costsPos (A := A) hη hu hmax hI hdeg') hmax hH
    (extract := given H.degrees.length E) (inverse := fun e => .ok (e.map (compl 1))) (fun d hd => by
      obtain ⟨e1, e2⟩ := hE d hd
      refine ⟨E d, _, if_pos hd, rfl, ?_, ?_⟩
      · exact ⟨by rw [Spline.map_one_mul]; exact e1, fun z hz => (e2 z hz).1.mono (Nat.le_succ _)⟩
      · refine ⟨by rw [Spline.map_one_mul]; exact ⟨e1.1.map _, e1.2⟩, fun z hz => ?_⟩
        obtain ⟨w, hw, rfl⟩ := List.mem_map.mp hz
        exact (e2 w hw).2) hdeg le_rfl (G := NearP₀) (N := HomNear co B) (fun h => h) (fun k => (HomNear.zero hco0).mono (Nat.zero_le _))
      (fun hb hy => HomNear.smul hco hη hb.1 hb.2 hy) (HomNear.add hco) (fun h hjk => h.mono hjk) hP
  have f1 := Spline.composeNumerator_linear cfg (linearOn_fst (K := Tri A) (V := V)) H dI (given H.degrees.length E) (fun e => .ok (e.map (compl 1)))
  have f2 := Spline.composeNumerator_linear cfg (linearOn_snd (K := Tri A) (V := V)) H dI (given H.degrees.length E) (fun e => .ok (e.map (compl 1)))
  rw [h1] at f1 f2
  refine ⟨R, h2, h3, ?_, ?_, ?_, ?_⟩
  · have := given_map (K := Tri A) (K' := Fl A) x_iff hx cfg (H.map Prod.fst) dI H.degrees.length E (φ := compl 1) (φ' := fun x => -(x - 1)) (fun _ => rfl)
    rw [f1] at this
    refine Eq.trans ?_ this
    exact Spline.composeNumerator_congr' _ dI fun d hd => ⟨_, _, hex d hd, if_pos hd, Spline.pointSub_eq ((hE d hd).1.1.map _) 1, rfl⟩
  · have := given_map (K := Tri A) (K' := Fl A) x_iff x_iff cfg (H.map Prod.snd) dI H.degrees.length E (φ := compl 1) (φ' := fun x => -(x - 1)) (fun _ => rfl)
    rw [f2] at this
    refine Eq.trans ?_ this
    exact Spline.composeNumerator_congr' _ dI fun d hd => ⟨_, _, hex d hd, if_pos hd, Spline.pointSub_eq ((hE d hd).1.1.map _) 1, rfl⟩
  · have := given_map (K := Tri A) (K' := ℝ) y_iff hy cfg (H.map Prod.fst) dI H.degrees.length E (φ := compl 1) (φ' := fun x => -(x - 1)) (fun _ => rfl)
    rw [f1] at this
    refine Eq.trans ?_ this
    exact Spline.composeNumerator_congr' _ dI fun d hd => ⟨_, _, hex' d hd, if_pos hd, Spline.pointSub_eq ((hE d hd).1.1.map _) 1, rfl⟩
  · have := given_map (K := Tri A) (K' := ℝ) y_iff y_iff cfg (H.map Prod.snd) dI H.degrees.length E (φ := compl 1) (φ' := fun x => -(x - 1)) (fun _ => rfl)
    rw [f2] at this
    refine Eq.trans ?_ this
    exact Spline.composeNumerator_congr' _ dI fun d hd => ⟨_, _, hex' d hd, if_pos hd, Spline.pointSub_eq ((hE d hd).1.1.map _) 1, rfl⟩
end
end Tri
end Bezman
