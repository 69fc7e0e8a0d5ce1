import Verif.Props.Near

/-! # Properties: small changes of the control points of the operands of sums, differences and products -/

namespace Bezman.Props
open Spec Finset
variable {K V W U : Type} [Field K] [LinearOrder K] [IsStrictOrderedRing K] [AddCommGroup V] [Module K V] [AddCommGroup W] [Module K W]
  [AddCommGroup U] [Module K U] {N : V → K} {N₂ : W → K} {N₃ : U → K}

/-- C111. Sums: the distances of the control points add up. -/
theorem C111_add (hN : IsLength N) (cfg : Cfg) (a a' b b' : Spline V) (ha : a.WF) (ha' : a'.WF) (hb : b.WF) (hb' : b'.WF)
    (hf : Fits cfg a.degrees b.degrees) (ε ε' : K) (h : Near N ε a a') (h' : Near N ε' b b') :
    ∃ r r', Spline.addOp K cfg a b = .ok r ∧ Spline.addOp K cfg a' b' = .ok r' ∧ Spline.addAssign K cfg a b = .ok r ∧
      Spline.addAssign K cfg a' b' = .ok r' ∧ Near N (ε + ε') r r' := by
  obtain ⟨Z, rfl, rfl, hZ⟩ := exists_pair ha ha' h.1
  obtain ⟨Y, rfl, rfl, hY⟩ := exists_pair hb hb' h'.1
  obtain ⟨r, e, e', hr⟩ := C73_add (K := K) cfg Z Y hZ hY hf _ _ (near_convex hN ε) (near_convex hN ε') ((near_pair hZ).mp h) ((near_pair hY).mp h')
  obtain ⟨r1, e1, cr⟩ := C16_add cfg Z Y _ _ _ _ (hZ.computes (K := K)) (hY.computes (K := K)) hf
  obtain rfl := Except.ok.inj (e.symm.trans e1)
  have f1 := C84_linear_operations (K := K) cfg linearOn_fst' Z Y
  have f2 := C84_linear_operations (K := K) cfg linearOn_snd' Z Y
  refine ⟨_, _, by rw [f1.1, e]; rfl, by rw [f2.1, e]; rfl, by rw [f1.2.1, e']; rfl, by rw [f2.2.1, e']; rfl,
    (near_pair cr.wf).mpr fun p hp => ?_⟩
  obtain ⟨y, hy, z, hz, rfl⟩ := hr p hp
  show N ((y.1 + z.1) - (y.2 + z.2)) ≤ ε + ε'
  rw [add_sub_add_comm]
  exact (hN.add_le _ _).trans (add_le_add hy hz)

/-- C111. Differences: the distances of the control points add up. -/
theorem C111_sub (hN : IsLength N) (cfg : Cfg) (a a' b b' : Spline V) (ha : a.WF) (ha' : a'.WF) (hb : b.WF) (hb' : b'.WF)
    (hf : Fits cfg a.degrees b.degrees) (ε ε' : K) (h : Near N ε a a') (h' : Near N ε' b b') :
    ∃ r r', Spline.subAssign K cfg a b = .ok r ∧ Spline.subAssign K cfg a' b' = .ok r' ∧ Near N (ε + ε') r r' := by
  obtain ⟨Z, rfl, rfl, hZ⟩ := exists_pair ha ha' h.1
  obtain ⟨Y, rfl, rfl, hY⟩ := exists_pair hb hb' h'.1
  obtain ⟨r, e, _, hr⟩ := C73_sub (K := K) cfg Z Y hZ hY hf _ _ (near_convex hN ε) (near_convex hN ε') ((near_pair hZ).mp h) ((near_pair hY).mp h')
  obtain ⟨r1, e1, cr⟩ := C19_sub_assign cfg Z Y _ _ _ _ (hZ.computes (K := K)) (hY.computes (K := K)) hf
  obtain rfl := Except.ok.inj (e.symm.trans e1)
  have f1 := C84_linear_operations (K := K) cfg linearOn_fst' Z Y
  have f2 := C84_linear_operations (K := K) cfg linearOn_snd' Z Y
  refine ⟨_, _, by rw [f1.2.2.2.1, e]; rfl, by rw [f2.2.2.2.1, e]; rfl, (near_pair cr.wf).mpr fun p hp => ?_⟩
  obtain ⟨y, hy, z, hz, rfl⟩ := hr p hp
  show N ((y.1 - z.1) - (y.2 - z.2)) ≤ ε + ε'
  have e2 : (y.1 - z.1) - (y.2 - z.2) = (y.1 - y.2) + (-1 : K) • (z.1 - z.2) := by rw [neg_one_smul]; abel
  rw [e2]
  refine (hN.add_le _ _).trans (add_le_add hy ?_)
  rw [hN.smul, abs_neg, abs_one, one_mul]
  exact hz

/-- C111. Products: if the control points of `b` have at most the length `R₂` and those of `a'` at most the length `R₁`, then the control points
of `a * b` and `a' * b'` have at most the distance `ε R₂ + R₁ ε'`. -/
theorem C111_mul (hN : IsLength N) (hN₂ : IsLength N₂) (hN₃ : IsLength N₃) (cfg : Cfg) (hmax : cfg.maxBinom ≤ 68) (mul : V → W → U)
    (B : V →ₗ[K] W →ₗ[K] U) (hB : ∀ x y, mul x y = B x y) (hm : ∀ x y, N₃ (mul x y) ≤ N x * N₂ y) (a a' : Spline V) (b b' : Spline W)
    (ha : a.WF) (ha' : a'.WF) (hb : b.WF) (hb' : b'.WF) (hdim : b.dim = a.dim) (hdeg : ∀ p ∈ sumDegrees a.degrees b.degrees, p < cfg.maxBinom)
    (ε ε' R₁ R₂ : K) (h : Near N ε a a') (h' : Near N₂ ε' b b') (hR₁ : ∀ x ∈ a'.cps, N x ≤ R₁) (hR₂ : ∀ y ∈ b.cps, N₂ y ≤ R₂) :
    ∃ r r', Spline.mulOp K cfg mul a b = .ok r ∧ Spline.mulOp K cfg mul a' b' = .ok r' ∧ Near N₃ (ε * R₂ + R₁ * ε') r r' := by
  obtain ⟨Z, rfl, rfl, hZ⟩ := exists_pair ha ha' h.1
  obtain ⟨Y, rfl, rfl, hY⟩ := exists_pair hb hb' h'.1
  let mul2 : V × V → W × W → U × U := fun p q => (mul p.1 q.1, mul p.2 q.2)
  let B2 : V × V →ₗ[K] W × W →ₗ[K] U × U := LinearMap.mk₂ K mul2
    (fun p p' q => by simp [mul2, hB]) (fun c p q => by simp [mul2, hB]) (fun p q q' => by simp [mul2, hB]) (fun c p q => by simp [mul2, hB])
  have hε : ∀ p ∈ Z.cps, N (p.1 - p.2) ≤ ε := (near_pair hZ).mp h
  have hε' : ∀ p ∈ Y.cps, N₂ (p.1 - p.2) ≤ ε' := (near_pair hY).mp h'
  obtain ⟨r, e, hr⟩ := C73_mul (K := K) cfg hmax mul2 B2 (fun _ _ => rfl) Z Y hZ hY hdim hdeg {p | N (p.1 - p.2) ≤ ε ∧ N p.2 ≤ R₁}
    {q | N₂ (q.1 - q.2) ≤ ε' ∧ N₂ q.1 ≤ R₂} _ (near_convex hN₃ (ε * R₂ + R₁ * ε'))
    (fun p hp => ⟨hε p hp, hR₁ _ (List.mem_map.mpr ⟨p, hp, rfl⟩)⟩) (fun q hq => ⟨hε' q hq, hR₂ _ (List.mem_map.mpr ⟨q, hq, rfl⟩)⟩)
    (by
      rintro p ⟨h1, h2⟩ q ⟨h3, h4⟩
      show N₃ (mul p.1 q.1 - mul p.2 q.2) ≤ ε * R₂ + R₁ * ε'
      have e1 : mul p.1 q.1 - mul p.2 q.2 = mul (p.1 - p.2) q.1 + mul p.2 (q.1 - q.2) := by
        simp only [hB, map_sub, LinearMap.sub_apply]; abel
      rw [e1]
      refine (hN₃.add_le _ _).trans (add_le_add ?_ ?_)
      · exact (hm _ _).trans (mul_le_mul h1 h4 (hN₂.nonneg _) ((hN.nonneg _).trans h1))
      · exact (hm _ _).trans (mul_le_mul h2 h3 (hN₂.nonneg _) ((hN.nonneg _).trans h2)))
  obtain ⟨r1, e1, cr⟩ := C21_mul cfg hmax mul2 B2 (fun _ _ => rfl) Z Y _ _ _ _ (hZ.computes (K := K)) (hY.computes (K := K)) hdim hdeg
  obtain rfl := Except.ok.inj (e.symm.trans e1)
  refine ⟨_, _, ?_, ?_, (near_pair cr.wf).mpr hr⟩
  · rw [C84_product (K := K) cfg linearOn_fst' mul2 mul (fun _ _ => rfl) Z Y, e]; rfl
  · rw [C84_product (K := K) cfg linearOn_snd' mul2 mul (fun _ _ => rfl) Z Y, e]; rfl

/-! ## Concrete cases -/

/-- `A` and `B` with moved control points -/
def Am : Spline ℚ := Ex.A.map (· + 1 / 10)
def Bm : Spline ℚ := Ex.B.map (fun x => x * 99 / 100)
theorem Am_wf : Am.WF := Spline.wf_map Ex.A_wf _
theorem Bm_wf : Bm.WF := Spline.wf_map Ex.B_wf _
theorem A_near : Near (fun x : ℚ => |x|) (1 / 10) Ex.A Am := near_of_zip Ex.A_wf Am_wf rfl (by decide +kernel)
theorem B_near : Near (fun x : ℚ => |x|) (1 / 20) Ex.B Bm := near_of_zip Ex.B_wf Bm_wf rfl (by decide +kernel)

example := C111_add abs_length Ex.cfg Ex.A Am Ex.B Bm Ex.A_wf Am_wf Ex.B_wf Bm_wf fits_AB _ _ A_near B_near
example := C111_sub abs_length Ex.cfg Ex.A Am Ex.B Bm Ex.A_wf Am_wf Ex.B_wf Bm_wf fits_AB _ _ A_near B_near
example := C111_mul (K := ℚ) abs_length abs_length abs_length Ex.cfg Ex.cfg_ok (fun x y : ℚ => x * y) (LinearMap.mul ℚ ℚ) (fun _ _ => rfl)
  (fun x y => (abs_mul x y).le) Ex.A Am Ex.B Bm Ex.A_wf Am_wf Ex.B_wf Bm_wf rfl (by decide) (1 / 10) (1 / 20) 7 5 A_near B_near
  (by decide +kernel) (by decide +kernel)

end Bezman.Props
