import Verif.Props.Changes
import Verif.Props.ComposeLaws
import Verif.Props.RationalCompose

/-! # Property C121: laws between the operations on rational splines, as equalities of the returned objects -/

namespace Bezman.Props
open Spec Coords

section
variable {K V : Type} [Field K] [CharZero K] [AddCommGroup V] [Module K V]

/-- numerator, weights and degrees determine a rational spline object -/
theorem rparts_unique {r q : RSpline K V} {ds : List ℕ} {N M : List K → V} {w v : List K → K} (hr : RParts r ds N w) (hq : RParts q ds M v)
    (hN : ∀ t : List K, t.length = ds.length → M t = N t) (hw : ∀ t : List K, t.length = ds.length → v t = w t) : r = q := by
  obtain ⟨rn, rw'⟩ := r
  obtain ⟨qn, qw⟩ := q
  have h1 := hr.1.unique (hq.1.congr hN)
  have h2 := hr.2.unique (hq.2.congr hw)
  simp only at h1 h2
  rw [h1, h2]

theorem rparts_of {r : RSpline K V} (hn : r.num.WF) (hw : r.wt.WF) (hd : r.num.degrees = r.wt.degrees) :
    RParts r r.num.degrees (fun t : List K => r.num.value t) (fun t : List K => r.wt.value t) :=
  ⟨hn.computes, by rw [hd]; exact hw.computes⟩

/-- what the sum of two rational objects is made of -/
theorem rparts_add [DecidableEq K] {cfg : Cfg} (hmax : cfg.maxBinom ≤ 68) {a b : RSpline K V} {da db : List ℕ} {N M : List K → V} {w v : List K → K}
    (ha : RParts a da N w) (hb : RParts b db M v) (h : SumFits cfg da db) : ∃ r, a.addOp cfg b = .ok r ∧
      ((a.wt = b.wt ∧ RParts r da (fun t => N t + M t) w) ∨
       (a.wt ≠ b.wt ∧ RParts r (sumDegrees da db) (fun t => v t • N t + w t • M t) (fun t => w t * v t))) := by
  unfold RSpline.addOp
  by_cases e : a.wt = b.wt
  · obtain rfl : da = db := by rw [← ha.2.degrees_eq, e, hb.2.degrees_eq]
    rw [if_pos ((eqOp_iff ha.2.wf hb.2.wf).mpr e)]
    obtain ⟨n, h1, h2⟩ := C16_add cfg a.num b.num _ _ _ _ ha.1 hb.1 (sumFits_shared h)
    rw [maxDegrees_self] at h2
    refine ⟨⟨n, a.wt⟩, ?_, .inl ⟨e, h2, ha.2⟩⟩
    rw [h1]
    exact RSpline.ofSplines_ok (h2.degrees_eq.trans ha.2.degrees_eq.symm)
  · rw [if_neg fun he => e ((eqOp_iff ha.2.wf hb.2.wf).mp he)]
    obtain ⟨x, y, z, hx, hy, hz, hx', hy', hz'⟩ := cross_parts hmax ha hb h
    obtain ⟨n, h1, h2⟩ := C16_add cfg x y _ _ _ _ hx' hy' (fits_self h.rounds h.rounds2 h.small)
    rw [maxDegrees_self] at h2
    refine ⟨⟨n, z⟩, ?_, .inr ⟨e, h2, hz'⟩⟩
    simp only [hx, hy, hz, h1, bind_ok]
    exact RSpline.ofSplines_ok (h2.degrees_eq.trans hz'.degrees_eq.symm)

/-- what the difference of two rational objects is made of -/
theorem rparts_sub [DecidableEq K] {cfg : Cfg} (hmax : cfg.maxBinom ≤ 68) {a b : RSpline K V} {da db : List ℕ} {N M : List K → V} {w v : List K → K}
    (ha : RParts a da N w) (hb : RParts b db M v) (h : SumFits cfg da db) : ∃ r, a.subOp cfg b = .ok r ∧
      ((a.wt = b.wt ∧ RParts r da (fun t => N t - M t) w) ∨
       (a.wt ≠ b.wt ∧ RParts r (sumDegrees da db) (fun t => v t • N t - w t • M t) (fun t => w t * v t))) := by
  have le : ∀ (l : List ℕ) (d p q : ℕ), l[d]? = some p → l[d]? = some q → q ≤ p := fun l d p q h1 h2 => by
    rw [h1] at h2; cases h2; exact le_rfl
  unfold RSpline.subOp
  by_cases e : a.wt = b.wt
  · obtain rfl : da = db := by rw [← ha.2.degrees_eq, e, hb.2.degrees_eq]
    rw [if_pos ((eqOp_iff ha.2.wf hb.2.wf).mpr e)]
    obtain ⟨n, h1, h2⟩ := C18_sub_partial cfg a.num b.num _ _ _ _ ha.1 hb.1 (sumFits_shared h) (le _)
    rw [maxDegrees_self] at h2
    refine ⟨⟨n, a.wt⟩, ?_, .inl ⟨e, h2, ha.2⟩⟩
    rw [h1]
    exact RSpline.ofSplines_ok (h2.degrees_eq.trans ha.2.degrees_eq.symm)
  · rw [if_neg fun he => e ((eqOp_iff ha.2.wf hb.2.wf).mp he)]
    obtain ⟨x, y, z, hx, hy, hz, hx', hy', hz'⟩ := cross_parts hmax ha hb h
    obtain ⟨n, h1, h2⟩ := C18_sub_partial cfg x y _ _ _ _ hx' hy' (fits_self h.rounds h.rounds2 h.small) (le _)
    rw [maxDegrees_self] at h2
    refine ⟨⟨n, z⟩, ?_, .inr ⟨e, h2, hz'⟩⟩
    simp only [hx, hy, hz, h1, bind_ok]
    exact RSpline.ofSplines_ok (h2.degrees_eq.trans hz'.degrees_eq.symm)

/-- what the product of two rational objects is made of -/
theorem rparts_mul {W U : Type} [AddCommGroup W] [Module K W] [AddCommGroup U] [Module K U] {cfg : Cfg} (hmax : cfg.maxBinom ≤ 68)
    (mul : V → W → U) (B : V →ₗ[K] W →ₗ[K] U) (hB : ∀ x y, mul x y = B x y) {a : RSpline K V} {b : RSpline K W} {da db : List ℕ}
    {N : List K → V} {M : List K → W} {w v : List K → K} (ha : RParts a da N w) (hb : RParts b db M v) (hdim : db.length = da.length)
    (hdeg : ∀ p ∈ sumDegrees da db, p < cfg.maxBinom) :
    ∃ r, RSpline.mulOp cfg mul a b = .ok r ∧ RParts r (sumDegrees da db) (fun t => mul (N t) (M t)) (fun t => w t * v t) := by
  obtain ⟨n, h1, h2⟩ := C21_mul cfg hmax mul B hB a.num b.num _ _ _ _ ha.1 hb.1 hdim hdeg
  obtain ⟨m, h3, h4⟩ := C21_mul_scalar cfg hmax a.wt b.wt _ _ _ _ ha.2 hb.2 hdim hdeg
  refine ⟨⟨n, m⟩, ?_, h2, h4⟩
  unfold RSpline.mulOp
  simp only [h1, h3, bind_ok]
  exact RSpline.ofSplines_ok (h2.degrees_eq.trans h4.degrees_eq.symm)

omit [CharZero K] in
theorem rparts_neg {a : RSpline K V} {ds : List ℕ} {N : List K → V} {w : List K → K} (ha : RParts a ds N w) :
    ∃ r, a.negOp = .ok r ∧ RParts r ds (fun t => - N t) w ∧ r.wt = a.wt := by
  obtain ⟨n, h1, h2⟩ := C20_neg a.num _ _ ha.1
  refine ⟨⟨n, a.wt⟩, ?_, ⟨h2, ha.2⟩, rfl⟩
  unfold RSpline.negOp
  simp only [h1, bind_ok]
  exact RSpline.ofSplines_ok (h2.degrees_eq.trans ha.2.degrees_eq.symm)

omit [CharZero K] in
theorem rparts_scale {a : RSpline K V} {ds : List ℕ} {N : List K → V} {w : List K → K} (ha : RParts a ds N w) (c : K) :
    ∃ r, a.smulOp c = .ok r ∧ RParts r ds (fun t => c • N t) w ∧ r.wt = a.wt := by
  obtain ⟨n, h1, h2⟩ := C20_scale a.num _ _ ha.1 c
  refine ⟨⟨n, a.wt⟩, ?_, ⟨h2, ha.2⟩, rfl⟩
  unfold RSpline.smulOp
  have : a.num.smulOp c = .ok n := h1
  simp only [this, bind_ok]
  exact RSpline.ofSplines_ok (h2.degrees_eq.trans ha.2.degrees_eq.symm)

omit [CharZero K] in
theorem rparts_shift {a : RSpline K V} {ds : List ℕ} {N : List K → V} {w : List K → K} (ha : RParts a ds N w) (p : V) :
    ∃ r, a.addPoint p = .ok r ∧ RParts r ds (fun t => N t + w t • p) w ∧ r.wt = a.wt := by
  have hc : a.num.degrees = a.wt.degrees := ha.1.degrees_eq.trans ha.2.degrees_eq.symm
  obtain ⟨h1, h2⟩ := shift_parts ha (· + ·) (fun n t F G => neval_add n t F G) p
  refine ⟨⟨_, a.wt⟩, ?_, ⟨h2, ha.2⟩, rfl⟩
  unfold RSpline.addPoint
  rw [RSpline.ofSplines_ok hc]
  simp only [bind_ok]
  unfold RSpline.addPointAssign
  rw [h1]
  simp only [bind_ok]
  rw [assertM_ok (by simp [RSpline.compatible, hc])]
  rfl

theorem rparts_elevate {a : RSpline K V} {ds : List ℕ} {N : List K → V} {w : List K → K} (ha : RParts a ds N w) (d p : ℕ) (hp : ds[d]? = some p)
    (hs : size (ds.set d (p + 1)) < 2 ^ 31) : ∃ r, a.orderElevate d = .ok r ∧ RParts r (ds.set d (p + 1)) N w := by
  obtain ⟨n, h1, h2⟩ := C12_order_elevate (K := K) a.num ds _ ha.1 d p hp hs
  obtain ⟨m, h3, h4⟩ := C12_order_elevate (K := K) a.wt ds _ ha.2 d p hp hs
  refine ⟨⟨n, m⟩, ?_, h2, h4⟩
  unfold RSpline.orderElevate
  rw [h1, h3]
  simp only [bind_ok]
  rw [RSpline.assert_compatible (by rw [h2.degrees_eq, h4.degrees_eq])]
  rfl
end


/-! ## C121 -/

theorem sum_comm' (a b : List ℕ) : sumDegrees a b = sumDegrees b a := List.zipWith_comm_of_comm (fun x y => Nat.add_comm x y)

theorem sum_assoc' (a b c : List ℕ) : sumDegrees a (sumDegrees b c) = sumDegrees (sumDegrees a b) c := by
  unfold sumDegrees
  apply List.ext_getElem
  · simp
  · intro i h1 h2; simp [Nat.add_assoc]

theorem size_le_set : ∀ {ds : List ℕ} {d p : ℕ}, ds[d]? = some p → size ds ≤ size (ds.set d (p + 1))
  | [], _, _, h => by simp at h
  | x :: xs, 0, p, h => by
    obtain rfl : x = p := by simpa using h
    simp only [List.set_cons_zero, size, List.map_cons, List.prod_cons]
    exact Nat.mul_le_mul_right _ (by omega)
  | x :: xs, d + 1, p, h => by
    have ih := size_le_set (ds := xs) (d := d) (p := p) (by simpa using h)
    simp only [size] at ih
    simp only [List.set_cons_succ, size, List.map_cons, List.prod_cons]
    exact Nat.mul_le_mul_left _ ih

theorem sum_sumDegrees' : ∀ {x y : List ℕ}, y.length = x.length → (sumDegrees x y).sum = x.sum + y.sum
  | [], [], _ => rfl
  | [], _ :: _, h => by simp at h
  | _ :: _, [], h => by simp at h
  | a :: x, b :: y, h => by
    have ih := sum_sumDegrees' (x := x) (y := y) (by simpa using h)
    simp only [sumDegrees, List.zipWith_cons_cons, List.sum_cons] at ih ⊢
    omega

theorem computes_fun {K V : Type} [Field K] [AddCommGroup V] [Module K V] {s : Spline V} {ds : List ℕ} {f g : List K → V} (h : s.Computes ds f) (h' : s.Computes ds g)
    (t : List K) (ht : t.length = ds.length) : f t = g t := (h.value_eq ht).symm.trans (h'.value_eq ht)

section
variable {K V : Type} [Field K] [CharZero K] [DecidableEq K] [AddCommGroup V] [Module K V]

/-- C121. `a + b` and `b + a` are the same object: same degrees, same weighted points, same weights. -/
theorem C121_add_comm (cfg : Cfg) (hmax : cfg.maxBinom ≤ 68) (a b : RSpline K V) (da db : List ℕ) (N M : List K → V) (w v : List K → K)
    (ha : RParts a da N w) (hb : RParts b db M v) (h : SumFits cfg da db) : ∃ r, a.addOp cfg b = .ok r ∧ b.addOp cfg a = .ok r := by
  have h' : SumFits cfg db da := ⟨h.dims.symm, by rw [sum_comm']; exact h.degs, by rw [sum_comm']; exact h.rounds, h.rounds2,
    by rw [sum_comm']; exact h.small⟩
  obtain ⟨r, h1, c1⟩ := rparts_add hmax ha hb h
  obtain ⟨q, h2, c2⟩ := rparts_add hmax hb ha h'
  refine ⟨r, h1, ?_⟩
  rw [h2]
  rcases c1 with ⟨e, c1⟩ | ⟨e, c1⟩ <;> rcases c2 with ⟨e', c2⟩ | ⟨e', c2⟩
  · obtain rfl : da = db := by rw [← ha.2.degrees_eq, e, hb.2.degrees_eq]
    rw [rparts_unique c1 c2 (fun t _ => add_comm _ _) (computes_fun hb.2 (e ▸ ha.2))]
  · exact absurd e.symm e'
  · exact absurd e'.symm e
  · rw [sum_comm'] at c2
    rw [rparts_unique c1 c2 (fun t _ => add_comm _ _) fun t _ => mul_comm _ _]

/-- C121. `(a + b) + c` and `a + (b + c)` are the same object if the three share their weights. -/
theorem C121_add_assoc (cfg : Cfg) (hmax : cfg.maxBinom ≤ 68) (a b c : RSpline K V) (ds : List ℕ) (N M L : List K → V) (w : List K → K)
    (ha : RParts a ds N w) (hb : RParts b ds M w) (hc : RParts c ds L w) (h : SumFits cfg ds ds) :
    ∃ ab bc r, a.addOp cfg b = .ok ab ∧ b.addOp cfg c = .ok bc ∧ ab.addOp cfg c = .ok r ∧ a.addOp cfg bc = .ok r := by
  have key : ∀ {x y : RSpline K V} {N M : List K → V}, RParts x ds N w → RParts y ds M w →
      ∃ r, x.addOp cfg y = .ok r ∧ RParts r ds (fun t => N t + M t) w := fun hx hy => by
    obtain ⟨r, h1, ⟨_, c⟩ | ⟨e, _⟩⟩ := rparts_add hmax hx hy h
    · exact ⟨r, h1, c⟩
    · exact absurd (hx.2.unique hy.2) e
  obtain ⟨ab, h1, c1⟩ := key ha hb
  obtain ⟨bc, h2, c2⟩ := key hb hc
  obtain ⟨r, h3, c3⟩ := key c1 hc
  obtain ⟨q, h4, c4⟩ := key ha c2
  refine ⟨ab, bc, r, h1, h2, h3, ?_⟩
  rw [h4, rparts_unique c3 c4 (fun t _ => (add_assoc _ _ _).symm) fun t _ => rfl]

/-- C121. `a - b` and `a + (-b)` are the same object. -/
theorem C121_sub_neg (cfg : Cfg) (hmax : cfg.maxBinom ≤ 68) (a b : RSpline K V) (da db : List ℕ) (N M : List K → V) (w v : List K → K)
    (ha : RParts a da N w) (hb : RParts b db M v) (h : SumFits cfg da db) :
    ∃ b' r, b.negOp = .ok b' ∧ a.subOp cfg b = .ok r ∧ a.addOp cfg b' = .ok r := by
  obtain ⟨b', h0, c0, e0⟩ := rparts_neg hb
  obtain ⟨r, h1, c1⟩ := rparts_sub hmax ha hb h
  obtain ⟨q, h2, c2⟩ := rparts_add hmax ha c0 h
  refine ⟨b', r, h0, h1, ?_⟩
  rw [e0] at c2
  rw [h2]
  rcases c1 with ⟨e, c1⟩ | ⟨e, c1⟩ <;> rcases c2 with ⟨e', c2⟩ | ⟨e', c2⟩
  · rw [rparts_unique c1 c2 (fun t _ => (sub_eq_add_neg _ _).symm) fun t _ => rfl]
  · exact absurd e e'
  · exact absurd e' e
  · rw [rparts_unique c1 c2 (fun t _ => by rw [smul_neg, sub_eq_add_neg]) fun t _ => rfl]

/-- C121. `(a + b) * c` and `a * c + b * c` are the same object, for a number `c`. -/
theorem C121_scale_add (cfg : Cfg) (hmax : cfg.maxBinom ≤ 68) (a b : RSpline K V) (da db : List ℕ) (N M : List K → V) (w v : List K → K)
    (ha : RParts a da N w) (hb : RParts b db M v) (h : SumFits cfg da db) (c : K) :
    ∃ ab a' b' r, a.addOp cfg b = .ok ab ∧ a.smulOp c = .ok a' ∧ b.smulOp c = .ok b' ∧ ab.smulOp c = .ok r ∧ a'.addOp cfg b' = .ok r := by
  obtain ⟨ab, h1, c1⟩ := rparts_add hmax ha hb h
  obtain ⟨a', h2, c2, e2⟩ := rparts_scale ha c
  obtain ⟨b', h3, c3, e3⟩ := rparts_scale hb c
  obtain ⟨q, h4, c4⟩ := rparts_add hmax c2 c3 h
  rw [e2, e3] at c4
  rcases c1 with ⟨e, c1⟩ | ⟨e, c1⟩ <;> rcases c4 with ⟨e', c4⟩ | ⟨e', c4⟩
  · obtain ⟨r, h5, c5, _⟩ := rparts_scale c1 c
    refine ⟨ab, a', b', r, h1, h2, h3, h5, ?_⟩
    rw [h4, rparts_unique c5 c4 (fun t _ => (smul_add _ _ _).symm) fun t _ => rfl]
  · exact absurd e e'
  · exact absurd e' e
  · obtain ⟨r, h5, c5, _⟩ := rparts_scale c1 c
    refine ⟨ab, a', b', r, h1, h2, h3, h5, ?_⟩
    rw [h4, rparts_unique c5 c4 (fun t _ => by rw [smul_add, smul_comm c, smul_comm c]) fun t _ => rfl]

omit [DecidableEq K] in
/-- C121. `(a + p) + q` and `a + (p + q)` are the same object, for points `p` and `q`. -/
theorem C121_shift_shift (a : RSpline K V) (ds : List ℕ) (N : List K → V) (w : List K → K) (ha : RParts a ds N w) (p q : V) :
    ∃ a' r, a.addPoint p = .ok a' ∧ a'.addPoint q = .ok r ∧ a.addPoint (p + q) = .ok r := by
  obtain ⟨a', h1, c1, _⟩ := rparts_shift ha p
  obtain ⟨r, h2, c2, _⟩ := rparts_shift c1 q
  obtain ⟨r', h3, c3, _⟩ := rparts_shift ha (p + q)
  refine ⟨a', r, h1, h2, ?_⟩
  rw [h3, rparts_unique c2 c3 (fun t _ => by rw [smul_add, add_assoc]) fun t _ => rfl]

/-- C121. `(a + p) + b` and `(a + b) + p` are the same object, for a point `p`. -/
theorem C121_shift_add (cfg : Cfg) (hmax : cfg.maxBinom ≤ 68) (a b : RSpline K V) (da db : List ℕ) (N M : List K → V) (w v : List K → K)
    (ha : RParts a da N w) (hb : RParts b db M v) (h : SumFits cfg da db) (p : V) :
    ∃ a' ab r, a.addPoint p = .ok a' ∧ a.addOp cfg b = .ok ab ∧ a'.addOp cfg b = .ok r ∧ ab.addPoint p = .ok r := by
  obtain ⟨a', h1, c1, e1⟩ := rparts_shift ha p
  obtain ⟨ab, h2, c2⟩ := rparts_add hmax ha hb h
  obtain ⟨r, h3, c3⟩ := rparts_add hmax c1 hb h
  rw [e1] at c3
  rcases c2 with ⟨e, c2⟩ | ⟨e, c2⟩ <;> rcases c3 with ⟨e', c3⟩ | ⟨e', c3⟩
  · obtain ⟨q, h4, c4, _⟩ := rparts_shift c2 p
    refine ⟨a', ab, r, h1, h2, h3, ?_⟩
    rw [h4, rparts_unique c3 c4 (fun t _ => by abel) fun t _ => rfl]
  · exact absurd e e'
  · exact absurd e' e
  · obtain ⟨q, h4, c4, _⟩ := rparts_shift c2 p
    refine ⟨a', ab, r, h1, h2, h3, ?_⟩
    rw [h4, rparts_unique c3 c4 (fun t _ => by rw [smul_add, smul_smul, mul_comm (v t)]; abel) fun t _ => rfl]

omit [DecidableEq K] in
/-- C121. Products in both orders are the same object. -/
theorem C121_mul_comm {W U : Type} [AddCommGroup W] [Module K W] [AddCommGroup U] [Module K U] (cfg : Cfg) (hmax : cfg.maxBinom ≤ 68)
    (mul : V → W → U) (mul' : W → V → U) (B : V →ₗ[K] W →ₗ[K] U) (hB : ∀ x y, mul x y = B x y) (hB' : ∀ x y, mul' y x = mul x y)
    (a : RSpline K V) (b : RSpline K W) (da db : List ℕ) (N : List K → V) (M : List K → W) (w v : List K → K) (ha : RParts a da N w)
    (hb : RParts b db M v) (hdim : db.length = da.length) (hdeg : ∀ p ∈ sumDegrees da db, p < cfg.maxBinom) :
    ∃ r, RSpline.mulOp cfg mul a b = .ok r ∧ RSpline.mulOp cfg mul' b a = .ok r := by
  obtain ⟨r, h1, c1⟩ := rparts_mul hmax mul B hB ha hb hdim hdeg
  obtain ⟨q, h2, c2⟩ := rparts_mul hmax mul' B.flip (fun y x => by rw [hB', hB]; rfl) hb ha hdim.symm (by rw [sum_comm']; exact hdeg)
  refine ⟨r, h1, ?_⟩
  rw [sum_comm'] at c2
  rw [h2, rparts_unique c1 c2 (fun t _ => hB' _ _) fun t _ => mul_comm _ _]

omit [DecidableEq K] in
/-- C121. Products of rational splines with numbers as control points, grouped either way, are the same object. -/
theorem C121_mul_assoc (cfg : Cfg) (hmax : cfg.maxBinom ≤ 68) (a b c : RSpline K K) (da db dc : List ℕ) (N M L w v u : List K → K)
    (ha : RParts a da N w) (hb : RParts b db M v) (hc : RParts c dc L u) (hdim : db.length = da.length) (hdim' : dc.length = da.length)
    (hdeg : ∀ p ∈ sumDegrees (sumDegrees da db) dc, p < cfg.maxBinom) (hdeg1 : ∀ p ∈ sumDegrees da db, p < cfg.maxBinom)
    (hdeg2 : ∀ p ∈ sumDegrees db dc, p < cfg.maxBinom) :
    ∃ ab bc r, RSpline.mulOp cfg (· * ·) a b = .ok ab ∧ RSpline.mulOp cfg (· * ·) b c = .ok bc ∧
      RSpline.mulOp cfg (· * ·) ab c = .ok r ∧ RSpline.mulOp cfg (· * ·) a bc = .ok r := by
  have hl := fun x y : K => (LinearMap.mul_apply' (R := K) x y).symm
  obtain ⟨ab, h1, c1⟩ := rparts_mul hmax (· * ·) (LinearMap.mul K K) hl ha hb hdim hdeg1
  obtain ⟨bc, h2, c2⟩ := rparts_mul hmax (· * ·) (LinearMap.mul K K) hl hb hc (by omega) hdeg2
  obtain ⟨r, h3, c3⟩ := rparts_mul hmax (· * ·) (LinearMap.mul K K) hl c1 hc (by simp [sumDegrees, hdim, hdim']) hdeg
  obtain ⟨q, h4, c4⟩ := rparts_mul hmax (· * ·) (LinearMap.mul K K) hl ha c2 (by simp [sumDegrees, hdim, hdim'])
    (by rw [sum_assoc']; exact hdeg)
  refine ⟨ab, bc, r, h1, h2, h3, ?_⟩
  rw [sum_assoc'] at c4
  rw [h4, rparts_unique c3 c4 (fun t _ => (mul_assoc _ _ _).symm) fun t _ => (mul_assoc _ _ _).symm]

/-- C121. `a * (b + c)` and `a * b + a * c` are the same object if `b` and `c` share their weights. -/
theorem C121_distrib {W U : Type} [AddCommGroup W] [Module K W] [AddCommGroup U] [Module K U] (cfg : Cfg) (hmax : cfg.maxBinom ≤ 68)
    (mul : V → W → U) (B : V →ₗ[K] W →ₗ[K] U) (hB : ∀ x y, mul x y = B x y) (a : RSpline K V) (b c : RSpline K W) (da ds : List ℕ)
    (N : List K → V) (M L : List K → W) (w v : List K → K) (ha : RParts a da N w) (hb : RParts b ds M v) (hc : RParts c ds L v)
    (h : SumFits cfg ds ds) (hdim : ds.length = da.length) (h' : SumFits cfg (sumDegrees da ds) (sumDegrees da ds)) :
    ∃ bc ab ac r, b.addOp cfg c = .ok bc ∧ RSpline.mulOp cfg mul a b = .ok ab ∧ RSpline.mulOp cfg mul a c = .ok ac ∧
      RSpline.mulOp cfg mul a bc = .ok r ∧ ab.addOp cfg ac = .ok r := by
  have hdeg := le_sumDegrees h'.dims _ h'.degs
  obtain ⟨bc, h1, ⟨_, c1⟩ | ⟨e, _⟩⟩ := rparts_add hmax hb hc h
  swap
  · exact absurd (hb.2.unique hc.2) e
  obtain ⟨ab, h2, c2⟩ := rparts_mul hmax mul B hB ha hb hdim hdeg
  obtain ⟨ac, h3, c3⟩ := rparts_mul hmax mul B hB ha hc hdim hdeg
  obtain ⟨r, h4, c4⟩ := rparts_mul hmax mul B hB ha c1 hdim hdeg
  obtain ⟨q, h5, ⟨_, c5⟩ | ⟨e, _⟩⟩ := rparts_add hmax c2 c3 h'
  swap
  · exact absurd (c2.2.unique c3.2) e
  refine ⟨bc, ab, ac, r, h1, h2, h3, h4, ?_⟩
  rw [h5, rparts_unique c4 c5 (fun t _ => by simp only [hB, map_add]) fun t _ => rfl]

omit [DecidableEq K] in
/-- C121. Degree elevations commute. -/
theorem C121_elevate_elevate (a : RSpline K V) (ds : List ℕ) (N : List K → V) (w : List K → K) (ha : RParts a ds N w) (d e p q : ℕ) (hne : d ≠ e)
    (hp : ds[d]? = some p) (hq : ds[e]? = some q) (hs : size ((ds.set d (p + 1)).set e (q + 1)) < 2 ^ 31) :
    ∃ x y r, a.orderElevate d = .ok x ∧ x.orderElevate e = .ok r ∧ a.orderElevate e = .ok y ∧ y.orderElevate d = .ok r := by
  have hp' : (ds.set e (q + 1))[d]? = some p := by rw [List.getElem?_set_ne (Ne.symm hne), hp]
  have hq' : (ds.set d (p + 1))[e]? = some q := by rw [List.getElem?_set_ne hne, hq]
  have hc : (ds.set e (q + 1)).set d (p + 1) = (ds.set d (p + 1)).set e (q + 1) := List.set_comm _ _ (Ne.symm hne)
  obtain ⟨x, h1, c1⟩ := rparts_elevate ha d p hp (lt_of_le_of_lt (size_le_set hq') hs)
  obtain ⟨r, h2, c2⟩ := rparts_elevate c1 e q hq' hs
  obtain ⟨y, h3, c3⟩ := rparts_elevate ha e q hq (lt_of_le_of_lt (size_le_set hp') (hc ▸ hs))
  obtain ⟨r', h4, c4⟩ := rparts_elevate c3 d p hp' (by rw [hc]; exact hs)
  rw [hc] at c4
  refine ⟨x, y, r, h1, h2, h3, ?_⟩
  rw [h4, rparts_unique c2 c4 (fun t _ => rfl) fun t _ => rfl]

end


section
variable {K V W : Type} [Field K] [LinearOrder K] [IsStrictOrderedRing K] [AddCommGroup V] [Module K V] [AddCommGroup W] [Module K W] [Coords K W]
  [LawfulCoords K W]

/-- what the parts of a split rational object are made of -/
theorem rparts_split {a : RSpline K V} {ds : List ℕ} {N : List K → V} {w : List K → K} (ha : RParts a ds N w) {d : ℕ} (hd : d < ds.length) {z : K}
    (h0 : 0 < z) (h1 : z < 1) : ∃ x y, a.splitAt z d = .ok (x, y) ∧
      RParts x ds (fun t => N (t.modify d (fun c => z * c))) (fun t => w (t.modify d (fun c => z * c))) ∧
      RParts y ds (fun t => N (t.modify d (fun c => z + (1 - z) * c))) (fun t => w (t.modify d (fun c => z + (1 - z) * c))) := by
  obtain ⟨n₁, n₂, e1, c1, c2⟩ := C31_split (K := K) a.num _ _ ha.1 d hd z h0 h1
  obtain ⟨w₁, w₂, e2, c3, c4⟩ := C31_split (K := K) a.wt _ _ ha.2 d hd z h0 h1
  refine ⟨⟨n₁, w₁⟩, ⟨n₂, w₂⟩, ?_, ⟨c1, c3⟩, c2, c4⟩
  unfold RSpline.splitAt
  simp only [e1, e2, bind_ok]
  rw [RSpline.ofSplines_ok (c1.degrees_eq.trans c3.degrees_eq.symm), RSpline.ofSplines_ok (c2.degrees_eq.trans c4.degrees_eq.symm)]
  rfl

theorem rparts_compose {cfg : Cfg} (hmax : cfg.maxBinom ≤ 68) {a : RSpline K V} {b : Spline W} {dO dI : List ℕ} {N : List K → V} {w : List K → K}
    {g : List K → W} (ha : RParts a dO N w) (hb : b.Computes dI g) (hdim : dO.length = Coords.n K W) (hcube : Spline.fitsIntoUnitCube K b = .ok true)
    (hdeg : ∀ p ∈ dO, p < cfg.maxBinom) (hdeg' : ∀ q ∈ dI, dO.sum * q < cfg.maxBinom) : ∃ r, RSpline.compose cfg a b = .ok r ∧
      RParts r (dI.map fun q => dO.sum * q) (fun t => N (coordList K (g t))) (fun t => w (coordList K (g t))) := by
  obtain ⟨n, h1, c1⟩ := C26_compose cfg hmax a.num b dO dI _ _ ha.1 hb hdim hcube hdeg hdeg'
  obtain ⟨m, h2, c2⟩ := C26_compose cfg hmax a.wt b dO dI _ _ ha.2 hb hdim hcube hdeg hdeg'
  refine ⟨⟨n, m⟩, ?_, c1, c2⟩
  unfold RSpline.compose
  simp only [h1, h2, bind_ok]
  exact RSpline.ofSplines_ok (c1.degrees_eq.trans c2.degrees_eq.symm)

omit [LinearOrder K] [IsStrictOrderedRing K] [AddCommGroup W] [Module K W] [Coords K W] [LawfulCoords K W] [AddCommGroup V] [Module K V] in
/-- two functions that agree after an invertible substitution of one parameter agree -/
theorem modify_cancel {α : Type} {f g : List K → α} {n d : ℕ} {φ ψ : K → K} (h : ∀ x, φ (ψ x) = x)
    (e : ∀ t : List K, t.length = n → f (t.modify d φ) = g (t.modify d φ)) (t : List K) (ht : t.length = n) : f t = g t := by
  have hm : (t.modify d ψ).modify d φ = t := by
    apply List.ext_getElem?
    intro i
    rw [List.getElem?_modify, List.getElem?_modify]
    split
    · cases t[i]? <;> simp [h]
    · simp
  rw [← hm]
  exact e _ (by simpa using ht)

/-- C121. Splitting the sum of two rational splines, whatever their weights, gives the sums of the parts, as objects. -/
theorem C121_split_add (cfg : Cfg) (hmax : cfg.maxBinom ≤ 68) (a b : RSpline K V) (da db : List ℕ) (N M : List K → V) (w v : List K → K)
    (ha : RParts a da N w) (hb : RParts b db M v) (h : SumFits cfg da db) (d : ℕ) (hd : d < da.length) (z : K) (h0 : 0 < z) (h1 : z < 1) :
    ∃ ab a₁ a₂ b₁ b₂ r₁ r₂, a.addOp cfg b = .ok ab ∧ a.splitAt z d = .ok (a₁, a₂) ∧ b.splitAt z d = .ok (b₁, b₂) ∧
      a₁.addOp cfg b₁ = .ok r₁ ∧ a₂.addOp cfg b₂ = .ok r₂ ∧ ab.splitAt z d = .ok (r₁, r₂) := by
  obtain ⟨ab, e1, c1⟩ := rparts_add hmax ha hb h
  obtain ⟨a₁, a₂, e2, ca₁, ca₂⟩ := rparts_split ha hd h0 h1
  obtain ⟨b₁, b₂, e3, cb₁, cb₂⟩ := rparts_split hb (by rw [h.dims]; exact hd) h0 h1
  obtain ⟨r₁, e4, c4⟩ := rparts_add hmax ca₁ cb₁ h
  obtain ⟨r₂, e5, c5⟩ := rparts_add hmax ca₂ cb₂ h
  have hz : z ≠ 0 := h0.ne'
  have hz' : (1 : K) - z ≠ 0 := (sub_pos.mpr h1).ne'
  refine ⟨ab, a₁, a₂, b₁, b₂, r₁, r₂, e1, e2, e3, e4, e5, ?_⟩
  rcases c1 with ⟨e, c1⟩ | ⟨e, c1⟩
  · obtain rfl : da = db := by rw [← ha.2.degrees_eq, e, hb.2.degrees_eq]
    have hwv := computes_fun ha.2 (e.symm ▸ hb.2 : a.wt.Computes da v)
    have q₁ : a₁.wt = b₁.wt := ca₁.2.unique (cb₁.2.congr fun t ht => (hwv _ (by simpa using ht)).symm)
    have q₂ : a₂.wt = b₂.wt := ca₂.2.unique (cb₂.2.congr fun t ht => (hwv _ (by simpa using ht)).symm)
    rcases c4 with ⟨_, c4⟩ | ⟨n, _⟩
    swap
    · exact absurd q₁ n
    rcases c5 with ⟨_, c5⟩ | ⟨n, _⟩
    swap
    · exact absurd q₂ n
    obtain ⟨x, y, e6, cx, cy⟩ := rparts_split c1 hd h0 h1
    rw [e6, rparts_unique cx c4 (fun t _ => rfl) fun t _ => rfl, rparts_unique cy c5 (fun t _ => rfl) fun t _ => rfl]
  · obtain ⟨x, y, e6, cx, cy⟩ := rparts_split c1 (by simpa [sumDegrees, h.dims] using hd) h0 h1
    have q₁ : a₁.wt ≠ b₁.wt := fun q => by
      obtain rfl : da = db := by rw [← ca₁.2.degrees_eq, q, cb₁.2.degrees_eq]
      exact e (ha.2.unique (hb.2.congr (modify_cancel (ψ := fun x => z⁻¹ * x) (fun x => by field_simp)
        fun t ht => computes_fun cb₁.2 (q ▸ ca₁.2) t ht)))
    have q₂ : a₂.wt ≠ b₂.wt := fun q => by
      obtain rfl : da = db := by rw [← ca₂.2.degrees_eq, q, cb₂.2.degrees_eq]
      exact e (ha.2.unique (hb.2.congr (modify_cancel (ψ := fun x => (1 - z)⁻¹ * (x - z)) (fun x => by field_simp; ring)
        fun t ht => computes_fun cb₂.2 (q ▸ ca₂.2) t ht)))
    rcases c4 with ⟨n, _⟩ | ⟨_, c4⟩
    · exact absurd n q₁
    rcases c5 with ⟨n, _⟩ | ⟨_, c5⟩
    · exact absurd n q₂
    rw [e6, rparts_unique cx c4 (fun t _ => rfl) fun t _ => rfl, rparts_unique cy c5 (fun t _ => rfl) fun t _ => rfl]

/-- C121. Splitting a product of rational splines gives the products of the parts, as objects. -/
theorem C121_split_mul {U : Type} [AddCommGroup U] [Module K U] (cfg : Cfg) (hmax : cfg.maxBinom ≤ 68) (mul : V → W → U) (B : V →ₗ[K] W →ₗ[K] U)
    (hB : ∀ x y, mul x y = B x y) (a : RSpline K V) (b : RSpline K W) (da db : List ℕ) (N : List K → V) (M : List K → W) (w v : List K → K)
    (ha : RParts a da N w) (hb : RParts b db M v) (hdim : db.length = da.length) (hdeg : ∀ p ∈ sumDegrees da db, p < cfg.maxBinom)
    (d : ℕ) (hd : d < da.length) (z : K) (h0 : 0 < z) (h1 : z < 1) :
    ∃ ab a₁ a₂ b₁ b₂ r₁ r₂, RSpline.mulOp cfg mul a b = .ok ab ∧ a.splitAt z d = .ok (a₁, a₂) ∧ b.splitAt z d = .ok (b₁, b₂) ∧
      RSpline.mulOp cfg mul a₁ b₁ = .ok r₁ ∧ RSpline.mulOp cfg mul a₂ b₂ = .ok r₂ ∧ ab.splitAt z d = .ok (r₁, r₂) := by
  obtain ⟨ab, e1, c1⟩ := rparts_mul hmax mul B hB ha hb hdim hdeg
  obtain ⟨a₁, a₂, e2, ca₁, ca₂⟩ := rparts_split ha hd h0 h1
  obtain ⟨b₁, b₂, e3, cb₁, cb₂⟩ := rparts_split hb (by rw [hdim]; exact hd) h0 h1
  obtain ⟨r₁, e4, c4⟩ := rparts_mul hmax mul B hB ca₁ cb₁ hdim hdeg
  obtain ⟨r₂, e5, c5⟩ := rparts_mul hmax mul B hB ca₂ cb₂ hdim hdeg
  obtain ⟨x, y, e6, cx, cy⟩ := rparts_split c1 (by simpa [sumDegrees, hdim] using hd) h0 h1
  refine ⟨ab, a₁, a₂, b₁, b₂, r₁, r₂, e1, e2, e3, e4, e5, ?_⟩
  rw [e6, rparts_unique cx c4 (fun t _ => rfl) fun t _ => rfl, rparts_unique cy c5 (fun t _ => rfl) fun t _ => rfl]

/-- C121. Degree elevation and splitting commute. -/
theorem C121_elevate_split (a : RSpline K V) (ds : List ℕ) (N : List K → V) (w : List K → K) (ha : RParts a ds N w) (d e p : ℕ)
    (hp : ds[d]? = some p) (hs : size (ds.set d (p + 1)) < 2 ^ 31) (he : e < ds.length) (z : K) (h0 : 0 < z) (h1 : z < 1) :
    ∃ x a₁ a₂ r₁ r₂, a.orderElevate d = .ok x ∧ a.splitAt z e = .ok (a₁, a₂) ∧ a₁.orderElevate d = .ok r₁ ∧ a₂.orderElevate d = .ok r₂ ∧
      x.splitAt z e = .ok (r₁, r₂) := by
  obtain ⟨x, e1, c1⟩ := rparts_elevate ha d p hp hs
  obtain ⟨a₁, a₂, e2, ca₁, ca₂⟩ := rparts_split ha he h0 h1
  obtain ⟨r₁, e3, c3⟩ := rparts_elevate ca₁ d p hp hs
  obtain ⟨r₂, e4, c4⟩ := rparts_elevate ca₂ d p hp hs
  obtain ⟨y, y', e5, cy, cy'⟩ := rparts_split c1 (by simpa using he) h0 h1
  refine ⟨x, a₁, a₂, r₁, r₂, e1, e2, e3, e4, ?_⟩
  rw [e5, rparts_unique cy c3 (fun t _ => rfl) fun t _ => rfl, rparts_unique cy' c4 (fun t _ => rfl) fun t _ => rfl]

/-- C121. Splitting a composition gives the compositions with the parts of the inner spline, as objects. -/
theorem C121_split_compose (cfg : Cfg) (hmax : cfg.maxBinom ≤ 68) (a : RSpline K V) (b : Spline W) (dO dI : List ℕ) (N : List K → V)
    (w : List K → K) (g : List K → W) (ha : RParts a dO N w) (hb : b.Computes dI g) (hdim : dO.length = Coords.n K W)
    (hcube : Spline.fitsIntoUnitCube K b = .ok true) (hdeg : ∀ p ∈ dO, p < cfg.maxBinom) (hdeg' : ∀ q ∈ dI, dO.sum * q < cfg.maxBinom)
    (d : ℕ) (hd : d < dI.length) (z : K) (h0 : 0 < z) (h1 : z < 1) :
    ∃ r b₁ b₂ r₁ r₂, RSpline.compose cfg a b = .ok r ∧ b.splitAt z d = .ok (b₁, b₂) ∧ RSpline.compose cfg a b₁ = .ok r₁ ∧
      RSpline.compose cfg a b₂ = .ok r₂ ∧ r.splitAt z d = .ok (r₁, r₂) := by
  obtain ⟨r, e1, c1⟩ := rparts_compose hmax ha hb hdim hcube hdeg hdeg'
  obtain ⟨b₁, b₂, e2, cb₁, cb₂⟩ := C31_split (K := K) b _ _ hb d hd z h0 h1
  obtain ⟨x₁, x₂, ex, f₁, f₂⟩ := C73_split_fits b hb.wf hcube d (by rw [hb.dim_eq]; exact hd) z h0 h1
  cases e2.symm.trans ex
  obtain ⟨r₁, e3, c3⟩ := rparts_compose hmax ha cb₁ hdim f₁ hdeg hdeg'
  obtain ⟨r₂, e4, c4⟩ := rparts_compose hmax ha cb₂ hdim f₂ hdeg hdeg'
  obtain ⟨x, y, e6, cx, cy⟩ := rparts_split c1 (by simpa using hd) h0 h1
  refine ⟨r, b₁, b₂, r₁, r₂, e1, e2, e3, e4, ?_⟩
  rw [e6, rparts_unique cx c3 (fun t _ => rfl) fun t _ => rfl, rparts_unique cy c4 (fun t _ => rfl) fun t _ => rfl]

/-- C121. Composing with a composition, or composing twice, gives the same object. -/
theorem C121_compose_assoc {U : Type} [AddCommGroup U] [Module K U] [Coords K U] [LawfulCoords K U] (cfg : Cfg) (hmax : cfg.maxBinom ≤ 68)
    (a : RSpline K V) (b : Spline W) (c : Spline U) (da db dc : List ℕ) (N : List K → V) (w : List K → K) (g : List K → W) (h : List K → U)
    (ha : RParts a da N w) (hb : b.Computes db g) (hc : c.Computes dc h) (hda : da.length = Coords.n K W) (hdb : db.length = Coords.n K U)
    (hb' : Spline.fitsIntoUnitCube K b = .ok true) (hc' : Spline.fitsIntoUnitCube K c = .ok true)
    (hpa : ∀ p ∈ da, p < cfg.maxBinom) (hpb : ∀ p ∈ db, da.sum * p < cfg.maxBinom) (hpb' : ∀ p ∈ db, p < cfg.maxBinom)
    (hdeg : ∀ q ∈ dc, da.sum * (db.sum * q) < cfg.maxBinom) (hdeg' : ∀ q ∈ dc, db.sum * q < cfg.maxBinom) :
    ∃ ab bc r, RSpline.compose cfg a b = .ok ab ∧ Spline.compose K cfg b c = .ok bc ∧ RSpline.compose cfg ab c = .ok r ∧
      RSpline.compose cfg a bc = .ok r := by
  obtain ⟨n, bc, m, h1, h2, h3, h4⟩ := C71_compose_assoc cfg hmax a.num b c da db dc _ _ _ ha.1 hb hc hda hdb hb' hc' hpa hpb hpb' hdeg hdeg'
  obtain ⟨x, bc', y, k1, k2, k3, k4⟩ := C71_compose_assoc cfg hmax a.wt b c da db dc _ _ _ ha.2 hb hc hda hdb hb' hc' hpa hpb hpb' hdeg hdeg'
  cases h2.symm.trans k2
  obtain ⟨ab, e1, c1⟩ := rparts_compose hmax ha hb hda hb' hpa hpb
  have hs : (db.map fun q => da.sum * q).sum = da.sum * db.sum := by rw [List.sum_map_mul_left, List.map_id']
  obtain ⟨r, e2, c2⟩ := rparts_compose hmax c1 hc (by simpa using hdb) hc' (by simpa using hpb) (by rw [hs]; simpa [mul_assoc] using hdeg)
  refine ⟨ab, bc, r, e1, h2, e2, ?_⟩
  have e1' := e1
  unfold RSpline.compose at e1
  simp only [h1, k1, bind_ok] at e1
  obtain rfl : ab = ⟨n, x⟩ := by
    unfold RSpline.ofSplines at e1
    cases hh : assertM (RSpline.compatible (⟨n, x⟩ : RSpline K V)) with
    | error e => rw [hh] at e1; cases e1
    | ok u => rw [hh] at e1; cases e1; rfl
  rw [← e2]
  unfold RSpline.compose
  simp only [h3, h4, k3, k4]

/-- C121. Composing a product of rational splines gives the product of the compositions, as objects. -/
theorem C121_compose_mul {U X : Type} [AddCommGroup U] [Module K U] [AddCommGroup X] [Module K X] (cfg : Cfg) (hmax : cfg.maxBinom ≤ 68)
    (mul : V → U → X) (B : V →ₗ[K] U →ₗ[K] X) (hB : ∀ x y, mul x y = B x y) (a : RSpline K V) (b : RSpline K U) (c : Spline W) (da db dc : List ℕ)
    (N : List K → V) (M : List K → U) (w v : List K → K) (h : List K → W) (ha : RParts a da N w) (hb : RParts b db M v) (hc : c.Computes dc h)
    (hda : da.length = Coords.n K W) (hdb : db.length = Coords.n K W) (hcube : Spline.fitsIntoUnitCube K c = .ok true)
    (hdeg : ∀ p ∈ sumDegrees da db, p < cfg.maxBinom) (hdeg' : ∀ q ∈ dc, (da.sum + db.sum) * q < cfg.maxBinom) :
    ∃ ab ac bc r, RSpline.mulOp cfg mul a b = .ok ab ∧ RSpline.compose cfg a c = .ok ac ∧ RSpline.compose cfg b c = .ok bc ∧
      RSpline.mulOp cfg mul ac bc = .ok r ∧ RSpline.compose cfg ab c = .ok r := by
  have hl : db.length = da.length := by omega
  have hs : (sumDegrees da db).sum = da.sum + db.sum := sum_sumDegrees' hl
  have hda' := le_sumDegrees hl _ hdeg
  have hdb' := le_sumDegrees hl.symm _ (by rw [sum_comm']; exact hdeg)
  have hm : sumDegrees (dc.map fun q => da.sum * q) (dc.map fun q => db.sum * q) = dc.map fun q => (sumDegrees da db).sum * q := by
    rw [hs]
    unfold sumDegrees
    rw [List.zipWith_map, List.zipWith_self]
    simp [Nat.add_mul]
  obtain ⟨ab, e1, c1⟩ := rparts_mul hmax mul B hB ha hb hl hdeg
  obtain ⟨ac, e2, c2⟩ := rparts_compose hmax ha hc hda hcube hda' fun q hq => lt_of_le_of_lt (Nat.mul_le_mul_right _ (Nat.le_add_right ..)) (hdeg' q hq)
  obtain ⟨bc, e3, c3⟩ := rparts_compose hmax hb hc hdb hcube hdb' fun q hq => lt_of_le_of_lt (Nat.mul_le_mul_right _ (Nat.le_add_left ..)) (hdeg' q hq)
  obtain ⟨r, e4, c4⟩ := rparts_mul hmax mul B hB c2 c3 (by simp) (by rw [hm, hs]; simpa using hdeg')
  obtain ⟨q, e5, c5⟩ := rparts_compose hmax c1 hc (by simpa [sumDegrees, hl] using hda) hcube hdeg (by rw [hs]; exact hdeg')
  refine ⟨ab, ac, bc, r, e1, e2, e3, e4, ?_⟩
  rw [hm] at c4
  rw [e5, rparts_unique c4 c5 (fun t _ => rfl) fun t _ => rfl]

end

/-! ## Without shared weights -/

section
variable {K V : Type} [Field K] [CharZero K] [DecidableEq K] [AddCommGroup V] [Module K V]

theorem add_value {cfg : Cfg} (hmax : cfg.maxBinom ≤ 68) {a b : RSpline K V} {da db : List ℕ} {N M : List K → V} {w v : List K → K}
    (ha : RParts a da N w) (hb : RParts b db M v) (h : SumFits cfg da db) : ∃ r ds R u, a.addOp cfg b = .ok r ∧ RParts r ds R u ∧
      ((ds = da ∧ db = da) ∨ ds = sumDegrees da db) ∧
      ∀ t : List K, t.length = da.length → w t ≠ 0 → v t ≠ 0 → u t ≠ 0 ∧ (u t)⁻¹ • R t = (w t)⁻¹ • N t + (v t)⁻¹ • M t := by
  obtain ⟨r, h1, ⟨e, c⟩ | ⟨e, c⟩⟩ := rparts_add hmax ha hb h
  · obtain rfl : da = db := by rw [← ha.2.degrees_eq, e, hb.2.degrees_eq]
    refine ⟨r, _, _, _, h1, c, .inl ⟨rfl, rfl⟩, fun t ht hw _ => ⟨hw, ?_⟩⟩
    rw [computes_fun hb.2 (e ▸ ha.2) t ht, smul_add]
  · refine ⟨r, _, _, _, h1, c, .inr rfl, fun t _ hw hv => ⟨mul_ne_zero hw hv, ?_⟩⟩
    rw [smul_add, smul_smul, smul_smul, mul_inv]
    congr 2
    · field_simp
    · field_simp

/-- C121. Whatever the weights, both groupings of a sum of three are defined, and they evaluate to the same point wherever the three weight
functions are not zero. -/
theorem C121_add_assoc_values [ScalarDiv K V] [LawfulScalarDiv K V] (cfg : Cfg) (hmax : cfg.maxBinom ≤ 68) (a b c : RSpline K V) (da db dc : List ℕ)
    (N M L : List K → V) (w v u : List K → K) (ha : RParts a da N w) (hb : RParts b db M v) (hc : RParts c dc L u)
    (h1 : SumFits cfg da db) (h2 : SumFits cfg db dc) (h3 : SumFits cfg da dc) (h4 : SumFits cfg (sumDegrees da db) dc)
    (h5 : SumFits cfg da (sumDegrees db dc)) :
    ∃ ab bc r r', a.addOp cfg b = .ok ab ∧ b.addOp cfg c = .ok bc ∧ ab.addOp cfg c = .ok r ∧ a.addOp cfg bc = .ok r' ∧
      ∀ t : List K, t.length = da.length → w t ≠ 0 → v t ≠ 0 → u t ≠ 0 →
        r.evaluate t = .ok ((w t)⁻¹ • N t + (v t)⁻¹ • M t + (u t)⁻¹ • L t) ∧ r'.evaluate t = r.evaluate t := by
  obtain ⟨ab, d1, R1, u1, e1, c1, k1, v1⟩ := add_value hmax ha hb h1
  obtain ⟨bc, d2, R2, u2, e2, c2, k2, v2⟩ := add_value hmax hb hc h2
  have l1 : d1.length = da.length := by
    rcases k1 with ⟨rfl, -⟩ | rfl
    · rfl
    · simp [sumDegrees, h1.dims]
  have l2 : d2.length = da.length := by
    rcases k2 with ⟨rfl, -⟩ | rfl
    · exact h1.dims
    · exact h5.dims
  obtain ⟨r, d3, R3, u3, e3, c3, k3, v3⟩ := add_value hmax c1 hc (by
    rcases k1 with ⟨rfl, -⟩ | rfl
    · exact h3
    · exact h4)
  obtain ⟨r', d4, R4, u4, e4, c4, k4, v4⟩ := add_value hmax ha c2 (by
    rcases k2 with ⟨rfl, -⟩ | rfl
    · exact h1
    · exact h5)
  have l3 : d3.length = da.length := by
    rcases k3 with ⟨rfl, -⟩ | rfl
    · exact l1
    · simp [sumDegrees, l1, h3.dims]
  have l4 : d4.length = da.length := by
    rcases k4 with ⟨rfl, -⟩ | rfl
    · rfl
    · simp [sumDegrees, l2]
  refine ⟨ab, bc, r, r', e1, e2, e3, e4, fun t ht hw hv hu => ?_⟩
  have hb' := h1.dims
  obtain ⟨n1, x1⟩ := v1 t ht hw hv
  obtain ⟨n2, x2⟩ := v2 t (by omega) hv hu
  obtain ⟨n3, x3⟩ := v3 t (by omega) n1 hu
  obtain ⟨n4, x4⟩ := v4 t ht hw n2
  have ev : ∀ {q : RSpline K V} {ds : List ℕ} {Q : List K → V} {y : List K → K}, RParts q ds Q y → t.length = ds.length → y t ≠ 0 →
      q.evaluate t = .ok ((y t)⁻¹ • Q t) := fun hq hl hy => by
    unfold RSpline.evaluate
    simp only [hq.1.eval t hl, hq.2.eval t hl, bind_ok]
    exact RSpline.divM_ok _ hy
  rw [ev c3 (by omega) n3, ev c4 (by omega) n4, x3, x4, x1, x2, add_assoc]
  exact ⟨rfl, rfl⟩

end

/-- C121. The objects may differ: with `a` and `b` of the same weights and `c` of other weights, `(a + b) + c` has degree 2 and `a + (b + c)` has
degree 3. -/
theorem C121_add_assoc_fails : ∃ (a b c ab bc r r' : RSpline ℚ ℚ), a.addOp Ex.cfg b = .ok ab ∧ b.addOp Ex.cfg c = .ok bc ∧
    ab.addOp Ex.cfg c = .ok r ∧ a.addOp Ex.cfg bc = .ok r' ∧ r.num.degrees = [2] ∧ r'.num.degrees = [3] := by
  refine ⟨⟨Ex.line 1 3, Ex.line 1 2⟩, ⟨Ex.line 0 5, Ex.line 1 2⟩, ⟨Ex.line 2 7, Ex.line 3 1⟩, ⟨Ex.line 1 8, Ex.line 1 2⟩,
    ⟨Ex.curve 2 13 19, Ex.curve 3 (7 / 2) 2⟩, ⟨Ex.curve 5 18 22, Ex.curve 3 (7 / 2) 2⟩,
    ⟨⟨[3], 4, [1], [5, 46 / 3, 94 / 3, 44]⟩, ⟨[3], 4, [1], [3, 13 / 3, 16 / 3, 4]⟩⟩, ?_⟩
  decide +kernel

/-! ## The hypotheses are met -/

section
variable (x y z x' y' z' : ℚ)

theorem exCurveR : RParts (⟨Ex.curve x y z, Ex.curve x' y' z'⟩ : RSpline ℚ ℚ) [2] (fun t => (Ex.curve x y z).value t) (fun t => (Ex.curve x' y' z').value t) :=
  rparts_of (Ex.curve_wf ..) (Ex.curve_wf ..) rfl

theorem exLineR : RParts (⟨Ex.line x y, Ex.line x' y'⟩ : RSpline ℚ ℚ) [1] (fun t => (Ex.line x y).value t) (fun t => (Ex.line x' y').value t) :=
  rparts_of (Ex.line_wf ..) (Ex.line_wf ..) rfl

theorem exSurfR : RParts (⟨Ex.surf x y z x' y' z', Ex.surf 1 2 3 4 5 6⟩ : RSpline ℚ ℚ) [2, 1]
    (fun t => (Ex.surf x y z x' y' z').value t) (fun t => (Ex.surf (1 : ℚ) 2 3 4 5 6).value t) :=
  rparts_of (Ex.surf_wf ..) (Ex.surf_wf ..) rfl
end

/-- a curve and a straight line with different weights -/
example := C121_add_comm Ex.cfg Ex.cfg_ok _ _ _ _ _ _ _ _ (exCurveR 0 3 1 1 2 3) (exLineR 4 1 3 2) ⟨rfl, by decide, by decide, by decide, by decide⟩
/-- surfaces with the same weights -/
example := C121_add_assoc Ex.cfg Ex.cfg_ok _ _ _ _ _ _ _ _ (exSurfR 0 1 4 5 7 9) (exSurfR 2 2 3 0 1 8) (exSurfR 3 1 0 6 2 5)
  ⟨rfl, by decide, by decide, by decide, by decide⟩
example := C121_add_assoc_values Ex.cfg Ex.cfg_ok _ _ _ _ _ _ _ _ _ _ _ _ (exCurveR 0 3 1 1 2 3) (exLineR 4 1 3 2) (exLineR 5 2 1 4)
  ⟨rfl, by decide, by decide, by decide, by decide⟩ ⟨rfl, by decide, by decide, by decide, by decide⟩ ⟨rfl, by decide, by decide, by decide, by decide⟩
  ⟨rfl, by decide, by decide, by decide, by decide⟩ ⟨rfl, by decide, by decide, by decide, by decide⟩
example := C121_sub_neg Ex.cfg Ex.cfg_ok _ _ _ _ _ _ _ _ (exLineR 4 1 3 2) (exCurveR 0 3 1 1 2 3) ⟨rfl, by decide, by decide, by decide, by decide⟩
example := C121_scale_add Ex.cfg Ex.cfg_ok _ _ _ _ _ _ _ _ (exLineR 4 1 3 2) (exCurveR 0 3 1 1 2 3) ⟨rfl, by decide, by decide, by decide, by decide⟩ (-2)
example := C121_shift_shift _ _ _ _ (exSurfR 0 1 4 5 7 9) 3 (-5)
example := C121_shift_add Ex.cfg Ex.cfg_ok _ _ _ _ _ _ _ _ (exLineR 4 1 3 2) (exCurveR 0 3 1 1 2 3) ⟨rfl, by decide, by decide, by decide, by decide⟩ 7
example := C121_mul_comm Ex.cfg Ex.cfg_ok (· * ·) (· * ·) (LinearMap.mul ℚ ℚ) (fun _ _ => rfl) (fun _ _ => mul_comm _ _) _ _ _ _ _ _ _ _
  (exLineR 4 1 3 2) (exCurveR 0 3 1 1 2 3) rfl (by decide)
example := C121_mul_assoc Ex.cfg Ex.cfg_ok _ _ _ _ _ _ _ _ _ _ _ _ (exLineR 4 1 3 2) (exCurveR 0 3 1 1 2 3) (exLineR 5 2 1 4) rfl rfl
  (by decide) (by decide) (by decide)
example := C121_distrib Ex.cfg Ex.cfg_ok (· * ·) (LinearMap.mul ℚ ℚ) (fun _ _ => rfl) _ _ _ _ _ _ _ _ _ _ (exLineR 4 1 3 2)
  (exCurveR 0 3 1 1 2 3) (exCurveR 8 2 5 1 2 3) ⟨rfl, by decide, by decide, by decide, by decide⟩ rfl ⟨rfl, by decide, by decide, by decide, by decide⟩
example := C121_elevate_elevate _ _ _ _ (exSurfR 0 1 4 5 7 9) 0 1 2 1 (by decide) rfl rfl (by decide)
example := C121_split_add Ex.cfg Ex.cfg_ok _ _ _ _ _ _ _ _ (exLineR 4 1 3 2) (exCurveR 0 3 1 1 2 3) ⟨rfl, by decide, by decide, by decide, by decide⟩
  0 (by decide) (1 / 3) (by norm_num) (by norm_num)
example := C121_split_mul Ex.cfg Ex.cfg_ok (· * ·) (LinearMap.mul ℚ ℚ) (fun _ _ => rfl) _ _ _ _ _ _ _ _ (exLineR 4 1 3 2) (exCurveR 0 3 1 1 2 3)
  rfl (by decide) 0 (by decide) (1 / 3) (by norm_num) (by norm_num)
example := C121_elevate_split _ _ _ _ (exSurfR 0 1 4 5 7 9) 0 1 2 rfl (by decide) (by decide) (1 / 3) (by norm_num) (by norm_num)
/-- a rational curve composed with a surface inside the unit interval -/
example := C121_split_compose Ex.cfg Ex.cfg_ok _ _ _ _ _ _ _ (exCurveR 0 3 1 1 2 3) (Ex.surf_wf (0 : ℚ) 1 (1 / 2) 0 (1 / 3) 1).computes rfl
  (by decide +kernel) (by decide) (by decide) 1 (by decide) (1 / 3) (by norm_num) (by norm_num)
example := C121_compose_assoc Ex.cfg Ex.cfg_ok _ _ _ _ _ _ _ _ _ _ (exCurveR 0 3 1 1 2 3) (Ex.curve_wf (0 : ℚ) 1 (1 / 2)).computes
  (Ex.surf_wf (0 : ℚ) 1 (1 / 2) 0 (1 / 3) 1).computes rfl rfl (by decide +kernel) (by decide +kernel) (by decide) (by decide) (by decide) (by decide)
  (by decide)
example := C121_compose_mul Ex.cfg Ex.cfg_ok (· * ·) (LinearMap.mul ℚ ℚ) (fun _ _ => rfl) _ _ _ _ _ _ _ _ _ _ _ (exCurveR 0 3 1 1 2 3)
  (exLineR 4 1 3 2) (Ex.surf_wf (0 : ℚ) 1 (1 / 2) 0 (1 / 3) 1).computes rfl rfl (by decide +kernel) (by decide) (by decide)

end Bezman.Props
