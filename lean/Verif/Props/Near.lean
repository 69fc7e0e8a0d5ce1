import Verif.Spec.Near
import Verif.Props.RConverge
import Verif.Props.HullArith

/-! # Properties: small changes of control points are small changes of the geometry -/

namespace Bezman.Props
open Spec Finset
variable {K V : Type} [Field K] [LinearOrder K] [IsStrictOrderedRing K] [AddCommGroup V] [Module K V] {N : V → K}

/-- pairs of points with at most the distance `ε` -/
theorem near_convex (hN : IsLength N) (ε : K) : Convex K {p : V × V | N (p.1 - p.2) ≤ ε} := by
  rintro ⟨X, X'⟩ h1 ⟨Y, Y'⟩ h2 a b ha hb hab
  show N ((a • X + b • Y) - (a • X' + b • Y')) ≤ ε
  have e : (a • X + b • Y) - (a • X' + b • Y') = a • (X - X') + b • (Y - Y') := by
    rw [smul_sub, smul_sub]; abel
  rw [e]
  refine (hN.add_le _ _).trans ?_
  rw [hN.smul, hN.smul, abs_of_nonneg ha, abs_of_nonneg hb]
  have h1' : N (X - X') ≤ ε := h1
  have h2' : N (Y - Y') ≤ ε := h2
  have := add_le_add (mul_le_mul_of_nonneg_left h1' ha) (mul_le_mul_of_nonneg_left h2' hb)
  rwa [← add_mul, hab, one_mul] at this

theorem near_pair {Z : Spline (V × V)} (hZ : Z.WF) {ε : K} :
    Near N ε (Z.map Prod.fst) (Z.map Prod.snd) ↔ ∀ p ∈ Z.cps, p ∈ {p : V × V | N (p.1 - p.2) ≤ ε} := by
  constructor
  · rintro ⟨_, h⟩ p hp
    obtain ⟨idx, hv, e⟩ := hZ.index_of_mem hp
    exact h idx p.1 p.2 hv (by rw [controlPoint_map, e]; rfl) (by rw [controlPoint_map, e]; rfl)
  · intro h
    refine ⟨rfl, fun idx x x' hv hx hx' => ?_⟩
    rw [controlPoint_map] at hx hx'
    cases e : Z.controlPoint idx with
    | error y => rw [e] at hx; cases hx
    | ok p =>
      rw [e] at hx hx'
      obtain rfl := Except.ok.inj hx
      obtain rfl := Except.ok.inj hx'
      exact h p (mem_of_controlPoint e)

theorem linearOn_fst' {U : Type} [AddCommGroup U] [Module K U] : LinearOn K (Prod.fst : V × U → V) :=
  ⟨rfl, fun _ _ => rfl, fun _ _ => rfl, fun _ => rfl, fun _ _ => rfl⟩
theorem linearOn_snd' {U : Type} [AddCommGroup U] [Module K U] : LinearOn K (Prod.snd : V × U → U) :=
  ⟨rfl, fun _ _ => rfl, fun _ _ => rfl, fun _ => rfl, fun _ _ => rfl⟩

/-- the same operations on two splines are the operations on the spline of pairs -/
theorem sameParts_pair {Z : Spline (V × V)} {box : List (K × K)} {a a' : Spline V}
    (h : SameParts (Z.map Prod.fst) (Z.map Prod.snd) box a a') : ∃ A, a = A.map Prod.fst ∧ a' = A.map Prod.snd ∧ PartOf Z box A := by
  induction h with
  | whole => exact ⟨Z, rfl, rfl, .whole⟩
  | @left box a a' l r l' r' d z h hd e e' ih =>
    obtain ⟨A, rfl, rfl, hA⟩ := ih
    rw [(C84_linear_split_compose ⟨0, 0⟩ linearOn_fst' A).1] at e
    rw [(C84_linear_split_compose ⟨0, 0⟩ linearOn_snd' A).1] at e'
    cases eA : A.splitAt z d with
    | error x => rw [eA] at e; cases e
    | ok q =>
      rw [eA] at e e'
      obtain ⟨rfl, rfl⟩ := Prod.mk.inj (Except.ok.inj e)
      obtain ⟨rfl, rfl⟩ := Prod.mk.inj (Except.ok.inj e')
      exact ⟨q.1, rfl, rfl, .left hA hd eA⟩
  | @right box a a' l r l' r' d z h hd e e' ih =>
    obtain ⟨A, rfl, rfl, hA⟩ := ih
    rw [(C84_linear_split_compose ⟨0, 0⟩ linearOn_fst' A).1] at e
    rw [(C84_linear_split_compose ⟨0, 0⟩ linearOn_snd' A).1] at e'
    cases eA : A.splitAt z d with
    | error x => rw [eA] at e; cases e
    | ok q =>
      rw [eA] at e e'
      obtain ⟨rfl, rfl⟩ := Prod.mk.inj (Except.ok.inj e)
      obtain ⟨rfl, rfl⟩ := Prod.mk.inj (Except.ok.inj e')
      exact ⟨q.2, rfl, rfl, .right hA hd eA⟩
  | @many box a a' l l' d r r' zs i u v h hd e e' hi hi' hu hv ih =>
    obtain ⟨A, rfl, rfl, hA⟩ := ih
    rw [(C84_linear_split_compose ⟨0, 0⟩ linearOn_fst' A).2.1] at e
    rw [(C84_linear_split_compose ⟨0, 0⟩ linearOn_snd' A).2.1] at e'
    cases eA : A.splitAtMany zs d with
    | error x => rw [eA] at e; cases e
    | ok m =>
      rw [eA] at e e'
      obtain rfl := Except.ok.inj e
      obtain rfl := Except.ok.inj e'
      rw [List.getElem?_map] at hi hi'
      obtain ⟨B, hB, rfl⟩ := Option.map_eq_some_iff.mp hi
      rw [hB] at hi'
      obtain rfl := Option.some.inj hi'
      exact ⟨B, rfl, rfl, .many hA hd eA hB hu hv⟩
  | @elevate box a a' d r r' h hd e e' hsz ih =>
    obtain ⟨A, rfl, rfl, hA⟩ := ih
    rw [(C84_linear_operations ⟨0, 0⟩ linearOn_fst' A A).2.2.2.2.2.2.2.2.2.1] at e
    rw [(C84_linear_operations ⟨0, 0⟩ linearOn_snd' A A).2.2.2.2.2.2.2.2.2.1] at e'
    cases eA : Spline.orderElevate K A d with
    | error x => rw [eA] at e; cases e
    | ok m =>
      rw [eA] at e e'
      obtain rfl := Except.ok.inj e
      obtain rfl := Except.ok.inj e'
      exact ⟨m, rfl, rfl, .elevate hA hd eA hsz⟩

/-- C111. If the control points of two splines have at most the distance `ε`, so have their values on the unit cube. -/
theorem C111_evaluate (hN : IsLength N) (s s' : Spline V) (hs : s.WF) (hs' : s'.WF) (ε : K) (h : Near N ε s s') (t : List K)
    (ht : t.length = s.dim) (h01 : InCube t) : ∃ y y', s.evaluate t = .ok y ∧ s'.evaluate t = .ok y' ∧ N (y - y') ≤ ε := by
  obtain ⟨Z, rfl, rfl, hZ⟩ := exists_pair hs hs' h.1
  obtain ⟨q, e, hq⟩ := C73_evaluate Z hZ _ (near_convex hN ε) ((near_pair hZ).mp h) t ht h01
  refine ⟨q.1, q.2, ?_, ?_, hq⟩
  · rw [(C84_linear_evaluate ⟨0, 0⟩ linearOn_fst' Z t []).1, e]; rfl
  · rw [(C84_linear_evaluate ⟨0, 0⟩ linearOn_snd' Z t []).1, e]; rfl

/-- C111. Whatever splits and elevations are applied to both splines: the control points of the parts have at most the distance `ε`. -/
theorem C111_history (hN : IsLength N) (s s' : Spline V) (hs : s.WF) (hs' : s'.WF) (ε : K) (h : Near N ε s s') (box : List (K × K))
    (a a' : Spline V) (hp : SameParts s s' box a a') : Near N ε a a' := by
  obtain ⟨Z, rfl, rfl, hZ⟩ := exists_pair hs hs' h.1
  obtain ⟨A, rfl, rfl, hA⟩ := sameParts_pair hp
  exact (near_pair (C100_part Z _ (hZ.computes (K := K)) box A hA).2.2.2.wf).mpr (part_hull hZ (near_convex hN ε) ((near_pair hZ).mp h) hA)

/-- C111. Whatever can be done to the one spline can be done to the other. -/
theorem C111_same (s s' : Spline V) (hs : s.WF) (hs' : s'.WF) (hd : s'.degrees = s.degrees) (box : List (K × K)) (a : Spline V)
    (h : PartOf s box a) : ∃ a', SameParts s s' box a a' ∧ PartOf s' box a' := by
  obtain ⟨Z, rfl, rfl, hZ⟩ := exists_pair hs hs' hd
  suffices ∃ A : Spline (V × V), a = A.map Prod.fst ∧ SameParts (Z.map Prod.fst) (Z.map Prod.snd) box (A.map Prod.fst) (A.map Prod.snd) ∧
      PartOf (Z.map Prod.snd) box (A.map Prod.snd) by
    obtain ⟨A, rfl, h1, h2⟩ := this
    exact ⟨_, h1, h2⟩
  clear hs hs' hd
  induction h with
  | whole => exact ⟨Z, rfl, .whole, .whole⟩
  | @left box a l r d z h hd e ih =>
    obtain ⟨A, rfl, h1, h2⟩ := ih
    have e0 := e
    rw [(C84_linear_split_compose ⟨0, 0⟩ linearOn_fst' A).1] at e
    have e' := (C84_linear_split_compose ⟨0, 0⟩ linearOn_snd' A).1 z d
    cases eA : A.splitAt z d with
    | error x => rw [eA] at e; cases e
    | ok q =>
      rw [eA] at e e'
      obtain ⟨rfl, rfl⟩ := Prod.mk.inj (Except.ok.inj e)
      exact ⟨q.1, rfl, .left h1 hd e0 e', .left h2 hd e'⟩
  | @right box a l r d z h hd e ih =>
    obtain ⟨A, rfl, h1, h2⟩ := ih
    have e0 := e
    rw [(C84_linear_split_compose ⟨0, 0⟩ linearOn_fst' A).1] at e
    have e' := (C84_linear_split_compose ⟨0, 0⟩ linearOn_snd' A).1 z d
    cases eA : A.splitAt z d with
    | error x => rw [eA] at e; cases e
    | ok q =>
      rw [eA] at e e'
      obtain ⟨rfl, rfl⟩ := Prod.mk.inj (Except.ok.inj e)
      exact ⟨q.2, rfl, .right h1 hd e0 e', .right h2 hd e'⟩
  | @many box a l d r zs i u v h hd e hi hu hv ih =>
    obtain ⟨A, rfl, h1, h2⟩ := ih
    have e0 := e
    rw [(C84_linear_split_compose ⟨0, 0⟩ linearOn_fst' A).2.1] at e
    have e' := (C84_linear_split_compose ⟨0, 0⟩ linearOn_snd' A).2.1 zs d
    cases eA : A.splitAtMany zs d with
    | error x => rw [eA] at e; cases e
    | ok m =>
      rw [eA] at e e'
      obtain rfl := Except.ok.inj e
      have hi0 := hi
      rw [List.getElem?_map] at hi
      obtain ⟨B, hB, rfl⟩ := Option.map_eq_some_iff.mp hi
      have hi' : (m.map (Spline.map Prod.snd))[i]? = some (B.map Prod.snd) := by rw [List.getElem?_map, hB]; rfl
      exact ⟨B, rfl, .many h1 hd e0 e' hi0 hi' hu hv, .many h2 hd e' hi' hu hv⟩
  | @elevate box a d r h hd e hsz ih =>
    obtain ⟨A, rfl, h1, h2⟩ := ih
    have e0 := e
    rw [(C84_linear_operations ⟨0, 0⟩ linearOn_fst' A A).2.2.2.2.2.2.2.2.2.1] at e
    have e' := (C84_linear_operations (K := K) ⟨0, 0⟩ linearOn_snd' A A).2.2.2.2.2.2.2.2.2.1 d
    cases eA : Spline.orderElevate K A d with
    | error x => rw [eA] at e; cases e
    | ok m =>
      rw [eA] at e e'
      obtain rfl := Except.ok.inj e
      exact ⟨m, rfl, .elevate h1 hd e0 e' hsz, .elevate h2 hd e' hsz⟩

section derivative

theorem abs_signOf (j : ℕ) : |signOf K j| = 1 := by
  unfold signOf
  split <;> simp

omit [LinearOrder K] [IsStrictOrderedRing K] in
theorem fallingOf_succ (p : ℕ) : ∀ o, fallingOf K p (o + 1) = (p.descFactorial (o + 1) : K)
  | 0 => by simp [fallingOf, repeatFrom, Nat.descFactorial]
  | o + 1 => by
    have ih := fallingOf_succ p o
    unfold fallingOf at ih ⊢
    simp only [Nat.add_sub_cancel] at ih ⊢
    rw [repeatFrom, ih, Nat.descFactorial_succ p (o + 1), add_comm 1 o]
    push_cast
    ring

theorem differenceOf_le (hN : IsLength N) {P : ℕ → V} {B : K} (hP : ∀ i, N (P i) ≤ B) (o m : ℕ) : N (differenceOf K o P m) ≤ 2 ^ o * B := by
  have key : ∀ n, N (repeatFrom 1 (fun j (x : V) => x + (signOf K j * ((o.choose j : ℕ) : K)) • P (m + j)) (P m) n) ≤
      (∑ j ∈ range (n + 1), ((o.choose j : ℕ) : K)) * B := by
    intro n
    induction n with
    | zero => simpa [repeatFrom] using hP m
    | succ n ih =>
      rw [repeatFrom, Finset.sum_range_succ, add_mul]
      refine (hN.add_le _ _).trans (add_le_add ih ?_)
      rw [hN.smul, abs_mul, abs_signOf, one_mul, abs_of_nonneg (Nat.cast_nonneg _), add_comm 1 n]
      exact mul_le_mul_of_nonneg_left (hP _) (Nat.cast_nonneg _)
  refine (key o).trans (le_of_eq ?_)
  have := Nat.sum_range_choose o
  rw [← Nat.cast_sum, this]
  push_cast
  rfl

theorem derivNet_le (hN : IsLength N) {ps os : List ℕ} {P : List ℕ → V} {B : K} (hP : ∀ i, N (P i) ≤ B) :
    ∀ k idx, N (derivNet K ps os P k idx) ≤ (∏ d ∈ range k, (((ps.getD d 0).descFactorial (os.getD d 0) : ℕ) : K) * 2 ^ (os.getD d 0)) * B
  | 0, idx => by simpa [derivNet] using hP idx
  | k + 1, idx => by
    rw [derivNet, Finset.prod_range_succ]
    by_cases h : os.getD k 0 = 0
    · rw [if_pos h, h]
      simpa using derivNet_le hN hP k idx
    · rw [if_neg h]
      obtain ⟨o, ho⟩ := Nat.exists_eq_succ_of_ne_zero h
      rw [ho, derivOf, hN.smul, abs_mul, abs_signOf, one_mul, Nat.succ_eq_add_one, fallingOf_succ, abs_of_nonneg (Nat.cast_nonneg _)]
      have := differenceOf_le hN (fun m => derivNet_le (ps := ps) (os := os) hN hP k (idx.set k m)) (o + 1) (idx.getD k 0)
      refine (mul_le_mul_of_nonneg_left this (Nat.cast_nonneg _)).trans (le_of_eq ?_)
      ring

/-- C111. Derivatives enlarge the distances by at most the falling factorials of the degrees times powers of two. -/
theorem C111_derivative (hN : IsLength N) (cfg : Cfg) (hc : cfg.Ok) (s s' : Spline V) (hs : s.WF) (hs' : s'.WF) (ε : K) (h : Near N ε s s')
    (orders : List ℕ) (hl : orders.length = s.dim) (hle : ∀ (d o p : ℕ), orders[d]? = some o → s.degrees[d]? = some p → o ≤ p)
    (hmax : ∀ o ∈ orders, o < cfg.maxBinom) (hsz : size s.degrees < 2 ^ 64) :
    ∃ r r', Spline.derivativeSpline K cfg s orders = .ok r ∧ Spline.derivativeSpline K cfg s' orders = .ok r' ∧
      Near N ((∏ d ∈ range s.dim, (((s.degrees.getD d 0).descFactorial (orders.getD d 0) : ℕ) : K) * 2 ^ (orders.getD d 0)) * ε) r r' := by
  classical
  obtain ⟨Z, rfl, rfl, hZ⟩ := exists_pair hs hs' h.1
  obtain ⟨r, e, hr, _⟩ := C90_derivative (K := K) cfg hc Z hZ orders hl hle hmax hsz _ (hasPoints_cp hZ)
  have e1 := (C84_linear_operations (K := K) cfg linearOn_fst' Z Z).2.2.2.2.2.2.2.2.2.2 orders
  have e2 := (C84_linear_operations (K := K) cfg linearOn_snd' Z Z).2.2.2.2.2.2.2.2.2.2 orders
  rw [e] at e1 e2
  refine ⟨_, _, e1, e2, rfl, fun idx x x' hv hx hx' => ?_⟩
  rw [controlPoint_map] at hx hx'
  cases ec : r.controlPoint idx with
  | error y => rw [ec] at hx; cases hx
  | ok q =>
    rw [ec] at hx hx'
    obtain rfl := Except.ok.inj hx
    obtain rfl := Except.ok.inj hx'
    -- the derivative of the spline of the differences
    let sub : V × V → V := fun p => p.1 - p.2
    have hsub : LinearOn K sub :=
      ⟨by simp [sub], fun a b => by simp only [sub, Prod.fst_add, Prod.snd_add]; abel, fun a b => by simp only [sub, Prod.fst_sub, Prod.snd_sub]; abel,
        fun a => by simp only [sub, Prod.fst_neg, Prod.snd_neg]; abel, fun c a => by simp only [sub, Prod.smul_fst, Prod.smul_snd, smul_sub]⟩
    have e3 := (C84_linear_operations (K := K) cfg hsub Z Z).2.2.2.2.2.2.2.2.2.2 orders
    rw [e] at e3
    have hD : (Z.map sub).WF := Spline.wf_map hZ sub
    have hε : 0 ≤ ε := by
      obtain ⟨x, hx⟩ : ∃ x, x ∈ Z.cps := by
        have := hZ.4
        have h0 : 0 < size Z.degrees := size_pos _
        rw [← hZ.4] at h0
        exact List.exists_mem_of_length_pos h0
      exact (hN.nonneg _).trans ((near_pair hZ).mp h x hx)
    have hP : HasPoints (Z.map sub) (fun idx => if ValidIdx Z.degrees idx then (Z.map sub).cp idx else 0) := by
      intro idx hv
      rw [hasPoints_cp hD idx hv]
      have : ValidIdx Z.degrees idx := hv
      simp only [this, if_true]
    have hb : ∀ idx, N (if ValidIdx Z.degrees idx then (Z.map sub).cp idx else 0) ≤ ε := by
      intro idx
      split
      · next hv =>
        have e4 := hasPoints_cp hD idx hv
        rw [controlPoint_map] at e4
        cases e5 : Z.controlPoint idx with
        | error y => rw [e5] at e4; cases e4
        | ok p =>
          rw [e5] at e4
          rw [← Except.ok.inj e4]
          exact (near_pair hZ).mp h p (mem_of_controlPoint e5)
      · have := hN.smul 0 (0 : V)
        rw [zero_smul, abs_zero, zero_mul] at this
        rw [this]; exact hε
    obtain ⟨r'', e6, _, hr''⟩ := C90_derivative (K := K) cfg hc (Z.map sub) hD orders hl hle hmax hsz _ hP
    rw [e3] at e6
    obtain rfl := Except.ok.inj e6
    have e7 := hr'' idx hv
    rw [controlPoint_map, ec] at e7
    have e8 : q.1 - q.2 = _ := Except.ok.inj e7
    rw [e8]
    exact derivNet_le hN hb _ _

end derivative

section compose
variable {W : Type} [AddCommGroup W] [Module K W] [Coords K W] [LawfulCoords K W]

/-- C111. Composition, changes of the outer spline: the control points of the compositions have at most the distance `ε`. -/
theorem C111_compose_outer (hN : IsLength N) (cfg : Cfg) (hmax : cfg.maxBinom ≤ 68) (outer outer' : Spline V) (inner : Spline W) (ho : outer.WF)
    (ho' : outer'.WF) (hi : inner.WF) (hdim : outer.dim = Coords.n K W) (hcube : Spline.fitsIntoUnitCube K inner = .ok true)
    (hdeg : ∀ p ∈ outer.degrees, p < cfg.maxBinom) (hdeg' : ∀ q ∈ inner.degrees, outer.degrees.sum * q < cfg.maxBinom) (ε : K)
    (h : Near N ε outer outer') :
    ∃ r r', Spline.compose K cfg outer inner = .ok r ∧ Spline.compose K cfg outer' inner = .ok r' ∧ Near N ε r r' := by
  obtain ⟨Z, rfl, rfl, hZ⟩ := exists_pair ho ho' h.1
  obtain ⟨q, e, hq⟩ := C73_compose cfg hmax Z inner hZ hi hdim hcube hdeg hdeg' _ (near_convex hN ε) ((near_pair hZ).mp h)
  obtain ⟨q', e', cq⟩ := C26_compose cfg hmax Z inner _ _ _ _ (hZ.computes (K := K)) (hi.computes (K := K)) hdim hcube hdeg hdeg'
  obtain rfl := Except.ok.inj (e.symm.trans e')
  refine ⟨_, _, ?_, ?_, (near_pair cq.wf).mpr hq⟩
  · rw [(C84_linear_split_compose cfg linearOn_fst' Z).2.2, e]; rfl
  · rw [(C84_linear_split_compose cfg linearOn_snd' Z).2.2, e]; rfl

/-- one coordinate of a point, without its sign -/
theorem coords_length (j : Fin (Coords.n K W)) : IsLength (fun x : W => |(Coords.coord x j : K)|) :=
  ⟨fun x y => by rw [LawfulCoords.coord_add]; exact abs_add_le _ _, fun c x => by rw [LawfulCoords.coord_smul, abs_mul]⟩

omit [LinearOrder K] [IsStrictOrderedRing K] in
theorem coords_sub (x y : W) (j : Fin (Coords.n K W)) : (Coords.coord (x - y) j : K) = Coords.coord x j - Coords.coord y j := by
  have := LawfulCoords.coord_add (K := K) (x - y) y j
  rw [sub_add_cancel] at this
  rw [this, add_sub_cancel_right]

omit [LinearOrder K] [IsStrictOrderedRing K] [Field K] [AddCommGroup W] [Module K W] [LawfulCoords K W] in
theorem coordList_getD [Zero K] (x : W) (d : ℕ) (hd : d < Coords.n K W) : (coordList K x).getD d 0 = Coords.coord x ⟨d, hd⟩ := by
  simp [coordList, hd]

/-- C111. Composition, changes of the inner spline: the values change by at most the sum over the coordinates of the change of the coordinate times
the steps `L` between the control points of the outer spline. -/
theorem C111_compose_inner (hN : IsLength N) (cfg : Cfg) (hmax : cfg.maxBinom ≤ 68) (outer : Spline V) (inner inner' : Spline W) (ho : outer.WF)
    (hi : inner.WF) (hi' : inner'.WF) (hdim : outer.dim = Coords.n K W) (hcube : Spline.fitsIntoUnitCube K inner = .ok true)
    (hcube' : Spline.fitsIntoUnitCube K inner' = .ok true) (hdeg : ∀ p ∈ outer.degrees, p < cfg.maxBinom)
    (hdeg' : ∀ q ∈ inner.degrees, outer.degrees.sum * q < cfg.maxBinom) (L : ℕ → K)
    (hL : ∀ d < outer.degrees.length, 0 ≤ L d ∧ StepBound N outer d (L d)) (ε : ℕ → K) (hd : inner'.degrees = inner.degrees)
    (h : ∀ j : Fin (Coords.n K W), Near (fun x : W => |(Coords.coord x j : K)|) (ε j) inner inner')
    (t : List K) (ht : t.length = inner.dim) (h01 : InCube t) :
    ∃ r r' y y', Spline.compose K cfg outer inner = .ok r ∧ Spline.compose K cfg outer inner' = .ok r' ∧
      r.evaluate t = .ok y ∧ r'.evaluate t = .ok y' ∧ N (y - y') ≤ ∑ d ∈ range outer.degrees.length, L d * ε d := by
  obtain ⟨r, e, cr⟩ := C26_compose cfg hmax outer inner _ _ _ _ (ho.computes (K := K)) (hi.computes (K := K)) hdim hcube hdeg hdeg'
  obtain ⟨r', e', cr'⟩ := C26_compose cfg hmax outer inner' _ _ _ _ (ho.computes (K := K)) (hi'.computes (K := K)) hdim hcube' hdeg
    (by rw [hd]; exact hdeg')
  have cube : ∀ {q : Spline W}, q.WF → q.degrees = inner.degrees → Spline.fitsIntoUnitCube K q = .ok true → InCube (coordList K (q.value t)) := by
    intro q hq hqd hc
    obtain ⟨b, f1, f2⟩ := Spline.fitsIntoUnitCube_ok (K := K) hq
    rw [hc] at f1
    obtain ⟨v, ev, hv⟩ := C73_evaluate q hq _ (convex_cube (K := K)) (f2.mp (Except.ok.inj f1).symm) t (by unfold Spline.dim; rw [hqd]; exact ht) h01
    have : q.value t = v := Except.ok.inj (((hq.computes (K := K)).eval t (by rw [hqd]; exact ht)).symm.trans ev)
    rw [this]
    intro c hc
    simp only [coordList, List.mem_map, List.mem_finRange, true_and] at hc
    obtain ⟨j, rfl⟩ := hc
    exact hv j
  obtain ⟨y, y', ey, ey', hy⟩ := C100_lipschitz hN outer ho L hL (coordList K (inner.value t)) (coordList K (inner'.value t))
    (by rw [coordList_length]; exact hdim.symm) (by rw [coordList_length]; exact hdim.symm) (cube hi rfl hcube) (cube hi' hd hcube')
  refine ⟨r, r', y, y', e, e', ?_, ?_, hy.trans (Finset.sum_le_sum fun d hd' => mul_le_mul_of_nonneg_left ?_ (hL d (Finset.mem_range.mp hd')).1)⟩
  · rw [cr.eval t (by rw [List.length_map]; exact ht), ← ey]
    exact ((ho.computes (K := K)).eval _ (by rw [coordList_length]; exact hdim.symm)).symm
  · rw [cr'.eval t (by rw [List.length_map, hd]; exact ht), ← ey']
    exact ((ho.computes (K := K)).eval _ (by rw [coordList_length]; exact hdim.symm)).symm
  · have hdn : d < Coords.n K W := by rw [← hdim]; exact Finset.mem_range.mp hd'
    obtain ⟨z, z', ez, ez', hz⟩ := C111_evaluate (coords_length ⟨d, hdn⟩) inner inner' hi hi' _ (h ⟨d, hdn⟩) t ht h01
    have e1 : inner.value t = z := Except.ok.inj (((hi.computes (K := K)).eval t ht).symm.trans ez)
    have e2 : inner'.value t = z' := Except.ok.inj (((hi'.computes (K := K)).eval t (by rw [hd]; exact ht)).symm.trans ez')
    rw [coordList_getD _ _ hdn, coordList_getD _ _ hdn, e1, e2, ← coords_sub]
    exact hz

end compose

section rational
variable [ScalarDiv K V] [LawfulScalarDiv K V]

theorem sameRParts_hom {H H' : Spline (V × K)} {box : List (K × K)} {a a' : RSpline K V}
    (h : SameRParts (RSpline.ofHom H) (RSpline.ofHom H') box a a') :
    ∃ A A', a = RSpline.ofHom A ∧ a' = RSpline.ofHom A' ∧ SameParts H H' box A A' := by
  induction h with
  | whole => exact ⟨H, H', rfl, rfl, .whole⟩
  | @left box a a' b c b' c' d z h hd e e1 ih =>
    obtain ⟨A, A', rfl, rfl, hA⟩ := ih
    rw [RSpline.splitAt_hom] at e e1
    cases e' : A.splitAt z d with
    | error x => rw [e'] at e; cases e
    | ok l =>
      cases e1' : A'.splitAt z d with
      | error x => rw [e1'] at e1; cases e1
      | ok l' =>
        rw [e'] at e
        rw [e1'] at e1
        obtain ⟨rfl, rfl⟩ := Prod.mk.inj (Except.ok.inj e)
        obtain ⟨rfl, rfl⟩ := Prod.mk.inj (Except.ok.inj e1)
        exact ⟨l.1, l'.1, rfl, rfl, .left hA hd e' e1'⟩
  | @right box a a' b c b' c' d z h hd e e1 ih =>
    obtain ⟨A, A', rfl, rfl, hA⟩ := ih
    rw [RSpline.splitAt_hom] at e e1
    cases e' : A.splitAt z d with
    | error x => rw [e'] at e; cases e
    | ok l =>
      cases e1' : A'.splitAt z d with
      | error x => rw [e1'] at e1; cases e1
      | ok l' =>
        rw [e'] at e
        rw [e1'] at e1
        obtain ⟨rfl, rfl⟩ := Prod.mk.inj (Except.ok.inj e)
        obtain ⟨rfl, rfl⟩ := Prod.mk.inj (Except.ok.inj e1)
        exact ⟨l.2, l'.2, rfl, rfl, .right hA hd e' e1'⟩
  | @many box a a' l l' d b b' zs i u v h hd e e1 hi hi' hu hv ih =>
    obtain ⟨A, A', rfl, rfl, hA⟩ := ih
    rw [RSpline.splitAtMany_hom] at e e1
    cases e' : A.splitAtMany zs d with
    | error x => rw [e'] at e; cases e
    | ok m =>
      cases e1' : A'.splitAtMany zs d with
      | error x => rw [e1'] at e1; cases e1
      | ok m' =>
        rw [e'] at e
        rw [e1'] at e1
        obtain rfl := Except.ok.inj e
        obtain rfl := Except.ok.inj e1
        rw [List.getElem?_map] at hi hi'
        obtain ⟨B, hB, rfl⟩ := Option.map_eq_some_iff.mp hi
        obtain ⟨B', hB', rfl⟩ := Option.map_eq_some_iff.mp hi'
        exact ⟨B, B', rfl, rfl, .many hA hd e' e1' hB hB' hu hv⟩
  | @elevate box a a' d b b' h hd e e1 hsz ih =>
    obtain ⟨A, A', rfl, rfl, hA⟩ := ih
    rw [(C85_operations ⟨0, 0⟩ _).1] at e e1
    cases e' : Spline.orderElevate K A d with
    | error x => rw [e'] at e; cases e
    | ok m =>
      cases e1' : Spline.orderElevate K A' d with
      | error x => rw [e1'] at e1; cases e1
      | ok m' =>
        rw [e'] at e
        rw [e1'] at e1
        obtain rfl := Except.ok.inj e
        obtain rfl := Except.ok.inj e1
        exact ⟨m, m', rfl, rfl, .elevate hA hd e' e1' hsz⟩

/-- pairs of homogeneous points that are near to each other -/
theorem hom_near_convex (hN : IsLength N) (w0 R ε δ : K) :
    Convex K {p : (V × K) × (V × K) | (p.1 ∈ cone N w0 R ∧ p.2 ∈ cone N w0 R) ∧ N (p.1.1 - p.2.1) ≤ ε ∧ |p.1.2 - p.2.2| ≤ δ} := by
  rintro ⟨p, q⟩ ⟨⟨h1, h2⟩, h3, h4⟩ ⟨p', q'⟩ ⟨⟨h1', h2'⟩, h3', h4'⟩ a b ha hb hab
  refine ⟨⟨cone_convex hN w0 R h1 h1' ha hb hab, cone_convex hN w0 R h2 h2' ha hb hab⟩, ?_, ?_⟩
  · exact near_convex hN ε (x := (p.1, q.1)) h3 (y := (p'.1, q'.1)) h3' ha hb hab
  · exact near_convex (N := fun c : K => |c|) ⟨fun x y => abs_add_le x y, fun c x => by simp [abs_mul]⟩ δ (x := (p.2, q.2)) h4 (y := (p'.2, q'.2)) h4' ha hb hab

/-- what the theorems on rational splines assume -/
theorem hom_pair (hN : IsLength N) {r r' : RSpline K V} {ds : List ℕ} {f f' : List K → V} {w w' : List K → K} (hr : r.Computes ds f w)
    (hr' : r'.Computes ds f' w') {w0 R ε δ : K} (hw0 : 0 < w0) (hw : ∀ c ∈ r.wt.cps, w0 ≤ c) (hw' : ∀ c ∈ r'.wt.cps, w0 ≤ c)
    (hR : ∀ idx x, ValidIdx ds idx → r.controlPoint idx = .ok x → N x ≤ R)
    (hR' : ∀ idx x, ValidIdx ds idx → r'.controlPoint idx = .ok x → N x ≤ R) (hn : Near N ε r.num r'.num)
    (hδ : Near (fun c : K => |c|) δ r.wt r'.wt) :
    ∃ Z : Spline ((V × K) × (V × K)), r = RSpline.ofHom (Z.map Prod.fst) ∧ r' = RSpline.ofHom (Z.map Prod.snd) ∧ Z.WF ∧ Z.degrees = ds ∧
      ∀ p ∈ Z.cps, p ∈ {p : (V × K) × (V × K) | (p.1 ∈ cone N w0 R ∧ p.2 ∈ cone N w0 R) ∧ N (p.1.1 - p.2.1) ≤ ε ∧ |p.1.2 - p.2.2| ≤ δ} := by
  obtain ⟨H, rfl, hH, hd⟩ := exists_hom hr
  obtain ⟨H', rfl, hH', hd'⟩ := exists_hom hr'
  obtain ⟨Z, rfl, rfl, hZ⟩ := exists_pair hH hH' (hd'.trans hd.symm)
  refine ⟨Z, rfl, rfl, hZ, hd, fun p hp => ⟨⟨?_, ?_⟩, ?_, ?_⟩⟩
  · exact hom_cone hN hH hw0 hw (by rw [hd]; exact hR) _ (List.mem_map_of_mem hp)
  · exact hom_cone hN hH' hw0 hw' (by rw [hd']; exact hR') _ (List.mem_map_of_mem hp)
  · obtain ⟨idx, hv, e⟩ := hZ.index_of_mem hp
    exact hn.2 idx _ _ hv (by simp only [RSpline.ofHom, controlPoint_map, e]; rfl) (by simp only [RSpline.ofHom, controlPoint_map, e]; rfl)
  · obtain ⟨idx, hv, e⟩ := hZ.index_of_mem hp
    exact hδ.2 idx _ _ hv (by simp only [RSpline.ofHom, controlPoint_map, e]; rfl) (by simp only [RSpline.ofHom, controlPoint_map, e]; rfl)

/-- C111. Rational splines with weights of at least `w0` and control points of length at most `R`: if the weighted control points have at most
the distance `ε` and the weights at most the distance `δ`, the values have at most the distance `(ε + R δ) / w0`. -/
theorem C111_rational_evaluate (hN : IsLength N) (r r' : RSpline K V) (ds : List ℕ) (f f' : List K → V) (w w' : List K → K)
    (hr : r.Computes ds f w) (hr' : r'.Computes ds f' w') (w0 R ε δ : K) (hw0 : 0 < w0) (hw : ∀ c ∈ r.wt.cps, w0 ≤ c)
    (hw' : ∀ c ∈ r'.wt.cps, w0 ≤ c) (hR : ∀ idx x, ValidIdx ds idx → r.controlPoint idx = .ok x → N x ≤ R)
    (hR' : ∀ idx x, ValidIdx ds idx → r'.controlPoint idx = .ok x → N x ≤ R) (hn : Near N ε r.num r'.num)
    (hδ : Near (fun c : K => |c|) δ r.wt r'.wt) (t : List K) (ht : t.length = ds.length) (h01 : InCube t) :
    ∃ y y', r.evaluate t = .ok y ∧ r'.evaluate t = .ok y' ∧ w0 * N (y - y') ≤ ε + R * δ := by
  obtain ⟨Z, rfl, rfl, hZ, rfl, hp⟩ := hom_pair hN hr hr' hw0 hw hw' hR hR' hn hδ
  obtain ⟨q, e, ⟨h1, h2⟩, h3, h4⟩ := C73_evaluate Z hZ _ (hom_near_convex hN w0 R ε δ) hp t ht h01
  have e1 : (Z.map Prod.fst).evaluate t = .ok q.1 := by rw [(C84_linear_evaluate ⟨0, 0⟩ linearOn_fst' Z t []).1, e]; rfl
  have e2 : (Z.map Prod.snd).evaluate t = .ok q.2 := by rw [(C84_linear_evaluate ⟨0, 0⟩ linearOn_snd' Z t []).1, e]; rfl
  exact ⟨_, _, hom_evaluate e1 (hw0.trans_le h1.1).ne', hom_evaluate e2 (hw0.trans_le h2.1).ne', quotient_close hN hw0 h1 h2 h3 h4⟩

/-- C111. Whatever splits and elevations are applied to both rational splines: the weighted control points and the weights of the parts have at
most the distances `ε` and `δ`, and the control points at most the distance `(ε + R δ) / w0`. -/
theorem C111_rational_history (hN : IsLength N) (r r' : RSpline K V) (ds : List ℕ) (f f' : List K → V) (w w' : List K → K)
    (hr : r.Computes ds f w) (hr' : r'.Computes ds f' w') (w0 R ε δ : K) (hw0 : 0 < w0) (hw : ∀ c ∈ r.wt.cps, w0 ≤ c)
    (hw' : ∀ c ∈ r'.wt.cps, w0 ≤ c) (hR : ∀ idx x, ValidIdx ds idx → r.controlPoint idx = .ok x → N x ≤ R)
    (hR' : ∀ idx x, ValidIdx ds idx → r'.controlPoint idx = .ok x → N x ≤ R) (hn : Near N ε r.num r'.num)
    (hδ : Near (fun c : K => |c|) δ r.wt r'.wt) (box : List (K × K)) (a a' : RSpline K V) (h : SameRParts r r' box a a') :
    Near N ε a.num a'.num ∧ Near (fun c : K => |c|) δ a.wt a'.wt ∧
    ∀ idx x x', ValidIdx a.num.degrees idx → a.controlPoint idx = .ok x → a'.controlPoint idx = .ok x' → w0 * N (x - x') ≤ ε + R * δ := by
  obtain ⟨Z, rfl, rfl, hZ, rfl, hp⟩ := hom_pair hN hr hr' hw0 hw hw' hR hR' hn hδ
  obtain ⟨A, A', rfl, rfl, hA⟩ := sameRParts_hom h
  obtain ⟨B, rfl, rfl, hB⟩ := sameParts_pair hA
  have hc := part_hull hZ (hom_near_convex hN w0 R ε δ) hp hB
  have hmem : ∀ idx p, B.controlPoint idx = .ok p → p ∈ B.cps := fun idx p e => mem_of_controlPoint e
  refine ⟨⟨rfl, ?_⟩, ⟨rfl, ?_⟩, ?_⟩
  · intro idx x x' hv hx hx'
    simp only [RSpline.ofHom, controlPoint_map] at hx hx'
    cases e : B.controlPoint idx with
    | error y => rw [e] at hx; cases hx
    | ok p =>
      rw [e] at hx hx'
      obtain rfl := Except.ok.inj hx
      obtain rfl := Except.ok.inj hx'
      exact (hc p (hmem idx p e)).2.1
  · intro idx x x' hv hx hx'
    simp only [RSpline.ofHom, controlPoint_map] at hx hx'
    cases e : B.controlPoint idx with
    | error y => rw [e] at hx; cases hx
    | ok p =>
      rw [e] at hx hx'
      obtain rfl := Except.ok.inj hx
      obtain rfl := Except.ok.inj hx'
      exact (hc p (hmem idx p e)).2.2
  · intro idx x x' hv hx hx'
    obtain ⟨p, ep, _, rfl⟩ := hom_controlPoint hx
    obtain ⟨q, eq, _, rfl⟩ := hom_controlPoint hx'
    rw [controlPoint_map] at ep eq
    cases e : B.controlPoint idx with
    | error y => rw [e] at ep; cases ep
    | ok b =>
      rw [e] at ep eq
      obtain rfl := Except.ok.inj ep
      obtain rfl := Except.ok.inj eq
      obtain ⟨⟨h1, h2⟩, h3, h4⟩ := hc b (hmem idx b e)
      exact quotient_close hN hw0 h1 h2 h3 h4

end rational

/-! ## A concrete case -/

/-- the surface `P` with moved control points -/
def Pm : Spline (Point ℚ 2) :=
  Ex.surf (Ex.pt 0 (1 / 10)) (Ex.pt 1 0) (Ex.pt 2 (9 / 10)) (Ex.pt 0 3) (Ex.pt 1 (41 / 20)) (Ex.pt 2 2)
theorem Pm_wf : Pm.WF := Ex.surf_wf ..

theorem near_of_zip {s s' : Spline V} (hs : s.WF) (hs' : s'.WF) (hd : s'.degrees = s.degrees) {ε : K} (h : ∀ p ∈ s.cps.zip s'.cps, N (p.1 - p.2) ≤ ε) :
    Near N ε s s' := by
  obtain ⟨Z, e1, e2, hZ⟩ := exists_pair hs hs' hd
  have : s.cps.zip s'.cps = Z.cps := by
    have h1 : s.cps = Z.cps.map Prod.fst := congrArg Spline.cps e1
    have h2 : s'.cps = Z.cps.map Prod.snd := congrArg Spline.cps e2
    exact (List.zip_of_prod h1.symm h2.symm).symm
  rw [this] at h
  rw [e1, e2]
  exact (near_pair hZ).mpr h

theorem P_near : Near (fun x : Point ℚ 2 => |x.val 1|) (1 / 10) Ex.P Pm := near_of_zip Ex.P_wf Pm_wf rfl (by decide +kernel)

example := C111_evaluate (coord_length 2 1) Ex.P Pm Ex.P_wf Pm_wf (1 / 10) P_near [1 / 3, 1] rfl (by unfold InCube; decide +kernel)
example := C111_derivative (coord_length 2 1) Ex.cfg Ex.cfg_ok Ex.P Pm Ex.P_wf Pm_wf (1 / 10) P_near [2, 1] rfl
  (by intro d o p; match d with
    | 0 => intro h1 h2; obtain rfl := Option.some.inj h1; obtain rfl := Option.some.inj h2; decide
    | 1 => intro h1 h2; obtain rfl := Option.some.inj h1; obtain rfl := Option.some.inj h2; decide
    | d + 2 => intro h; simp at h) (by decide) (by decide)
/-- a corner of both surfaces: cut in direction 0, elevated, cut in direction 1 -/
example : ∃ a a', SameParts Ex.P Pm [((0 : ℚ), 1 / 3), (1 / 2, 1)] a a' ∧ Near (fun x : Point ℚ 2 => |x.val 1|) (1 / 10) a a' ∧ a.degrees = [3, 1] := by
  obtain ⟨l, r, e, cl, _⟩ := C31_split Ex.P _ _ (Ex.P_wf.computes (K := ℚ)) 0 (by decide) (1 / 3) (by norm_num) (by norm_num)
  obtain ⟨c, e1, cc⟩ := C12_order_elevate l _ _ cl 0 2 rfl (by decide)
  obtain ⟨l', r', e', _, cr⟩ := C31_split c _ _ cc 1 (by decide) (1 / 2) (by norm_num) (by norm_num)
  have h := PartOf.right (PartOf.elevate (PartOf.left (PartOf.whole (K := ℚ) (s := Ex.P)) (by decide) e) (by decide) e1
    (by rw [cl.degrees_eq]; decide)) (by decide) e'
  have e3 : (((List.replicate Ex.P.degrees.length ((0 : ℚ), (1 : ℚ))).modify 0 fun I => (I.1, I.1 + (I.2 - I.1) * (1 / 3))).modify 1
      fun I => (I.1 + (I.2 - I.1) * (1 / 2), I.2)) = [((0 : ℚ), 1 / 3), (1 / 2, 1)] := by decide +kernel
  rw [e3] at h
  obtain ⟨a', h1, _⟩ := C111_same Ex.P Pm Ex.P_wf Pm_wf rfl _ _ h
  exact ⟨_, a', h1, C111_history (coord_length 2 1) Ex.P Pm Ex.P_wf Pm_wf (1 / 10) P_near _ _ _ h1, cr.degrees_eq⟩

/-- inner splines with values in the unit square -/
def Q1 : Spline (Point ℚ 2) := Ex.line (Ex.pt 0 (1 / 2)) (Ex.pt 1 1)
def Q2 : Spline (Point ℚ 2) := Ex.line (Ex.pt (1 / 100) (1 / 2)) (Ex.pt 1 (9 / 10))
theorem Q_near (j : Fin 2) : Near (fun x : Point ℚ 2 => |x.val j|) (if (j : ℕ) = 0 then 1 / 100 else 1 / 10) Q1 Q2 :=
  near_of_zip (s := Q1) (s' := Q2) (Ex.line_wf ..) (Ex.line_wf ..) rfl (by revert j; decide +kernel)
example := C111_compose_outer (coord_length 2 1) Ex.cfg (by decide) Ex.P Pm Q1 Ex.P_wf Pm_wf (Ex.line_wf ..) rfl (by decide +kernel) (by decide)
  (by decide) (1 / 10) P_near
example := C111_compose_inner (coord_length 2 1) Ex.cfg (by decide) Ex.P Q1 Q2 Ex.P_wf (Ex.line_wf ..) (Ex.line_wf ..) rfl
  (by decide +kernel) (by decide +kernel) (by decide) (by decide) (fun _ => (2 : ℕ) * (2 * 3))
  (fun d _ => ⟨by norm_num, stepBound_of_le (coord_length 2 1) (by decide +kernel) d (R_deg d)⟩) (fun d => if d = 0 then 1 / 100 else 1 / 10) rfl
  Q_near [1 / 3] rfl (by unfold InCube; decide +kernel)

/-- `R` with one weighted control point and one weight moved -/
def Rm : RSpline ℚ (Point ℚ 2) := ⟨{ R.num with cps := R.num.cps.set 1 (R.num.cps.getD 1 0 + Ex.pt 0 (1 / 10)) }, { R.wt with cps := R.wt.cps.set 0 (R.wt.cps.getD 0 0 + 1 / 20) }⟩
theorem Rm_computes : Rm.Computes [2, 1] (fun t : List ℚ => (Rm.wt.value t)⁻¹ • Rm.num.value t) (fun t => Rm.wt.value t) :=
  RSpline.computes_of (n := Rm.num) (d := Rm.wt) (Spline.WF.computes (K := ℚ) (s := Rm.num) (Ex.surf_wf ..))
    (Spline.WF.computes (K := ℚ) (s := Rm.wt) (Ex.surf_wf ..))

theorem Rm_small (idx : List ℕ) (x : Point ℚ 2) (hv : ValidIdx [2, 1] idx) (hx : Rm.controlPoint idx = .ok x) : |x.val 1| ≤ 3 := by
  have h : ∀ x ∈ Rm.euclid.cps, |x.val 1| ≤ 3 := by decide +kernel
  have h0 : ∀ c ∈ Rm.wt.cps, c ≠ 0 := by decide +kernel
  exact h x ((mem_euclid Rm_computes h0 x).mpr ⟨idx, hv, hx⟩)
theorem Rm_weights : ∀ c ∈ Rm.wt.cps, (1 / 2 : ℚ) ≤ c := by decide +kernel
theorem R_near : Near (fun x : Point ℚ 2 => |x.val 1|) (1 / 10) R.num Rm.num :=
  near_of_zip (s := R.num) (s' := Rm.num) (Ex.surf_wf ..) (Ex.surf_wf ..) rfl (by decide +kernel)
theorem R_near_weights : Near (fun c : ℚ => |c|) (1 / 20) R.wt Rm.wt :=
  near_of_zip (s := R.wt) (s' := Rm.wt) (Ex.surf_wf ..) (Ex.surf_wf ..) rfl (by decide +kernel)

example := C111_rational_evaluate (coord_length 2 1) R Rm _ _ _ _ _ R_computes Rm_computes (1 / 2) 3 _ _ (by norm_num) R_weights Rm_weights R_small
  Rm_small R_near R_near_weights [1 / 3, 1] rfl (by unfold InCube; decide +kernel)
example : ∃ a a', SameRParts R Rm [((0 : ℚ), 0 + (1 - 0) * (1 / 3)), (0, 1)] a a' ∧ Near (fun c : ℚ => |c|) (1 / 20) a.wt a'.wt := by
  obtain ⟨a, b, e, _, _⟩ := C40_split R _ _ _ R_computes 0 (by decide) (1 / 3) (by norm_num) (by norm_num)
  obtain ⟨a', b', e', _, _⟩ := C40_split Rm _ _ _ Rm_computes 0 (by decide) (1 / 3) (by norm_num) (by norm_num)
  have h := SameRParts.left (SameRParts.whole (K := ℚ) (s := R) (s' := Rm)) (by decide) e e'
  exact ⟨a, a', h, (C111_rational_history (coord_length 2 1) R Rm _ _ _ _ _ R_computes Rm_computes (1 / 2) 3 _ _ (by norm_num) R_weights Rm_weights R_small
    Rm_small R_near R_near_weights _ _ _ h).2.1⟩

end Bezman.Props
