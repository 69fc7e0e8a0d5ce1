import Verif.Proofs.ParamRExpr
import Verif.Proofs.Box
import Verif.Spec.Coordinates

set_option linter.unusedSectionVars false

/-! # One coordinate of a point valued program -/

namespace Bezman

section
variable {K : Type} {n : Nat}

/-- equal scalars -/
def parSame (K : Type) : Par K K := ⟨Eq⟩
/-- a point and its coordinate `j` -/
def parCoord (K : Type) {n : Nat} (j : Fin n) : Par (Point K n) K := ⟨fun p x => p.val j = x⟩

attribute [local instance] parSame

variable [Zero K] [One K] [Add K] [Sub K] [Mul K] [Neg K] [Div K] [NatCast K]

theorem parScalarSame : ParScalar K K where
  zero := rfl
  one := rfl
  add h h' := congrArg₂ _ h h'
  sub h h' := congrArg₂ _ h h'
  mul h h' := congrArg₂ _ h h'
  neg h := congrArg _ h
  cast _ := rfl
  inv _ := rfl
  ratio _ _ := rfl

theorem parOrdSame [LT K] : ParOrd strict K K := ⟨fun _ _ _ _ _ h h' => by
  obtain rfl : _ = _ := h
  obtain rfl : _ = _ := h'
  rfl⟩

theorem parEqSame [BEq K] : ParEq K K := ⟨fun h h' => by
  obtain rfl : _ = _ := h
  obtain rfl : _ = _ := h'
  rfl⟩

theorem parZeroSame [BEq K] : ParZero strict K K := ⟨fun _ _ _ h => by
  obtain rfl : _ = _ := h
  rfl⟩

theorem parPlanesSame (zs : List K) : Spline.ParPlanes zs zs := by
  refine ⟨List.forall₂_same.2 fun _ _ => (rfl : _ = _), ?_⟩
  intro i z zp z' zp' h1 h2 h3 h4
  rw [h1] at h3; rw [h2] at h4
  cases h3; cases h4
  exact (rfl : _ = _)

theorem parSplineSame {V : Type} [Par V V] (hr : ∀ v : V, v ≋ v) (s : Spline V) : s ≋ s :=
  ⟨rfl, rfl, rfl, List.forall₂_same.2 fun x _ => hr x⟩

theorem parDivSame [BEq K] : ParDiv K K K K := ⟨fun h h' _ _ => congrArg₂ _ h h'⟩
theorem parDivSamePoint [BEq K] : ParDiv K K (Point K n) (Point K n) := ⟨fun h h' _ _ i => by
  obtain rfl : _ = _ := h'
  exact congrArg (· * _) (h i)⟩

theorem pointSame (v : Point K n) : v ≋ v := fun _ => (rfl : _ = _)

theorem relRefl {α : Type} [Par α α] (h : ∀ a : α, a ≋ a) (x : M α) : RelM strict x x := by
  cases x with
  | ok a => exact .ok (h a)
  | error e => exact .err e

theorem parPointCoord (j : Fin n) (hcomm : ∀ a b : K, a * b = b * a) (hneg : ∀ a : K, a * (-1) = -a) :
    letI := parCoord K j
    ParPoint K K (Point K n) K :=
  letI := parCoord K j
  { zero := rfl
    add := fun h h' => congrArg₂ _ h h'
    sub := fun h h' => congrArg₂ _ h h'
    neg := fun {a a'} h => by
      obtain rfl : a.val j = a' := h
      exact hneg _
    smul := fun {c c' a a'} h h' => by
      obtain rfl : c = c' := h
      obtain rfl : a.val j = a' := h'
      exact hcomm _ _ }

theorem coordinate_rel (j : Fin n) (s : Spline (Point K n)) :
    letI := parCoord K j
    s ≋ s.coordinate j := by
  refine ⟨rfl, rfl, rfl, ?_⟩
  show List.Forall₂ _ _ (List.map _ _)
  rw [List.forall₂_map_right_iff]
  exact List.forall₂_same.2 fun _ _ => rfl

theorem eq_coordinate (j : Fin n) {s : Spline (Point K n)} {s' : Spline K}
    (h : letI := parCoord K j; s ≋ s') : s' = s.coordinate j := by
  obtain ⟨h1, h2, h3, h4⟩ := h
  obtain ⟨d, m, o, c⟩ := s
  obtain ⟨d', m', o', c'⟩ := s'
  dsimp only at h1 h2 h3 h4
  subst h1 h2 h3
  have : c' = c.map (·.val j) := by
    change List.Forall₂ _ _ _ at h4
    induction h4 with
    | nil => rfl
    | cons h _ ih => rw [List.map_cons, ← ih]; congr 1; exact Eq.symm h
  rw [this]; rfl

theorem rcoordinate_rel (j : Fin n) (r : RSpline K (Point K n)) :
    letI := parCoord K j
    r ≋ r.coordinate j := ⟨coordinate_rel j r.num, parSplineSame (fun _ => (rfl : _ = _)) r.wt⟩

theorem RelM.toMap {α β : Type} [Par α β] {f : α → β} (hf : ∀ a b, a ≋ b → b = f a) {x : M α} {y : M β} (h : RelM strict x y) :
    y = x.map f := by
  cases h with
  | ok h => exact congrArg Except.ok (hf _ _ h)
  | err e => rfl
  | left _ _ h => cases h
  | right _ _ h => cases h

theorem parDivCoord [BEq K] (j : Fin n) (hdiv : ∀ a b : K, a * (1 / b) = a / b) :
    letI := parCoord K j
    ParDiv K K (Point K n) K :=
  letI := parCoord K j
  ⟨fun {a w a' w'} h h' _ _ => by
    obtain rfl : a.val j = a' := h
    obtain rfl : w = w' := h'
    exact hdiv _ _⟩

theorem eq_same {s s' : Spline K} (h : s ≋ s') : s = s' := by
  obtain ⟨h1, h2, h3, h4⟩ := h
  obtain ⟨d, m, o, c⟩ := s
  obtain ⟨d', m', o', c'⟩ := s'
  dsimp only at h1 h2 h3 h4
  subst h1 h2 h3
  have : c = c' := by
    change List.Forall₂ _ _ _ at h4
    induction h4 with
    | nil => rfl
    | cons h _ ih => rw [ih]; congr 1
  rw [this]

theorem eq_rcoordinate (j : Fin n) {r : RSpline K (Point K n)} {r' : RSpline K K}
    (h : letI := parCoord K j; r ≋ r') : r' = r.coordinate j := by
  obtain ⟨a, b⟩ := r
  obtain ⟨a', b'⟩ := r'
  obtain ⟨h1, h2⟩ := h
  obtain rfl := eq_same h2
  obtain rfl := eq_coordinate j h1
  rfl

variable [LT K] [DecidableLT K]

theorem coordinate_run (cfg : Cfg) (σ : Vars K n) (hσ : ∀ i, (σ.p i).WF) (hcomm : ∀ a b : K, a * b = b * a) (hneg : ∀ a : K, a * (-1) = -a)
    (j : Fin n) (e : PExpr K n) :
    letI := parCoord K j
    RelM strict (e.run cfg σ) ((e.coordinate j).run cfg σ) := by
  let P := parCoord K j
  have i1 : ParScalar K K := parScalarSame
  have i2 : ParOrd strict K K := parOrdSame
  have i3 : ParPoint K K (Point K n) K := parPointCoord j hcomm hneg
  have rs : ∀ s : Spline K, s ≋ s := parSplineSame fun _ => (rfl : _ = _)
  have rp : ∀ s : Spline (Point K n), s ≋ s := parSplineSame pointSame
  match e with
  | .leaf i =>
    simp only [PExpr.coordinate, PExpr.run, SExpr.run, pure_eq_ok, bind_ok]
    have h := Spline.extractDimension_eq (K := K) (hσ i) (j : Fin (Coords.n K (Point K n)))
    have h' : Spline.extractDimension K (σ.p i) j.1 = .ok ((σ.p i).coordinate j) := h
    rw [h']
    exact RelM.ok (coordinate_rel j _)
  | .add a b =>
    simp only [PExpr.coordinate, PExpr.run, SExpr.run]
    exact RelM.bind (coordinate_run cfg σ hσ hcomm hneg j a) fun x x' hx => RelM.bind (coordinate_run cfg σ hσ hcomm hneg j b) fun y y' hy => Spline.parAddOp cfg hx hy
  | .addAssign a b =>
    simp only [PExpr.coordinate, PExpr.run, SExpr.run]
    exact RelM.bind (coordinate_run cfg σ hσ hcomm hneg j a) fun x x' hx => RelM.bind (coordinate_run cfg σ hσ hcomm hneg j b) fun y y' hy => Spline.parAddAssign cfg hx hy
  | .sub a b =>
    simp only [PExpr.coordinate, PExpr.run, SExpr.run]
    exact RelM.bind (coordinate_run cfg σ hσ hcomm hneg j a) fun x x' hx => RelM.bind (coordinate_run cfg σ hσ hcomm hneg j b) fun y y' hy => Spline.parSubOp cfg hx hy
  | .subAssign a b =>
    simp only [PExpr.coordinate, PExpr.run, SExpr.run]
    exact RelM.bind (coordinate_run cfg σ hσ hcomm hneg j a) fun x x' hx => RelM.bind (coordinate_run cfg σ hσ hcomm hneg j b) fun y y' hy => Spline.parSubAssign cfg hx hy
  | .neg a =>
    simp only [PExpr.coordinate, PExpr.run, SExpr.run]
    exact RelM.bind (coordinate_run cfg σ hσ hcomm hneg j a) fun x x' hx => Spline.parNegOp (K := K) (K' := K) hx
  | .scale a c =>
    simp only [PExpr.coordinate, PExpr.run, SExpr.run]
    exact RelM.bind (coordinate_run cfg σ hσ hcomm hneg j a) fun x x' hx => Spline.parSmulOp hx (rfl : c = c)
  | .addPoint a v =>
    simp only [PExpr.coordinate, PExpr.run, SExpr.run]
    exact RelM.bind (coordinate_run cfg σ hσ hcomm hneg j a) fun x x' hx => Spline.parAddPoint (K := K) (K' := K) hx (rfl : v.val j = v.val j)
  | .subPoint a v =>
    simp only [PExpr.coordinate, PExpr.run, SExpr.run]
    exact RelM.bind (coordinate_run cfg σ hσ hcomm hneg j a) fun x x' hx => Spline.parSubPoint (K := K) (K' := K) hx (rfl : v.val j = v.val j)
  | .pointSub v a =>
    simp only [PExpr.coordinate, PExpr.run, SExpr.run]
    exact RelM.bind (coordinate_run cfg σ hσ hcomm hneg j a) fun x x' hx => Spline.parPointSub (K := K) (K' := K) hx (rfl : v.val j = v.val j)
  | .elevate a d =>
    simp only [PExpr.coordinate, PExpr.run, SExpr.run]
    exact RelM.bind (coordinate_run cfg σ hσ hcomm hneg j a) fun x x' hx => Spline.parOrderElevate hx d
  | .splitLeft a z d =>
    simp only [PExpr.coordinate, PExpr.run, SExpr.run]
    exact RelM.bind (coordinate_run cfg σ hσ hcomm hneg j a) fun x x' hx => RelM.bind (Spline.parSplitAt hx (rfl : z = z) d) fun l l' hl => RelM.ok hl.1
  | .splitRight a z d =>
    simp only [PExpr.coordinate, PExpr.run, SExpr.run]
    exact RelM.bind (coordinate_run cfg σ hσ hcomm hneg j a) fun x x' hx => RelM.bind (Spline.parSplitAt hx (rfl : z = z) d) fun l l' hl => RelM.ok hl.2
  | .splitPart a zs d i =>
    simp only [PExpr.coordinate, PExpr.run, SExpr.run]
    exact RelM.bind (coordinate_run cfg σ hσ hcomm hneg j a) fun x x' hx => RelM.bind (Spline.parSplitAtMany hx (parPlanesSame zs) d) fun l l' hl => RelM.rd hl i
  | .deriv a o =>
    simp only [PExpr.coordinate, PExpr.run, SExpr.run]
    exact RelM.bind (coordinate_run cfg σ hσ hcomm hneg j a) fun x x' hx => Spline.parDerivativeSpline cfg hx o
  | .compose a b =>
    simp only [PExpr.coordinate, PExpr.run, SExpr.run]
    exact RelM.bind (coordinate_run cfg σ hσ hcomm hneg j a) fun x x' hx => RelM.bind (relRefl rp (b.run cfg σ)) fun y y' hy => Spline.parCompose cfg hx hy
  | .composeScalar a b =>
    simp only [PExpr.coordinate, PExpr.run, SExpr.run]
    exact RelM.bind (coordinate_run cfg σ hσ hcomm hneg j a) fun x x' hx => RelM.bind (relRefl rs (b.run cfg σ)) fun y y' hy => Spline.parCompose cfg hx hy
  | .mulLeft a b =>
    simp only [PExpr.coordinate, PExpr.run, SExpr.run]
    exact RelM.bind (relRefl rs (a.run cfg σ)) fun x x' hx => RelM.bind (coordinate_run cfg σ hσ hcomm hneg j b) fun y y' hy =>
      Spline.parMulOp cfg (fun _ _ _ _ ha hb => i3.smul ha hb) hx hy
  | .mulRight a b =>
    simp only [PExpr.coordinate, PExpr.run, SExpr.run]
    exact RelM.bind (coordinate_run cfg σ hσ hcomm hneg j a) fun x x' hx => RelM.bind (relRefl rs (b.run cfg σ)) fun y y' hy =>
      Spline.parMulOp cfg (fun a a' b b' ha hb => by
        obtain rfl : a.val j = a' := ha
        obtain rfl : b = b' := hb
        exact (rfl : _ = _)) hx hy

variable [BEq K]

theorem rcoordinate_ops (cfg : Cfg) (hcomm : ∀ a b : K, a * b = b * a) (hneg : ∀ a : K, a * (-1) = -a) (j : Fin n)
    (r q : RSpline K (Point K n)) :
    RSpline.addOp cfg (r.coordinate j) (q.coordinate j) = (RSpline.addOp cfg r q).map (·.coordinate j) ∧
    RSpline.addAssign cfg (r.coordinate j) (q.coordinate j) = (RSpline.addAssign cfg r q).map (·.coordinate j) ∧
    RSpline.subOp cfg (r.coordinate j) (q.coordinate j) = (RSpline.subOp cfg r q).map (·.coordinate j) ∧
    RSpline.subAssign cfg (r.coordinate j) (q.coordinate j) = (RSpline.subAssign cfg r q).map (·.coordinate j) ∧
    (r.coordinate j).negOp = r.negOp.map (·.coordinate j) ∧
    (∀ c : K, (r.coordinate j).smulOp c = (r.smulOp c).map (·.coordinate j)) ∧
    (∀ v : Point K n, (r.coordinate j).addPoint (v.val j) = (r.addPoint v).map (·.coordinate j)) ∧
    (∀ v : Point K n, (r.coordinate j).subPoint (v.val j) = (r.subPoint v).map (·.coordinate j)) ∧
    (∀ d, (r.coordinate j).orderElevate d = (r.orderElevate d).map (·.coordinate j)) ∧
    (∀ o, (r.coordinate j).derivativeSpline cfg o = (r.derivativeSpline cfg o).map (·.coordinate j)) ∧
    (∀ (z : K) d, (r.coordinate j).splitAt z d = (r.splitAt z d).map fun l => (l.1.coordinate j, l.2.coordinate j)) ∧
    (∀ (zs : List K) d, (r.coordinate j).splitAtMany zs d = (r.splitAtMany zs d).map fun l => l.map (·.coordinate j)) ∧
    (∀ w : RSpline K K, RSpline.mulOp cfg (fun x y => x * y) w (q.coordinate j) =
      (RSpline.mulOp cfg (fun (c : K) (v : Point K n) => c • v) w q).map (·.coordinate j)) ∧
    (∀ w : RSpline K K, RSpline.mulOp cfg (fun x y => x * y) (q.coordinate j) w =
      (RSpline.mulOp cfg (fun (v : Point K n) (c : K) => c • v) q w).map (·.coordinate j)) ∧
    (∀ (m : Nat) (s : Spline (Point K m)), RSpline.compose cfg (r.coordinate j) s = (RSpline.compose cfg r s).map (·.coordinate j)) ∧
    (∀ s : Spline K, RSpline.compose cfg (r.coordinate j) s = (RSpline.compose cfg r s).map (·.coordinate j)) ∧
    (∀ (m : Nat) (s : RSpline K (Point K m)),
      RSpline.composeRational cfg (r.coordinate j) s = (RSpline.composeRational cfg r s).map (·.coordinate j)) ∧
    (∀ s : RSpline K K, RSpline.composeRational cfg (r.coordinate j) s = (RSpline.composeRational cfg r s).map (·.coordinate j)) ∧
    (∀ (p : Spline (Point K n)) (m : Nat) (s : RSpline K (Point K m)),
      Spline.composeRational cfg (p.coordinate j) s = (Spline.composeRational cfg p s).map (·.coordinate j)) ∧
    (∀ (p : Spline (Point K n)) (s : RSpline K K),
      Spline.composeRational cfg (p.coordinate j) s = (Spline.composeRational cfg p s).map (·.coordinate j)) := by
  let P := parCoord K j
  have i1 : ParScalar K K := parScalarSame
  have i2 : ParOrd strict K K := parOrdSame
  have i3 : ParPoint K K (Point K n) K := parPointCoord j hcomm hneg
  have i4 : ParEq K K := parEqSame
  have i5 : ParZero strict K K := parZeroSame
  have i5 : ParDiv K K K K := parDivSame
  have i6 : ∀ m, ParDiv K K (Point K m) (Point K m) := fun _ => parDivSamePoint
  have rs : ∀ s : Spline K, s ≋ s := parSplineSame fun _ => (rfl : _ = _)
  have rp : ∀ m, ∀ s : Spline (Point K m), s ≋ s := fun _ => parSplineSame pointSame
  have rrs : ∀ s : RSpline K K, s ≋ s := fun s => ⟨rs s.num, rs s.wt⟩
  have rrp : ∀ m, ∀ s : RSpline K (Point K m), s ≋ s := fun m s => ⟨rp m s.num, rs s.wt⟩
  have hr := rcoordinate_rel j r
  have hq := rcoordinate_rel j q
  have key : ∀ {x : M (RSpline K (Point K n))} {y : M (RSpline K K)}, RelM strict x y → y = x.map (·.coordinate j) :=
    fun h => RelM.toMap (fun _ _ => eq_rcoordinate j) h
  refine ⟨key (RSpline.parRAddOp cfg hr hq rfl), key (RSpline.parRAddAssign cfg hr hq rfl), key (RSpline.parRSubOp cfg hr hq rfl),
    key (RSpline.parRSubAssign cfg hr hq rfl), key (RSpline.parRNegOp hr), fun c => key (RSpline.parRSmulOp hr (rfl : c = c)),
    fun v => key (RSpline.parRAddPoint hr (rfl : v.val j = v.val j)), fun v => key (RSpline.parRSubPoint hr (rfl : v.val j = v.val j)),
    fun d => key (RSpline.parROrderElevate hr d), fun o => key (RSpline.parRDerivativeSpline cfg hr o), fun z d => ?_, fun zs d => ?_,
    fun w => key (RSpline.parRMulOp cfg (fun _ _ _ _ ha hb => i3.smul ha hb) (rrs w) hq),
    fun w => key (RSpline.parRMulOp cfg (fun a a' b b' ha hb => ?_) hq (rrs w)),
    fun m s => key (RSpline.parRCompose cfg hr (rp m s)), fun s => key (RSpline.parRCompose cfg hr (rs s)),
    fun m s => key (RSpline.parRComposeRational cfg hr (rrp m s)), fun s => key (RSpline.parRComposeRational cfg hr (rrs s)),
    fun p m s => key (Spline.parComposeRational cfg (coordinate_rel j p) (rrp m s)),
    fun p s => key (Spline.parComposeRational cfg (coordinate_rel j p) (rrs s))⟩
  · refine RelM.toMap (fun a b h => ?_) (RSpline.parRSplitAt hr (rfl : z = z) d)
    obtain ⟨a1, a2⟩ := a
    obtain ⟨b1, b2⟩ := b
    exact Prod.ext (eq_rcoordinate j h.1) (eq_rcoordinate j h.2)
  · refine RelM.toMap (fun a b h => ?_) (RSpline.parRSplitAtMany hr (parPlanesSame zs) d)
    change List.Forall₂ _ _ _ at h
    induction h with
    | nil => rfl
    | cons h _ ih => rw [List.map_cons, ← ih]; congr 1; exact eq_rcoordinate j h
  · obtain rfl : a.val j = a' := ha
    obtain rfl : b = b' := hb
    exact (rfl : _ = _)

end
end Bezman
