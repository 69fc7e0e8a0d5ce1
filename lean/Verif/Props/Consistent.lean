import Verif.Model.RHistory
import Verif.Proofs.Consistent
import Verif.Props.History

/-! # Properties: every spline object a program can obtain is consistent

Nothing is assumed about the scalars and the points: the theorems hold for exact
arithmetic, for floating point arithmetic and for automatic differentiation types. -/

namespace Bezman.Props
open Spec

section
variable {K V W U : Type}

theorem good_iff {n : ℕ} (hn : 0 < n) {s : Spline V} : s.Good n ↔ Bookkeeping n s := by
  constructor
  · rintro ⟨h, rfl⟩
    exact ⟨rfl, h.ncp_eq, h.cps_len.trans h.ncp_eq.symm, h.off_len, fun _ hd => h.off hd⟩
  · rintro ⟨h1, h2, h3, h4, h5⟩
    have e : s.ncp = size s.degrees := h2
    refine ⟨⟨by omega, e, ?_, h3.trans e⟩, h1⟩
    have hw : (⟨s.degrees, size s.degrees, offsetsOf s.degrees, s.cps⟩ : Spline V).WF :=
      ⟨by show 0 < s.degrees.length; omega, rfl, rfl, h3.trans e⟩
    have ho : (offsetsOf s.degrees).length = s.degrees.length := hw.off_len
    apply List.ext_getElem?
    intro d
    by_cases hd : d < n
    · rw [h5 d hd]
      exact (hw.off (d := d) (by show d < s.degrees.length; omega)).symm
    · rw [List.getElem?_eq_none (by omega), List.getElem?_eq_none (by omega)]

/-- What a caller can observe of the bookkeeping of a rational spline of parametric
dimension `n`: numerator and weight function are consistent and have the same degrees
(so they have as many weighted control points as weights). -/
structure RBookkeeping (n : ℕ) (r : RSpline K V) : Prop where
  numerator : Bookkeeping n r.num
  weights : Bookkeeping n r.wt
  same_degrees : r.num.degrees = r.wt.degrees

theorem rgood_iff {n : ℕ} (hn : 0 < n) {r : RSpline K V} : r.Good n ↔ RBookkeeping n r :=
  ⟨fun h => ⟨(good_iff hn).mp h.1, (good_iff hn).mp h.2.1, h.2.2⟩,
   fun h => ⟨(good_iff hn).mpr h.1, (good_iff hn).mpr h.2, h.3⟩⟩

/-- Both vectors of a consistent rational spline have the same length. -/
theorem RBookkeeping.lengths {n : ℕ} {r : RSpline K V} (h : RBookkeeping n r) :
    r.num.cps.length = r.wt.cps.length ∧ r.num.ncp = r.wt.ncp := by
  have a := h.numerator.number
  have b := h.weights.number
  rw [h.same_degrees] at a
  exact ⟨by rw [h.numerator.vector, h.weights.vector, a, b], by rw [a, b]⟩

variable [Zero K] [One K] [Add K] [Sub K] [Mul K] [Neg K] [Div K] [NatCast K] [BEq K] [LT K] [DecidableLT K]
  [Zero V] [Add V] [Sub V] [Neg V] [SMul K V]

/-- The rational splines of parametric dimension `n` and one control point type that a
program can obtain: by the constructors, by calling mutators with other such splines as
arguments, and as results of the operations. -/
inductive Reachable (cfg : Cfg) (n : ℕ) : RSpline K V → Prop
  | splines {a : Spline V} {b : Spline K} {r} : Bookkeeping n a → Bookkeeping n b → RSpline.ofSplines a b = .ok r → Reachable cfg n r
  | spline {a : Spline V} {r} : Bookkeeping n a → RSpline.ofSpline a = .ok r → Reachable cfg n r
  | degrees {ds : List ℕ} {r} : ds.length = n → RSpline.ofDegrees ds = .ok r → Reachable cfg n r
  | points {ds : List ℕ} {pts : List V} {ws : List K} {r} : ds.length = n → RSpline.ofPoints ds pts ws = .ok r → Reachable cfg n r
  | default {ds : List ℕ} {r} : ds.length = n → (RSpline.default n).updateDegrees ds = .ok r → Reachable cfg n r
  | mutate {r r'} {m : RMutator K V} : Reachable cfg n r → m.Typed n → (∀ q, m.operand = some q → Reachable cfg n q) →
      m.apply cfg r = .ok r' → Reachable cfg n r'
  | scaled {r r'} {c : K} : Reachable cfg n r → r.smulOp c = .ok r' → Reachable cfg n r'
  | plusPoint {r r'} {x : V} : Reachable cfg n r → r.addPoint x = .ok r' → Reachable cfg n r'
  | minusPoint {r r'} {x : V} : Reachable cfg n r → r.subPoint x = .ok r' → Reachable cfg n r'
  | neg {r r'} : Reachable cfg n r → r.negOp = .ok r' → Reachable cfg n r'
  | add {r q r'} : Reachable cfg n r → Reachable cfg n q → r.addOp cfg q = .ok r' → Reachable cfg n r'
  | sub {r q r'} : Reachable cfg n r → Reachable cfg n q → r.subOp cfg q = .ok r' → Reachable cfg n r'
  | splitLeft {r q} {z : K} {d : ℕ} : Reachable cfg n r → r.splitAt z d = .ok q → Reachable cfg n q.1
  | splitRight {r q} {z : K} {d : ℕ} : Reachable cfg n r → r.splitAt z d = .ok q → Reachable cfg n q.2
  | splitMany {r p} {zs : List K} {d : ℕ} {l : List (RSpline K V)} : Reachable cfg n r → r.splitAtMany zs d = .ok l → p ∈ l → Reachable cfg n p
  | derivative {r r'} {orders : List ℕ} : Reachable cfg n r → r.derivativeSpline cfg orders = .ok r' → Reachable cfg n r'

/-- C78. Every rational spline a program can obtain is consistent: after any
construction and any sequence of mutators and operations, numerator and weight function
have the same degrees, and each has as many entries as its degrees require. -/
theorem C78_reachable (cfg : Cfg) (n : ℕ) (hn : 0 < n) (r : RSpline K V) (h : Reachable cfg n r) : RBookkeeping n r := by
  rw [← rgood_iff hn]
  induction h with
  | splines ha hb hr => exact RSpline.ofSplines_good ((good_iff hn).mpr ha) ((good_iff hn).mpr hb) hr
  | spline ha hr => exact RSpline.ofSpline_good ((good_iff hn).mpr ha) hr
  | degrees hl hr => subst hl; exact RSpline.ofDegrees_good hn hr
  | points hl hr => subst hl; exact RSpline.ofPoints_good hn hr
  | default hl hr =>
    exact RSpline.updateDegrees_good hn hl (by simp [RSpline.default, Spline.default])
      (by simp [RSpline.default, Spline.default]) hr
  | @mutate r r' m _ ht _ hr ih iho =>
    cases m with
    | assign rhs =>
      simp only [RMutator.apply, pure_eq_ok, Except.ok.injEq] at hr
      subst hr; exact iho _ rfl
    | updateDegrees ds =>
      have e1 := ih.1.1.off_len
      have e2 := ih.2.1.1.off_len
      exact RSpline.updateDegrees_good hn ht (e1.trans ih.1.2) (e2.trans ih.2.1.2) hr
    | orderElevate d => exact RSpline.orderElevate_good ih hr
    | scale c => exact RSpline.smulAssign_good ih hr
    | addPoint v => exact RSpline.addPointAssign_good ih hr
    | subPoint v => exact RSpline.subPointAssign_good ih hr
    | addAssign rhs => exact RSpline.addAssign_good hn ih (iho _ rfl) hr
    | subAssign rhs => exact RSpline.subAssign_good hn ih (iho _ rfl) hr
    | setWeightedControlPoint idx x =>
      obtain ⟨a, ha, hr⟩ := bind_eq_ok.mp hr
      simp only [pure_eq_ok, Except.ok.injEq] at hr
      subst hr
      have := Spline.setControlPoint_good ih.1 ha
      exact ⟨this.1, ih.2.1, this.2.trans ih.2.2⟩
    | setWeight idx w =>
      obtain ⟨a, ha, hr⟩ := bind_eq_ok.mp hr
      simp only [pure_eq_ok, Except.ok.injEq] at hr
      subst hr
      have := Spline.setControlPoint_good ih.2.1 ha
      exact ⟨ih.1, this.1, ih.2.2.trans this.2.symm⟩
    | setEntry i x =>
      obtain ⟨a, ha, hr⟩ := bind_eq_ok.mp hr
      simp only [pure_eq_ok, Except.ok.injEq] at hr
      subst hr
      exact ⟨⟨Spline.setCps_wf ih.1.1 (wr_len ha), ih.1.2⟩, ih.2⟩
    | setWeightEntry i w =>
      obtain ⟨a, ha, hr⟩ := bind_eq_ok.mp hr
      simp only [pure_eq_ok, Except.ok.injEq] at hr
      subst hr
      exact ⟨ih.1, ⟨Spline.setCps_wf ih.2.1.1 (wr_len ha), ih.2.1.2⟩, ih.2.2⟩
  | scaled _ hr ih => exact RSpline.smulOp_good ih hr
  | plusPoint _ hr ih => exact RSpline.addPoint_good ih hr
  | minusPoint _ hr ih => exact RSpline.subPoint_good ih hr
  | neg _ hr ih => exact RSpline.negOp_good ih hr
  | add _ _ hr ih ih' => exact RSpline.addOp_good hn ih ih' hr
  | sub _ _ hr ih ih' => exact RSpline.subOp_good hn ih ih' hr
  | splitLeft _ hr ih => exact (RSpline.splitAt_good ih hr).1
  | splitRight _ hr ih => exact (RSpline.splitAt_good ih hr).2
  | splitMany _ hr hp ih => exact RSpline.splitAtMany_good ih hr _ hp
  | derivative _ hr ih => exact RSpline.derivativeSpline_good hn ih hr

end

/-! ## Results of all operations, whatever the control point types -/

section
variable {K V W U : Type}

/-- C78. The constructors of polynomial splines return consistent splines of the given degrees. -/
theorem C78_construct [Zero V] (ds : List ℕ) (h : 0 < ds.length) (pts : List V) (s s' : Spline V)
    (h1 : Spline.ofDegrees ds = .ok s) (h2 : Spline.ofPoints ds pts = .ok s') :
    (Bookkeeping ds.length s ∧ s.degrees = ds) ∧ (Bookkeeping ds.length s' ∧ s'.degrees = ds ∧ s'.cps = pts) := by
  have g1 := Spline.good_ofDegrees h h1
  have g2 := Spline.good_ofPoints h h2
  refine ⟨⟨(good_iff h).mp g1.1, g1.2⟩, (good_iff h).mp g2.1, g2.2, ?_⟩
  unfold Spline.ofPoints at h2
  simp only [] at h2
  obtain ⟨_, _, h2⟩ := bind_eq_ok.mp h2
  obtain ⟨_, _, h2⟩ := bind_eq_ok.mp h2
  simp only [pure_eq_ok, Except.ok.injEq] at h2
  subst h2; rfl

/-- C78. The pieces of a polynomial spline are consistent splines of the same degrees. -/
theorem C78_split [LT K] [DecidableLT K] [Zero K] [One K] [Sub K] [Div K] [Add V] [SMul K V] (n : ℕ) (hn : 0 < n)
    (s : Spline V) (h : Bookkeeping n s) (sd : ℕ) :
    (∀ (z : K) q, s.splitAt z sd = .ok q → (Bookkeeping n q.1 ∧ q.1.degrees = s.degrees) ∧
      Bookkeeping n q.2 ∧ q.2.degrees = s.degrees) ∧
    (∀ (zs : List K) l, s.splitAtMany zs sd = .ok l → ∀ p ∈ l, Bookkeeping n p ∧ p.degrees = s.degrees) := by
  have g := (good_iff hn).mpr h
  refine ⟨fun z q hq => ?_, fun zs l hl p hp => ?_⟩
  · have := Spline.splitAt_good g hq
    exact ⟨⟨(good_iff hn).mp this.1.1, this.1.2⟩, (good_iff hn).mp this.2.1, this.2.2⟩
  · have := Spline.splitAtMany_good g hl p hp
    exact ⟨(good_iff hn).mp this.1, this.2⟩

/-- C78. Sums, differences and negations of polynomial splines are consistent; only the degrees of the operands have to
be of the right number. -/
theorem C78_sum [One K] [Sub K] [Mul K] [Div K] [NatCast K] [Zero V] [Add V] [Sub V] [Neg V] [SMul K V] (cfg : Cfg) (n : ℕ)
    (hn : 0 < n) (a b : Spline V) (ha : a.degrees.length = n) (hb : b.degrees.length = n) (x : V) :
    (∀ r, Spline.addOp K cfg a b = .ok r → Bookkeeping n r) ∧
    (∀ r, Spline.subOp K cfg a b = .ok r → Bookkeeping n r) ∧
    (Bookkeeping n a → ∀ r, a.negOp = .ok r → Bookkeeping n r ∧ r.degrees = a.degrees) ∧
    (Bookkeeping n a → ∀ r, Spline.pointSub x a = .ok r → Bookkeeping n r ∧ r.degrees = a.degrees) :=
  ⟨fun _ hr => (good_iff hn).mp (Spline.addOp_good hn ha hb hr),
   fun _ hr => (good_iff hn).mp (Spline.subOp_good hn ha hr),
   fun h _ hr => ⟨(good_iff hn).mp (Spline.negOp_good ((good_iff hn).mpr h) hr).1, (Spline.negOp_good ((good_iff hn).mpr h) hr).2⟩,
   fun h _ hr => ⟨(good_iff hn).mp (Spline.pointSub_good ((good_iff hn).mpr h) hr).1,
    (Spline.pointSub_good ((good_iff hn).mpr h) hr).2⟩⟩

/-- C78. Products of polynomial and of rational splines are consistent, and degrees add. -/
theorem C78_product [Zero K] [One K] [Add K] [Mul K] [Div K] [NatCast K] [Zero U] [Add U] [SMul K U] (cfg : Cfg)
    (mul : V → W → U) (n : ℕ) (hn : 0 < n) :
    (∀ (a : Spline V) (b : Spline W) r, a.degrees.length = n → b.degrees.length = n →
      Spline.mulOp K cfg mul a b = .ok r → Bookkeeping n r ∧ r.degrees = List.zipWith (· + ·) a.degrees b.degrees) ∧
    (∀ (a : RSpline K V) (b : RSpline K W) r, RBookkeeping n a → RBookkeeping n b →
      a.mulOp cfg mul b = .ok r → RBookkeeping n r) ∧
    (∀ (a : Spline K) (k : ℕ) r, Bookkeeping n a → a.raisePower cfg k = .ok r → Bookkeeping n r) :=
  ⟨fun _ _ _ ha hb hr => ⟨(good_iff hn).mp (Spline.mulOp_good hn ha hb hr).1, (Spline.mulOp_good hn ha hb hr).2⟩,
   fun _ _ _ ha hb hr => (rgood_iff hn).mp (RSpline.mulOp_good hn ((rgood_iff hn).mpr ha) ((rgood_iff hn).mpr hb) hr),
   fun _ _ _ ha hr => (good_iff hn).mp (Spline.raisePower_good hn ((good_iff hn).mpr ha) hr)⟩

/-- C78. Coordinate splines are consistent and have the degrees of the spline. -/
theorem C78_extract [Zero K] [Coords K V] (n : ℕ) (hn : 0 < n) (s : Spline V) (h : s.degrees.length = n) (d : ℕ)
    (r : Spline K) (hr : Spline.extractDimension K s d = .ok r) : Bookkeeping n r ∧ r.degrees = s.degrees :=
  ⟨(good_iff hn).mp (Spline.extractDimension_good hn h hr).1, (Spline.extractDimension_good hn h hr).2⟩

/-- C78. Compositions and their sensitivities are consistent, of the parametric dimension of the inner function. -/
theorem C78_compose [Zero K] [One K] [Add K] [Sub K] [Mul K] [Neg K] [Div K] [NatCast K] [BEq K] [LT K]
    [DecidableLT K] [Coords K W] [ScalarDiv K W] [Zero V] [Add V] [SMul K V] (cfg : Cfg) (n : ℕ) (hn : 0 < n)
    (s : Spline V) (r : RSpline K V) (i : Spline W) (hi : i.degrees.length = n) (ri : RSpline K W) (hri : RBookkeeping n ri) :
    (∀ q, Spline.compose K cfg s i = .ok q → Bookkeeping n q) ∧
    (∀ l, Spline.composeSensitivity K cfg s i = .ok l → ∀ q ∈ l, Bookkeeping n q) ∧
    (∀ q, s.composeRational cfg ri = .ok q → RBookkeeping n q) ∧
    (∀ l, s.composeSensitivityRational cfg ri = .ok l → ∀ q ∈ l, RBookkeeping n q) ∧
    (∀ q, r.compose cfg i = .ok q → RBookkeeping n q) ∧
    (∀ l, r.composeSensitivity cfg i = .ok l → ∀ q ∈ l, RBookkeeping n q) ∧
    (∀ q, r.composeRational cfg ri = .ok q → RBookkeeping n q) ∧
    (∀ l, r.composeSensitivityRational cfg ri = .ok l → ∀ q ∈ l, RBookkeeping n q) := by
  have g := (rgood_iff hn).mpr hri
  exact ⟨fun q hq => (good_iff hn).mp (Spline.compose_good hn hi hq),
    fun l hl q hq => (good_iff hn).mp (Spline.composeSensitivity_good hn hi hl q hq),
    fun q hq => (rgood_iff hn).mp (Spline.composeRational_good hn g hq),
    fun l hl q hq => (rgood_iff hn).mp (Spline.composeSensitivityRational_good hn g hl q hq),
    fun q hq => (rgood_iff hn).mp (RSpline.compose_good hn hi hq),
    fun l hl q hq => (rgood_iff hn).mp (RSpline.composeSensitivity_good hn hi hl q hq),
    fun q hq => (rgood_iff hn).mp (RSpline.composeRational_good hn g hq),
    fun l hl q hq => (rgood_iff hn).mp (RSpline.composeSensitivityRational_good hn g hl q hq)⟩

/-- C78. A default constructed rational spline is not consistent. -/
theorem C78_default_violates [Zero V] [Add V] [Sub V] [Neg V] (n : ℕ) : ¬ RBookkeeping n (RSpline.default n : RSpline K V) := fun h =>
  C06_default_violates n h.numerator

end

/-- a program over rational splines: construct, elevate, change a weight, add the spline to itself, subtract a point, and
take a piece; every object on the way is reachable -/
example : ∃ r : RSpline ℚ ℚ, Reachable Ex.cfg 1 r ∧ r.num.degrees = [2] ∧ r.wt.cps = [1, 7 / 4, 2] := by
  have h0 : (RSpline.ofPoints [1] [(1 : ℚ), 5] [(1 : ℚ), 2] : M (RSpline ℚ ℚ)) =
      .ok ⟨⟨[1], 2, [1], [1, 10]⟩, ⟨[1], 2, [1], [1, 2]⟩⟩ := by decide +kernel
  have r0 := Reachable.points (cfg := Ex.cfg) (n := 1) rfl h0
  have h1 : (RMutator.orderElevate (K := ℚ) (V := ℚ) 0).apply Ex.cfg ⟨⟨[1], 2, [1], [1, 10]⟩, ⟨[1], 2, [1], [1, 2]⟩⟩ =
      .ok ⟨⟨[2], 3, [1], [1, 11 / 2, 10]⟩, ⟨[2], 3, [1], [1, 3 / 2, 2]⟩⟩ := by decide +kernel
  have r1 := Reachable.mutate (m := .orderElevate 0) r0 trivial (fun q hq => by cases hq) h1
  have h2 : (RMutator.setWeight (K := ℚ) (V := ℚ) [1] (5 / 2)).apply Ex.cfg
      ⟨⟨[2], 3, [1], [1, 11 / 2, 10]⟩, ⟨[2], 3, [1], [1, 3 / 2, 2]⟩⟩ =
      .ok ⟨⟨[2], 3, [1], [1, 11 / 2, 10]⟩, ⟨[2], 3, [1], [1, 5 / 2, 2]⟩⟩ := by decide +kernel
  have r2 := Reachable.mutate (m := .setWeight [1] (5 / 2)) r1 rfl (fun q hq => by cases hq) h2
  have h3 : (RMutator.addAssign (K := ℚ) (V := ℚ) ⟨⟨[2], 3, [1], [1, 11 / 2, 10]⟩, ⟨[2], 3, [1], [1, 5 / 2, 2]⟩⟩).apply Ex.cfg
      ⟨⟨[2], 3, [1], [1, 11 / 2, 10]⟩, ⟨[2], 3, [1], [1, 5 / 2, 2]⟩⟩ =
      .ok ⟨⟨[2], 3, [1], [2, 11, 20]⟩, ⟨[2], 3, [1], [1, 5 / 2, 2]⟩⟩ := by decide +kernel
  have r3 := Reachable.mutate (m := .addAssign _) r2 trivial (fun q hq => by cases hq; exact r2) h3
  obtain ⟨q, hq, h4, h5⟩ : ∃ q : RSpline ℚ ℚ × RSpline ℚ ℚ,
      RSpline.splitAt (⟨⟨[2], 3, [1], [2, 11, 20]⟩, ⟨[2], 3, [1], [1, 5 / 2, 2]⟩⟩ : RSpline ℚ ℚ) (1 / 2) 0 = .ok q ∧
      q.1.num.degrees = [2] ∧ q.1.wt.cps = [1, 7 / 4, 2] := by
    refine ⟨(⟨⟨[2], 3, [1], [2, 13 / 2, 11]⟩, ⟨[2], 3, [1], [1, 7 / 4, 2]⟩⟩,
      ⟨⟨[2], 3, [1], [11, 31 / 2, 20]⟩, ⟨[2], 3, [1], [2, 9 / 4, 2]⟩⟩), ?_, rfl, rfl⟩
    decide +kernel
  exact ⟨q.1, Reachable.splitLeft r3 hq, h4, h5⟩

/-- a product that returns -/
example : ∃ p : Spline ℚ,
    Spline.mulOp ℚ Ex.cfg (fun a b : ℚ => a * b) ⟨[1], 2, [1], [1, 2]⟩ ⟨[2], 3, [1], [3, 4, 0]⟩ = .ok p ∧
    Bookkeeping 1 p ∧ p.degrees = [3] := by
  have h1 : Spline.mulOp ℚ Ex.cfg (fun a b : ℚ => a * b) ⟨[1], 2, [1], [1, 2]⟩ ⟨[2], 3, [1], [3, 4, 0]⟩ =
    .ok ⟨[3], 4, [1], [3, 14 / 3, 8 / 3 + 8 / 3, 0]⟩ := by decide +kernel
  exact ⟨_, h1, (C78_product Ex.cfg _ 1 (by omega)).1 _ _ _ rfl rfl h1⟩

/-- a difference that returns -/
example : ∃ e : Spline ℚ,
    Spline.subOp ℚ Ex.cfg (⟨[2], 3, [1], [1, 5, 2]⟩ : Spline ℚ) ⟨[1], 2, [1], [0, 1 / 2]⟩ = .ok e ∧ Bookkeeping 1 e := by
  have h3 : Spline.subOp ℚ Ex.cfg (⟨[2], 3, [1], [1, 5, 2]⟩ : Spline ℚ) ⟨[1], 2, [1], [0, 1 / 2]⟩ =
    .ok ⟨[2], 3, [1], [1, 19 / 4, 3 / 2]⟩ := by decide +kernel
  exact ⟨_, h3, (C78_sum (K := ℚ) Ex.cfg 1 (by omega) ⟨[2], 3, [1], [1, 5, 2]⟩ ⟨[1], 2, [1], [0, 1 / 2]⟩ rfl rfl 0).2.1 _ h3⟩

/-- pieces -/
example : ∃ l : List (Spline ℚ),
    Spline.splitAtMany (⟨[1], 2, [1], [0, 6]⟩ : Spline ℚ) [(1 / 3 : ℚ), 1 / 2] 0 = .ok l ∧ l.length = 3 := by
  have h4 : Spline.splitAtMany (⟨[1], 2, [1], [0, 6]⟩ : Spline ℚ) [(1 / 3 : ℚ), 1 / 2] 0 =
    .ok [⟨[1], 2, [1], [0, 2]⟩, ⟨[1], 2, [1], [2, 3]⟩, ⟨[1], 2, [1], [3, 6]⟩] := by decide +kernel
  exact ⟨_, h4, rfl⟩

/-- a composition with a rational spline that returns -/
example : ∃ q : RSpline ℚ ℚ, (⟨[1], 2, [1], [1, 2]⟩ : Spline ℚ).composeRational Ex.cfg
      (⟨⟨[1], 2, [1], [0, 1]⟩, ⟨[1], 2, [1], [2, 1]⟩⟩ : RSpline ℚ ℚ) = .ok q ∧ RBookkeeping 1 q := by
  have h5 : (⟨[1], 2, [1], [1, 2]⟩ : Spline ℚ).composeRational Ex.cfg
      (⟨⟨[1], 2, [1], [0, 1]⟩, ⟨[1], 2, [1], [2, 1]⟩⟩ : RSpline ℚ ℚ) =
      .ok ⟨⟨[1], 2, [1], [2, 2]⟩, ⟨[1], 2, [1], [2, 1]⟩⟩ := by decide +kernel
  have hw : RBookkeeping 1 (⟨⟨[1], 2, [1], [0, 1]⟩, ⟨[1], 2, [1], [2, 1]⟩⟩ : RSpline ℚ ℚ) :=
    (rgood_iff (by omega)).mp ⟨⟨⟨by decide, rfl, rfl, rfl⟩, rfl⟩, ⟨⟨by decide, rfl, rfl, rfl⟩, rfl⟩, rfl⟩
  exact ⟨_, h5, (C78_compose (K := ℚ) (V := ℚ) (W := ℚ) Ex.cfg 1 (by omega) ⟨[1], 2, [1], [1, 2]⟩
    ⟨⟨[1], 2, [1], [0, 1]⟩, ⟨[1], 2, [1], [2, 1]⟩⟩ ⟨[1], 2, [1], [0, 1 / 2]⟩ rfl _ hw).2.2.1 _ h5⟩

end Bezman.Props
