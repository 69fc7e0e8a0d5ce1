import Verif.Proofs.ParamExpr

set_option linter.unusedSectionVars false

/-! # Every operation on rational splines runs in lockstep -/

namespace Bezman

/-- Equality tests of the two scalar types agree. -/
class ParEq (K K' : Type) [Par K K'] [BEq K] [BEq K'] : Prop where
  eq : ∀ {a b : K} {a' b' : K'}, a ≋ a' → b ≋ b' → (a == b) = (a' == b')

/-- Tests for a zero denominator agree, unless a division by zero is tolerated. -/
class ParZero (tol : Err → Bool) (K K' : Type) [Par K K'] [BEq K] [BEq K'] [Zero K] [Zero K'] : Prop where
  zero : tol .divZero = false → ∀ {a : K} {a' : K'}, a ≋ a' → (a == 0) = (a' == 0)

/-- Divisions of points by scalars correspond. -/
class ParDiv (K K' V V' : Type) [Par K K'] [Par V V'] [Zero K] [Zero K'] [BEq K] [BEq K'] [ScalarDiv K V] [ScalarDiv K' V'] : Prop where
  sdiv : ∀ {x : V} {w : K} {x' : V'} {w' : K'}, x ≋ x' → w ≋ w' → ¬ (w == 0) = true → ¬ (w' == 0) = true → ScalarDiv.sdiv x w ≋ ScalarDiv.sdiv x' w'

section
variable {tol : Err → Bool} {K K' V V' W W' U U' : Type} [Par K K'] [Par V V'] [Par W W'] [Par U U']

theorem introRSpline {p : RSpline K V → RSpline K' V' → Prop} (h : ∀ a a', a ≋ a' → ∀ b b', b ≋ b' → p ⟨a, b⟩ ⟨a', b'⟩)
    (r : RSpline K V) (r' : RSpline K' V') (hr : r ≋ r') : p r r' := h _ _ hr.1 _ _ hr.2

theorem parRMk {a : Spline V} {a' : Spline V'} (h : a ≋ a') {b : Spline K} {b' : Spline K'} (h' : b ≋ b') :
    (⟨a, b⟩ : RSpline K V) ≋ (⟨a', b'⟩ : RSpline K' V') := ⟨h, h'⟩

theorem parEqOp [BEq K] [BEq K'] [he : ParEq K K'] {s t : Spline K} {s' t' : Spline K'} (h : s ≋ s') (ht : t ≋ t') :
    s.eqOp t = s'.eqOp t' := by
  have key : ∀ {l m : List K} {l' m' : List K'}, List.Forall₂ Par.r l l' → List.Forall₂ Par.r m m' → (l == m) = (l' == m') := by
    intro l m l' m' hl
    induction hl generalizing m m' with
    | nil => intro hm; cases hm <;> rfl
    | cons h1 _ ih =>
      intro hm
      cases hm with
      | nil => rfl
      | cons h2 h3 => simp only [List.cons_beq_cons, he.eq h1 h2, ih h3]
  unfold Spline.eqOp
  rw [h.1, ht.1]
  split
  · exact key ht.2.2.2 h.2.2.2
  · rfl

theorem parDivM [Zero K] [Zero K'] [BEq K] [BEq K'] [ScalarDiv K V] [ScalarDiv K' V'] 
    [he : ParZero tol K K'] [hd : ParDiv K K' V V'] {x : V} {x' : V'} (hx : x ≋ x') {w : K} {w' : K'} (hw : w ≋ w') :
    RelM tol (divM x w) (divM x' w') := by
  unfold divM
  by_cases h : (w == 0) = true <;> by_cases h' : (w' == 0) = true
  · rw [if_pos h, if_pos h']; exact RelM.err _
  · rw [if_pos h, if_neg h']
    cases ht : tol .divZero
    · exact absurd ((he.zero ht hw).symm.trans h) h'
    · exact RelM.left _ _ ht
  · rw [if_neg h, if_pos h']
    cases ht : tol .divZero
    · exact absurd ((he.zero ht hw).trans h') h
    · exact RelM.right _ _ ht
  · rw [if_neg h, if_neg h']; exact RelM.ok (hd.sdiv hx hw h h')

namespace RSpline

theorem parCompatible {r : RSpline K V} {r' : RSpline K' V'} (h : r ≋ r') : r.compatible = r'.compatible := by
  unfold compatible; rw [h.1.1, h.2.1]

theorem parOfSplines {a : Spline V} {a' : Spline V'} (h : a ≋ a') {b : Spline K} {b' : Spline K'} (h' : b ≋ b') :
    RelM tol (ofSplines a b) (ofSplines a' b') := by
  unfold ofSplines
  rw [parCompatible (parRMk h h')]
  exact RelM.bind (RelM.unit _) (introUnit (RelM.ok (parRMk h h')))

variable
  [Zero K] [One K] [Add K] [Sub K] [Mul K] [Neg K] [Div K] [NatCast K]
  [Zero K'] [One K'] [Add K'] [Sub K'] [Mul K'] [Neg K'] [Div K'] [NatCast K']
  [hk : ParScalar K K']
  [Zero V] [Add V] [Sub V] [Neg V] [SMul K V] [Zero V'] [Add V'] [Sub V'] [Neg V'] [SMul K' V'] [hp : ParPoint K K' V V']
  [Zero U] [Add U] [Sub U] [Neg U] [SMul K U] [Zero U'] [Add U'] [Sub U'] [Neg U'] [SMul K' U'] [hu : ParPoint K K' U U']

theorem parOfSpline {s : Spline V} {s' : Spline V'} (h : s ≋ s') : RelM tol (ofSpline (K := K) s) (ofSpline (K := K') s') := by
  unfold ofSpline
  rw [h.1, h.2.1]
  refine RelM.bind (Spline.parOfPoints _ (parReplicate hk.one _)) fun w w' hw => ?_
  rw [parCompatible (parRMk h hw)]
  exact RelM.bind (RelM.unit _) (introUnit (RelM.ok (parRMk h hw)))

theorem parROfDegrees (ds : List Nat) : RelM tol (ofDegrees (K := K) (V := V) ds) (ofDegrees (K := K') (V := V') ds) := by
  unfold ofDegrees
  exact RelM.bind (Spline.parOfDegrees (ParPoint.zero K K') _) fun a a' ha => RelM.bind (Spline.parOfDegrees hk.zero _) fun b b' hb =>
    RelM.ok (parRMk ha hb)

theorem parROfPoints (ds : List Nat) {l : List V} {l' : List V'} (hl : l ≋ l') {w : List K} {w' : List K'} (hw : w ≋ w') :
    RelM tol (ofPoints ds l w) (ofPoints ds l' w') := by
  unfold ofPoints
  rw [List.Forall₂.length_eq hl, List.Forall₂.length_eq hw]
  refine RelM.bind (Spline.parOfDegrees (ParPoint.zero K K') _) (introSpline fun d n o c c' hc => RelM.bind (Spline.parOfPoints _ hw) fun b b' hb => ?_)
  refine RelM.bind (RelM.unit _) (introUnit (RelM.bind (RelM.unit _) (introUnit ?_)))
  have hl' : c.length = c'.length := List.Forall₂.length_eq hc
  simp only [hl']
  refine RelM.bind (RelM.loop hc fun i m m' hm => ?_) fun m m' hm => ?_
  · exact RelM.bind (RelM.rd hl i) fun x x' hx => RelM.bind (RelM.rd hw i) fun y y' hy => RelM.wr hm i (hp.smul hy hx)
  · rw [parCompatible (parRMk (parMk d n o hm) hb)]
    exact RelM.bind (RelM.unit _) (introUnit (RelM.ok (parRMk (parMk d n o hm) hb)))

theorem parRUpdateDegrees {r : RSpline K V} {r' : RSpline K' V'} (h : r ≋ r') (ds : List Nat) :
    RelM tol (r.updateDegrees ds) (r'.updateDegrees ds) := by
  unfold updateDegrees
  refine RelM.bind (Spline.parUpdateDegrees hk.zero h.2 _) fun a a' ha =>
    RelM.bind (Spline.parUpdateDegrees (ParPoint.zero K K') h.1 _) fun b b' hb => ?_
  rw [parCompatible (parRMk hb ha)]
  exact RelM.bind (RelM.unit _) (introUnit (RelM.ok (parRMk hb ha)))

theorem parROrderElevate {r : RSpline K V} {r' : RSpline K' V'} (h : r ≋ r') (d : Nat) : RelM tol (r.orderElevate d) (r'.orderElevate d) := by
  unfold orderElevate
  refine RelM.bind (Spline.parOrderElevate h.1 d) fun a a' ha => RelM.bind (Spline.parOrderElevate h.2 d) fun b b' hb => ?_
  rw [parCompatible (parRMk ha hb)]
  exact RelM.bind (RelM.unit _) (introUnit (RelM.ok (parRMk ha hb)))

theorem parRSmulOp {r : RSpline K V} {r' : RSpline K' V'} (h : r ≋ r') {c : K} {c' : K'} (hc : c ≋ c') :
    RelM tol (r.smulOp c) (r'.smulOp c') := by
  unfold smulOp
  exact RelM.bind (Spline.parSmulOp h.1 hc) fun a a' ha => parOfSplines ha h.2

theorem parRSmulAssign {r : RSpline K V} {r' : RSpline K' V'} (h : r ≋ r') {c : K} {c' : K'} (hc : c ≋ c') :
    RelM tol (r.smulAssign c) (r'.smulAssign c') := by
  unfold smulAssign
  refine RelM.bind (Spline.parSmulOp h.1 hc) fun a a' ha => ?_
  rw [parCompatible (parRMk ha h.2)]
  exact RelM.bind (RelM.unit _) (introUnit (RelM.ok (parRMk ha h.2)))

theorem parRAddPointAssign {r : RSpline K V} {r' : RSpline K' V'} (h : r ≋ r') {v : V} {v' : V'} (hv : v ≋ v') :
    RelM tol (r.addPointAssign v) (r'.addPointAssign v') := by
  obtain ⟨s, w⟩ := r
  obtain ⟨s', w'⟩ := r'
  obtain ⟨d, n, o, c, c', rfl, rfl, hc⟩ := splineCases (h.1 : s ≋ s')
  unfold addPointAssign
  refine RelM.bind (RelM.loop hc fun i m m' hm => ?_) fun m m' hm => ?_
  · exact RelM.bind (RelM.rd hm i) fun x x' hx => RelM.bind (RelM.rd h.2.2.2.2 i) fun y y' hy => RelM.wr hm i (hp.add hx (hp.smul hy hv))
  · exact parOfSplines (parMk d n o hm) h.2

theorem parRSubPointAssign {r : RSpline K V} {r' : RSpline K' V'} (h : r ≋ r') {v : V} {v' : V'} (hv : v ≋ v') :
    RelM tol (r.subPointAssign v) (r'.subPointAssign v') := by
  obtain ⟨s, w⟩ := r
  obtain ⟨s', w'⟩ := r'
  obtain ⟨d, n, o, c, c', rfl, rfl, hc⟩ := splineCases (h.1 : s ≋ s')
  unfold subPointAssign
  refine RelM.bind (RelM.loop hc fun i m m' hm => ?_) fun m m' hm => RelM.ok (parRMk (parMk d n o hm) h.2)
  exact RelM.bind (RelM.rd hm i) fun x x' hx => RelM.bind (RelM.rd h.2.2.2.2 i) fun y y' hy => RelM.wr hm i (hp.sub hx (hp.smul hy hv))

theorem parRAddPoint {r : RSpline K V} {r' : RSpline K' V'} (h : r ≋ r') {v : V} {v' : V'} (hv : v ≋ v') :
    RelM tol (r.addPoint v) (r'.addPoint v') :=
  RelM.bind (parOfSplines h.1 h.2) fun _ _ h => parRAddPointAssign h hv

theorem parRSubPoint {r : RSpline K V} {r' : RSpline K' V'} (h : r ≋ r') {v : V} {v' : V'} (hv : v ≋ v') :
    RelM tol (r.subPoint v) (r'.subPoint v') :=
  RelM.bind (parOfSplines h.1 h.2) fun _ _ h => parRSubPointAssign h hv

include hp in
theorem parRNegOp {r : RSpline K V} {r' : RSpline K' V'} (h : r ≋ r') : RelM tol r.negOp r'.negOp := by
  unfold negOp
  exact RelM.bind (Spline.parNegOp (K := K) (K' := K') h.1) fun a a' ha => parOfSplines ha h.2

theorem parMulWeight (cfg : Cfg) {w : Spline K} {w' : Spline K'} (hw : w ≋ w') {s : Spline V} {s' : Spline V'} (h : s ≋ s') :
    RelM tol (mulWeight cfg w s) (mulWeight cfg w' s') := Spline.parMulOp cfg (fun _ _ _ _ ha hb => ParPoint.smul ha hb) hw h

theorem parMulWeight' (cfg : Cfg) {w : Spline K} {w' : Spline K'} (hw : w ≋ w') {s : Spline V} {s' : Spline V'} (h : s ≋ s') :
    RelM tol (mulWeight' cfg s w) (mulWeight' cfg s' w') := Spline.parMulOp cfg (fun _ _ _ _ ha hb => ParPoint.smul hb ha) h hw

theorem parRMulOp (cfg : Cfg) {mul : V → W → U} {mul' : V' → W' → U'} (hm : ∀ a a' b b', a ≋ a' → b ≋ b' → mul a b ≋ mul' a' b')
    {r : RSpline K V} {r' : RSpline K' V'} (h : r ≋ r') {q : RSpline K W} {q' : RSpline K' W'} (hq : q ≋ q') :
    RelM tol (mulOp cfg mul r q) (mulOp cfg mul' r' q') := by
  unfold mulOp
  exact RelM.bind (Spline.parMulOp cfg hm h.1 hq.1) fun a a' ha => RelM.bind (Spline.parMulScalar cfg h.2 hq.2) fun b b' hb => parOfSplines ha hb

section
variable [BEq K] [BEq K']

theorem parRAddOp (cfg : Cfg) {r q : RSpline K V} {r' q' : RSpline K' V'} (h : r ≋ r') (hq : q ≋ q') (heq : r.wt.eqOp q.wt = r'.wt.eqOp q'.wt) :
    RelM tol (addOp cfg r q) (addOp cfg r' q') := by
  unfold addOp
  rw [heq]
  refine RelM.ite (fun _ => RelM.bind (Spline.parAddOp cfg h.1 hq.1) fun a a' ha => parOfSplines ha h.2) fun _ => ?_
  exact RelM.bind (parMulWeight' cfg hq.2 h.1) fun a a' ha => RelM.bind (parMulWeight cfg h.2 hq.1) fun b b' hb =>
    RelM.bind (Spline.parAddOp cfg ha hb) fun c c' hc => RelM.bind (Spline.parMulScalar cfg h.2 hq.2) fun d d' hd => parOfSplines hc hd

theorem parRSubOp (cfg : Cfg) {r q : RSpline K V} {r' q' : RSpline K' V'} (h : r ≋ r') (hq : q ≋ q') (heq : r.wt.eqOp q.wt = r'.wt.eqOp q'.wt) :
    RelM tol (subOp cfg r q) (subOp cfg r' q') := by
  unfold subOp
  rw [heq]
  refine RelM.ite (fun _ => RelM.bind (Spline.parSubOp cfg h.1 hq.1) fun a a' ha => parOfSplines ha h.2) fun _ => ?_
  exact RelM.bind (parMulWeight' cfg hq.2 h.1) fun a a' ha => RelM.bind (parMulWeight cfg h.2 hq.1) fun b b' hb =>
    RelM.bind (Spline.parSubOp cfg ha hb) fun c c' hc => RelM.bind (Spline.parMulScalar cfg h.2 hq.2) fun d d' hd => parOfSplines hc hd

theorem parRAddAssign (cfg : Cfg) {r q : RSpline K V} {r' q' : RSpline K' V'} (h : r ≋ r') (hq : q ≋ q') (heq : r.wt.eqOp q.wt = r'.wt.eqOp q'.wt) :
    RelM tol (addAssign cfg r q) (addAssign cfg r' q') := by
  unfold addAssign
  rw [heq]
  refine RelM.ite (fun _ => RelM.bind (Spline.parAddAssign cfg h.1 hq.1) fun a a' ha => RelM.ok (parRMk ha h.2)) fun _ => ?_
  exact RelM.bind (parMulWeight' cfg hq.2 h.1) fun a a' ha => RelM.bind (parMulWeight cfg h.2 hq.1) fun b b' hb =>
    RelM.bind (Spline.parAddAssign cfg ha hb) fun c c' hc => RelM.bind (Spline.parMulScalar cfg h.2 hq.2) fun d d' hd => parOfSplines hc hd

theorem parRSubAssign (cfg : Cfg) {r q : RSpline K V} {r' q' : RSpline K' V'} (h : r ≋ r') (hq : q ≋ q') (heq : r.wt.eqOp q.wt = r'.wt.eqOp q'.wt) :
    RelM tol (subAssign cfg r q) (subAssign cfg r' q') := by
  unfold subAssign
  rw [heq]
  refine RelM.ite (fun _ => RelM.bind (Spline.parSubAssign cfg h.1 hq.1) fun a a' ha => RelM.ok (parRMk ha h.2)) fun _ => ?_
  exact RelM.bind (parMulWeight' cfg hq.2 h.1) fun a a' ha => RelM.bind (parMulWeight cfg h.2 hq.1) fun b b' hb =>
    RelM.bind (Spline.parSubAssign cfg ha hb) fun c c' hc => RelM.bind (Spline.parMulScalar cfg h.2 hq.2) fun d d' hd => parOfSplines hc hd

variable [he : ParZero tol K K']

theorem parREvaluate [ScalarDiv K V] [ScalarDiv K' V'] [ParDiv K K' V V'] {r : RSpline K V} {r' : RSpline K' V'} (h : r ≋ r') {t : List K}
    {t' : List K'} (ht : t ≋ t') : RelM tol (r.evaluate t) (r'.evaluate t') := by
  unfold evaluate
  exact RelM.bind (Spline.parEvaluate h.1 ht) fun x x' hx => RelM.bind (Spline.parEvaluate h.2 ht) fun w w' hw => parDivM hx hw

theorem parRControlPoint [ScalarDiv K V] [ScalarDiv K' V'] [ParDiv K K' V V'] {r : RSpline K V} {r' : RSpline K' V'} (h : r ≋ r')
    (idx : List Nat) : RelM tol (r.controlPoint idx) (r'.controlPoint idx) := by
  unfold controlPoint
  exact RelM.bind (Spline.parControlPoint h.1 _) fun x x' hx => RelM.bind (Spline.parControlPoint h.2 _) fun w w' hw => parDivM hx hw

end

theorem parDerivativeStep (cfg : Cfg) {r : RSpline K V} {r' : RSpline K' V'} (h : r ≋ r') (d : Nat) :
    RelM tol (derivativeStep cfg r d) (derivativeStep cfg r' d) := by
  have hd : r.dim = r'.dim := congrArg List.length h.1.1
  unfold derivativeStep
  rw [hd]
  refine RelM.bind (RelM.listNat _) (introListNat fun ord => ?_)
  exact RelM.bind (Spline.parDerivativeSpline cfg h.1 _) fun du du' hdu => RelM.bind (parMulWeight' cfg h.2 hdu) fun a a' ha =>
    RelM.bind (Spline.parDerivativeSpline cfg h.2 _) fun dw dw' hdw => RelM.bind (parMulWeight cfg hdw h.1) fun b b' hb =>
    RelM.bind (Spline.parSubOp cfg ha hb) fun c c' hc => RelM.bind (Spline.parOrderElevate hc d) fun n n' hn =>
    RelM.bind (Spline.parMulScalar cfg h.2 h.2) fun w w' hw => parOfSplines hn hw

theorem parRDerivativeSpline (cfg : Cfg) {r : RSpline K V} {r' : RSpline K' V'} (h : r ≋ r') (orders : List Nat) :
    RelM tol (derivativeSpline cfg r orders) (derivativeSpline cfg r' orders) := by
  have hd : r.dim = r'.dim := congrArg List.length h.1.1
  unfold derivativeSpline
  rw [hd]
  exact RelM.loop h fun d r r' h => RelM.bind (RelM.nat _) (introNat fun o => RelM.loop h fun _ r r' h => parDerivativeStep cfg h d)

section
variable [LT K] [DecidableLT K] [LT K'] [DecidableLT K'] [ho : ParOrd tol K K']

theorem parRSplitAt {r : RSpline K V} {r' : RSpline K' V'} (h : r ≋ r') {z : K} {z' : K'} (hz : z ≋ z') (d : Nat) :
    RelM tol (r.splitAt z d) (r'.splitAt z' d) := by
  unfold splitAt
  exact RelM.bind (Spline.parSplitAt h.1 hz d) fun n n' hn => RelM.bind (Spline.parSplitAt h.2 hz d) fun w w' hw =>
    RelM.bind (parOfSplines hn.1 hw.1) fun a a' ha => RelM.bind (parOfSplines hn.2 hw.2) fun b b' hb => RelM.ok (parPair ha hb)

theorem parRSplitAtMany {r : RSpline K V} {r' : RSpline K' V'} (h : r ≋ r') {zs : List K} {zs' : List K'} (hz : Spline.ParPlanes zs zs')
    (d : Nat) : RelM tol (r.splitAtMany zs d) (r'.splitAtMany zs' d) := by
  have hl := List.Forall₂.length_eq hz.1
  unfold splitAtMany
  refine RelM.guard (fun ht => by rw [Spline.parIsSorted ht hz.1]) fun _ _ => ?_
  rw [hl]
  refine RelM.ite (fun _ => RelM.ok (parSingle h)) fun _ => ?_
  refine RelM.bind (RelM.rd hz.1 0) fun z z' hzz => RelM.bind (parRSplitAt h hzz d) (introProd fun a a' ha b b' hb => ?_)
  refine RelM.bind (RelM.loopFrom' (parPair (parSingle ha) (parPair ha hb)) fun i q q' hi hq => ?_)
    (introProd fun l l' hl => introProd fun a a' ha b b' hb => RelM.ok (parAppend hl (parSingle hb)))
  obtain ⟨l, a, b⟩ := q
  obtain ⟨l', a', b'⟩ := q'
  obtain ⟨hl, ha, hb⟩ := hq
  refine RelM.bindRd hz.1 _ fun z z' h1 h1' _ => RelM.bindRd hz.1 _ fun zp zp' h2 h2' _ => ?_
  obtain ⟨j, rfl⟩ : ∃ j, i = j + 1 := ⟨i - 1, by omega⟩
  refine RelM.bind (parRSplitAt hb (hz.2 j _ _ _ _ h1 h2 h1' h2') d) (introProd fun a a' ha b b' hb => ?_)
  exact RelM.ok (parPair (parAppend hl (parSingle ha)) (parPair ha hb))

variable [BEq K] [BEq K'] [he : ParZero tol K K'] [Coords K W] [Coords K' W'] [hw : ParCoords K K' W W'] [ScalarDiv K W]
  [ScalarDiv K' W']

omit ho in
theorem parRCorner [hd : ParDiv K K' W W'] {pick : K → K → K} {pick' : K' → K' → K'} (hpick : ∀ a a' b b', a ≋ a' → b ≋ b' → pick a b ≋ pick' a' b')
    {r : RSpline K W} {r' : RSpline K' W'} (h : r ≋ r') : RelM tol (corner pick r) (corner pick' r') := by
  unfold corner
  rw [h.1.2.1]
  refine RelM.ite (fun _ => RelM.err _) fun _ => RelM.bind (Spline.parLocalToGlobal h.2 0) (introListNat fun idx => ?_)
  refine RelM.bind (RelM.bind (Spline.parControlPoint h.1 _) fun x x' hx => RelM.bind (Spline.parControlPoint h.2 _) fun w w' hw => parDivM hx hw)
    fun m m' hm => RelM.loopFrom hm fun i m m' hm => ?_
  refine RelM.bind (RelM.rd h.1.2.2.2 _) fun x x' hx => RelM.bind (RelM.rd h.2.2.2.2 _) fun w w' hw' => RelM.bind (parDivM hx hw') fun c c' hc => ?_
  exact RelM.ok (hw.ofCoords fun j hj hj' => hpick _ _ _ _ (hw.coord hm j hj hj') (hw.coord hc j hj hj'))

omit ho in
theorem parRFits [hd : ParDiv K K' W W'] (hlt : ∀ {a b : K} {a' b' : K'}, a ≋ a' → b ≋ b' → (a < b ↔ a' < b')) {r : RSpline K W} {r' : RSpline K' W'}
    (h : r ≋ r') : RelM tol r.fitsIntoUnitCube r'.fitsIntoUnitCube := by
  unfold fitsIntoUnitCube maximumCorner minimumCorner
  refine RelM.bind (parRCorner (fun a a' b b' ha hb => ?_) h) fun mx mx' hx => RelM.bind (parRCorner (fun a a' b b' ha hb => ?_) h) fun mn mn' hn => ?_
  · simp only [Spline.stdMax, hlt ha hb]; exact parIte hb ha
  · simp only [Spline.stdMin, hlt hb ha]; exact parIte hb ha
  refine RelM.ok ?_
  show decide _ = decide _
  rw [decide_eq_decide]
  have e := hw.n_eq
  constructor
  · intro H j
    have hj : j.1 < Coords.n K W := by rw [e]; exact j.2
    have := H ⟨j.1, hj⟩
    rwa [hlt hk.one (hw.coord hx j.1 hj j.2), hlt (hw.coord hn j.1 hj j.2) hk.zero] at this
  · intro H j
    have hj : j.1 < Coords.n K' W' := by rw [← e]; exact j.2
    have := H ⟨j.1, hj⟩
    rwa [← hlt hk.one (hw.coord hx j.1 j.2 hj), ← hlt (hw.coord hn j.1 j.2 hj) hk.zero] at this

/-- Whether the unit cube check can be made depends on the bookkeeping and on zero weights only. -/
theorem rfits_shape {r : RSpline K W} {r' : RSpline K' W'} (h : r ≋ r') :
    (∃ b b', r.fitsIntoUnitCube = .ok b ∧ r'.fitsIntoUnitCube = .ok b') ∨ (∃ e, r.fitsIntoUnitCube = .error e ∧ r'.fitsIntoUnitCube = .error e) ∨
    ∃ e, tol e = true ∧ (r.fitsIntoUnitCube = .error e ∨ r'.fitsIntoUnitCube = .error e) := by
  have hc : List.Forall₂ (fun _ _ => True) r.num.cps r'.num.cps := List.Forall₂.imp (fun _ _ _ => trivial) h.1.2.2.2
  have hn := h.1.2.1
  have hd := h.1.1
  have hof := h.1.2.2.1
  have hwt := h.2
  clear h
  let : Par W W' := ⟨fun _ _ => True⟩
  let : Par Bool Bool := ⟨fun _ _ => True⟩
  let : ParDiv K K' W W' := ⟨fun _ _ _ _ => trivial⟩
  have hc' : r.num ≋ r'.num := ⟨hd, hn, hof, hc⟩
  have hcor : ∀ pick pick', RelM tol (corner pick r) (corner pick' r') := by
    intro pick pick'
    unfold corner
    rw [hn]
    refine RelM.ite (fun _ => RelM.err _) fun _ => RelM.bind (Spline.parLocalToGlobal hwt 0) (introListNat fun idx => ?_)
    refine RelM.bind (RelM.bind (Spline.parControlPoint hc' _) fun x x' hx => RelM.bind (Spline.parControlPoint hwt _) fun w w' hw => parDivM hx hw)
      fun m m' hm => RelM.loopFrom hm fun i m m' hm => ?_
    exact RelM.bind (RelM.rd hc _) fun x x' hx => RelM.bind (RelM.rd hwt.2.2.2 _) fun w w' hw' => RelM.bind (parDivM hx hw') fun c c' hc => RelM.ok trivial
  have key : RelM tol r.fitsIntoUnitCube r'.fitsIntoUnitCube :=
    RelM.bind (hcor _ _) fun mx mx' _ => RelM.bind (hcor _ _) fun mn mn' _ => RelM.ok trivial
  generalize r.fitsIntoUnitCube = x at key
  generalize r'.fitsIntoUnitCube = y at key
  cases key with
  | ok _ => exact .inl ⟨_, _, rfl, rfl⟩
  | err e => exact .inr (.inl ⟨e, rfl, rfl⟩)
  | left e _ h => exact .inr (.inr ⟨e, h, .inl rfl⟩)
  | right e _ h => exact .inr (.inr ⟨e, h, .inr rfl⟩)

end
end RSpline

section
variable
  [Zero K] [One K] [Add K] [Sub K] [Mul K] [Neg K] [Div K] [NatCast K]
  [Zero K'] [One K'] [Add K'] [Sub K'] [Mul K'] [Neg K'] [Div K'] [NatCast K']
  [hk : ParScalar K K']
  [Zero V] [Add V] [Sub V] [Neg V] [SMul K V] [Zero V'] [Add V'] [Sub V'] [Neg V'] [SMul K' V'] [hp : ParPoint K K' V V']
  [Coords K W] [Coords K' W'] [hw : ParCoords K K' W W']

theorem parComposeNumeratorRational (cfg : Cfg) {s : Spline V} {s' : Spline V'} (h : s ≋ s') {q : RSpline K W} {q' : RSpline K' W'} (hq : q ≋ q') :
    RelM tol (s.composeNumeratorRational cfg q) (s'.composeNumeratorRational cfg q') := by
  unfold Spline.composeNumeratorRational
  rw [hq.1.1]
  exact Spline.parComposeNumerator cfg h _ (fun d => Spline.parExtractDimension hq.1 d) fun e e' he => Spline.parSubOp cfg hq.2 he

theorem parComposeDenominator (cfg : Cfg) {s : Spline V} {s' : Spline V'} (h : s ≋ s') {q : RSpline K W} {q' : RSpline K' W'} (hq : q ≋ q') :
    RelM tol (s.composeDenominator cfg q) (s'.composeDenominator cfg q') := by
  unfold Spline.composeDenominator
  rw [h.1]
  exact Spline.parRaisePower cfg hq.2 _

theorem RSpline.parRComposeRational (cfg : Cfg) {r : RSpline K V} {r' : RSpline K' V'} (h : r ≋ r') {q : RSpline K W} {q' : RSpline K' W'} (hq : q ≋ q') :
    RelM tol (r.composeRational cfg q) (r'.composeRational cfg q') := by
  unfold RSpline.composeRational
  exact RelM.bind (parComposeNumeratorRational cfg h.1 hq) fun n n' hn => RelM.bind (parComposeNumeratorRational cfg h.2 hq) fun d d' hd =>
    RSpline.parOfSplines hn hd

variable [LT K] [DecidableLT K] [LT K'] [DecidableLT K'] [ho : ParOrd tol K K']

theorem RSpline.parRCompose (cfg : Cfg) {r : RSpline K V} {r' : RSpline K' V'} (h : r ≋ r') {q : Spline W} {q' : Spline W'} (hq : q ≋ q') :
    RelM tol (r.compose cfg q) (r'.compose cfg q') := by
  unfold RSpline.compose
  exact RelM.bind (Spline.parCompose cfg h.1 hq) fun n n' hn => RelM.bind (Spline.parCompose cfg h.2 hq) fun d d' hd =>
    RSpline.parOfSplines hn hd

theorem Spline.parComposeRational [BEq K] [BEq K'] [he : ParZero tol K K'] [ScalarDiv K W] [ScalarDiv K' W'] [hd : ParDiv K K' W W']
    (cfg : Cfg) {s : Spline V} {s' : Spline V'} (h : s ≋ s') {q : RSpline K W} {q' : RSpline K' W'} (hq : q ≋ q') :
    RelM tol (s.composeRational cfg q) (s'.composeRational cfg q') := by
  have key := RelM.bind (parComposeNumeratorRational (tol := tol) cfg h hq) fun n n' hn => RelM.bind (parComposeDenominator (tol := tol) cfg h hq)
    fun d d' hd => RSpline.parOfSplines (tol := tol) hn hd
  unfold Spline.composeRational
  rcases RSpline.rfits_shape (tol := tol) hq with ⟨b, b', h1, h2⟩ | ⟨e, h1, h2⟩ | ⟨e, h0, h1 | h1⟩
  · rw [h1, h2]
    refine RelM.guard (fun htol => ?_) fun _ _ => key
    have := RSpline.parRFits (tol := tol) (ho.lt htol) hq
    rw [h1, h2] at this
    cases this with
    | ok h => obtain rfl : b = b' := h; rfl
  · rw [h1, h2]; exact RelM.err _
  · rw [h1]; exact RelM.left _ _ h0
  · rw [h1]; exact RelM.right _ _ h0

end
end
end Bezman
