import Verif.Proofs.ParamOps

set_option linter.unusedSectionVars false

/-! # Every operation runs in lockstep: arithmetic, splitting, boxes, composition -/

namespace Bezman
namespace Spline

section
variable {tol : Err → Bool} {K K' V V' W W' U U' : Type} [Par K K'] [Par V V'] [Par W W'] [Par U U']

theorem parMapCps {s : Spline V} {s' : Spline V'} (h : s ≋ s') {f : V → V} {f' : V' → V'} (hf : ∀ x x', x ≋ x' → f x ≋ f' x') :
    RelM tol (s.mapCps f) (s'.mapCps f') := by
  obtain ⟨d, n, o, c, c', rfl, rfl, hc⟩ := splineCases h
  unfold mapCps
  refine RelM.bind (RelM.loop hc fun i l l' hl => ?_) fun l l' hl => RelM.ok (parMk _ _ _ hl)
  exact RelM.bind (RelM.rd hl i) fun x x' hx => RelM.wr hl i (hf _ _ hx)

theorem parZipCps (n : Nat) {f : V → V → V} {f' : V' → V' → V'} (hf : ∀ x x' y y', x ≋ x' → y ≋ y' → f x y ≋ f' x' y') {a b : List V}
    {a' b' : List V'} (ha : a ≋ a') (hb : b ≋ b') : RelM tol (zipCps n f a b) (zipCps n f' a' b') := by
  unfold zipCps
  refine RelM.loop ha fun i l l' hl => ?_
  exact RelM.bind (RelM.rd hl i) fun x x' hx => RelM.bind (RelM.rd hb i) fun y y' hy => RelM.wr hl i (hf _ _ _ _ hx hy)

variable
  [Zero K] [One K] [Add K] [Sub K] [Mul K] [Neg K] [Div K] [NatCast K]
  [Zero K'] [One K'] [Add K'] [Sub K'] [Mul K'] [Neg K'] [Div K'] [NatCast K']
  [hk : ParScalar K K']
  [Zero V] [Add V] [Sub V] [Neg V] [SMul K V] [Zero V'] [Add V'] [Sub V'] [Neg V'] [SMul K' V'] [hp : ParPoint K K' V V']
  [Zero U] [Add U] [Sub U] [Neg U] [SMul K U] [Zero U'] [Add U'] [Sub U'] [Neg U'] [SMul K' U'] [hu : ParPoint K K' U U']

theorem parSmulOp {s : Spline V} {s' : Spline V'} (h : s ≋ s') {c : K} {c' : K'} (hc : c ≋ c') : RelM tol (s.smulOp c) (s'.smulOp c') :=
  parMapCps h fun _ _ hx => hp.smul hc hx

include hp in
theorem parAddPoint {s : Spline V} {s' : Spline V'} (h : s ≋ s') {v : V} {v' : V'} (hv : v ≋ v') : RelM tol (s.addPoint v) (s'.addPoint v') :=
  parMapCps h fun _ _ hx => hp.add hx hv

include hp in
theorem parSubPoint {s : Spline V} {s' : Spline V'} (h : s ≋ s') {v : V} {v' : V'} (hv : v ≋ v') : RelM tol (s.subPoint v) (s'.subPoint v') :=
  parMapCps h fun _ _ hx => hp.sub hx hv

include hp in
theorem parNegOp {s : Spline V} {s' : Spline V'} (h : s ≋ s') : RelM tol s.negOp s'.negOp := by
  obtain ⟨d, n, o, c, c', rfl, rfl, hc⟩ := splineCases h
  unfold negOp
  refine RelM.bind (RelM.loop hc fun i l l' hl => ?_) fun l l' hl => RelM.ok (parMk _ _ _ hl)
  exact RelM.bind (RelM.rd hc i) fun x x' hx => RelM.wr hl i (hp.neg hx)

include hp in
theorem parPointSub {s : Spline V} {s' : Spline V'} (h : s ≋ s') {v : V} {v' : V'} (hv : v ≋ v') :
    RelM tol (pointSub v s) (pointSub v' s') :=
  RelM.bind (parSubPoint (K := K) (K' := K') h hv) fun _ _ h => parNegOp (K := K) (K' := K') h

theorem parElevateTo (cfg : Cfg) {s : Spline V} {s' : Spline V'} (h : s ≋ s') (target : List Nat) :
    RelM tol (elevateTo K cfg s target) (elevateTo K' cfg s' target) := by
  have hd : s.dim = s'.dim := congrArg List.length h.1
  unfold elevateTo
  rw [hd]
  refine RelM.loop h fun d s s' hs => RelM.whileM hs (introSpline fun _ _ _ _ _ _ => RelM.bool _) fun s s' hs => parOrderElevate hs d

theorem parAddAux (cfg : Cfg) (n : Nat) {s t : Spline V} {s' t' : Spline V'} (h : s ≋ s') (ht : t ≋ t') :
    RelM tol (addAux K cfg n s t) (addAux K' cfg n s' t') := by
  induction n generalizing s s' t t' with
  | zero => exact RelM.err _
  | succ n ih =>
    have hd : s.dim = s'.dim := congrArg List.length h.1
    unfold addAux
    rw [hd, h.1, ht.1]
    refine RelM.bind (parOfPoints _ h.2.2.2) fun r r' hr => RelM.bind (RelM.bool _) (introBool fun b => ?_)
    refine RelM.bind (parElevateTo cfg hr _) fun r r' hr => RelM.ite (fun _ => ?_) fun _ => ih ht hr
    obtain ⟨d, n, o, c, c', rfl, rfl, hc⟩ := splineCases hr
    exact RelM.bind (parZipCps _ (fun _ _ _ _ hx hy => hp.add hx hy) hc ht.2.2.2) fun l l' hl => RelM.ok (parMk _ _ _ hl)

theorem parAddOp (cfg : Cfg) {s t : Spline V} {s' t' : Spline V'} (h : s ≋ s') (ht : t ≋ t') :
    RelM tol (addOp K cfg s t) (addOp K' cfg s' t') := parAddAux cfg _ h ht

theorem parAddAssign (cfg : Cfg) {s t : Spline V} {s' t' : Spline V'} (h : s ≋ s') (ht : t ≋ t') :
    RelM tol (addAssign K cfg s t) (addAssign K' cfg s' t') := by
  unfold addAssign
  rw [ht.1]
  refine RelM.bind (parElevateTo cfg h _) (introSpline fun d n o c c' hc => RelM.bind (parElevateTo cfg ht _) fun r r' hr => ?_)
  exact RelM.bind (parZipCps _ (fun _ _ _ _ hx hy => hp.add hx hy) hc hr.2.2.2) fun l l' hl => RelM.ok (parMk _ _ _ hl)

theorem parSubAssign (cfg : Cfg) {s t : Spline V} {s' t' : Spline V'} (h : s ≋ s') (ht : t ≋ t') :
    RelM tol (subAssign K cfg s t) (subAssign K' cfg s' t') := by
  unfold subAssign
  rw [ht.1]
  refine RelM.bind (parElevateTo cfg h _) (introSpline fun d n o c c' hc => RelM.bind (parElevateTo cfg ht _) fun r r' hr => ?_)
  exact RelM.bind (parZipCps _ (fun _ _ _ _ hx hy => hp.sub hx hy) hc hr.2.2.2) fun l l' hl => RelM.ok (parMk _ _ _ hl)

theorem parSubOp (cfg : Cfg) {s t : Spline V} {s' t' : Spline V'} (h : s ≋ s') (ht : t ≋ t') :
    RelM tol (subOp K cfg s t) (subOp K' cfg s' t') := by
  have hd : s.dim = s'.dim := congrArg List.length h.1
  unfold subOp
  rw [hd, h.1, ht.1, h.2.1]
  refine RelM.bind (parOfPoints _ h.2.2.2) fun r r' hr => ?_
  refine RelM.bind (RelM.loop hr fun d s s' hs => RelM.whileM hs (fun _ _ _ => RelM.bool _) fun s s' hs => parOrderElevate hs d)
    (introSpline fun d n o c c' hc => RelM.bind (parElevateTo cfg ht _) fun r r' hr => ?_)
  exact RelM.bind (parZipCps _ (fun _ _ _ _ hx hy => hp.sub hx hy) hc hr.2.2.2) fun l l' hl => RelM.ok (parMk _ _ _ hl)

omit hp in
theorem parCombineForProduct (cfg : Cfg) {mul : V → W → U} {mul' : V' → W' → U'} (hm : ∀ a a' b b', a ≋ a' → b ≋ b' → mul a b ≋ mul' a' b')
    {P : Spline V} {P' : Spline V'} (hP : P ≋ P') {Q : Spline W} {Q' : Spline W'} (hQ : Q ≋ Q') (idx : List Nat) (rem : Nat) {f : K} {f' : K'}
    (hf : f ≋ f') (ind : List Nat) {R : Spline U} {R' : Spline U'} (hR : R ≋ R') :
    RelM tol (combineForProduct cfg mul P Q idx rem f ind R) (combineForProduct cfg mul' P' Q' idx rem f' ind R') := by
  have hd : P.dim = P'.dim := congrArg List.length hP.1
  induction rem generalizing f f' ind R R' with
  | zero =>
    unfold combineForProduct
    rw [hP.1, hQ.1, hd]
    refine RelM.bind (RelM.nat _) (introNat fun k => RelM.bind (RelM.nat _) (introNat fun m => RelM.bind (RelM.nat _) (introNat fun n => ?_)))
    refine RelM.loopFrom hR fun i R R' hR => ?_
    refine RelM.bind (RelM.nat _) (introNat fun c1 => RelM.bind (RelM.nat _) (introNat fun c2 => RelM.bind (RelM.nat _) (introNat fun c3 => ?_)))
    refine RelM.bind (RelM.listNat _) (introListNat fun ir => ?_)
    refine RelM.bind (parControlPoint hR _) fun x x' hx => RelM.bind (parControlPoint hP _) fun a a' ha =>
      RelM.bind (parControlPoint hQ _) fun b b' hb => parSetControlPoint hR _ ?_
    exact hu.add hx (hu.smul (hk.ratio _ _) (hu.smul hf (hm _ _ _ _ ha hb)))
  | succ rem ih =>
    unfold combineForProduct
    rw [hP.1, hQ.1]
    refine RelM.bind (RelM.nat _) (introNat fun k => RelM.bind (RelM.nat _) (introNat fun m => RelM.bind (RelM.nat _) (introNat fun n => ?_)))
    refine RelM.loopFrom hR fun i R R' hR => ?_
    refine RelM.bind (RelM.nat _) (introNat fun c1 => RelM.bind (RelM.nat _) (introNat fun c2 => RelM.bind (RelM.nat _) (introNat fun c3 => ?_)))
    exact ih (hk.mul hf (hk.ratio _ _)) _ hR

omit hp in
theorem parMulOp (cfg : Cfg) {mul : V → W → U} {mul' : V' → W' → U'} (hm : ∀ a a' b b', a ≋ a' → b ≋ b' → mul a b ≋ mul' a' b')
    {s : Spline V} {s' : Spline V'} (h : s ≋ s') {t : Spline W} {t' : Spline W'} (ht : t ≋ t') :
    RelM tol (mulOp K cfg mul s t) (mulOp K' cfg mul' s' t') := by
  have hd : s.dim = s'.dim := congrArg List.length h.1
  unfold mulOp
  rw [hd, h.1, ht.1]
  refine RelM.bind (RelM.listNat _) (introListNat fun pd => RelM.bind (parOfDegrees (ParPoint.zero K K') pd) fun r r' hr => ?_)
  rw [hr.2.1]
  refine RelM.loop hr fun i R R' hR => RelM.bind (parLocalToGlobal hR i) (introListNat fun idx => ?_)
  exact parCombineForProduct cfg hm h ht _ _ hk.one _ hR

theorem parMulScalar (cfg : Cfg) {s t : Spline K} {s' t' : Spline K'} (h : s ≋ s') (ht : t ≋ t') :
    RelM tol (mulScalar cfg s t) (mulScalar cfg s' t') := parMulOp cfg (fun _ _ _ _ ha hb => hk.mul ha hb) h ht

theorem parOneSpline (n : Nat) : RelM tol (oneSpline (K := K) n) (oneSpline (K := K') n) := parOfPoints _ (parSingle hk.one)

theorem parRaisePower (cfg : Cfg) {s : Spline K} {s' : Spline K'} (h : s ≋ s') (k : Nat) :
    RelM tol (raisePower cfg s k) (raisePower cfg s' k) := by
  unfold raisePower
  generalize k + 1 = n
  induction n generalizing k with
  | zero => exact RelM.err _
  | succ n ih =>
    unfold raisePowerAux
    have hd : s.dim = s'.dim := congrArg List.length h.1
    refine RelM.ite (fun _ => by rw [hd]; exact parOneSpline _) fun _ => RelM.ite (fun _ => RelM.ok h) fun _ => ?_
    refine RelM.bind (ih _) fun r r' hr => RelM.ite (fun _ => parMulScalar cfg hr hr) fun _ => ?_
    exact RelM.bind (parMulScalar cfg hr hr) fun q q' hq => parMulScalar cfg hq h

end

section
variable {tol : Err → Bool} {K K' V V' W W' : Type} [Par K K'] [Par V V'] [Par W W']
  [Zero K] [One K] [Add K] [Sub K] [Mul K] [Neg K] [Div K] [NatCast K]
  [Zero K'] [One K'] [Add K'] [Sub K'] [Mul K'] [Neg K'] [Div K'] [NatCast K']
  [hk : ParScalar K K'] [Coords K W] [Coords K' W'] [hw : ParCoords K K' W W']

theorem parExtractDimension {s : Spline W} {s' : Spline W'} (h : s ≋ s') (j : Nat) :
    RelM tol (extractDimension K s j) (extractDimension K' s' j) := by
  unfold extractDimension
  have hn := hw.n_eq
  by_cases hj : j < Coords.n K W
  · have hj' : j < Coords.n K' W' := hn ▸ hj
    rw [dif_pos hj, dif_pos hj', h.1, h.2.1]
    refine RelM.bind (parOfDegrees hk.zero _) (introSpline fun d n o c c' hc => ?_)
    refine RelM.bind (RelM.loop hc fun i l l' hl => ?_) fun l l' hl => RelM.ok (parMk _ _ _ hl)
    exact RelM.bind (RelM.rd h.2.2.2 i) fun x x' hx => RelM.wr hl i (hw.coord hx _ _ _)
  · have hj' : ¬ j < Coords.n K' W' := hn ▸ hj
    rw [dif_neg hj, dif_neg hj']
    exact RelM.err _

theorem parComposeBernstein (cfg : Cfg) (p n : Nat) {e i : Spline K} {e' i' : Spline K'} (he : e ≋ e') (hi : i ≋ i') :
    RelM tol (composeBernstein cfg p n e i) (composeBernstein cfg p n e' i') := by
  unfold composeBernstein
  have hdef : (Spline.default n : Spline K) ≋ (Spline.default n : Spline K') := ⟨rfl, rfl, rfl, .nil⟩
  refine RelM.bind (parOneSpline n) fun m m' hm => ?_
  refine RelM.bind (RelM.wr (parReplicate hdef _) 0 hm) fun bs bs' hbs => ?_
  refine RelM.bind (RelM.loopFrom (parPair hbs hm) fun i => introProd fun l l' hl q q' hq => ?_) (introProd fun l l' hl q q' hq => ?_)
  · refine RelM.bind (parMulScalar cfg hq he) fun x x' hx => RelM.bind (RelM.wr hl _ hx) fun y y' hy => RelM.ok (parPair hy hx)
  refine RelM.bind (RelM.loopFrom (parPair hl hm) fun i => introProd fun l l' hl q q' hq => ?_) (introProd fun l l' hl q q' hq => ?_)
  · refine RelM.bind (parMulScalar cfg hq hi) fun x x' hx => RelM.bind (RelM.rd hl _) fun b b' hb => ?_
    refine RelM.bind (parMulScalar cfg hb hx) fun y y' hy => RelM.bind (RelM.wr hl _ hy) fun z z' hz => RelM.ok (parPair hz hx)
  refine RelM.loopFrom hl fun i l l' hl => RelM.bind (RelM.rd hl _) fun b b' hb => RelM.bind (RelM.nat _) (introNat fun c => ?_)
  exact RelM.bind (parSmulOp hb (hk.cast c)) fun x x' hx => RelM.wr hl _ hx

theorem parComposeBases (cfg : Cfg) (degs : List Nat) (n : Nat) {ex : Nat → M (Spline K)} {ex' : Nat → M (Spline K')}
    (hex : ∀ d, RelM tol (ex d) (ex' d)) {iv : Spline K → M (Spline K)} {iv' : Spline K' → M (Spline K')}
    (hiv : ∀ e e', e ≋ e' → RelM tol (iv e) (iv' e')) : RelM tol (composeBases cfg degs n ex iv) (composeBases cfg degs n ex' iv') := by
  unfold composeBases
  refine RelM.loop (parReplicate (.nil : List.Forall₂ _ _ _) _) fun d l l' hl => RelM.bind (RelM.nat _) (introNat fun p => ?_)
  refine RelM.bind (hex d) fun e e' he => RelM.bind (hiv _ _ he) fun i i' hi => ?_
  exact RelM.bind (parComposeBernstein cfg p n he hi) fun b b' hb => RelM.wr hl _ hb

theorem parComposeTensor (cfg : Cfg) {bs : List (List (Spline K))} {bs' : List (List (Spline K'))} (h : bs ≋ bs') (idx : List Nat) :
    RelM tol (composeTensor cfg bs idx) (composeTensor cfg bs' idx) := by
  unfold composeTensor
  rw [List.Forall₂.length_eq h]
  refine RelM.bind (RelM.rd h 0) fun b b' hb => RelM.bind (RelM.nat _) (introNat fun i => RelM.bind (RelM.rd hb i) fun t t' ht => ?_)
  refine RelM.loopFrom ht fun d t t' ht => RelM.bind (RelM.rd h d) fun b b' hb => RelM.bind (RelM.nat _) (introNat fun i => ?_)
  exact RelM.bind (RelM.rd hb i) fun x x' hx => parMulScalar cfg ht hx

variable [Zero V] [Add V] [Sub V] [Neg V] [SMul K V] [Zero V'] [Add V'] [Sub V'] [Neg V'] [SMul K' V'] [hp : ParPoint K K' V V']

theorem parComposeNumerator (cfg : Cfg) {s : Spline V} {s' : Spline V'} (h : s ≋ s') (inn : List Nat) {ex : Nat → M (Spline K)}
    {ex' : Nat → M (Spline K')} (hex : ∀ d, RelM tol (ex d) (ex' d)) {iv : Spline K → M (Spline K)} {iv' : Spline K' → M (Spline K')}
    (hiv : ∀ e e', e ≋ e' → RelM tol (iv e) (iv' e')) : RelM tol (composeNumerator cfg s inn ex iv) (composeNumerator cfg s' inn ex' iv') := by
  unfold composeNumerator
  rw [h.1, h.2.1]
  refine RelM.bind (parOfDegrees (ParPoint.zero K K') _) fun r r' hr => RelM.bind (parComposeBases cfg _ _ hex hiv) fun bs bs' hbs => ?_
  refine RelM.loop hr fun o r r' hr => RelM.bind (parLocalToGlobal h o) (introListNat fun idx => ?_)
  refine RelM.bind (parComposeTensor cfg hbs idx) fun t t' ht => ?_
  rw [ht.1]
  obtain ⟨d, n, of, c, c', rfl, rfl, hc⟩ := splineCases hr
  refine RelM.bind (RelM.unit _) (introUnit (RelM.bind (RelM.loop hc fun k l l' hl => ?_) fun l l' hl => RelM.ok (parMk _ _ _ hl)))
  exact RelM.bind (RelM.rd hl k) fun x x' hx => RelM.bind (RelM.rd ht.2.2.2 k) fun b b' hb => RelM.bind (RelM.rd h.2.2.2 o) fun y y' hy =>
    RelM.wr hl k (hp.add hx (hp.smul hb hy))

omit [Zero V] [Add V] [Sub V] [Neg V] [SMul K V] [Zero V'] [Add V'] [Sub V'] [Neg V'] [SMul K' V'] hp in
theorem parComposeNumeratorSensitivity (cfg : Cfg) {s : Spline V} {s' : Spline V'} (h : s ≋ s') (inn : List Nat) {ex : Nat → M (Spline K)}
    {ex' : Nat → M (Spline K')} (hex : ∀ d, RelM tol (ex d) (ex' d)) {iv : Spline K → M (Spline K)} {iv' : Spline K' → M (Spline K')}
    (hiv : ∀ e e', e ≋ e' → RelM tol (iv e) (iv' e')) :
    RelM tol (composeNumeratorSensitivity cfg s inn ex iv) (composeNumeratorSensitivity cfg s' inn ex' iv') := by
  unfold composeNumeratorSensitivity
  rw [h.1, h.2.1]
  refine RelM.bind (parComposeBases cfg _ _ hex hiv) fun bs bs' hbs => ?_
  refine RelM.loop (.nil : List.Forall₂ _ _ _) fun o r r' hr => RelM.bind (parLocalToGlobal h o) (introListNat fun idx => ?_)
  exact RelM.bind (parComposeTensor cfg hbs idx) fun t t' ht => RelM.ok (parAppend hr (parSingle ht))

variable [LT K] [DecidableLT K] [LT K'] [DecidableLT K'] [ho : ParOrd tol K K']

omit [Zero V] [Neg V] [Sub V] [Zero V'] [Neg V'] [Sub V'] hp ho in
/-- The check of the position is the only place where numbers matter. -/
theorem parSplitAt' [Zero V] [Sub V] [Neg V] [Zero V'] [Sub V'] [Neg V'] [hp : ParPoint K K' V V'] {s : Spline V} {s' : Spline V'}
    (h : s ≋ s') {z : K} {z' : K'} (hz : z ≋ z')
    (hg : tol .throws = false → ((0 < z ∧ z < 1) ↔ (0 < z' ∧ z' < 1))) (d : Nat) : RelM tol (s.splitAt z d) (s'.splitAt z' d) := by
  obtain ⟨ds, n, o, c, c', rfl, rfl, hc⟩ := splineCases h
  unfold splitAt
  refine RelM.guard (fun ht => not_congr (hg ht)) fun _ _ => ?_
  refine RelM.bind (RelM.nat _) (introNat fun p => RelM.bind (RelM.nat _) (introNat fun off => ?_))
  refine RelM.bind (RelM.loop (parPair hc hc) fun sp => introProd fun l l' hl q q' hq => ?_) (introProd fun l l' hl q q' hq => ?_)
  · refine RelM.bind (RelM.nat _) (introNat fun g => RelM.bind (RelM.nat _) (introNat fun gi => ?_))
    refine RelM.loopFrom (parPair hl hq) fun i => introProd fun l l' hl q q' hq => ?_
    refine RelM.bind (RelM.loopDown hl fun j l l' hl => ?_) fun l l' hl => ?_
    · refine RelM.bind (RelM.rd hl _) fun a a' ha => RelM.bind (RelM.rd hl _) fun b b' hb => RelM.wr hl _ ?_
      exact hp.add (hp.smul (hk.sub hk.one hz) ha) (hp.smul hz hb)
    · exact RelM.bind (RelM.rd hl _) fun x x' hx => RelM.bind (RelM.wr hq _ hx) fun y y' hy => RelM.ok (parPair hl hy)
  · exact RelM.ok (parPair (parMk _ _ _ hl) (parMk _ _ _ hq))

omit [Zero V] [Neg V] [Sub V] [Zero V'] [Neg V'] [Sub V'] hp in
theorem parSplitAt [Zero V] [Sub V] [Neg V] [Zero V'] [Sub V'] [Neg V'] [hp : ParPoint K K' V V'] {s : Spline V} {s' : Spline V'}
    (h : s ≋ s') {z : K} {z' : K'} (hz : z ≋ z') (d : Nat) : RelM tol (s.splitAt z d) (s'.splitAt z' d) :=
  parSplitAt' h hz (fun ht => by rw [ho.lt ht hk.zero hz, ho.lt ht hz hk.one]) d

include hk ho in
theorem parIsSorted (ht : tol .throws = false) {l : List K} {l' : List K'} (h : l ≋ l') : isSorted l = isSorted l' := by
  change List.Forall₂ _ l l' at h
  induction h with
  | nil => rfl
  | cons h h' ih =>
    cases h' with
    | nil => rfl
    | cons h1 h2 =>
      simp only [isSorted]
      rw [ih]
      congr 2
      simp only [decide_eq_decide]
      exact ho.lt ht h1 h

/-- The relative positions of consecutive planes correspond. -/
def ParPlanes (zs : List K) (zs' : List K') : Prop :=
  zs ≋ zs' ∧ ∀ i z zp z' zp', zs[i + 1]? = some z → zs[i]? = some zp → zs'[i + 1]? = some z' → zs'[i]? = some zp' →
    (z - zp) / (1 - zp) ≋ (z' - zp') / (1 - zp')

theorem parSplitAtMany {s : Spline V} {s' : Spline V'} (h : s ≋ s') {zs : List K} {zs' : List K'} (hz : ParPlanes zs zs') (d : Nat) :
    RelM tol (s.splitAtMany zs d) (s'.splitAtMany zs' d) := by
  have hl := List.Forall₂.length_eq hz.1
  unfold splitAtMany
  refine RelM.guard (fun ht => by rw [parIsSorted ht hz.1]) fun _ _ => ?_
  rw [hl]
  refine RelM.ite (fun _ => RelM.ok (parSingle h)) fun _ => ?_
  refine RelM.bind (RelM.rd hz.1 0) fun z z' hzz => RelM.bind (parSplitAt h hzz d) (introProd fun a a' ha b b' hb => ?_)
  refine RelM.bind (RelM.loopFrom' (parPair (parSingle ha) (parPair ha hb)) fun i q q' hi hq => ?_)
    (introProd fun l l' hl => introProd fun a a' ha b b' hb => RelM.ok (parAppend hl (parSingle hb)))
  obtain ⟨l, a, b⟩ := q
  obtain ⟨l', a', b'⟩ := q'
  obtain ⟨hl, ha, hb⟩ := hq
  refine RelM.bindRd hz.1 _ fun z z' h1 h1' _ => RelM.bindRd hz.1 _ fun zp zp' h2 h2' _ => ?_
  obtain ⟨j, rfl⟩ : ∃ j, i = j + 1 := ⟨i - 1, by omega⟩
  refine RelM.bind (parSplitAt hb (hz.2 j _ _ _ _ h1 h2 h1' h2') d) (introProd fun a a' ha b b' hb => ?_)
  exact RelM.ok (parPair (parAppend hl (parSingle ha)) (parPair ha hb))

omit ho in
/-- corners, when comparisons agree -/
theorem parCorners (hlt : ∀ {a b : K} {a' b' : K'}, a ≋ a' → b ≋ b' → (a < b ↔ a' < b')) {s : Spline W} {s' : Spline W'} (h : s ≋ s') :
    RelM tol (maximumCorner K s) (maximumCorner K' s') ∧ RelM tol (minimumCorner K s) (minimumCorner K' s') := by
  obtain ⟨ds, n, o, c, c', rfl, rfl, hc⟩ := splineCases h
  unfold maximumCorner minimumCorner
  constructor
  · refine RelM.ite (fun _ => RelM.err _) fun _ => RelM.bind (RelM.rd hc 0) fun m m' hm => ?_
    refine RelM.loopFrom hm fun i m m' hm => RelM.bind (RelM.rd hc _) fun x x' hx => RelM.ok (hw.ofCoords fun j hj hj' => ?_)
    simp only [stdMax, hlt (hw.coord hm j hj hj') (hw.coord hx j hj hj')]
    exact parIte (hw.coord hx j hj hj') (hw.coord hm j hj hj')
  · refine RelM.ite (fun _ => RelM.err _) fun _ => RelM.bind (RelM.rd hc 0) fun m m' hm => ?_
    refine RelM.loopFrom hm fun i m m' hm => RelM.bind (RelM.rd hc _) fun x x' hx => RelM.ok (hw.ofCoords fun j hj hj' => ?_)
    simp only [stdMin, hlt (hw.coord hx j hj hj') (hw.coord hm j hj hj')]
    exact parIte (hw.coord hx j hj hj') (hw.coord hm j hj hj')

omit ho in
theorem parFits (hlt : ∀ {a b : K} {a' b' : K'}, a ≋ a' → b ≋ b' → (a < b ↔ a' < b')) {s : Spline W} {s' : Spline W'} (h : s ≋ s') :
    RelM tol (fitsIntoUnitCube K s) (fitsIntoUnitCube K' s') := by
  unfold fitsIntoUnitCube
  have hc := parCorners (tol := tol) hlt h
  refine RelM.bind hc.1 fun mx mx' hx => RelM.bind hc.2 fun mn mn' hn => RelM.ok ?_
  show decide _ = decide _
  rw [decide_eq_decide]
  have e := hw.n_eq
  constructor
  · intro H j
    have hj : j.1 < Coords.n K W := by rw [e]; exact j.2
    have := H ⟨j.1, hj⟩
    rwa [hlt hk.one (hw.coord hx j.1 hj j.2), hlt (hw.coord hn j.1 hj j.2) hk.zero] at this
  · intro H j
    have hj : j.1 < Coords.n K' W' := by rw [← e]; exact j.2
    have := H ⟨j.1, hj⟩
    rwa [← hlt hk.one (hw.coord hx j.1 j.2 hj), ← hlt (hw.coord hn j.1 j.2 hj) hk.zero] at this

/-- Whether the unit cube check can be made depends on the bookkeeping only. -/
theorem fits_shape {s : Spline W} {s' : Spline W'} (h : s ≋ s') :
    (∃ b b', fitsIntoUnitCube K s = .ok b ∧ fitsIntoUnitCube K' s' = .ok b') ∨
      ∃ e, fitsIntoUnitCube K s = .error e ∧ fitsIntoUnitCube K' s' = .error e := by
  have hc : List.Forall₂ (fun _ _ => True) s.cps s'.cps := List.Forall₂.imp (fun _ _ _ => trivial) h.2.2.2
  have hn := h.2.1
  clear h
  let : Par W W' := ⟨fun _ _ => True⟩
  let : Par Bool Bool := ⟨fun _ _ => True⟩
  have hc' : s.cps ≋ s'.cps := hc
  have key : RelM strict (fitsIntoUnitCube K s) (fitsIntoUnitCube K' s') := by
    unfold fitsIntoUnitCube maximumCorner minimumCorner
    rw [hn]
    refine RelM.bind (RelM.ite (fun _ => RelM.err _) fun _ => RelM.bind (RelM.rd hc' 0) fun m m' hm => ?_) fun mx mx' _ =>
      RelM.bind (RelM.ite (fun _ => RelM.err _) fun _ => RelM.bind (RelM.rd hc' 0) fun m m' hm => ?_) fun mn mn' _ => RelM.ok trivial
    · exact RelM.loopFrom hm fun i m m' hm => RelM.bind (RelM.rd hc' _) fun x x' hx => RelM.ok trivial
    · exact RelM.loopFrom hm fun i m m' hm => RelM.bind (RelM.rd hc' _) fun x x' hx => RelM.ok trivial
  generalize fitsIntoUnitCube K s = x at key
  generalize fitsIntoUnitCube K' s' = y at key
  cases key with
  | ok _ => exact .inl ⟨_, _, rfl, rfl⟩
  | err e => exact .inr ⟨e, rfl, rfl⟩
  | left _ _ h => cases h
  | right _ _ h => cases h

theorem parCompose (cfg : Cfg) {s : Spline V} {s' : Spline V'} (h : s ≋ s') {t : Spline W} {t' : Spline W'} (ht : t ≋ t') :
    RelM tol (compose K cfg s t) (compose K' cfg s' t') := by
  have key : RelM tol (composeNumerator cfg s t.degrees (fun d => extractDimension K t d) fun e => pointSub (1 : K) e)
      (composeNumerator cfg s' t'.degrees (fun d => extractDimension K' t' d) fun e => pointSub (1 : K') e) := by
    rw [ht.1]
    exact parComposeNumerator cfg h _ (fun d => parExtractDimension ht d) fun e e' he => parPointSub (K := K) (K' := K') he hk.one
  unfold compose
  rcases fits_shape (K := K) (K' := K') ht with ⟨b, b', h1, h2⟩ | ⟨e, h1, h2⟩
  · rw [h1, h2]
    refine RelM.guard (fun htol => ?_) fun _ _ => key
    have := parFits (tol := strict) (ho.lt htol) ht
    rw [h1, h2] at this
    cases this with
    | ok h => obtain rfl : b = b' := h; rfl
  · rw [h1, h2]; exact RelM.err _

end

end Spline
end Bezman
