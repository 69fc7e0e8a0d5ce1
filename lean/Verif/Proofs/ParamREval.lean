import Verif.Proofs.ParamRational

/-! # Two runs in lockstep: evaluators of rational splines -/

namespace Bezman.RSpline
variable {tol : Err → Bool} {K K' V V' : Type} [Par K K'] [Par V V']
  [Zero K] [One K] [Add K] [Sub K] [Mul K] [Neg K] [Div K] [NatCast K]
  [Zero K'] [One K'] [Add K'] [Sub K'] [Mul K'] [Neg K'] [Div K'] [NatCast K']
  [hk : ParScalar K K'] [BEq K] [BEq K'] [he : ParZero tol K K'] [hd : ParDiv K K' K K']

theorem parReplicate {α β : Type} [Par α β] (n : Nat) {a : α} {b : β} (h : a ≋ b) : List.replicate n a ≋ List.replicate n b := by
  induction n with
  | zero => exact .nil
  | succ n ih => exact .cons h ih

theorem parRUnweightedBasisFunctions (cfg : Cfg) {r : RSpline K V} {r' : RSpline K' V'} (h : r ≋ r') {t : List K} {t' : List K'} (ht : t ≋ t') :
    RelM tol (r.unweightedBasisFunctions cfg t) (r'.unweightedBasisFunctions cfg t') := by
  unfold unweightedBasisFunctions
  rw [parCompatible h]
  refine RelM.bind (RelM.unit _) (introUnit (RelM.bind (Spline.parBasisFunctions cfg h.2 ht) fun f f' hf => ?_))
  rw [List.Forall₂.length_eq hf]
  refine RelM.bind (RelM.loop hk.zero fun i a a' ha => RelM.bind (RelM.rd hf i) fun x x' hx =>
    RelM.bind (RelM.rd h.2.2.2.2 i) fun w w' hw => RelM.ok (hk.add ha (hk.mul hx hw))) fun w w' hw => ?_
  refine RelM.bind (parDivM hk.one hw) fun v v' hv => ?_
  exact RelM.loop hf fun i f f' hf => RelM.bind (RelM.rd hf i) fun x x' hx => RelM.wr hf i (hk.mul hx hv)

theorem parRBasisFunctions (cfg : Cfg) {r : RSpline K V} {r' : RSpline K' V'} (h : r ≋ r') {t : List K} {t' : List K'} (ht : t ≋ t') :
    RelM tol (r.basisFunctions cfg t) (r'.basisFunctions cfg t') := by
  unfold basisFunctions
  rw [parCompatible h]
  refine RelM.bind (RelM.unit _) (introUnit (RelM.bind (parRUnweightedBasisFunctions cfg h ht) fun f f' hf => ?_))
  rw [List.Forall₂.length_eq hf]
  exact RelM.loop hf fun i f f' hf => RelM.bind (RelM.rd hf i) fun x x' hx => RelM.bind (RelM.rd h.2.2.2.2 i) fun w w' hw =>
    RelM.wr hf i (hk.mul hx hw)

theorem parDerivRecursion {X X' : Type} [Par X X'] (cfg : Cfg) (k : List Nat) (n : Nat) {sub : X → K → X → M X} {sub' : X' → K' → X' → M X'}
    (hs : ∀ a a' c c' b b', a ≋ a' → c ≋ c' → b ≋ b' → RelM tol (sub a c b) (sub' a' c' b'))
    {scale : K → X → M X} {scale' : K' → X' → M X'} (hc : ∀ c c' a a', c ≋ c' → a ≋ a' → RelM tol (scale c a) (scale' c' a'))
    {A : List X} {A' : List X'} (hA : A ≋ A') {w : List K} {w' : List K'} (hw : w ≋ w') {v : K} {v' : K'} (hv : v ≋ v')
    {z : X} {z' : X'} (hz : z ≋ z') :
    RelM tol (derivRecursion cfg k n sub scale A w v z) (derivRecursion cfg k n sub' scale' A' w' v' z') := by
  unfold derivRecursion
  refine RelM.loop (parReplicate n hz) fun i D D' hD => RelM.bind (RelM.listNat _) (introListNat fun lhs => ?_)
  refine RelM.bind (RelM.rd hA i) fun a a' ha => RelM.bind (RelM.wr hD i ha) fun D D' hD => ?_
  refine RelM.bind (RelM.loopFrom hD fun j D D' hD => RelM.bind (RelM.listNat _) (introListNat fun rhs => ?_)) fun D D' hD => ?_
  · refine RelM.ite (fun _ => RelM.ok hD) fun _ => RelM.bind (RelM.nat _) (introNat fun b => ?_)
    exact RelM.bind (RelM.rd hw j) fun wj wj' hwj => RelM.bind (RelM.rd hD _) fun dij dij' hdij => RelM.bind (RelM.rd hD i) fun di di' hdi =>
      RelM.bind (hs _ _ _ _ _ _ hdi (hk.mul (hk.cast b) hwj) hdij) fun x x' hx => RelM.wr hD i hx
  · exact RelM.bind (RelM.rd hD i) fun di di' hdi => RelM.bind (hc _ _ _ _ hv hdi) fun x x' hx => RelM.wr hD i hx

theorem parRBasisFunctionsDerivatives (cfg : Cfg) {r : RSpline K V} {r' : RSpline K' V'} (h : r ≋ r') {t : List K} {t' : List K'} (ht : t ≋ t')
    (k : List Nat) : RelM tol (r.basisFunctionsDerivatives cfg t k) (r'.basisFunctionsDerivatives cfg t' k) := by
  unfold basisFunctionsDerivatives
  have hn : r.num.ncp = r'.num.ncp := h.1.2.1
  rw [hn]
  refine RelM.bind (RelM.nat _) (introNat fun g => ?_)
  dsimp only
  refine RelM.bind (RelM.loop (parPair (parReplicate _ (.nil : List.Forall₂ _ _ _)) (parReplicate _ hk.zero)) fun i aw aw' haw =>
    RelM.bind (RelM.listNat _) (introListNat fun req => ?_)) fun aw aw' haw => ?_
  · refine RelM.bind (Spline.parBasisFunctionsDerivatives cfg h.1 ht req) fun row row' hrow => RelM.bind (RelM.rd haw.2 i) fun w0 w0' hw0 => ?_
    refine RelM.bind (RelM.loop (parPair hrow hw0) fun b rw rw' hrw => ?_) fun rw rw' hrw => ?_
    · exact RelM.bind (RelM.rd h.2.2.2.2 b) fun w w' hw => RelM.bind (RelM.rd hrw.1 b) fun x x' hx =>
        RelM.bind (RelM.wr hrw.1 b (hk.mul hx hw)) fun l l' hl => RelM.ok (parPair hl (hk.add hrw.2 (hk.mul hw hx)))
    · exact RelM.bind (RelM.wr haw.1 i hrw.1) fun A A' hA => RelM.bind (RelM.wr haw.2 i hrw.2) fun w w' hw => RelM.ok (parPair hA hw)
  · refine RelM.bind (RelM.rd haw.2 0) fun w0 w0' hw0 => RelM.bind (parDivM hk.one hw0) fun v v' hv => ?_
    refine RelM.bind (parDerivRecursion cfg k _ (fun a a' c c' b b' ha hc hb => ?_) (fun c c' a a' hc ha => ?_) haw.1 haw.2 hv
      (.nil : List.Forall₂ _ _ _)) fun D D' hD => RelM.rd hD _
    · exact RelM.loop ha fun i d d' hd => RelM.bind (RelM.rd hd i) fun x x' hx => RelM.bind (RelM.rd hb i) fun y y' hy =>
        RelM.wr hd i (hk.sub hx (hk.mul hc hy))
    · exact RelM.loop ha fun i d d' hd => RelM.bind (RelM.rd hd i) fun x x' hx => RelM.wr hd i (hk.mul hx hc)

variable [Zero V] [Add V] [Sub V] [Neg V] [SMul K V] [Zero V'] [Add V'] [Sub V'] [Neg V'] [SMul K' V'] [hp : ParPoint K K' V V']

omit he hd in
theorem parRForwardEvaluate (cfg : Cfg) {r : RSpline K V} {r' : RSpline K' V'} (h : r ≋ r') {t : List K} {t' : List K'} (ht : t ≋ t') :
    RelM tol (r.forwardEvaluate cfg t) (r'.forwardEvaluate cfg t') := by
  unfold forwardEvaluate
  rw [parCompatible h]
  exact RelM.bind (RelM.unit _) (introUnit (RelM.bind (Spline.parBasisFunctions cfg h.1 ht) fun f f' hf => Spline.parWeightedSum hf h.1.2.2.2))

theorem parREvaluateDerivative (cfg : Cfg) {r : RSpline K V} {r' : RSpline K' V'} (h : r ≋ r') {t : List K} {t' : List K'} (ht : t ≋ t')
    (k : List Nat) : RelM tol (r.evaluateDerivative cfg t k) (r'.evaluateDerivative cfg t' k) := by
  unfold evaluateDerivative
  refine RelM.bind (RelM.nat _) (introNat fun g => ?_)
  dsimp only
  refine RelM.bind (RelM.loop (parPair (parReplicate _ (ParPoint.zero K K')) (parReplicate _ hk.zero)) fun i aw aw' haw =>
    RelM.bind (RelM.listNat _) (introListNat fun req => ?_)) fun aw aw' haw => ?_
  · exact RelM.bind (Spline.parEvaluateDerivative cfg h.1 ht req) fun x x' hx => RelM.bind (RelM.wr haw.1 i hx) fun A A' hA =>
      RelM.bind (Spline.parEvaluateDerivative cfg h.2 ht req) fun y y' hy => RelM.bind (RelM.wr haw.2 i hy) fun w w' hw => RelM.ok (parPair hA hw)
  · refine RelM.bind (RelM.rd haw.2 0) fun w0 w0' hw0 => RelM.bind (parDivM hk.one hw0) fun v v' hv => ?_
    exact RelM.bind (parDerivRecursion cfg k _ (fun a a' c c' b b' ha hc hb => RelM.ok (hp.sub ha (hp.smul hc hb)))
      (fun c c' a a' hc ha => RelM.ok (hp.smul hc ha)) haw.1 haw.2 hv (ParPoint.zero K K')) fun D D' hD => RelM.rd hD _

end Bezman.RSpline
