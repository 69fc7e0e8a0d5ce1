import Verif.Proofs.Param

set_option linter.unusedSectionVars false

/-! # Every operation runs in lockstep -/

namespace Bezman

theorem parReplicate {α β : Type} [Par α β] {a : α} {b : β} (h : a ≋ b) (n : Nat) : List.replicate n a ≋ List.replicate n b := by
  change List.Forall₂ _ _ _
  induction n with
  | zero => exact .nil
  | succ n ih => exact .cons h ih

theorem parAppend {α β : Type} [Par α β] {a c : List α} {b d : List β} (h : a ≋ b) (h' : c ≋ d) : a ++ c ≋ b ++ d :=
  List.rel_append h h'

theorem parSingle {α β : Type} [Par α β] {a : α} {b : β} (h : a ≋ b) : [a] ≋ [b] := .cons h .nil

theorem parPair {α β γ δ : Type} [Par α β] [Par γ δ] {a : α} {b : β} {c : γ} {d : δ} (h : a ≋ b) (h' : c ≋ d) : (a, c) ≋ (b, d) := ⟨h, h'⟩
theorem parNatRefl (n : Nat) : n ≋ n := (rfl : _ = _)
theorem parListNatRefl (n : List Nat) : n ≋ n := (rfl : _ = _)
theorem parBoolRefl (n : Bool) : n ≋ n := (rfl : _ = _)
theorem parMk {V V' : Type} [Par V V'] (d : List Nat) (n : Nat) (o : List Nat) {c : List V} {c' : List V'} (h : c ≋ c') :
    (⟨d, n, o, c⟩ : Spline V) ≋ (⟨d, n, o, c'⟩ : Spline V') := ⟨rfl, rfl, rfl, h⟩

theorem parIte {α β : Type} [Par α β] {c : Prop} [Decidable c] {a b : α} {a' b' : β} (h : a ≋ a') (h' : b ≋ b') :
    (if c then a else b) ≋ (if c then a' else b') := by
  split
  · exact h
  · exact h'

theorem parResize {V V' : Type} [Par V V'] [Zero V] [Zero V'] {l : List V} {l' : List V'} (h0 : (0 : V) ≋ (0 : V')) (h : l ≋ l') (n : Nat) :
    Spline.resize l n ≋ Spline.resize l' n := by
  have hl := List.Forall₂.length_eq h
  unfold Spline.resize
  rw [← hl]
  exact parAppend (List.forall₂_take n h) (parReplicate h0 _)

section
variable {tol : Err → Bool}

theorem introNat {p : Nat → Nat → Prop} (h : ∀ a, p a a) (a b : Nat) (hab : a ≋ b) : p a b := by
  obtain rfl : a = b := hab
  exact h a
theorem introBool {p : Bool → Bool → Prop} (h : ∀ a, p a a) (a b : Bool) (hab : a ≋ b) : p a b := by
  obtain rfl : a = b := hab
  exact h a
theorem introListNat {p : List Nat → List Nat → Prop} (h : ∀ a, p a a) (a b : List Nat) (hab : a ≋ b) : p a b := by
  obtain rfl : a = b := hab
  exact h a
theorem introUnit {p : PUnit → PUnit → Prop} (h : p ⟨⟩ ⟨⟩) (a b : PUnit) (_ : a ≋ b) : p a b := h
theorem introProd {α β γ δ : Type} [Par α β] [Par γ δ] {p : α × γ → β × δ → Prop}
    (h : ∀ a b, a ≋ b → ∀ c d, c ≋ d → p (a, c) (b, d)) (x : α × γ) (y : β × δ) (hxy : x ≋ y) : p x y :=
  h _ _ hxy.1 _ _ hxy.2
theorem introSpline {V V' : Type} [Par V V'] {p : Spline V → Spline V' → Prop}
    (h : ∀ d n o c c', c ≋ c' → p ⟨d, n, o, c⟩ ⟨d, n, o, c'⟩) (x : Spline V) (y : Spline V') (hxy : x ≋ y) : p x y := by
  obtain ⟨d, n, o, c⟩ := x
  obtain ⟨d', n', o', c'⟩ := y
  obtain ⟨h1, h2, h3, h4⟩ := hxy
  dsimp only at h1 h2 h3 h4
  subst h1 h2 h3
  exact h _ _ _ _ _ h4

theorem splineCases {V V' : Type} [Par V V'] {s : Spline V} {s' : Spline V'} (h : s ≋ s') :
    ∃ d n o c c', s = ⟨d, n, o, c⟩ ∧ s' = ⟨d, n, o, c'⟩ ∧ c ≋ c' := by
  revert h
  refine introSpline (p := fun s s' => ∃ d n o c c', s = ⟨d, n, o, c⟩ ∧ s' = ⟨d, n, o, c'⟩ ∧ c ≋ c') (fun d n o c c' h => ?_) s s'
  exact ⟨d, n, o, c, c', rfl, rfl, h⟩

end

/-- applies what is known about a called function; extended below -/
syntax "par_lem" : tactic
macro_rules | `(tactic| par_lem) => `(tactic| fail)

macro "par_step" : tactic => `(tactic| first
  | assumption
  | exact RelM.nat _
  | exact RelM.listNat _
  | exact RelM.bool _
  | exact RelM.unit _
  | exact RelM.err _
  | exact (rfl : _ = _)
  | exact ParScalar.zero
  | exact ParScalar.one
  | exact ParScalar.cast _
  | exact ParScalar.inv _
  | exact ParScalar.ratio _ _
  | par_lem
  | with_reducible refine RelM.rd ?_ _
  | with_reducible refine RelM.wr ?_ _ ?_
  | with_reducible refine RelM.pure' ?_
  | with_reducible refine RelM.ok ?_
  | with_reducible refine RelM.loop ?_ (fun _ => ?_)
  | with_reducible refine RelM.loopFrom ?_ (fun _ => ?_)
  | with_reducible refine RelM.loopDown ?_ (fun _ => ?_)
  | with_reducible refine RelM.whileM ?_ ?_ ?_
  | with_reducible refine RelM.bind ?_ ?_
  | with_reducible refine RelM.ite (fun _ => ?_) (fun _ => ?_)
  | with_reducible refine parReplicate ?_ _
  | with_reducible refine parAppend ?_ ?_
  | with_reducible refine parSingle ?_
  | with_reducible refine parIte ?_ ?_
  | exact List.Forall₂.nil
  | with_reducible refine ParScalar.add ?_ ?_
  | with_reducible refine ParScalar.sub ?_ ?_
  | with_reducible refine ParScalar.mul ?_ ?_
  | with_reducible refine ParScalar.neg ?_
  | with_reducible refine introNat (fun _ => ?_)
  | with_reducible refine introListNat (fun _ => ?_)
  | with_reducible refine introBool (fun _ => ?_)
  | with_reducible refine introUnit ?_
  | with_reducible refine introProd ?_
  | with_reducible refine introSpline (fun _ _ _ _ _ _ => ?_)
  | refine fun _ _ _ => ?_
  | exact ⟨rfl, rfl, rfl, by assumption⟩
  | refine And.intro ?_ ?_)

/-- follows both runs to the end -/
macro "par" : tactic => `(tactic| (repeat' (first | par_step | (dsimp only; par_step))))

section
variable {tol : Err → Bool} {K K' V V' W W' U U' : Type} [Par K K'] [Par V V'] [Par W W'] [Par U U']
  [Zero K] [One K] [Add K] [Sub K] [Mul K] [Neg K] [Div K] [NatCast K]
  [Zero K'] [One K'] [Add K'] [Sub K'] [Mul K'] [Neg K'] [Div K'] [NatCast K']
  [ParScalar K K']

theorem parBernsteinEvaluate (cfg : Cfg) (p : Nat) {x : K} {x' : K'} (h : x ≋ x') :
    RelM tol (bernsteinEvaluate cfg p x) (bernsteinEvaluate cfg p x') := by
  unfold bernsteinEvaluate
  par
macro_rules | `(tactic| par_lem) => `(tactic| with_reducible refine parBernsteinEvaluate _ _ ?_)

theorem parBernsteinEvaluateDerivative (cfg : Cfg) (p : Nat) {x : K} {x' : K'} (h : x ≋ x') (k : Nat) :
    RelM tol (bernsteinEvaluateDerivative cfg p x k) (bernsteinEvaluateDerivative cfg p x' k) := by
  unfold bernsteinEvaluateDerivative
  par
macro_rules | `(tactic| par_lem) => `(tactic| with_reducible refine parBernsteinEvaluateDerivative _ _ ?_ _)

theorem parRecursiveCombine_ (k : Nat) {fs : List (List K)} {fs' : List (List K')} (hf : fs ≋ fs') {l : List K} {l' : List K'} (hl : l ≋ l')
    {c : K} {c' : K'} (hc : c ≋ c') : RelM tol (recursiveCombine_ k fs l c) (recursiveCombine_ k fs' l' c') := by
  induction k generalizing l l' c c' with
  | zero =>
    unfold recursiveCombine_
    refine RelM.bind (RelM.rd hf 0) fun f f' hff => ?_
    rw [List.Forall₂.length_eq hff]
    par
  | succ k ih =>
    unfold recursiveCombine_
    refine RelM.bind (RelM.rd hf _) fun f f' hff => ?_
    rw [List.Forall₂.length_eq hff]
    refine RelM.loop hl fun i r r' hr => ?_
    refine RelM.bind (RelM.rd hff _) fun x x' hx => ih hr (ParScalar.mul hc hx)

theorem parRecursiveCombine {fs : List (List K)} {fs' : List (List K')} (hf : fs ≋ fs') :
    RelM tol (recursiveCombine fs) (recursiveCombine fs') := by
  unfold recursiveCombine
  rw [List.Forall₂.length_eq hf]
  exact parRecursiveCombine_ _ hf .nil ParScalar.one
macro_rules | `(tactic| par_lem) => `(tactic| with_reducible refine parRecursiveCombine ?_)

namespace Spline

/-- the index conversions depend on the bookkeeping only -/
theorem parLocalToGlobal {s : Spline V} {s' : Spline V'} (h : s ≋ s') (i : Nat) : RelM tol (s.localToGlobal i) (s'.localToGlobal i) := by
  obtain ⟨d, n, o, c, c', rfl, rfl, hc⟩ := splineCases h
  exact RelM.listNat _
macro_rules | `(tactic| par_lem) => `(tactic| with_reducible refine parLocalToGlobal ?_ _)

theorem parGlobalToLocal {s : Spline V} {s' : Spline V'} (h : s ≋ s') (i : List Nat) : RelM tol (s.globalToLocal i) (s'.globalToLocal i) := by
  obtain ⟨d, n, o, c, c', rfl, rfl, hc⟩ := splineCases h
  exact RelM.nat _
macro_rules | `(tactic| par_lem) => `(tactic| with_reducible refine parGlobalToLocal ?_ _)

theorem parControlPoint {s : Spline V} {s' : Spline V'} (h : s ≋ s') (i : List Nat) : RelM tol (s.controlPoint i) (s'.controlPoint i) := by
  have hc := h.2.2.2
  unfold controlPoint
  par
macro_rules | `(tactic| par_lem) => `(tactic| with_reducible refine parControlPoint ?_ _)

theorem parControlPointVariadic {s : Spline V} {s' : Spline V'} (h : s ≋ s') (i : List Nat) :
    RelM tol (s.controlPointVariadic i) (s'.controlPointVariadic i) := by
  obtain ⟨d, n, o, c, c', rfl, rfl, hc⟩ := splineCases h
  unfold controlPointVariadic
  par

theorem parSetControlPoint {s : Spline V} {s' : Spline V'} (h : s ≋ s') (i : List Nat) {x : V} {x' : V'} (hx : x ≋ x') :
    RelM tol (s.setControlPoint i x) (s'.setControlPoint i x') := by
  obtain ⟨d, n, o, c, c', rfl, rfl, hc⟩ := splineCases h
  unfold setControlPoint
  refine RelM.bind (RelM.nat _) (introNat fun k => ?_)
  refine RelM.bind (RelM.wr hc k hx) fun l l' hl => ?_
  exact RelM.ok ⟨rfl, rfl, rfl, hl⟩
macro_rules | `(tactic| par_lem) => `(tactic| with_reducible refine parSetControlPoint ?_ _ ?_)

theorem parOfDegrees [Zero V] [Zero V'] (h0 : (0 : V) ≋ (0 : V')) (deg : List Nat) :
    RelM tol (ofDegrees (V := V) deg) (ofDegrees (V := V') deg) := by
  unfold ofDegrees
  refine RelM.bind (RelM.listNat _) (introListNat fun o => ?_)
  exact RelM.ok ⟨rfl, rfl, rfl, parResize h0 .nil _⟩

theorem parOfPoints (deg : List Nat) {l : List V} {l' : List V'} (h : l ≋ l') : RelM tol (ofPoints deg l) (ofPoints deg l') := by
  unfold ofPoints
  rw [List.Forall₂.length_eq h]
  refine RelM.bind (RelM.listNat _) (introListNat fun o => ?_)
  refine RelM.bind (RelM.unit _) (introUnit ?_)
  exact RelM.ok ⟨rfl, rfl, rfl, h⟩
macro_rules | `(tactic| par_lem) => `(tactic| with_reducible refine parOfPoints _ ?_)

theorem parUpdateDegrees [Zero V] [Zero V'] (h0 : (0 : V) ≋ (0 : V')) {s : Spline V} {s' : Spline V'} (h : s ≋ s') (deg : List Nat) :
    RelM tol (s.updateDegrees deg) (s'.updateDegrees deg) := by
  obtain ⟨d, n, o, c, c', rfl, rfl, hc⟩ := splineCases h
  unfold updateDegrees
  refine RelM.bind (RelM.listNat _) (introListNat fun o => ?_)
  exact RelM.ok ⟨rfl, rfl, rfl, parResize h0 hc _⟩

theorem parBasisFunctionContributions (cfg : Cfg) {s : Spline V} {s' : Spline V'} (h : s ≋ s') {t : List K} {t' : List K'} (ht : t ≋ t') :
    RelM tol (s.basisFunctionContributions cfg t) (s'.basisFunctionContributions cfg t') := by
  obtain ⟨d, n, o, c, c', rfl, rfl, hc⟩ := splineCases h
  unfold basisFunctionContributions
  simp only [dim]
  par
macro_rules | `(tactic| par_lem) => `(tactic| with_reducible refine parBasisFunctionContributions _ ?_ ?_)

theorem parBasisFunctions (cfg : Cfg) {s : Spline V} {s' : Spline V'} (h : s ≋ s') {t : List K} {t' : List K'} (ht : t ≋ t') :
    RelM tol (s.basisFunctions cfg t) (s'.basisFunctions cfg t') := by
  unfold basisFunctions
  par
macro_rules | `(tactic| par_lem) => `(tactic| with_reducible refine parBasisFunctions _ ?_ ?_)

theorem parBasisFunctionsDerivativeContributions (cfg : Cfg) {s : Spline V} {s' : Spline V'} (h : s ≋ s') {t : List K} {t' : List K'} (ht : t ≋ t')
    (k : List Nat) : RelM tol (s.basisFunctionsDerivativeContributions cfg t k) (s'.basisFunctionsDerivativeContributions cfg t' k) := by
  obtain ⟨d, n, o, c, c', rfl, rfl, hc⟩ := splineCases h
  unfold basisFunctionsDerivativeContributions
  simp only [dim]
  par
macro_rules | `(tactic| par_lem) => `(tactic| with_reducible refine parBasisFunctionsDerivativeContributions _ ?_ ?_ _)

theorem parBasisFunctionsDerivatives (cfg : Cfg) {s : Spline V} {s' : Spline V'} (h : s ≋ s') {t : List K} {t' : List K'} (ht : t ≋ t')
    (k : List Nat) : RelM tol (s.basisFunctionsDerivatives cfg t k) (s'.basisFunctionsDerivatives cfg t' k) := by
  unfold basisFunctionsDerivatives
  par
macro_rules | `(tactic| par_lem) => `(tactic| with_reducible refine parBasisFunctionsDerivatives _ ?_ ?_ _)

variable [Zero V] [Add V] [Sub V] [Neg V] [SMul K V] [Zero V'] [Add V'] [Sub V'] [Neg V'] [SMul K' V'] [hp : ParPoint K K' V V']

theorem parEvaluate {s : Spline V} {s' : Spline V'} (h : s ≋ s') {t : List K} {t' : List K'} (ht : t ≋ t') :
    RelM tol (s.evaluate t) (s'.evaluate t') := by
  obtain ⟨d, n, o, c, c', rfl, rfl, hc⟩ := splineCases h
  unfold evaluate
  simp only [dim]
  par
  exact hp.add (hp.smul (ParScalar.sub ParScalar.one ‹_›) ‹_›) (hp.smul ‹_› ‹_›)

theorem parWeightedSum {f : List K} {f' : List K'} (hf : f ≋ f') {l : List V} {l' : List V'} (hl : l ≋ l') :
    RelM tol (weightedSum f l) (weightedSum f' l') := by
  unfold weightedSum
  rw [List.Forall₂.length_eq hf]
  refine RelM.loop (ParPoint.zero K K') fun i a a' ha => ?_
  refine RelM.bind (RelM.rd hf i) fun x x' hx => RelM.bind (RelM.rd hl i) fun y y' hy => ?_
  exact RelM.ok (hp.add ha (hp.smul hx hy))
macro_rules | `(tactic| par_lem) => `(tactic| with_reducible refine parWeightedSum ?_ ?_)

theorem parForwardEvaluate (cfg : Cfg) {s : Spline V} {s' : Spline V'} (h : s ≋ s') {t : List K} {t' : List K'} (ht : t ≋ t') :
    RelM tol (s.forwardEvaluate cfg t) (s'.forwardEvaluate cfg t') := by
  have hc := h.2.2.2
  unfold forwardEvaluate
  par

theorem parEvaluateDerivative (cfg : Cfg) {s : Spline V} {s' : Spline V'} (h : s ≋ s') {t : List K} {t' : List K'} (ht : t ≋ t')
    (k : List Nat) : RelM tol (s.evaluateDerivative cfg t k) (s'.evaluateDerivative cfg t' k) := by
  have hc := h.2.2.2
  unfold evaluateDerivative
  par

theorem parElevStore {f : List V → M V} {f' : List V' → M V'} (hf : ∀ l l', l ≋ l' → RelM tol (f l) (f' l')) {st : List V × Nat}
    {st' : List V' × Nat} (h : st ≋ st') : RelM tol (elevStore f st) (elevStore f' st') := by
  obtain ⟨l, g⟩ := st
  obtain ⟨l', g'⟩ := st'
  obtain ⟨h1, h2⟩ := h
  obtain rfl : g = g' := h2
  have h1' : l ≋ l' := h1
  unfold elevStore
  refine RelM.bind (hf _ _ h1') fun x x' hx => RelM.bind (RelM.wr h1' _ hx) fun m m' hm => RelM.ok ⟨hm, rfl⟩

theorem parOrderElevate {s : Spline V} {s' : Spline V'} (h : s ≋ s') (d : Nat) : RelM tol (orderElevate K s d) (orderElevate K' s' d) := by
  obtain ⟨ds, n, o, c, c', rfl, rfl, hc⟩ := splineCases h
  unfold orderElevate
  refine RelM.bind (RelM.nat _) (introNat fun p => RelM.bind (RelM.nat _) (introNat fun off => ?_))
  refine RelM.bind (RelM.nat _) (introNat fun nsp => RelM.bind (RelM.nat _) (introNat fun spo => ?_))
  refine RelM.bind (RelM.nat _) (introNat fun spg => RelM.bind (RelM.nat _) (introNat fun ng => ?_))
  refine RelM.bind (RelM.listNat _) (introListNat fun degs => RelM.bind (RelM.nat _) (introNat fun gi => ?_))
  refine RelM.bind (RelM.loopDown (parPair (parResize (ParPoint.zero K K') hc _) (parNatRefl _)) fun g st st' hst => ?_) ?_
  · refine RelM.bind (RelM.nat _) (introNat fun first => ?_)
    refine RelM.bind (RelM.loopDown hst fun k st st' hst => parElevStore (fun l l' hl => RelM.rd hl _) hst) fun st st' hst => ?_
    refine RelM.bind (RelM.loopDown hst fun i st st' hst => ?_) fun st st' hst => ?_
    · refine RelM.loopDown hst fun k st st' hst => parElevStore (fun l l' hl => ?_) hst
      refine RelM.bind (RelM.rd hl _) fun a a' ha => RelM.bind (RelM.rd hl _) fun b b' hb => ?_
      have hf := ParScalar.mul (ParScalar.cast (K := K) (K' := K') (i + 1)) (ParScalar.inv (p + 1))
      exact RelM.ok (hp.add (hp.smul (ParScalar.sub ParScalar.one hf) ha) (hp.smul hf hb))
    · exact RelM.loopDown hst fun k st st' hst => parElevStore (fun l l' hl => RelM.rd hl _) hst
  · refine introProd fun l l' hl g g' _ => ?_
    refine RelM.bind (RelM.listNat _) (introListNat fun offs => ?_)
    exact RelM.ok ⟨rfl, rfl, rfl, hl⟩

theorem parOfDegrees64 (h0 : (0 : V) ≋ (0 : V')) (deg : List Nat) : RelM tol (ofDegrees64 (V := V) deg) (ofDegrees64 (V := V') deg) := by
  unfold ofDegrees64
  refine RelM.bind (RelM.listNat _) (introListNat fun o => ?_)
  refine RelM.bind (RelM.listNat _) (introListNat fun o => ?_)
  exact RelM.ok ⟨rfl, rfl, rfl, parResize h0 .nil _⟩

theorem parDerivativeSpline (cfg : Cfg) {s : Spline V} {s' : Spline V'} (h : s ≋ s') (orders : List Nat) :
    RelM tol (derivativeSpline K cfg s orders) (derivativeSpline K' cfg s' orders) := by
  obtain ⟨ds, n, o, c, c', rfl, rfl, hc⟩ := splineCases h
  unfold derivativeSpline
  simp only [dim]
  refine RelM.bind (RelM.loop (parPair (parListNatRefl _) hc) fun d => introProd (introListNat fun nd l l' hl => ?_)) (introProd (introListNat fun nd l l' hl => ?_))
  · dsimp only
    refine RelM.bind (RelM.nat _) (introNat fun ord => RelM.ite (fun _ => RelM.ok (parPair (parListNatRefl _) hl)) fun _ => ?_)
    refine RelM.bind (RelM.nat _) (introNat fun nd' => RelM.bind (RelM.listNat _) (introListNat fun degs => RelM.bind (RelM.nat _) (introNat fun p => ?_)))
    refine RelM.bind (RelM.loopFrom (ParScalar.cast _) fun i f f' hf => RelM.ok (ParScalar.mul hf (ParScalar.cast _))) fun f f' hf => ?_
    refine RelM.bind (RelM.loop hl fun i l l' hl => ?_) fun l l' hl => RelM.ok (parPair (parListNatRefl _) hl)
    refine RelM.bind (RelM.listNat _) (introListNat fun mi => RelM.bind (RelM.nat _) (introNat fun ip => ?_))
    refine RelM.bind (RelM.loopFrom (parPair (parListNatRefl _) hl) fun j => introProd (introListNat fun mi l l' hl => ?_))
      (introProd (introListNat fun mi l l' hl => ?_))
    · dsimp only
      refine RelM.bind (RelM.nat _) (introNat fun m => RelM.bind (RelM.listNat _) (introListNat fun mi' => RelM.bind (RelM.nat _) (introNat fun cc => ?_)))
      refine RelM.bind (RelM.rd hl _) fun x x' hx => RelM.bind (RelM.nat _) (introNat fun k => RelM.bind (RelM.rd hl _) fun y y' hy => ?_)
      refine RelM.bind (RelM.wr hl _ ?_) fun l l' hl => RelM.ok (parPair (parListNatRefl _) hl)
      exact hp.add hx (hp.smul (ParScalar.mul (parIte ParScalar.one (ParScalar.neg ParScalar.one)) (ParScalar.cast _)) hy)
    · dsimp only
      refine RelM.bind (RelM.rd hl _) fun x x' hx => RelM.wr hl _ ?_
      exact hp.smul (ParScalar.mul (parIte ParScalar.one (ParScalar.neg ParScalar.one)) hf) hx
  · dsimp only
    refine RelM.bind (parOfDegrees64 (ParPoint.zero K K') nd) (introSpline fun d n o c c' hc' => ?_)
    refine RelM.bind (RelM.loop hc' fun i m m' hm => ?_) fun m m' hm => RelM.ok (parMk _ _ _ hm)
    refine RelM.bind (RelM.listNat _) (introListNat fun g => RelM.bind (RelM.nat _) (introNat fun k => ?_))
    exact RelM.bind (RelM.rd hl k) fun x x' hx => RelM.wr hm _ hx

end Spline

end
end Bezman
