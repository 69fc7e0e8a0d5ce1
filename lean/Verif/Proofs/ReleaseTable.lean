import Verif.Proofs.Release
import Verif.Proofs.Consistent
import Verif.Proofs.ComposeLimit

/-! # Release builds: where the assertions of a debug build only guard the table of binomial coefficients -/

set_option linter.unusedSectionVars false

namespace Bezman
open Spec

namespace Spec.SameOrUndefined

theorem refl {α : Type} (m : M α) : SameOrUndefined m m := .inl rfl

theorem bind {α β : Type} {m r : M α} {f g : α → M β} (h : SameOrUndefined m r) (hf : ∀ x, m = .ok x → SameOrUndefined (f x) (g x)) :
    SameOrUndefined (m >>= f) (r >>= g) := by
  rcases h with rfl | ⟨rfl, rfl⟩
  · cases m with
    | error e => exact .inl rfl
    | ok x => exact hf x rfl
  · exact .inr ⟨rfl, rfl⟩

theorem loop {σ : Type} {f g : Nat → σ → M σ} (h : ∀ i s, SameOrUndefined (f i s) (g i s)) :
    ∀ (n : Nat) (s : σ), SameOrUndefined (Bezman.loop n f s) (Bezman.loop n g s)
  | 0, _ => refl _
  | n + 1, s => bind (loop h n s) fun x _ => h n x

theorem loopFrom {σ : Type} {a b : Nat} {f g : Nat → σ → M σ} {s : σ} (h : ∀ i s, SameOrUndefined (f i s) (g i s)) :
    SameOrUndefined (Bezman.loopFrom a b f s) (Bezman.loopFrom a b g s) := loop (fun _ s => h _ s) _ _

theorem ite {α : Type} {c : Prop} [Decidable c] {m r m' r' : M α} (h : SameOrUndefined m m') (h' : SameOrUndefined r r') :
    SameOrUndefined (if c then m else r) (if c then m' else r') := by
  split
  · exact h
  · exact h'

/-- an assertion that holds -/
theorem assert {b : Bool} (h : b = true) : SameOrUndefined (Build.debug.assert b) (Build.release.assert b) := by
  subst h; exact .inl rfl

/-- what is returned by a release build is returned by a debug build, and conversely -/
theorem returns {α : Type} {m r : M α} (h : SameOrUndefined m r) (x : α) : r = .ok x ↔ m = .ok x := by
  rcases h with rfl | ⟨rfl, rfl⟩ <;> simp

end Spec.SameOrUndefined

/-- the functions already treated -/
syntax "sou_known" : tactic
macro_rules | `(tactic| sou_known) => `(tactic| with_reducible exact SameOrUndefined.refl _)

/-- follows the structure of a function -/
macro "sou" : tactic => `(tactic| repeat' (first
  | sou_known
  | (with_reducible refine SameOrUndefined.bind ?_ fun _ _ => ?_)
  | (with_reducible refine SameOrUndefined.loop (fun _ _ => ?_) _ _)
  | (with_reducible refine SameOrUndefined.loopFrom fun _ _ => ?_)
  | (with_reducible refine SameOrUndefined.ite ?_ ?_)))

theorem chooseB_release {cfg : Cfg} {n i : ℕ} (h : cfg.maxBinom ≤ n) : chooseB .release cfg n i = .error .ub := by
  unfold chooseB
  show binomTable cfg.maxBinom >>= (fun tbl => rd tbl (n * (n + 1) / 2 + i)) = _
  by_cases h0 : 0 < cfg.maxBinom
  · obtain ⟨F, hF, -⟩ := binomTable_spec cfg.maxBinom h0
    rw [hF, bind_ok]
    have h1 : tri cfg.maxBinom ≤ n * (n + 1) / 2 := Nat.div_le_div_right (Nat.mul_le_mul h (by omega))
    unfold rd
    rw [List.getElem?_eq_none (by simp only [tab_length]; omega)]
  · have : cfg.maxBinom = 0 := by omega
    rw [this]
    rfl

theorem chooseB_sou (cfg : Cfg) (n i : ℕ) : SameOrUndefined (chooseB .debug cfg n i) (chooseB .release cfg n i) := by
  by_cases h : n < cfg.maxBinom
  · unfold chooseB
    refine SameOrUndefined.bind (SameOrUndefined.assert (by simpa using h)) fun _ _ => ?_
    sou
  · exact .inr ⟨by rw [chooseB_debug]; exact choose_assert (by omega), chooseB_release (by omega)⟩
macro_rules | `(tactic| sou_known) => `(tactic| with_reducible exact chooseB_sou ..)

theorem loop_error_first {σ : Type} {f : ℕ → σ → M σ} {s : σ} {e : Err} (h : f 0 s = .error e) : ∀ n, loop (n + 1) f s = .error e
  | 0 => by rw [loop_succ, loop_zero, bind_ok, h]
  | n + 1 => by rw [loop_succ, loop_error_first h n]; rfl

section
variable {K : Type} [Zero K] [One K] [Add K] [Sub K] [Mul K] [Neg K] [NatCast K]

theorem bernsteinEvaluateB_release {cfg : Cfg} {p : ℕ} (h : cfg.maxBinom ≤ p) (x : K) :
    bernsteinEvaluateB .release cfg p x = .error .ub := by
  unfold bernsteinEvaluateB
  show ((loop (p + 1) _ _ : M (List K × K)) >>= _) = _
  rw [loop_error_first (e := .ub) (by simp only [chooseB_release h]; rfl)]
  rfl

theorem bernsteinEvaluateB_sou (cfg : Cfg) (p : ℕ) (x : K) :
    SameOrUndefined (bernsteinEvaluateB .debug cfg p x) (bernsteinEvaluateB .release cfg p x) := by
  by_cases h : p < cfg.maxBinom
  · unfold bernsteinEvaluateB
    refine SameOrUndefined.bind (SameOrUndefined.assert (by simpa using h)) fun _ _ => ?_
    sou
  · refine .inr ⟨?_, bernsteinEvaluateB_release (by omega) x⟩
    unfold bernsteinEvaluateB Build.assert assertM
    simp only []
    rw [if_neg (by simpa using h)]
    rfl
end
macro_rules | `(tactic| sou_known) => `(tactic| with_reducible exact bernsteinEvaluateB_sou ..)

namespace Spline
variable {K V W U : Type}

/-- the constructor with the right number of points -/
theorem ofPointsB_sou {ds : List ℕ} {pts : List V} (h : countCps ds = pts.length) :
    SameOrUndefined (ofPointsB .debug ds pts) (ofPointsB .release ds pts) := by
  unfold ofPointsB
  refine SameOrUndefined.bind (SameOrUndefined.refl _) fun _ _ => ?_
  exact SameOrUndefined.bind (SameOrUndefined.assert (by simpa using h)) fun _ _ => SameOrUndefined.refl _

section
variable [Zero K] [One K] [Add K] [Sub K] [Mul K] [Neg K] [NatCast K]

theorem basisFunctionContributionsB_sou (cfg : Cfg) (s : Spline V) (t : List K) :
    SameOrUndefined (s.basisFunctionContributionsB .debug cfg t) (s.basisFunctionContributionsB .release cfg t) := by
  unfold basisFunctionContributionsB; sou
macro_rules | `(tactic| sou_known) => `(tactic| with_reducible exact Spline.basisFunctionContributionsB_sou ..)

theorem basisFunctionsB_sou (cfg : Cfg) (s : Spline V) (t : List K) :
    SameOrUndefined (s.basisFunctionsB .debug cfg t) (s.basisFunctionsB .release cfg t) := by
  unfold basisFunctionsB; sou
macro_rules | `(tactic| sou_known) => `(tactic| with_reducible exact Spline.basisFunctionsB_sou ..)

theorem forwardEvaluateB_sou [Zero V] [Add V] [SMul K V] (cfg : Cfg) (s : Spline V) (t : List K) :
    SameOrUndefined (s.forwardEvaluateB .debug cfg t) (s.forwardEvaluateB .release cfg t) := by
  unfold forwardEvaluateB; sou
end

theorem derivativeSplineB_sou [One K] [Neg K] [Mul K] [NatCast K] [Zero V] [Add V] [SMul K V] (cfg : Cfg) (s : Spline V) (orders : List ℕ) :
    SameOrUndefined (derivativeSplineB K .debug cfg s orders) (derivativeSplineB K .release cfg s orders) := by
  unfold derivativeSplineB; sou
macro_rules | `(tactic| sou_known) => `(tactic| with_reducible exact Spline.derivativeSplineB_sou ..)

section
variable [One K] [Mul K] [Div K] [NatCast K] [Zero U] [Add U] [SMul K U]

theorem combineForProductB_sou (cfg : Cfg) (mul : V → W → U) (P : Spline V) (Q : Spline W) (ctpsIndex : List Nat) :
    ∀ (n : Nat) (factor : K) (indices : List Nat) (R : Spline U),
    SameOrUndefined (combineForProductB .debug cfg mul P Q ctpsIndex n factor indices R)
      (combineForProductB .release cfg mul P Q ctpsIndex n factor indices R)
  | 0, _, _, _ => by
    unfold combineForProductB
    sou
  | n + 1, _, _, _ => by
    have ih := combineForProductB_sou cfg mul P Q ctpsIndex n
    unfold combineForProductB
    sou
    exact ih _ _ _
macro_rules | `(tactic| sou_known) => `(tactic| with_reducible exact Spline.combineForProductB_sou ..)

theorem mulOpB_sou (cfg : Cfg) (mul : V → W → U) (s : Spline V) (rhs : Spline W) :
    SameOrUndefined (mulOpB K .debug cfg mul s rhs) (mulOpB K .release cfg mul s rhs) := by
  unfold mulOpB; sou
macro_rules | `(tactic| sou_known) => `(tactic| with_reducible exact Spline.mulOpB_sou ..)
end

section
variable [One K] [Sub K] [Mul K] [Div K] [NatCast K] [Zero V] [Add V] [SMul K V]

theorem WF.count {s : Spline V} (h : s.WF) : countCps s.degrees = s.cps.length := by
  rw [countCps_eq, h.4]

theorem addAuxB_sou (cfg : Cfg) {k : ℕ} : ∀ (n : ℕ) {s rhs : Spline V}, s.Good k → rhs.Good k →
    SameOrUndefined (addAuxB K .debug cfg n s rhs) (addAuxB K .release cfg n s rhs)
  | 0, _, _, _, _ => SameOrUndefined.refl _
  | n + 1, s, rhs, hs, hr => by
    unfold addAuxB
    refine SameOrUndefined.bind (ofPointsB_sou hs.1.count) fun ret h1 => ?_
    refine SameOrUndefined.bind (SameOrUndefined.refl _) fun b _ => ?_
    refine SameOrUndefined.bind (SameOrUndefined.refl _) fun ret' h2 => ?_
    refine SameOrUndefined.ite (SameOrUndefined.refl _) ?_
    rw [ofPointsB_debug] at h1
    have g := good_ofPoints hs.1.dim_pos h1
    rw [show s.degrees.length = k from hs.2] at g
    exact addAuxB_sou cfg n hr (elevateTo_good g.1 h2)

theorem addOpB_sou (cfg : Cfg) {k : ℕ} {s rhs : Spline V} (hs : s.Good k) (hr : rhs.Good k) :
    SameOrUndefined (addOpB K .debug cfg s rhs) (addOpB K .release cfg s rhs) := addAuxB_sou cfg _ hs hr

theorem subOpB_sou [Sub V] (cfg : Cfg) {s rhs : Spline V} (hs : s.WF) :
    SameOrUndefined (subOpB K .debug cfg s rhs) (subOpB K .release cfg s rhs) := by
  unfold subOpB
  refine SameOrUndefined.bind (ofPointsB_sou hs.count) fun ret h1 => ?_
  sou
end

section
variable [Zero K] [One K] [Add K] [Mul K] [Div K] [NatCast K]

theorem mulScalarB_sou (cfg : Cfg) (s rhs : Spline K) :
    SameOrUndefined (mulScalarB .debug cfg s rhs) (mulScalarB .release cfg s rhs) := mulOpB_sou ..
macro_rules | `(tactic| sou_known) => `(tactic| with_reducible exact Spline.mulScalarB_sou ..)

theorem oneSplineB_sou (k : ℕ) : SameOrUndefined (oneSplineB (K := K) .debug k) (oneSplineB (K := K) .release k) :=
  ofPointsB_sou (by rw [countCps_eq]; simp [size_replicate_zero])
macro_rules | `(tactic| sou_known) => `(tactic| with_reducible exact Spline.oneSplineB_sou ..)

theorem raisePowerAuxB_sou (cfg : Cfg) (s : Spline K) :
    ∀ (n power : Nat), SameOrUndefined (raisePowerAuxB .debug cfg s n power) (raisePowerAuxB .release cfg s n power)
  | 0, _ => SameOrUndefined.refl _
  | n + 1, _ => by
    have ih := raisePowerAuxB_sou cfg s n
    unfold raisePowerAuxB
    sou
    exact ih _

theorem raisePowerB_sou (cfg : Cfg) (s : Spline K) (k : ℕ) : SameOrUndefined (raisePowerB .debug cfg s k) (raisePowerB .release cfg s k) :=
  raisePowerAuxB_sou ..
macro_rules | `(tactic| sou_known) => `(tactic| with_reducible exact Spline.raisePowerB_sou ..)
end

section
variable [Zero K] [One K] [Add K] [Sub K] [Mul K] [Neg K] [Div K] [NatCast K]

theorem composeBernsteinB_sou (cfg : Cfg) (p k : ℕ) (e i : Spline K) :
    SameOrUndefined (composeBernsteinB .debug cfg p k e i) (composeBernsteinB .release cfg p k e i) := by
  unfold composeBernsteinB; sou
macro_rules | `(tactic| sou_known) => `(tactic| with_reducible exact Spline.composeBernsteinB_sou ..)

theorem composeBasesB_sou (cfg : Cfg) (ds : List ℕ) (k : ℕ) (ex : ℕ → M (Spline K)) (inv inv' : Spline K → M (Spline K))
    (h : ∀ d e, ex d = .ok e → SameOrUndefined (inv e) (inv' e)) :
    SameOrUndefined (composeBasesB .debug cfg ds k ex inv) (composeBasesB .release cfg ds k ex inv') := by
  unfold composeBasesB
  refine SameOrUndefined.loop (fun d _ => ?_) _ _
  refine SameOrUndefined.bind (SameOrUndefined.refl _) fun _ _ => ?_
  refine SameOrUndefined.bind (SameOrUndefined.refl _) fun e he => ?_
  refine SameOrUndefined.bind (h d e he) fun _ _ => ?_
  sou

theorem composeTensorB_sou (cfg : Cfg) (b : List (List (Spline K))) (i : List ℕ) :
    SameOrUndefined (composeTensorB .debug cfg b i) (composeTensorB .release cfg b i) := by
  unfold composeTensorB; sou
macro_rules | `(tactic| sou_known) => `(tactic| with_reducible exact Spline.composeTensorB_sou ..)

theorem composeNumeratorSensitivityB_sou (cfg : Cfg) (s : Spline V) (ids : List ℕ) (ex : ℕ → M (Spline K)) (inv inv' : Spline K → M (Spline K))
    (h : ∀ d e, ex d = .ok e → SameOrUndefined (inv e) (inv' e)) :
    SameOrUndefined (composeNumeratorSensitivityB .debug cfg s ids ex inv) (composeNumeratorSensitivityB .release cfg s ids ex inv') := by
  unfold composeNumeratorSensitivityB
  refine SameOrUndefined.bind (composeBasesB_sou _ _ _ _ _ _ h) fun _ _ => ?_
  sou

theorem composeNumeratorB_sou [Zero V] [Add V] [SMul K V] {cfg : Cfg} (hmax : cfg.maxBinom ≤ 68) (h2 : 2 ≤ cfg.maxBinom) {s : Spline V}
    (hs : s.WF) {db : List ℕ} (hdb : 0 < db.length) {ex : ℕ → M (Spline K)} {inv inv' : Spline K → M (Spline K)}
    (hext : ∀ d, d < s.degrees.length → Returns db (ex d)) (hinv : ∀ e, HasShape db e → Returns db (inv e))
    (h : ∀ d e, ex d = .ok e → SameOrUndefined (inv e) (inv' e)) :
    SameOrUndefined (composeNumeratorB .debug cfg s db ex inv) (composeNumeratorB .release cfg s db ex inv') := by
  have hda : 0 < s.degrees.length := hs.dim_pos
  unfold composeNumeratorB
  refine SameOrUndefined.bind (SameOrUndefined.refl _) fun ret _ => ?_
  refine SameOrUndefined.bind (composeBasesB_sou _ _ _ _ _ _ h) fun bases hbases => ?_
  rw [composeBasesB_debug] at hbases
  obtain ⟨b1, b2⟩ : bases.length = s.degrees.length ∧
      ∀ d p : ℕ, s.degrees[d]? = some p → (p < cfg.maxBinom ∧ WithinTable cfg db p) ∧ ∃ bs, bases[d]? = some bs ∧ ∀ i : ℕ, i ≤ p → ∃ x, bs[i]? = some x ∧ HasShape (mults db p) x := by
    rcases composeBases_limit hmax h2 hdb hext hinv with ⟨b, e, b1⟩ | e
    · rw [e] at hbases
      injection hbases with hbases
      subst hbases
      exact b1
    · rw [e] at hbases; cases hbases
  have hone : 2 ≤ s.degrees.length ∨ WithinTable cfg db s.degrees.sum := by
    by_cases hl : 2 ≤ s.degrees.length
    · exact .inl hl
    · obtain ⟨p, hp⟩ := List.length_eq_one_iff.mp (show s.degrees.length = 1 by omega)
      have := (b2 0 p (by rw [hp]; rfl)).1.2
      rw [hp]
      exact .inr (by simpa using this)
  refine SameOrUndefined.loop (fun o ret => ?_) _ _
  refine SameOrUndefined.bind (SameOrUndefined.refl _) fun idx hidx => ?_
  refine SameOrUndefined.bind (composeTensorB_sou ..) fun t ht => ?_
  rw [localToGlobal_ok hs] at hidx
  injection hidx with hidx
  subst hidx
  rw [composeTensorB_debug] at ht
  refine SameOrUndefined.bind (SameOrUndefined.assert ?_) fun _ _ => SameOrUndefined.refl _
  rcases composeTensor_limit hmax hda b1 (fun d p hp => (b2 d p hp).2) hone (unflat_valid _ o) with ⟨r, e, hr, -⟩ | e
  · rw [e] at ht
    injection ht with ht
    subst ht
    rw [hr.2]
    simp [composeDegrees, mults, Nat.mul_comm]
  · rw [e] at ht; cases ht

variable [Coords K W] [LT K] [DecidableLT K]

theorem composeB_sou [Zero V] [Add V] [SMul K V] {cfg : Cfg} (hmax : cfg.maxBinom ≤ 68) (h2 : 2 ≤ cfg.maxBinom) {s : Spline V}
    (hs : s.WF) {inner : Spline W} (hi : inner.WF) (hdim : s.dim = Coords.n K W) :
    SameOrUndefined (composeB K .debug cfg s inner) (composeB K .release cfg s inner) := by
  unfold composeB
  refine SameOrUndefined.bind (SameOrUndefined.refl _) fun _ _ => ?_
  refine SameOrUndefined.ite (SameOrUndefined.refl _) ?_
  exact composeNumeratorB_sou hmax h2 hs hi.dim_pos (fun d hd => extract_returns ⟨hi, rfl⟩ (by rw [dim] at hdim; omega))
    (fun e he => pointSub_returns he 1) fun _ _ _ => SameOrUndefined.refl _

theorem composeSensitivityB_sou (cfg : Cfg) (s : Spline V) (inner : Spline W) :
    SameOrUndefined (composeSensitivityB K .debug cfg s inner) (composeSensitivityB K .release cfg s inner) := by
  unfold composeSensitivityB
  refine SameOrUndefined.bind (SameOrUndefined.refl _) fun _ _ => ?_
  refine SameOrUndefined.ite (SameOrUndefined.refl _) ?_
  exact composeNumeratorSensitivityB_sou _ _ _ _ _ _ fun _ _ _ => SameOrUndefined.refl _
end
end Spline

namespace Spline
variable {K V : Type} [Zero K] [One K] [Add K] [Sub K] [Mul K] [Div K] [NatCast K] [Zero V] [Add V] [SMul K V]

/-- a sum of splines of equal degrees has these degrees -/
theorem addOp_same {cfg : Cfg} {s rhs r : Spline V} (h : s.degrees = rhs.degrees) (hr : addOp K cfg s rhs = .ok r) :
    r.degrees = s.degrees := by
  suffices H : ∀ (n : ℕ) (s rhs r : Spline V), s.degrees = rhs.degrees → addAux K cfg n s rhs = .ok r → r.degrees = s.degrees from
    H _ _ _ _ h hr
  intro n
  induction n with
  | zero => intro s rhs r _ hr; simp [addAux] at hr
  | succ n ih =>
    intro s rhs r h hr
    rw [addAux] at hr
    obtain ⟨ret, h1, hr⟩ := bind_eq_ok.mp hr
    obtain ⟨b, _, hr⟩ := bind_eq_ok.mp hr
    obtain ⟨ret', h2, hr'⟩ := bind_eq_ok.mp hr
    clear hr
    have hret : ret.degrees = s.degrees := by
      unfold ofPoints at h1
      simp only [] at h1
      obtain ⟨_, _, h1⟩ := bind_eq_ok.mp h1
      obtain ⟨_, _, h1⟩ := bind_eq_ok.mp h1
      simp only [pure_eq_ok, Except.ok.injEq] at h1
      subst h1; rfl
    rw [← h, ← hret] at h2
    have he := RSpline.elevateTo_self h2
    subst he
    split at hr'
    · obtain ⟨c, hc, hr'⟩ := bind_eq_ok.mp hr'
      simp only [pure_eq_ok, Except.ok.injEq] at hr'
      subst hr'
      exact hret
    · rw [ih _ _ _ (by rw [hret, h]) hr', h]

/-- a difference of splines of equal degrees has these degrees -/
theorem subOp_same [Sub V] {cfg : Cfg} {s rhs r : Spline V} (h : s.degrees = rhs.degrees) (hr : subOp K cfg s rhs = .ok r) :
    r.degrees = s.degrees := by
  unfold subOp at hr
  obtain ⟨ret, h1, hr⟩ := bind_eq_ok.mp hr
  obtain ⟨ret', h2, hr⟩ := bind_eq_ok.mp hr
  obtain ⟨_, _, hr⟩ := bind_eq_ok.mp hr
  obtain ⟨c, hc, hr⟩ := bind_eq_ok.mp hr
  simp only [pure_eq_ok, Except.ok.injEq] at hr
  have hret : ret.degrees = s.degrees := by
    unfold ofPoints at h1
    simp only [] at h1
    obtain ⟨_, _, h1⟩ := bind_eq_ok.mp h1
    obtain ⟨_, _, h1⟩ := bind_eq_ok.mp h1
    simp only [pure_eq_ok, Except.ok.injEq] at h1
    subst h1; rfl
  have : ret' = ret := by
    refine loop_ok (P := fun _ (s' : Spline V) => s' = ret) h2 rfl ?_
    intro k _ x y hx hf
    subst hx
    revert hf
    cases cfg.fuel with
    | zero => intro hf; simp [whileM] at hf
    | succ f =>
      intro hf
      rw [whileM, ← h] at hf
      cases ht : rd s.degrees k with
      | error e => simp [ht] at hf
      | ok t => simpa [ht] using hf.symm
  have hd : ret'.degrees = r.degrees := by exact congrArg (·.degrees) hr
  rw [← hd, this, hret]

end Spline

namespace RSpline
variable {K V W U : Type}

theorem compatible_iff {a : Spline V} {b : Spline K} : compatible (⟨a, b⟩ : RSpline K V) = true ↔ a.degrees = b.degrees := by
  simp [compatible]

theorem ofSplinesB_sou {a : Spline V} {b : Spline K} (h : a.degrees = b.degrees) :
    SameOrUndefined (ofSplinesB .debug a b) (ofSplinesB .release a b) := by
  unfold ofSplinesB
  exact SameOrUndefined.bind (SameOrUndefined.assert (compatible_iff.mpr h)) fun _ _ => SameOrUndefined.refl _

/-- the result of the constructor keeps what was known of the parts -/
theorem ofSplinesB_ok {a : Spline V} {b : Spline K} {r : RSpline K V} (hr : ofSplinesB .debug a b = .ok r) : r = ⟨a, b⟩ := by
  unfold ofSplinesB at hr
  obtain ⟨_, _, hr⟩ := bind_eq_ok.mp hr
  simp only [pure_eq_ok, Except.ok.injEq] at hr
  exact hr.symm

theorem ofSplineB_sou [One K] {s : Spline V} (h : s.WF) : SameOrUndefined (ofSplineB (K := K) .debug s) (ofSplineB .release s) := by
  unfold ofSplineB
  refine SameOrUndefined.bind (Spline.ofPointsB_sou (by rw [Spline.countCps_eq, List.length_replicate, h.ncp_eq])) fun w hw => ?_
  refine SameOrUndefined.bind (SameOrUndefined.assert (compatible_iff.mpr ?_)) fun _ _ => SameOrUndefined.refl _
  rw [Spline.ofPointsB_debug] at hw
  exact (Spline.good_ofPoints h.dim_pos hw).2.symm

section
variable [Zero K] [One K] [Add K] [Sub K] [Mul K] [Neg K] [Div K] [NatCast K]

theorem forwardEvaluateB_sou [Zero V] [Add V] [SMul K V] {cfg : Cfg} {r : RSpline K V} (h : r.num.degrees = r.wt.degrees) (t : List K) :
    SameOrUndefined (r.forwardEvaluateB .debug cfg t) (r.forwardEvaluateB .release cfg t) := by
  unfold forwardEvaluateB
  refine SameOrUndefined.bind (SameOrUndefined.assert (compatible_iff.mpr h)) fun _ _ => ?_
  sou

theorem unweightedBasisFunctionsB_sou [BEq K] {cfg : Cfg} {r : RSpline K V} (h : r.num.degrees = r.wt.degrees) (t : List K) :
    SameOrUndefined (r.unweightedBasisFunctionsB .debug cfg t) (r.unweightedBasisFunctionsB .release cfg t) := by
  unfold unweightedBasisFunctionsB
  refine SameOrUndefined.bind (SameOrUndefined.assert (compatible_iff.mpr h)) fun _ _ => ?_
  sou

theorem basisFunctionsB_sou [BEq K] {cfg : Cfg} {r : RSpline K V} (h : r.num.degrees = r.wt.degrees) (t : List K) :
    SameOrUndefined (r.basisFunctionsB .debug cfg t) (r.basisFunctionsB .release cfg t) := by
  unfold basisFunctionsB
  refine SameOrUndefined.bind (SameOrUndefined.assert (compatible_iff.mpr h)) fun _ _ => ?_
  exact SameOrUndefined.bind (unweightedBasisFunctionsB_sou h t) fun _ _ => SameOrUndefined.refl _
end

section
variable [Zero K] [One K] [Add K] [Sub K] [Mul K] [Div K] [NatCast K] [Zero V] [Add V] [SMul K V]

theorem orderElevateB_sou {n : ℕ} {r : RSpline K V} (h : r.Good n) (d : ℕ) :
    SameOrUndefined (r.orderElevateB .debug d) (r.orderElevateB .release d) := by
  unfold orderElevateB
  refine SameOrUndefined.bind (SameOrUndefined.refl _) fun a ha => ?_
  refine SameOrUndefined.bind (SameOrUndefined.refl _) fun b hb => ?_
  refine SameOrUndefined.bind (SameOrUndefined.assert (compatible_iff.mpr ?_)) fun _ _ => SameOrUndefined.refl _
  obtain ⟨-, p, hp, e⟩ := Spline.orderElevate_wf h.1.1 ha
  obtain ⟨-, q, hq, e'⟩ := Spline.orderElevate_wf h.2.1.1 hb
  rw [h.2.2, hq] at hp
  injection hp with hp
  rw [e, e', h.2.2, hp]

theorem splitAtB_sou [LT K] [DecidableLT K] {n : ℕ} {r : RSpline K V} (h : r.Good n) (z : K) (d : ℕ) :
    SameOrUndefined (r.splitAtB .debug z d) (r.splitAtB .release z d) := by
  unfold splitAtB
  refine SameOrUndefined.bind (SameOrUndefined.refl _) fun a ha => ?_
  refine SameOrUndefined.bind (SameOrUndefined.refl _) fun b hb => ?_
  have g := Spline.splitAt_good h.1 ha
  have g' := Spline.splitAt_good h.2.1 hb
  refine SameOrUndefined.bind (ofSplinesB_sou (by rw [g.1.2, g'.1.2, h.2.2])) fun _ _ => ?_
  exact SameOrUndefined.bind (ofSplinesB_sou (by rw [g.2.2, g'.2.2, h.2.2])) fun _ _ => SameOrUndefined.refl _

omit [Div K] [NatCast K] [Zero V] in
theorem splitAtB_good [LT K] [DecidableLT K] {n : ℕ} {r : RSpline K V} (h : r.Good n) {z : K} {d : ℕ} {q : RSpline K V × RSpline K V}
    (hq : r.splitAtB .debug z d = .ok q) : q.1.Good n ∧ q.2.Good n := by
  unfold splitAtB at hq
  obtain ⟨a, ha, hq⟩ := bind_eq_ok.mp hq
  obtain ⟨b, hb, hq⟩ := bind_eq_ok.mp hq
  obtain ⟨x, hx, hq⟩ := bind_eq_ok.mp hq
  obtain ⟨y, hy, hq⟩ := bind_eq_ok.mp hq
  simp only [pure_eq_ok, Except.ok.injEq] at hq
  have g := Spline.splitAt_good h.1 ha
  have g' := Spline.splitAt_good h.2.1 hb
  rw [ofSplinesB_ok hx, ofSplinesB_ok hy] at hq
  subst hq
  exact ⟨⟨g.1.1, g'.1.1, by rw [g.1.2, g'.1.2, h.2.2]⟩, ⟨g.2.1, g'.2.1, by rw [g.2.2, g'.2.2, h.2.2]⟩⟩

/-- a loop with an invariant -/
theorem sou_loop_inv {σ : Type} (P : σ → Prop) {f g : ℕ → σ → M σ}
    (h : ∀ i s, P s → SameOrUndefined (f i s) (g i s)) (hP : ∀ i s s', P s → f i s = .ok s' → P s') (n : ℕ) (s : σ) (hs : P s) :
    SameOrUndefined (Bezman.loop n f s) (Bezman.loop n g s) := by
  induction n with
  | zero => exact SameOrUndefined.refl _
  | succ n ih =>
    exact SameOrUndefined.bind ih fun x hx =>
      h n x (loop_ok (P := fun _ => P) hx hs fun k _ a b ha hf => hP k a b ha hf)

theorem splitAtManyB_sou [LT K] [DecidableLT K] {n : ℕ} {r : RSpline K V} (h : r.Good n) (zs : List K) (d : ℕ) :
    SameOrUndefined (r.splitAtManyB .debug zs d) (r.splitAtManyB .release zs d) := by
  unfold splitAtManyB
  refine SameOrUndefined.ite (SameOrUndefined.refl _) ?_
  refine SameOrUndefined.ite (SameOrUndefined.refl _) ?_
  refine SameOrUndefined.bind (SameOrUndefined.refl _) fun z _ => ?_
  refine SameOrUndefined.bind (splitAtB_sou h z d) fun sp hsp => ?_
  refine SameOrUndefined.bind ?_ fun _ _ => SameOrUndefined.refl _
  refine sou_loop_inv (fun q : List (RSpline K V) × (RSpline K V × RSpline K V) => q.2.2.Good n) ?_ ?_ _ _
    (splitAtB_good h hsp).2
  · intro i q hq
    refine SameOrUndefined.bind (SameOrUndefined.refl _) fun _ _ => ?_
    refine SameOrUndefined.bind (SameOrUndefined.refl _) fun _ _ => ?_
    exact SameOrUndefined.bind (splitAtB_sou hq _ d) fun _ _ => SameOrUndefined.refl _
  · intro i q q' hq hf
    obtain ⟨_, _, hf⟩ := bind_eq_ok.mp hf
    obtain ⟨_, _, hf⟩ := bind_eq_ok.mp hf
    obtain ⟨x, hx, hf⟩ := bind_eq_ok.mp hf
    simp only [pure_eq_ok, Except.ok.injEq] at hf
    subst hf
    exact (splitAtB_good hq hx).2

end

theorem smulAssignB_sou [SMul K V] {n : ℕ} {r : RSpline K V} (h : r.Good n) (c : K) :
    SameOrUndefined (r.smulAssignB .debug c) (r.smulAssignB .release c) := by
  unfold smulAssignB
  refine SameOrUndefined.bind (SameOrUndefined.refl _) fun a ha => ?_
  refine SameOrUndefined.bind (SameOrUndefined.assert (compatible_iff.mpr ?_)) fun _ _ => SameOrUndefined.refl _
  rw [(Spline.mapCps_good h.1 ha).2, h.2.2]

theorem smulOpB_sou [SMul K V] {n : ℕ} {r : RSpline K V} (h : r.Good n) (c : K) :
    SameOrUndefined (r.smulOpB .debug c) (r.smulOpB .release c) := by
  unfold smulOpB
  refine SameOrUndefined.bind (SameOrUndefined.refl _) fun a ha => ofSplinesB_sou ?_
  rw [(Spline.mapCps_good h.1 ha).2, h.2.2]

theorem addPointAssignB_sou [Add V] [SMul K V] {n : ℕ} {r : RSpline K V} (h : r.Good n) (x : V) :
    SameOrUndefined (r.addPointAssignB .debug x) (r.addPointAssignB .release x) := by
  unfold addPointAssignB
  refine SameOrUndefined.bind (SameOrUndefined.refl _) fun a ha => ?_
  exact SameOrUndefined.bind (SameOrUndefined.assert (compatible_iff.mpr h.2.2)) fun _ _ => SameOrUndefined.refl _

theorem addPointB_sou [Add V] [SMul K V] {n : ℕ} {r : RSpline K V} (h : r.Good n) (x : V) :
    SameOrUndefined (r.addPointB .debug x) (r.addPointB .release x) := by
  unfold addPointB
  refine SameOrUndefined.bind (ofSplinesB_sou h.2.2) fun c hc => ?_
  rw [ofSplinesB_ok hc]
  exact addPointAssignB_sou (n := n) h x

theorem subPointB_sou [Sub V] [SMul K V] {n : ℕ} {r : RSpline K V} (h : r.Good n) (x : V) :
    SameOrUndefined (r.subPointB .debug x) (r.subPointB .release x) := by
  unfold subPointB
  exact SameOrUndefined.bind (ofSplinesB_sou h.2.2) fun c hc => SameOrUndefined.refl _

theorem negOpB_sou [Neg V] {n : ℕ} {r : RSpline K V} (h : r.Good n) : SameOrUndefined (r.negOpB .debug) (r.negOpB .release) := by
  unfold negOpB
  refine SameOrUndefined.bind (SameOrUndefined.refl _) fun a ha => ofSplinesB_sou ?_
  rw [(Spline.negOp_good h.1 ha).2, h.2.2]

section
variable [Zero K] [One K] [Add K] [Sub K] [Mul K] [Div K] [NatCast K] [Zero V] [Add V] [SMul K V]

theorem mulOpB_sou [Zero U] [Add U] [SMul K U] {cfg : Cfg} {mul : V → W → U} {n : ℕ} (hn : 0 < n) {r : RSpline K V} {rhs : RSpline K W}
    (h : r.Good n) (h' : rhs.Good n) : SameOrUndefined (r.mulOpB .debug cfg mul rhs) (r.mulOpB .release cfg mul rhs) := by
  unfold mulOpB
  refine SameOrUndefined.bind (Spline.mulOpB_sou ..) fun a ha => ?_
  refine SameOrUndefined.bind (Spline.mulScalarB_sou ..) fun b hb => ofSplinesB_sou ?_
  rw [Spline.mulOpB_debug] at ha
  rw [Spline.mulScalarB_debug] at hb
  rw [(Spline.mulOp_good hn h.1.2 h'.1.2 ha).2, (Spline.mulOp_good hn h.2.1.2 h'.2.1.2 hb).2, h.2.2, h'.2.2]

section
variable [BEq K]

/-- the four sums have the same shape -/
theorem sum_parts {cfg : Cfg} {n : ℕ} (hn : 0 < n) {r rhs : RSpline K V} (h : r.Good n) (h' : rhs.Good n) {a b : Spline V} {w : Spline K}
    (ha : mulWeight'B .debug cfg r.num rhs.wt = .ok a) (hb : mulWeightB .debug cfg r.wt rhs.num = .ok b)
    (hw : Spline.mulScalarB .debug cfg r.wt rhs.wt = .ok w) :
    a.Good n ∧ b.Good n ∧ a.degrees = b.degrees ∧ a.degrees = w.degrees := by
  rw [mulWeight'B_debug] at ha
  rw [mulWeightB_debug] at hb
  rw [Spline.mulScalarB_debug] at hw
  have ga := Spline.mulOp_good hn h.1.2 h'.2.1.2 ha
  have gb := Spline.mulOp_good hn h.2.1.2 h'.1.2 hb
  have gw := Spline.mulOp_good hn h.2.1.2 h'.2.1.2 hw
  exact ⟨ga.1, gb.1, by rw [ga.2, gb.2, h.2.2, h'.2.2], by rw [ga.2, gw.2, h.2.2]⟩

theorem addAssign_same {cfg : Cfg} {a b r : Spline V} (h : a.degrees = b.degrees) (hr : Spline.addAssign K cfg a b = .ok r) :
    r.degrees = a.degrees := by
  unfold Spline.addAssign at hr
  obtain ⟨x, hx, hr⟩ := bind_eq_ok.mp hr
  obtain ⟨_, _, hr⟩ := bind_eq_ok.mp hr
  obtain ⟨_, _, hr⟩ := bind_eq_ok.mp hr
  simp only [pure_eq_ok, Except.ok.injEq] at hr
  rw [← h] at hx
  subst hr
  show x.degrees = _
  rw [elevateTo_self hx]

theorem subAssign_same [Sub V] {cfg : Cfg} {a b r : Spline V} (h : a.degrees = b.degrees) (hr : Spline.subAssign K cfg a b = .ok r) :
    r.degrees = a.degrees := by
  unfold Spline.subAssign at hr
  obtain ⟨x, hx, hr⟩ := bind_eq_ok.mp hr
  obtain ⟨_, _, hr⟩ := bind_eq_ok.mp hr
  obtain ⟨_, _, hr⟩ := bind_eq_ok.mp hr
  simp only [pure_eq_ok, Except.ok.injEq] at hr
  rw [← h] at hx
  subst hr
  show x.degrees = _
  rw [elevateTo_self hx]

variable {cfg : Cfg} {n : ℕ} (hn : 0 < n) {r rhs : RSpline K V} (h : r.Good n) (h' : rhs.Good n)
include hn h h'

theorem addOpB_sou : SameOrUndefined (r.addOpB .debug cfg rhs) (r.addOpB .release cfg rhs) := by
  unfold addOpB
  split
  · next he =>
    have hd : r.num.degrees = rhs.num.degrees := h.2.2.trans ((eqOp_degrees he).symm.trans h'.2.2.symm)
    refine SameOrUndefined.bind (Spline.addOpB_sou cfg h.1 h'.1) fun a ha => ofSplinesB_sou ?_
    rw [Spline.addOpB_debug] at ha
    rw [Spline.addOp_same hd ha, h.2.2]
  · refine SameOrUndefined.bind (Spline.mulOpB_sou ..) fun a ha => ?_
    refine SameOrUndefined.bind (Spline.mulOpB_sou ..) fun b hb => ?_
    have ga : a.Good n := (Spline.mulOp_good hn h.1.2 h'.2.1.2 (mulWeight'B_debug cfg r.num rhs.wt ▸ ha)).1
    have gb : b.Good n := (Spline.mulOp_good hn h.2.1.2 h'.1.2 (mulWeightB_debug cfg r.wt rhs.num ▸ hb)).1
    refine SameOrUndefined.bind (Spline.addOpB_sou cfg ga gb) fun c hc => ?_
    refine SameOrUndefined.bind (Spline.mulScalarB_sou ..) fun w hw => ofSplinesB_sou ?_
    obtain ⟨-, -, e1, e2⟩ := sum_parts hn h h' ha hb hw
    rw [Spline.addOpB_debug] at hc
    rw [Spline.addOp_same e1 hc, e2]

theorem subOpB_sou [Sub V] : SameOrUndefined (r.subOpB .debug cfg rhs) (r.subOpB .release cfg rhs) := by
  unfold subOpB
  split
  · next he =>
    have hd : r.num.degrees = rhs.num.degrees := h.2.2.trans ((eqOp_degrees he).symm.trans h'.2.2.symm)
    refine SameOrUndefined.bind (Spline.subOpB_sou cfg h.1.1) fun a ha => ofSplinesB_sou ?_
    rw [Spline.subOpB_debug] at ha
    rw [Spline.subOp_same hd ha, h.2.2]
  · refine SameOrUndefined.bind (Spline.mulOpB_sou ..) fun a ha => ?_
    refine SameOrUndefined.bind (Spline.mulOpB_sou ..) fun b hb => ?_
    have ga : a.Good n := (Spline.mulOp_good hn h.1.2 h'.2.1.2 (mulWeight'B_debug cfg r.num rhs.wt ▸ ha)).1
    refine SameOrUndefined.bind (Spline.subOpB_sou cfg ga.1) fun c hc => ?_
    refine SameOrUndefined.bind (Spline.mulScalarB_sou ..) fun w hw => ofSplinesB_sou ?_
    obtain ⟨-, -, e1, e2⟩ := sum_parts hn h h' ha hb hw
    rw [Spline.subOpB_debug] at hc
    rw [Spline.subOp_same e1 hc, e2]

theorem addAssignB_sou : SameOrUndefined (r.addAssignB .debug cfg rhs) (r.addAssignB .release cfg rhs) := by
  unfold addAssignB
  split
  · exact SameOrUndefined.refl _
  · refine SameOrUndefined.bind (Spline.mulOpB_sou ..) fun a ha => ?_
    refine SameOrUndefined.bind (Spline.mulOpB_sou ..) fun b hb => ?_
    refine SameOrUndefined.bind (SameOrUndefined.refl _) fun c hc => ?_
    refine SameOrUndefined.bind (Spline.mulScalarB_sou ..) fun w hw => ?_
    obtain ⟨-, -, e1, e2⟩ := sum_parts hn h h' ha hb hw
    refine SameOrUndefined.bind (SameOrUndefined.assert (compatible_iff.mpr ?_)) fun _ _ => SameOrUndefined.refl _
    rw [addAssign_same e1 hc, e2]

theorem subAssignB_sou [Sub V] : SameOrUndefined (r.subAssignB .debug cfg rhs) (r.subAssignB .release cfg rhs) := by
  unfold subAssignB
  split
  · exact SameOrUndefined.refl _
  · refine SameOrUndefined.bind (Spline.mulOpB_sou ..) fun a ha => ?_
    refine SameOrUndefined.bind (Spline.mulOpB_sou ..) fun b hb => ?_
    refine SameOrUndefined.bind (SameOrUndefined.refl _) fun c hc => ?_
    refine SameOrUndefined.bind (Spline.mulScalarB_sou ..) fun w hw => ?_
    obtain ⟨-, -, e1, e2⟩ := sum_parts hn h h' ha hb hw
    refine SameOrUndefined.bind (SameOrUndefined.assert (compatible_iff.mpr ?_)) fun _ _ => SameOrUndefined.refl _
    rw [subAssign_same e1 hc, e2]

end
end

section
variable [Zero K] [One K] [Add K] [Sub K] [Mul K] [Neg K] [Div K] [NatCast K] [Zero V] [Add V] [SMul K V] [Coords K W]
  [LT K] [DecidableLT K]

theorem composeB_sou {cfg : Cfg} (hmax : cfg.maxBinom ≤ 68) (h2 : 2 ≤ cfg.maxBinom) {n : ℕ} {r : RSpline K V} (h : r.Good n)
    {inner : Spline W} (hi : inner.WF) (hdim : n = Coords.n K W) :
    SameOrUndefined (r.composeB .debug cfg inner) (r.composeB .release cfg inner) := by
  unfold composeB
  refine SameOrUndefined.bind (Spline.composeB_sou hmax h2 h.1.1 hi (h.1.2.trans hdim)) fun a ha => ?_
  refine SameOrUndefined.bind (Spline.composeB_sou hmax h2 h.2.1.1 hi (h.2.1.2.trans hdim)) fun b hb => ofSplinesB_sou ?_
  rw [Spline.composeB_debug] at ha hb
  unfold Spline.compose at ha hb
  obtain ⟨f, hf, ha⟩ := bind_eq_ok.mp ha
  obtain ⟨f', hf', hb⟩ := bind_eq_ok.mp hb
  split at ha
  · cases ha
  split at hb
  · cases hb
  rw [(Spline.composeNumerator_good hi.dim_pos ha).2, (Spline.composeNumerator_good hi.dim_pos hb).2, h.2.2]

end
end RSpline
end Bezman
