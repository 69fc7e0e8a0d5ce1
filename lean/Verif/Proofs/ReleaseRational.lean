import Verif.Proofs.ReleaseTable
import Verif.Proofs.FacesRationalDeriv

set_option linter.unusedSectionVars false

/-! # Release builds: compositions with a rational inner function, sensitivities and derivatives of rational splines -/

namespace Bezman
open Spec Props

namespace Spline
variable {K V W : Type} [Zero K] [One K] [Add K] [Sub K] [Mul K] [Neg K] [Div K] [NatCast K] [Zero V] [Add V] [SMul K V]

theorem same_fits {cfg : Cfg} {ds : List ℕ} (h : SubFits cfg ds) : Fits cfg ds ds := fits_self h.rounds h.rounds2 h.small

theorem weight_minus {cfg : Cfg} {w : Spline K} {ds : List ℕ} (hw : HasShape ds w) (h : SubFits cfg ds) (e : Spline K) (he : HasShape ds e) :
    Returns ds (subOp K cfg w e) := by
  have := subOp_returns (K := K) cfg hw he (same_fits h) (by intro d p q h1 h2; rw [h1] at h2; exact (Option.some.inj h2).ge)
  rwa [maxDegrees_self] at this

section
variable [Coords K W]

theorem composeNumeratorRationalB_sou {cfg : Cfg} (hmax : cfg.maxBinom ≤ 68) (h2 : 2 ≤ cfg.maxBinom) {s : Spline V} (hs : s.WF)
    {inner : RSpline K W} {db : List ℕ} (hi : HasRShape db inner) (hf : SubFits cfg db) (hdim : s.dim = Coords.n K W) :
    SameOrUndefined (s.composeNumeratorRationalB .debug cfg inner) (s.composeNumeratorRationalB .release cfg inner) := by
  unfold composeNumeratorRationalB
  rw [hi.1.2]
  refine composeNumeratorB_sou hmax h2 hs (by rw [← hi.1.2]; exact hi.1.1.dim_pos)
    (fun d hd => extract_returns hi.1 (by rw [dim] at hdim; omega)) (fun e he => ?_) fun _ _ _ => subOpB_sou cfg hi.2.1
  rw [subOpB_debug]
  exact weight_minus hi.2 hf e he

theorem composeNumeratorSensitivityRationalB_sou (cfg : Cfg) (s : Spline V) {inner : RSpline K W} (hi : inner.wt.WF) :
    SameOrUndefined (s.composeNumeratorSensitivityRationalB .debug cfg inner) (s.composeNumeratorSensitivityRationalB .release cfg inner) :=
  composeNumeratorSensitivityB_sou _ _ _ _ _ _ fun _ _ _ => subOpB_sou cfg hi

omit [Coords K W] in
/-- the sensitivities have the degrees of the composition -/
theorem composeNumeratorSensitivity_degrees {cfg : Cfg} (hmax : cfg.maxBinom ≤ 68) (h2 : 2 ≤ cfg.maxBinom) {s : Spline V}
    (hs : s.WF) {db : List ℕ} (hdb : 0 < db.length) {ex : ℕ → M (Spline K)} {inv : Spline K → M (Spline K)}
    (hext : ∀ d, d < s.degrees.length → Returns db (ex d)) (hinv : ∀ e, HasShape db e → Returns db (inv e)) {l : List (Spline K)}
    (hl : composeNumeratorSensitivity cfg s db ex inv = .ok l) :
    ∀ x ∈ l, x.Good db.length ∧ x.degrees = db.map (fun q => q * s.degrees.sum) := by
  have hda : 0 < s.degrees.length := hs.dim_pos
  unfold composeNumeratorSensitivity at hl
  obtain ⟨bases, hbases, hl⟩ := bind_eq_ok.mp hl
  obtain ⟨b1, b2⟩ : bases.length = s.degrees.length ∧
      ∀ d p : ℕ, s.degrees[d]? = some p → (p < cfg.maxBinom ∧ WithinTable cfg db p) ∧ ∃ bs, bases[d]? = some bs ∧ ∀ i : ℕ, i ≤ p → ∃ x, bs[i]? = some x ∧ HasShape (mults db p) x := by
    rcases composeBases_limit hmax h2 hdb hext hinv with ⟨b, e, b1⟩ | e
    · rw [e] at hbases
      injection hbases with hbases
      subst hbases
      exact b1
    · rw [e] at hbases; cases hbases
  have hone : 2 ≤ s.degrees.length ∨ WithinTable cfg db s.degrees.sum := by
    by_cases hl : 2 ≤ s.degrees.length
    · exact .inl hl
    · obtain ⟨p, hp⟩ := List.length_eq_one_iff.mp (show s.degrees.length = 1 by omega)
      have := (b2 0 p (by rw [hp]; rfl)).1.2
      rw [hp]
      exact .inr (by simpa using this)
  refine loop_ok (P := fun _ (l : List (Spline K)) => ∀ x ∈ l, x.Good db.length ∧ x.degrees = db.map (fun q => q * s.degrees.sum)) hl (by simp) ?_
  intro o _ ret ret' hret hf
  obtain ⟨idx, hidx, hf⟩ := bind_eq_ok.mp hf
  obtain ⟨t, ht, hf⟩ := bind_eq_ok.mp hf
  simp only [pure_eq_ok, Except.ok.injEq] at hf
  subst hf
  rw [localToGlobal_ok hs] at hidx
  injection hidx with hidx
  subst hidx
  intro x hx
  rcases List.mem_append.mp hx with hx | hx
  · exact hret x hx
  · obtain rfl := List.mem_singleton.mp hx
    rcases composeTensor_limit hmax hda b1 (fun d p hp => (b2 d p hp).2) hone (unflat_valid _ o) with ⟨r, e, hr, -⟩ | e
    · rw [e] at ht
      injection ht with ht
      subst ht
      refine ⟨⟨hr.1, by unfold dim; rw [hr.2]; simp [mults]⟩, ?_⟩
      rw [hr.2]
      simp [mults, Nat.mul_comm]
    · rw [e] at ht; cases ht

omit [Zero V] [Add V] [SMul K V] [Coords K W] in
theorem composeDenominator_degrees {cfg : Cfg} (hmax : cfg.maxBinom ≤ 68) (s : Spline V) {inner : RSpline K W} {db : List ℕ}
    (hi : HasRShape db inner) {d : Spline K} (hd : s.composeDenominator cfg inner = .ok d) :
    d.degrees = db.map (fun q => q * s.degrees.sum) := by
  unfold composeDenominator raisePower at hd
  rcases raisePowerAux_limit hmax hi.2 (s.degrees.sum + 1) s.degrees.sum (by omega) with ⟨r, e, hr, -⟩ | e
  · rw [e] at hd
    injection hd with hd
    subst hd
    rw [hr.2]
    simp [mults, Nat.mul_comm]
  · rw [e] at hd; cases hd

variable [BEq K] [ScalarDiv K W] [LT K] [DecidableLT K]

theorem composeRationalB_sou {cfg : Cfg} (hmax : cfg.maxBinom ≤ 68) (h2 : 2 ≤ cfg.maxBinom) {s : Spline V} (hs : s.WF)
    {inner : RSpline K W} {db : List ℕ} (hi : HasRShape db inner) (hf : SubFits cfg db) (hdim : s.dim = Coords.n K W) :
    SameOrUndefined (s.composeRationalB .debug cfg inner) (s.composeRationalB .release cfg inner) := by
  have hdb : 0 < db.length := by rw [← hi.1.2]; exact hi.1.1.dim_pos
  unfold composeRationalB
  refine SameOrUndefined.bind (SameOrUndefined.refl _) fun _ _ => ?_
  refine SameOrUndefined.ite (SameOrUndefined.refl _) ?_
  refine SameOrUndefined.bind (composeNumeratorRationalB_sou hmax h2 hs hi hf hdim) fun n hn => ?_
  refine SameOrUndefined.bind (raisePowerB_sou ..) fun d hd => RSpline.ofSplinesB_sou ?_
  rw [composeNumeratorRationalB_debug] at hn
  rw [composeDenominatorB_debug] at hd
  rw [composeDenominator_degrees hmax s hi hd]
  unfold composeNumeratorRational at hn
  rw [(composeNumerator_good (by rw [hi.1.2]; exact hdb) hn).2, hi.1.2]

theorem composeSensitivityRationalB_sou {cfg : Cfg} (hmax : cfg.maxBinom ≤ 68) (h2 : 2 ≤ cfg.maxBinom) {s : Spline V} (hs : s.WF)
    {inner : RSpline K W} {db : List ℕ} (hi : HasRShape db inner) (hf : SubFits cfg db) (hdim : s.dim = Coords.n K W) :
    SameOrUndefined (s.composeSensitivityRationalB .debug cfg inner) (s.composeSensitivityRationalB .release cfg inner) := by
  have hdb : 0 < db.length := by rw [← hi.1.2]; exact hi.1.1.dim_pos
  unfold composeSensitivityRationalB
  refine SameOrUndefined.bind (SameOrUndefined.refl _) fun _ _ => ?_
  refine SameOrUndefined.ite (SameOrUndefined.refl _) ?_
  refine SameOrUndefined.bind (composeNumeratorSensitivityRationalB_sou cfg s hi.2.1) fun ns hn => ?_
  refine SameOrUndefined.bind (raisePowerB_sou ..) fun d hd => ?_
  rw [composeNumeratorSensitivityRationalB_debug] at hn
  rw [composeDenominatorB_debug] at hd
  unfold composeNumeratorSensitivityRational at hn
  rw [hi.1.2] at hn
  have key := composeNumeratorSensitivity_degrees hmax h2 hs hdb (fun d hd => extract_returns hi.1 (by rw [dim] at hdim; omega))
    (fun e he => weight_minus hi.2 hf e he) hn
  refine SameOrUndefined.loop (fun i ret => ?_) _ _
  refine SameOrUndefined.bind (SameOrUndefined.refl _) fun n hni => ?_
  refine SameOrUndefined.bind (RSpline.ofSplinesB_sou ?_) fun _ _ => SameOrUndefined.refl _
  rw [rd_ok_iff] at hni
  rw [(key n (List.mem_of_getElem? hni)).2, composeDenominator_degrees hmax s hi hd]

end
end Spline

namespace RSpline
variable {K V W : Type} [Zero K] [One K] [Add K] [Sub K] [Mul K] [Neg K] [Div K] [NatCast K] [Zero V] [Add V] [SMul K V]

section
variable [Coords K W]

theorem composeRationalB_sou {cfg : Cfg} (hmax : cfg.maxBinom ≤ 68) (h2 : 2 ≤ cfg.maxBinom) {n : ℕ} {r : RSpline K V} (h : r.Good n)
    {inner : RSpline K W} {db : List ℕ} (hi : HasRShape db inner) (hf : SubFits cfg db) (hdim : n = Coords.n K W) :
    SameOrUndefined (r.composeRationalB .debug cfg inner) (r.composeRationalB .release cfg inner) := by
  have hdb : 0 < db.length := by rw [← hi.1.2]; exact hi.1.1.dim_pos
  unfold composeRationalB
  refine SameOrUndefined.bind (Spline.composeNumeratorRationalB_sou hmax h2 h.1.1 hi hf (h.1.2.trans hdim)) fun a ha => ?_
  refine SameOrUndefined.bind (Spline.composeNumeratorRationalB_sou hmax h2 h.2.1.1 hi hf (h.2.1.2.trans hdim)) fun b hb => ofSplinesB_sou ?_
  rw [Spline.composeNumeratorRationalB_debug] at ha hb
  unfold Spline.composeNumeratorRational at ha hb
  rw [hi.1.2] at ha hb
  rw [(Spline.composeNumerator_good hdb ha).2, (Spline.composeNumerator_good hdb hb).2, h.2.2]

omit [Coords K W] in
theorem rescaleSensitivitiesB_sou (r : RSpline K V) {ns : List (Spline K)} {den : Spline K} (h : ∀ x ∈ ns, x.degrees = den.degrees) :
    SameOrUndefined (r.rescaleSensitivitiesB .debug ns den) (r.rescaleSensitivitiesB .release ns den) := by
  unfold rescaleSensitivitiesB
  refine SameOrUndefined.loop (fun i ret => ?_) _ _
  refine SameOrUndefined.bind (SameOrUndefined.refl _) fun n hn => ?_
  refine SameOrUndefined.bind (SameOrUndefined.refl _) fun w _ => ?_
  refine SameOrUndefined.bind (SameOrUndefined.refl _) fun m hm => ?_
  refine SameOrUndefined.bind (ofSplinesB_sou ?_) fun _ _ => SameOrUndefined.refl _
  rw [rd_ok_iff] at hn
  rw [← h n (List.mem_of_getElem? hn)]
  unfold Spline.smulOp Spline.mapCps at hm
  obtain ⟨c, _, hm⟩ := bind_eq_ok.mp hm
  simp only [pure_eq_ok, Except.ok.injEq] at hm
  subst hm
  rfl

theorem composeSensitivityRationalB_sou {cfg : Cfg} (hmax : cfg.maxBinom ≤ 68) (h2 : 2 ≤ cfg.maxBinom) {n : ℕ} {r : RSpline K V}
    (h : r.Good n) {inner : RSpline K W} {db : List ℕ} (hi : HasRShape db inner) (hf : SubFits cfg db) (hdim : n = Coords.n K W) :
    SameOrUndefined (r.composeSensitivityRationalB .debug cfg inner) (r.composeSensitivityRationalB .release cfg inner) := by
  have hdb : 0 < db.length := by rw [← hi.1.2]; exact hi.1.1.dim_pos
  unfold composeSensitivityRationalB
  refine SameOrUndefined.bind (Spline.composeNumeratorSensitivityRationalB_sou cfg _ hi.2.1) fun ns hn => ?_
  refine SameOrUndefined.bind (Spline.composeNumeratorRationalB_sou hmax h2 h.2.1.1 hi hf (h.2.1.2.trans hdim)) fun b hb => ?_
  refine rescaleSensitivitiesB_sou r fun x hx => ?_
  rw [Spline.composeNumeratorRationalB_debug] at hb
  rw [Spline.composeNumeratorSensitivityRationalB_debug] at hn
  unfold Spline.composeNumeratorRational at hb
  unfold Spline.composeNumeratorSensitivityRational at hn
  rw [hi.1.2] at hb hn
  have hd := h.1.2.trans hdim
  rw [Spline.dim] at hd
  rw [(Spline.composeNumerator_good hdb hb).2, (Spline.composeNumeratorSensitivity_degrees hmax h2 h.1.1 hdb
    (fun d hd' => Spline.extract_returns hi.1 (by omega)) (fun e he => Spline.weight_minus hi.2 hf e he) hn x hx).2, h.2.2]

variable [LT K] [DecidableLT K]

theorem composeSensitivityB_sou {cfg : Cfg} (hmax : cfg.maxBinom ≤ 68) (h2 : 2 ≤ cfg.maxBinom) {n : ℕ} {r : RSpline K V}
    (h : r.Good n) {inner : Spline W} (hi : inner.WF) (hdim : n = Coords.n K W) :
    SameOrUndefined (r.composeSensitivityB .debug cfg inner) (r.composeSensitivityB .release cfg inner) := by
  unfold composeSensitivityB
  refine SameOrUndefined.bind (Spline.composeSensitivityB_sou cfg _ _) fun ns hn => ?_
  refine SameOrUndefined.bind (Spline.composeB_sou hmax h2 h.2.1.1 hi (h.2.1.2.trans hdim)) fun b hb => ?_
  refine rescaleSensitivitiesB_sou r fun x hx => ?_
  rw [Spline.composeB_debug] at hb
  rw [Spline.composeSensitivityB_debug] at hn
  unfold Spline.compose at hb
  unfold Spline.composeSensitivity at hn
  obtain ⟨f, hf, hb⟩ := bind_eq_ok.mp hb
  obtain ⟨f', hf', hn⟩ := bind_eq_ok.mp hn
  split at hb
  · cases hb
  split at hn
  · cases hn
  have hd := h.1.2.trans hdim
  rw [Spline.dim] at hd
  rw [(Spline.composeNumerator_good hi.dim_pos hb).2, (Spline.composeNumeratorSensitivity_degrees hmax h2 h.1.1 hi.dim_pos
    (fun d hd' => Spline.extract_returns ⟨hi, rfl⟩ (by omega)) (fun e he => Spline.pointSub_returns he 1) hn x hx).2, h.2.2]

end

section
variable [Sub V] [Neg V]

theorem derivativeStepB_sou {cfg : Cfg} (hmax : cfg.maxBinom ≤ 68) (h2 : 2 ≤ cfg.maxBinom) {r : RSpline K V} {ds : List ℕ} {e p : ℕ}
    (h : HasRShape ds r) (hd : ds[e]? = some p) (hp : 1 ≤ p) (hs : size ds < 2 ^ 64) :
    SameOrUndefined (derivativeStepB .debug cfg r e) (derivativeStepB .release cfg r e) ∧
      ∀ r', derivativeStepB .debug cfg r e = .ok r' → HasRShape (ds.map (· * 2)) r' := by
  obtain ⟨hdl, hdp⟩ := List.getElem?_eq_some_iff.mp hd
  have hpos : 0 < ds.length := by omega
  have hdim : r.dim = ds.length := by unfold dim Spline.dim; first | rw [h.1.2] | rw [h.2.2]
  have hm : ∀ o ∈ unitOrder ds e, o < cfg.maxBinom := fun o ho => by have := unitOrder_mem ho; omega
  obtain ⟨du, e1, s1⟩ := Spline.derivativeSpline_returns (K := K) cfg hmax h.1 (orders := unitOrder ds e) (by simp [unitOrder]) (unitOrder_le hd hp)
    hm hs
  obtain ⟨dw, e3, s3⟩ := Spline.derivativeSpline_returns (K := K) cfg hmax h.2 (orders := unitOrder ds e) (by simp [unitOrder]) (unitOrder_le hd hp)
    hm hs
  rw [sub_unitOrder hd] at s1 s3
  have hdu : du.dim = ds.length := by unfold Spline.dim; rw [s1.2]; simp
  have hdw : dw.dim = ds.length := by unfold Spline.dim; rw [s3.2]; simp
  have hn : r.num.dim = ds.length := by unfold Spline.dim; rw [h.1.2]
  have hw : r.wt.dim = ds.length := by unfold Spline.dim; rw [h.2.2]
  -- what is known of the parts
  have parts : ∀ a b c n w, Spline.mulOp K cfg (fun (x : V) (c : K) => c • x) du r.wt = .ok a →
      Spline.mulOp K cfg (fun (c : K) (x : V) => c • x) dw r.num = .ok b → Spline.subOp K cfg a b = .ok c →
      Spline.orderElevate K c e = .ok n → Spline.mulOp K cfg (fun x y : K => x * y) r.wt r.wt = .ok w →
      n.WF ∧ n.degrees = ds.map (· * 2) ∧ w.WF ∧ w.degrees = ds.map (· * 2) := by
    intro a b c n w ha hb hc hn' hw'
    obtain ⟨ga, da⟩ := Spline.mulOp_good hpos hdu hw ha
    obtain ⟨gb, db⟩ := Spline.mulOp_good hpos hdw hn hb
    obtain ⟨gw, dw'⟩ := Spline.mulOp_good hpos hw hw hw'
    rw [s1.2, h.2.2] at da
    rw [s3.2, h.1.2] at db
    rw [h.2.2] at dw'
    have gc := Spline.subOp_good hpos ga.2 hc
    have dc := Spline.subOp_same (by rw [da, db]) hc
    obtain ⟨gn, q, hq, dn⟩ := Spline.orderElevate_wf gc.1 hn'
    have el := sumDegrees_low hd hp
    unfold sumDegrees at el
    rw [dc, da, el] at hq dn
    refine ⟨gn, ?_, gw.1, ?_⟩
    · rw [dn, ← low_modify hd hp, List.modify_eq_set, hq]; rfl
    · rw [dw']; exact sumDegrees_double ds
  have eq1 : derivativeStepB .debug cfg r e = derivativeStep cfg r e := derivativeStepB_debug cfg r e
  constructor
  · unfold derivativeStepB
    rw [hdim, wr_ok _ (by simpa using hdl)]
    simp only [bind_ok]
    refine SameOrUndefined.bind (Spline.derivativeSplineB_sou ..) fun du' hdu' => ?_
    refine SameOrUndefined.bind (Spline.mulOpB_sou ..) fun a ha => ?_
    refine SameOrUndefined.bind (Spline.derivativeSplineB_sou ..) fun dw' hdw' => ?_
    refine SameOrUndefined.bind (Spline.mulOpB_sou ..) fun b hb => ?_
    rw [Spline.derivativeSplineB_debug] at hdu' hdw'
    unfold mulWeight'B at ha
    unfold mulWeightB at hb
    rw [Spline.mulOpB_debug] at ha hb
    obtain rfl : du = du' := Except.ok.inj (e1.symm.trans hdu')
    obtain rfl : dw = dw' := Except.ok.inj (e3.symm.trans hdw')
    refine SameOrUndefined.bind (Spline.subOpB_sou cfg (Spline.mulOp_good hpos hdu hw ha).1.1) fun c hc => ?_
    refine SameOrUndefined.bind (SameOrUndefined.refl _) fun n hn' => ?_
    refine SameOrUndefined.bind (Spline.mulScalarB_sou ..) fun w hw' => ofSplinesB_sou ?_
    rw [Spline.subOpB_debug] at hc
    rw [Spline.mulScalarB_debug] at hw'
    obtain ⟨-, d1, -, d2⟩ := parts a b c n w ha hb hc hn' hw'
    rw [d1, d2]
  · intro r' hr
    rw [eq1] at hr
    unfold derivativeStep at hr
    rw [hdim, wr_ok _ (by simpa using hdl)] at hr
    simp only [bind_ok, bind_eq_ok] at hr
    obtain ⟨du', x1, a, x2, dw', x3, b, x4, c, x5, n, x6, w, x7, x8⟩ := hr
    obtain rfl : du = du' := Except.ok.inj (e1.symm.trans x1)
    obtain rfl : dw = dw' := Except.ok.inj (e3.symm.trans x3)
    obtain ⟨g1, d1, g2, d2⟩ := parts a b c n w x2 x4 x5 x6 x7
    obtain rfl := ofSplines_inv x8
    exact ⟨⟨g1, d1⟩, ⟨g2, d2⟩⟩

/-- a loop with an invariant that depends on the index -/
theorem sou_loop_idx {σ : Type} (P : ℕ → σ → Prop) {f g : ℕ → σ → M σ} (n : ℕ)
    (h : ∀ i s, i < n → P i s → SameOrUndefined (f i s) (g i s) ∧ ∀ s', f i s = .ok s' → P (i + 1) s') (s : σ) (hs : P 0 s) :
    SameOrUndefined (Bezman.loop n f s) (Bezman.loop n g s) ∧ ∀ s', Bezman.loop n f s = .ok s' → P n s' := by
  induction n with
  | zero => exact ⟨SameOrUndefined.refl _, fun s' h => by cases h; exact hs⟩
  | succ n ih =>
    obtain ⟨i1, i2⟩ := ih fun i s hi => h i s (by omega)
    refine ⟨SameOrUndefined.bind i1 fun x hx => (h n x (by omega) (i2 x hx)).1, fun s' hs' => ?_⟩
    obtain ⟨x, hx, hs'⟩ := bind_eq_ok.mp hs'
    exact (h n x (by omega) (i2 x hx)).2 s' hs'

theorem size_map_mono {ds : List ℕ} {m n : ℕ} (h : m ≤ n) : size (ds.map (· * m)) ≤ size (ds.map (· * n)) := by
  induction ds with
  | nil => simp
  | cons p ds ih =>
    simp only [List.map_cons, size_cons]
    exact Nat.mul_le_mul (by have := Nat.mul_le_mul_left p h; omega) ih

theorem derivativeSplineB_sou {cfg : Cfg} (hmax : cfg.maxBinom ≤ 68) (h2 : 2 ≤ cfg.maxBinom) {r : RSpline K V} {ds : List ℕ}
    (h : HasRShape ds r) {orders : List ℕ} (hl : orders.length = ds.length)
    (hpos : ∀ d o p : ℕ, orders[d]? = some o → ds[d]? = some p → 1 ≤ o → 1 ≤ p) (hs : size (ds.map (· * 2 ^ orders.sum)) < 2 ^ 64) :
    SameOrUndefined (derivativeSplineB .debug cfg r orders) (derivativeSplineB .release cfg r orders) := by
  have hdim : r.dim = ds.length := by unfold dim Spline.dim; first | rw [h.1.2] | rw [h.2.2]
  unfold derivativeSplineB
  rw [hdim]
  refine (sou_loop_idx (fun k q => HasRShape (ds.map (· * 2 ^ (orders.take k).sum)) q) _ ?_ r (by simpa using h)).1
  intro k q hk hq
  have ho : orders[k]? = some orders[k] := List.getElem?_eq_getElem (by omega)
  have hp : ds[k]? = some ds[k] := List.getElem?_eq_getElem hk
  have hsum : (orders.take (k + 1)).sum = (orders.take k).sum + orders[k] := by
    rw [List.take_succ_eq_append_getElem (by omega), List.sum_append]; simp
  have hle : (orders.take (k + 1)).sum ≤ orders.sum := by
    conv_rhs => rw [← List.take_append_drop (k + 1) orders, List.sum_append]
    omega
  rw [rd_ok ho]
  simp only [bind_ok]
  have key := sou_loop_idx (fun i q => HasRShape (ds.map (· * 2 ^ ((orders.take k).sum + i))) q) (f := fun _ r => derivativeStepB .debug cfg r k)
    (g := fun _ r => derivativeStepB .release cfg r k) orders[k] (by
      intro i q hi hq
      have hlt : size (ds.map (· * 2 ^ ((orders.take k).sum + i))) < 2 ^ 64 :=
        lt_of_le_of_lt (size_map_mono (Nat.pow_le_pow_right (by norm_num) (by omega))) hs
      obtain ⟨x1, x2⟩ := derivativeStepB_sou hmax h2 hq (e := k) (p := ds[k] * 2 ^ ((orders.take k).sum + i)) (by simp [hp])
        (Nat.mul_pos (hpos k _ _ ho hp (by omega)) (by positivity)) hlt
      refine ⟨x1, fun s' hs' => ?_⟩
      have u := x2 s' hs'
      rw [List.map_map] at u
      convert u using 2
      funext x
      simp only [Function.comp]
      ring) q hq
  refine ⟨key.1, fun s' hs' => ?_⟩
  rw [hsum]
  exact key.2 s' hs'

end
end RSpline
end Bezman
