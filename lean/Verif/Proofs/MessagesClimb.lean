import Verif.Proofs.Messages

/-! # Messages: failures are announced; transcripts of elevations -/

namespace Bezman.Messages
open Said Spec
variable {K V W : Type}

/-! ## Failures are announced -/

section
variable [One K] [Sub K] [Mul K] [Div K] [NatCast K] [Zero V] [Add V] [SMul K V]

theorem ann_orderElevate (s : Spline V) (d : ℕ) : Announces (orderElevate K s d) := by
  unfold orderElevate; announces [NoThrow.orderElevate]
theorem ann_elevateTo (cfg : Cfg) (s : Spline V) (t : List ℕ) : Announces (elevateTo K cfg s t) := by
  unfold elevateTo; announces [ann_orderElevate]
theorem ann_addAux (cfg : Cfg) (depth : ℕ) (s r : Spline V) : Announces (addAux K cfg depth s r) := by
  induction depth generalizing s r with
  | zero => exact .lift NoThrow.outOfFuel
  | succ n ih => unfold addAux; announces [ann_elevateTo, NoThrow.ofPoints, NoThrow.zipCps, ih]
theorem ann_addOp (cfg : Cfg) (s r : Spline V) : Announces (addOp K cfg s r) := ann_addAux ..
theorem ann_addAssign (cfg : Cfg) (s r : Spline V) : Announces (addAssign K cfg s r) := by
  unfold addAssign; announces [ann_elevateTo, NoThrow.zipCps]
theorem ann_subOp [Sub V] (cfg : Cfg) (s r : Spline V) : Announces (subOp K cfg s r) := by
  unfold subOp; announces [ann_elevateTo, ann_orderElevate, NoThrow.zipCps, NoThrow.ofPoints]
theorem ann_subAssign [Sub V] (cfg : Cfg) (s r : Spline V) : Announces (subAssign K cfg s r) := by
  unfold subAssign; announces [ann_elevateTo, NoThrow.zipCps]
end

theorem ann_derivativeSpline [One K] [Neg K] [Mul K] [NatCast K] [Zero V] [Add V] [SMul K V] (cfg : Cfg) (s : Spline V) (o : List ℕ) :
    Announces (derivativeSpline K cfg s o) := by
  unfold derivativeSpline showOrders; announces [NoThrow.derivativeSpline]

section
variable [Coords K V]
theorem ann_extractDimension [Zero K] (b : Bool) (s : Spline V) (d : ℕ) : Announces (extractDimension K b s d) := by
  unfold extractDimension
  split
  · exact .lift (NoThrow.extractDimension _ ‹_›)
  · exact .terminate _
theorem ann_transposeAndScale [Add K] [Mul K] (s : Spline V) (a b : V) : Announces (transposeAndScale K s a b) := by
  unfold transposeAndScale; announces [NoThrow.transposeAndScale]
variable [LT K] [DecidableLT K]
theorem ann_maximumCorner (s : Spline V) : Announces (maximumCorner K s) := by
  unfold maximumCorner
  split
  · exact .terminate _
  · exact .lift (NoThrow.maximumCorner _ ‹_›)
theorem ann_minimumCorner (s : Spline V) : Announces (minimumCorner K s) := by
  unfold minimumCorner
  split
  · exact .terminate _
  · exact .lift (NoThrow.minimumCorner _ ‹_›)
theorem ann_fitsIntoUnitCube [Zero K] [One K] (s : Spline V) : Announces (fitsIntoUnitCube K s) := by
  unfold fitsIntoUnitCube; announces [ann_maximumCorner, ann_minimumCorner]
theorem ann_fitIntoUnitCube [One K] [Add K] [Mul K] [Div K] [Sub V] [Neg V] (s : Spline V) : Announces (fitIntoUnitCube K s) := by
  unfold fitIntoUnitCube; announces [ann_maximumCorner, ann_minimumCorner, ann_transposeAndScale]
end

section
variable [Zero K] [One K] [Add K] [Mul K] [Div K] [NatCast K]
theorem ann_raisePower (cfg : Cfg) (s : Spline K) (k : ℕ) : Announces (raisePower cfg s k) := by
  unfold raisePower
  generalize k + 1 = depth
  induction depth generalizing k with
  | zero => exact .lift NoThrow.outOfFuel
  | succ n ih => unfold raisePowerAux; announces [NoThrow.oneSpline, NoThrow.mulScalar, ih]
end

theorem ann_raisePowerPoints (s : Spline V) (k : ℕ) : Announces (raisePowerPoints s k) := .terminate _

section
variable [Zero K] [One K] [Sub K] [LT K] [DecidableLT K] [Add V] [SMul K V]
theorem ann_splitAt (tx : K → String) (s : Spline V) (z : K) (d : ℕ) : Announces (splitAt tx s z d) := by
  unfold splitAt
  refine .bind (.say (by decide) _) fun _ => ?_
  split
  · exact .terminate _
  · rename_i h; exact .lift (NoThrow.splitAt _ _ _ (not_not.mp h))
theorem ann_splitAtMany [Div K] (tx : K → String) (s : Spline V) (zs : List K) (d : ℕ) : Announces (splitAtMany tx s zs d) := by
  unfold splitAtMany; announces [ann_splitAt]
end

section
variable [Zero K] [One K] [Add K] [Sub K] [Mul K] [Neg K] [Div K] [NatCast K]
theorem ann_composeBases (cfg : Cfg) (ds : List ℕ) (n : ℕ) {e : ℕ → Said (Spline K)} {i : Spline K → Said (Spline K)}
    (he : ∀ d, Announces (e d)) (hi : ∀ s, Announces (i s)) : Announces (composeBases cfg ds n e i) := by
  unfold composeBases; announces [he, hi, NoThrow.composeBernstein]
theorem ann_composeNumerator [Zero V] [Add V] [SMul K V] (cfg : Cfg) (s : Spline V) (ds : List ℕ) {e : ℕ → Said (Spline K)}
    {i : Spline K → Said (Spline K)} (he : ∀ d, Announces (e d)) (hi : ∀ s, Announces (i s)) :
    Announces (composeNumerator cfg s ds e i) := by
  have := fun n => ann_composeBases cfg s.degrees n he hi
  unfold composeNumerator; announces [this, NoThrow.ofDegrees, NoThrow.localToGlobal, NoThrow.composeTensor]
theorem ann_composeNumeratorSensitivity (cfg : Cfg) (s : Spline V) (ds : List ℕ) {e : ℕ → Said (Spline K)}
    {i : Spline K → Said (Spline K)} (he : ∀ d, Announces (e d)) (hi : ∀ s, Announces (i s)) :
    Announces (composeNumeratorSensitivity cfg s ds e i) := by
  have := fun n => ann_composeBases cfg s.degrees n he hi
  unfold composeNumeratorSensitivity; announces [this, NoThrow.localToGlobal, NoThrow.composeTensor]
variable [Coords K W] [LT K] [DecidableLT K]
theorem ann_compose [Zero V] [Add V] [SMul K V] (cfg : Cfg) (b : Bool) (s : Spline V) (i : Spline W) :
    Announces (compose K cfg b s i) := by
  have := ann_composeNumerator (K := K) cfg s i.degrees (fun d => ann_extractDimension b i d)
    (fun e => .lift (NoThrow.pointSub (1 : K) e))
  unfold compose; announces [ann_fitsIntoUnitCube, this]
theorem ann_composeSensitivity (cfg : Cfg) (b : Bool) (s : Spline V) (i : Spline W) : Announces (composeSensitivity K cfg b s i) := by
  have := ann_composeNumeratorSensitivity (K := K) cfg s i.degrees (fun d => ann_extractDimension b i d)
    (fun e => .lift (NoThrow.pointSub (1 : K) e))
  unfold composeSensitivity; announces [ann_fitsIntoUnitCube, this]
end

section
variable [Zero K] [One K] [Add K] [Sub K] [Mul K] [Div K] [NatCast K] [Zero V] [Add V] [SMul K V]
theorem ann_rOrderElevate (r : RSpline K V) (d : ℕ) : Announces (rOrderElevate r d) := by
  unfold rOrderElevate; announces [ann_orderElevate]
theorem ann_rSplitAt [LT K] [DecidableLT K] (tx : K → String) (r : RSpline K V) (z : K) (d : ℕ) : Announces (rSplitAt tx r z d) := by
  unfold rSplitAt; announces [ann_splitAt, NoThrow.ofSplines]
theorem ann_rSplitAtMany [LT K] [DecidableLT K] (tx : K → String) (r : RSpline K V) (zs : List K) (d : ℕ) :
    Announces (rSplitAtMany tx r zs d) := by
  unfold rSplitAtMany; announces [ann_rSplitAt]
variable [BEq K]
theorem ann_rAddOp (cfg : Cfg) (r q : RSpline K V) : Announces (rAddOp cfg r q) := by
  unfold rAddOp; announces [ann_addOp, NoThrow.ofSplines, NoThrow.mulWeight, NoThrow.mulWeight', NoThrow.mulScalar]
theorem ann_rAddAssign (cfg : Cfg) (r q : RSpline K V) : Announces (rAddAssign cfg r q) := by
  unfold rAddAssign; announces [ann_addAssign, NoThrow.ofSplines, NoThrow.mulWeight, NoThrow.mulWeight', NoThrow.mulScalar]
theorem ann_rSubOp [Sub V] (cfg : Cfg) (r q : RSpline K V) : Announces (rSubOp cfg r q) := by
  unfold rSubOp; announces [ann_subOp, NoThrow.ofSplines, NoThrow.mulWeight, NoThrow.mulWeight', NoThrow.mulScalar]
theorem ann_rSubAssign [Sub V] (cfg : Cfg) (r q : RSpline K V) : Announces (rSubAssign cfg r q) := by
  unfold rSubAssign; announces [ann_subAssign, NoThrow.ofSplines, NoThrow.mulWeight, NoThrow.mulWeight', NoThrow.mulScalar]
end

section
variable [Zero K] [One K] [Add K] [Sub K] [Mul K] [Neg K] [Div K] [NatCast K] [Zero V] [Add V] [Sub V] [SMul K V]
theorem ann_rDerivativeStep (cfg : Cfg) (r : RSpline K V) (d : ℕ) : Announces (rDerivativeStep cfg r d) := by
  unfold rDerivativeStep
  announces [ann_subOp, ann_orderElevate, ann_derivativeSpline, NoThrow.ofSplines, NoThrow.mulWeight, NoThrow.mulWeight', NoThrow.mulScalar]
theorem ann_rDerivativeSpline (cfg : Cfg) (r : RSpline K V) (o : List ℕ) : Announces (rDerivativeSpline cfg r o) := by
  unfold rDerivativeSpline; announces [ann_rDerivativeStep]
end

section
variable [Coords K V] [Zero K] [BEq K] [ScalarDiv K V] [LT K] [DecidableLT K]
theorem ann_rMinimumCorner (r : RSpline K V) : Announces (rMinimumCorner r) := by
  unfold rMinimumCorner
  split
  · exact .terminate _
  · exact .lift (NoThrow.corner _ _ ‹_›)
theorem ann_rMaximumCorner (r : RSpline K V) : Announces (rMaximumCorner r) := by
  unfold rMaximumCorner
  split
  · exact .terminate _
  · exact .lift (NoThrow.corner _ _ ‹_›)
theorem ann_rFitsIntoUnitCube [One K] (r : RSpline K V) : Announces (rFitsIntoUnitCube r) := by
  unfold rFitsIntoUnitCube; announces [ann_rMaximumCorner, ann_rMinimumCorner]
end

section
variable [Zero K] [One K] [Add K] [Sub K] [Mul K] [Neg K] [Div K] [NatCast K] [Zero V] [Add V] [SMul K V] [Coords K W]
theorem ann_composeNumeratorRational (cfg : Cfg) (b : Bool) (s : Spline V) (i : RSpline K W) :
    Announces (composeNumeratorRational cfg b s i) :=
  ann_composeNumerator cfg s _ (fun d => ann_extractDimension b i.num d) (fun e => ann_subOp cfg i.wt e)
omit [Zero V] [Add V] [SMul K V] in
theorem ann_composeNumeratorSensitivityRational (cfg : Cfg) (b : Bool) (s : Spline V) (i : RSpline K W) :
    Announces (composeNumeratorSensitivityRational cfg b s i) :=
  ann_composeNumeratorSensitivity cfg s _ (fun d => ann_extractDimension b i.num d) (fun e => ann_subOp cfg i.wt e)
variable [BEq K] [ScalarDiv K W] [LT K] [DecidableLT K]
theorem ann_composeRational (cfg : Cfg) (b : Bool) (s : Spline V) (i : RSpline K W) : Announces (composeRational cfg b s i) := by
  unfold composeRational composeDenominator
  announces [ann_rFitsIntoUnitCube, ann_composeNumeratorRational, ann_raisePower, NoThrow.ofSplines]
omit [Zero V] [Add V] [SMul K V] in
theorem ann_composeSensitivityRational (cfg : Cfg) (b : Bool) (s : Spline V) (i : RSpline K W) :
    Announces (composeSensitivityRational cfg b s i) := by
  unfold composeSensitivityRational composeDenominator
  announces [ann_rFitsIntoUnitCube, ann_composeNumeratorSensitivityRational, ann_raisePower, NoThrow.ofSplines]
omit [BEq K] [ScalarDiv K W] in
theorem ann_rCompose (cfg : Cfg) (b : Bool) (r : RSpline K V) (i : Spline W) : Announces (rCompose cfg b r i) := by
  unfold rCompose; announces [ann_compose, NoThrow.ofSplines]
omit [BEq K] [ScalarDiv K W] [LT K] [DecidableLT K] in
theorem ann_rComposeRational (cfg : Cfg) (b : Bool) (r : RSpline K V) (i : RSpline K W) : Announces (rComposeRational cfg b r i) := by
  unfold rComposeRational; announces [ann_composeNumeratorRational, NoThrow.ofSplines]
omit [Zero V] [Add V] [SMul K V] [BEq K] [ScalarDiv K W] in
theorem ann_rComposeSensitivity (cfg : Cfg) (b : Bool) (r : RSpline K V) (i : Spline W) : Announces (rComposeSensitivity cfg b r i) := by
  unfold rComposeSensitivity; announces [ann_compose, ann_composeSensitivity, NoThrow.rescaleSensitivities]
omit [Zero V] [Add V] [SMul K V] [BEq K] [ScalarDiv K W] [LT K] [DecidableLT K] in
theorem ann_rComposeSensitivityRational (cfg : Cfg) (b : Bool) (r : RSpline K V) (i : RSpline K W) :
    Announces (rComposeSensitivityRational cfg b r i) := by
  unfold rComposeSensitivityRational
  announces [ann_composeNumeratorRational, ann_composeNumeratorSensitivityRational, NoThrow.rescaleSensitivities]
end

/-! ## Transcripts of elevations -/

section
variable [One K] [Sub K] [Mul K] [Div K] [NatCast K] [Zero V] [Add V] [SMul K V]

theorem while_climb {n : ℕ} {d t : ℕ} {c : Spline V → M Bool}
    (hc : ∀ (s : Spline V) (p : ℕ), s.degrees[d]? = some p → c s = .ok (decide (t > p))) {s r : Spline V} {p : ℕ} (hp : s.degrees[d]? = some p)
    (h : (whileS n c (fun s => orderElevate K s d) s).out = .ok r) :
    r.degrees = s.degrees.set d (max p t) ∧
      (whileS n c (fun s => orderElevate K s d) s).log = (List.range' (p + 1) (t - p)).map (elevated d) := by
  induction n generalizing s p with
  | zero => cases h
  | succ n ih =>
    have hd : d < s.degrees.length := (List.getElem?_eq_some_iff.mp hp).1
    have hc := hc s p hp
    by_cases hlt : t > p
    · rw [decide_eq_true hlt] at hc
      rw [whileS_true hc] at h ⊢
      rw [out_bind] at h
      obtain ⟨s1, h1, h2⟩ := bind_eq_ok.mp h
      rw [log_bind_ok h1]
      rw [out_orderElevate] at h1
      obtain ⟨p', hp', hs1, hlog⟩ := log_orderElevate h1
      rw [hp] at hp'; cases hp'
      have := ih (s := s1) (p := p + 1) (by rw [hs1, List.getElem?_set_self hd]) h2
      refine ⟨?_, ?_⟩
      · rw [this.1, hs1, List.set_set, show max (p + 1) t = max p t by omega]
      · rw [this.2, hlog, show t - p = (t - (p + 1)) + 1 by omega, List.range'_succ]
        rfl
    · rw [decide_eq_false hlt] at hc
      rw [whileS_false hc] at h ⊢
      cases h
      refine ⟨?_, ?_⟩
      · rw [show max p t = p by omega]
        apply List.ext_getElem?
        intro i
        by_cases hi : d = i
        · subst hi; rw [List.getElem?_set_self hd, hp]
        · rw [List.getElem?_set_ne hi]
      · rw [show t - p = 0 by omega]; rfl

/-- degrees after the first `k` directions have been raised -/
def raised (ps ts : List ℕ) (k : ℕ) : List ℕ := ps.mapIdx fun i p => if i < k then max p (ts.getD i 0) else p

theorem elevateTo_climb {cfg : Cfg} {target : List ℕ} {s r : Spline V} (hl : target.length = s.degrees.length)
    (h : Spline.elevateTo K cfg s target = .ok r) :
    r.degrees = List.zipWith max s.degrees target ∧ (elevateTo K cfg s target).log = climb s.degrees target := by
  rw [← out_elevateTo] at h
  unfold elevateTo at h ⊢
  have key : ∀ k ≤ s.degrees.length, ∀ r, (loopS k (fun d s =>
    whileS cfg.fuel (fun (s : Spline V) => do
      let t ← rd target d
      let p ← rd s.degrees d
      pure (decide (t > p))) (fun s => orderElevate K s d) s) s).out = .ok r →
      r.degrees = raised s.degrees target k ∧ (loopS k (fun d s =>
    whileS cfg.fuel (fun (s : Spline V) => do
      let t ← rd target d
      let p ← rd s.degrees d
      pure (decide (t > p))) (fun s => orderElevate K s d) s) s).log = (List.range k).flatMap fun d =>
    (List.range' (s.degrees.getD d 0 + 1) (target.getD d 0 - s.degrees.getD d 0)).map (elevated d) := by
    intro k
    induction k with
    | zero =>
      intro _ r hr
      cases hr
      refine ⟨?_, rfl⟩
      apply List.ext_getElem?
      intro i
      rw [raised, List.getElem?_mapIdx]
      cases s.degrees[i]? <;> simp
    | succ k ih =>
      intro hk r hr
      rw [loopS, out_bind] at hr
      obtain ⟨s1, h1, h2⟩ := bind_eq_ok.mp hr
      obtain ⟨i1, i2⟩ := ih (by omega) s1 h1
      have hk' : k < s.degrees.length := hk
      have ht : target[k]? = some target[k] := List.getElem?_eq_getElem (by omega)
      have hp : s1.degrees[k]? = some s.degrees[k] := by
        rw [i1, raised, List.getElem?_mapIdx, List.getElem?_eq_getElem hk']; simp
      obtain ⟨w1, w2⟩ := while_climb (t := target[k]) (fun s p hp => by rw [rd_ok ht, bind_ok, rd_ok hp, bind_ok, pure_eq_ok]) hp h2
      rw [loopS, log_bind_ok h1, w2, i2]
      refine ⟨?_, ?_⟩
      · rw [w1, i1]
        apply List.ext_getElem?
        intro i
        unfold raised
        rw [List.getElem?_set, List.getElem?_mapIdx, List.getElem?_mapIdx, List.length_mapIdx]
        by_cases hi : k = i
        · subst hi
          rw [List.getElem?_eq_getElem hk']
          simp [hk', ht]
        · rw [if_neg hi]
          cases hq : s.degrees[i]? with
          | none => rfl
          | some q =>
            simp only [Option.map_some]
            by_cases hik : i < k
            · rw [if_pos hik, if_pos (by omega)]
            · rw [if_neg hik, if_neg (by omega)]
      · rw [List.range_succ, List.flatMap_append]
        simp [List.getElem?_eq_getElem hk', ht]
  obtain ⟨k1, k2⟩ := key s.degrees.length le_rfl r h
  refine ⟨?_, k2⟩
  rw [k1]
  apply List.ext_getElem?
  intro i
  rw [raised, List.getElem?_mapIdx, List.getElem?_zipWith]
  by_cases hi : i < s.degrees.length
  · rw [List.getElem?_eq_getElem hi, List.getElem?_eq_getElem (show i < target.length by omega)]
    simp [hi, List.getElem?_eq_getElem (show i < target.length by omega)]
  · rw [List.getElem?_eq_none (by omega)]
    rfl

omit [One K] [Sub K] [Mul K] [Div K] [NatCast K] [Zero V] [Add V] [SMul K V] in
theorem climb_max (ps qs : List ℕ) (h : ps.length = qs.length) : climb qs (List.zipWith max ps qs) = climb qs ps := by
  unfold climb
  apply List.flatMap_congr
  intro d hd
  have h1 : d < qs.length := List.mem_range.mp hd
  have h2 : d < ps.length := by omega
  congr 2
  simp [List.getElem?_zipWith, List.getElem?_eq_getElem h1, List.getElem?_eq_getElem h2]
  omega

omit [One K] [Sub K] [Mul K] [Div K] [NatCast K] [Zero V] [Add V] [SMul K V] in
theorem climb_nil {ps qs : List ℕ} (h : ∀ d p q : ℕ, ps[d]? = some p → qs[d]? = some q → q ≤ p) : climb ps qs = [] := by
  unfold climb
  rw [List.flatMap_eq_nil_iff]
  intro d hd
  have h1 : d < ps.length := List.mem_range.mp hd
  have : qs.getD d 0 - ps.getD d 0 = 0 := by
    cases hq : qs[d]? with
    | none => simp [hq]
    | some q =>
      have := h d _ q (List.getElem?_eq_getElem h1) hq
      simp [hq, List.getElem?_eq_getElem h1]; omega
  rw [this]; rfl

omit [One K] [Sub K] [Mul K] [Div K] [NatCast K] [Zero V] [Add V] [SMul K V] in
theorem climb_self (ps : List ℕ) : climb ps ps = [] := climb_nil fun d p q hp hq => by rw [hp] at hq; cases hq; rfl

theorem zip_both_log (op : V → V → V) {cfg : Cfg} {s rhs r : Spline V} (hl : s.dim = rhs.dim)
    (h : (do
      let s ← Spline.elevateTo K cfg s rhs.degrees
      let rhs ← Spline.elevateTo K cfg rhs s.degrees
      let cps ← Spline.zipCps s.ncp op s.cps rhs.cps
      pure { s with cps := cps } : M (Spline V)) = .ok r) :
    r.degrees = List.zipWith max s.degrees rhs.degrees ∧
    ((do
      let s ← elevateTo K cfg s rhs.degrees
      let rhs ← elevateTo K cfg rhs s.degrees
      let cps ← lift (Spline.zipCps s.ncp op s.cps rhs.cps)
      pure { s with cps := cps } : Said (Spline V))).log = climb s.degrees rhs.degrees ++ climb rhs.degrees s.degrees := by
  obtain ⟨s1, h1, h⟩ := bind_eq_ok.mp h
  obtain ⟨r1, h2, h⟩ := bind_eq_ok.mp h
  obtain ⟨c, h3, h⟩ := bind_eq_ok.mp h
  obtain ⟨d1, l1⟩ := elevateTo_climb hl.symm h1
  have hl' : s.degrees.length = rhs.degrees.length := hl
  obtain ⟨d2, l2⟩ := elevateTo_climb (by rw [d1, List.length_zipWith]; omega) h2
  rw [log_bind_ok (out_elevateTo cfg s _ |>.trans h1), log_bind_ok (out_elevateTo cfg rhs _ |>.trans h2), l1, l2, log_lift_bind, h3]
  cases h
  refine ⟨d1, ?_⟩
  rw [d1, climb_max _ _ hl']
  simp

theorem addAssign_log {cfg : Cfg} {s rhs r : Spline V} (hl : s.dim = rhs.dim) (h : s.addAssign K cfg rhs = .ok r) :
    r.degrees = List.zipWith max s.degrees rhs.degrees ∧
      (addAssign K cfg s rhs).log = climb s.degrees rhs.degrees ++ climb rhs.degrees s.degrees := zip_both_log _ hl h

theorem subAssign_log [Sub V] {cfg : Cfg} {s rhs r : Spline V} (hl : s.dim = rhs.dim) (h : s.subAssign K cfg rhs = .ok r) :
    r.degrees = List.zipWith max s.degrees rhs.degrees ∧
      (subAssign K cfg s rhs).log = climb s.degrees rhs.degrees ++ climb rhs.degrees s.degrees := zip_both_log _ hl h

omit [One K] [Sub K] [Mul K] [Div K] [NatCast K] [Zero V] [Add V] [SMul K V] in
theorem needs_copy {ps qs : List ℕ} {k : ℕ} {b : Bool} (h : loop k (fun d (b : Bool) => do
      let p ← rd ps d
      let q ← rd qs d
      pure (b || decide (p > q))) false = .ok b) :
    b = true ↔ ∃ d p q : ℕ, d < k ∧ ps[d]? = some p ∧ qs[d]? = some q ∧ q < p := by
  induction k generalizing b with
  | zero => cases h; simp
  | succ k ih =>
    rw [loop_succ] at h
    obtain ⟨b1, h1, h2⟩ := bind_eq_ok.mp h
    obtain ⟨p, hp, h2⟩ := bind_eq_ok.mp h2
    obtain ⟨q, hq, h2⟩ := bind_eq_ok.mp h2
    rw [rd_ok_iff] at hp hq
    cases h2
    rw [Bool.or_eq_true, ih h1, decide_eq_true_iff]
    constructor
    · rintro (⟨d, p, q, h1, h2⟩ | h)
      · exact ⟨d, p, q, by omega, h2⟩
      · exact ⟨k, p, q, by omega, hp, hq, h⟩
    · rintro ⟨d, p', q', g1, g2, g3, g4⟩
      rcases Nat.lt_succ_iff_lt_or_eq.mp g1 with g | rfl
      · exact .inl ⟨d, p', q', g, g2, g3, g4⟩
      · rw [hp] at g2; rw [hq] at g3; cases g2; cases g3; exact .inr g4

omit [One K] [Sub K] [Mul K] [Div K] [NatCast K] [Zero V] [Add V] [SMul K V] in
theorem ofPoints_degrees {ds : List ℕ} {pts : List V} {s : Spline V} (h : Spline.ofPoints ds pts = .ok s) : s.degrees = ds := by
  unfold Spline.ofPoints at h
  obtain ⟨_, _, h⟩ := bind_eq_ok.mp h
  obtain ⟨_, _, h⟩ := bind_eq_ok.mp h
  cases h; rfl

theorem addAux_log_le {cfg : Cfg} {depth : ℕ} {s rhs r : Spline V} (hl : s.dim = rhs.dim)
    (hle : ∀ d p q : ℕ, s.degrees[d]? = some p → rhs.degrees[d]? = some q → p ≤ q) (h : Spline.addAux K cfg depth s rhs = .ok r) :
    r.degrees = List.zipWith max s.degrees rhs.degrees ∧ (addAux K cfg depth s rhs).log = climb s.degrees rhs.degrees := by
  cases depth with
  | zero => cases h
  | succ n =>
    unfold Spline.addAux at h
    unfold addAux
    obtain ⟨s0, h0, h⟩ := bind_eq_ok.mp h
    obtain ⟨b, hb, h⟩ := bind_eq_ok.mp h
    obtain ⟨s1, h1, h⟩ := bind_eq_ok.mp h
    have hd0 := ofPoints_degrees h0
    obtain ⟨d1, l1⟩ := elevateTo_climb (by rw [hd0]; exact hl.symm) h1
    have hbf : b = false := by
      rw [Bool.eq_false_iff]
      intro hc
      obtain ⟨d, p, q, _, hp, hq, hlt⟩ := (needs_copy hb).mp hc
      have := hle d p q hp hq
      omega
    subst hbf
    rw [h0, hb, lift_ok_bind, lift_ok_bind, log_bind_ok ((out_elevateTo cfg s0 _).trans h1), l1, hd0]
    simp only [Bool.not_false, if_true] at h ⊢
    obtain ⟨c, hc, h⟩ := bind_eq_ok.mp h
    rw [hc, lift_ok_bind]
    cases h
    exact ⟨by rw [← hd0]; exact d1, by simp⟩

theorem addOp_log {cfg : Cfg} {s rhs r : Spline V} (hl : s.dim = rhs.dim) (h : s.addOp K cfg rhs = .ok r) :
    r.degrees = List.zipWith max s.degrees rhs.degrees ∧
      (addOp K cfg s rhs).log = climb s.degrees rhs.degrees ++ climb rhs.degrees s.degrees := by
  unfold Spline.addOp at h
  unfold addOp
  by_cases hle : ∀ d p q : ℕ, s.degrees[d]? = some p → rhs.degrees[d]? = some q → p ≤ q
  · obtain ⟨h1, h2⟩ := addAux_log_le hl hle h
    exact ⟨h1, by rw [h2, climb_nil (ps := rhs.degrees) fun d p q hp hq => hle d q p hq hp, List.append_nil]⟩
  · cases hf : cfg.fuel with
    | zero => rw [hf] at h; cases h
    | succ n =>
      rw [hf] at h
      unfold Spline.addAux at h
      unfold addAux
      obtain ⟨s0, h0, h⟩ := bind_eq_ok.mp h
      obtain ⟨b, hb, h⟩ := bind_eq_ok.mp h
      obtain ⟨s1, h1, h⟩ := bind_eq_ok.mp h
      have hd0 := ofPoints_degrees h0
      obtain ⟨d1, l1⟩ := elevateTo_climb (by rw [hd0]; exact hl.symm) h1
      have hl' : s.degrees.length = rhs.degrees.length := hl
      have hbt : b = true := by
        rw [needs_copy hb]
        push Not at hle
        obtain ⟨d, p, q, hp, hq, hlt⟩ := hle
        exact ⟨d, p, q, (List.getElem?_eq_some_iff.mp hp).1, hp, hq, hlt⟩
      subst hbt
      simp only [Bool.not_true, Bool.false_eq_true, if_false] at h ⊢
      rw [h0, hb, lift_ok_bind, lift_ok_bind, log_bind_ok ((out_elevateTo cfg s0 _).trans h1), l1, hd0]
      rw [hd0] at d1
      obtain ⟨d2, l2⟩ := addAux_log_le (s := rhs) (rhs := s1) (by show rhs.degrees.length = s1.degrees.length; rw [d1, List.length_zipWith]; omega) (by
        intro d p q hp hq
        have hdl := (List.getElem?_eq_some_iff.mp hp).1
        rw [d1, List.getElem?_zipWith, hp, List.getElem?_eq_getElem (show d < s.degrees.length by omega)] at hq
        simp at hq
        omega) h
      simp only [Bool.not_true, Bool.false_eq_true, if_false]
      rw [l2, d2, d1, climb_max _ _ hl']
      refine ⟨?_, rfl⟩
      apply List.ext_getElem?
      intro i
      rw [List.getElem?_zipWith, List.getElem?_zipWith]
      by_cases hi : i < s.degrees.length
      · rw [List.getElem?_eq_getElem hi, List.getElem?_eq_getElem (show i < rhs.degrees.length by omega)]
        simp
      · rw [List.getElem?_eq_none (l := rhs.degrees) (by omega), List.getElem?_eq_none (l := s.degrees) (by omega)]

/-- a loop whose condition stays true never ends -/
theorem whileS_const {n : ℕ} {c : Spline V → M Bool} {f : Spline V → Said (Spline V)} {s r : Spline V} (hc : ∀ s, c s = .ok true) :
    (whileS n c f s).out ≠ .ok r := by
  induction n generalizing s with
  | zero => exact fun h => by cases h
  | succ n ih =>
    rw [whileS_true (hc s), out_bind]
    intro h
    obtain ⟨s1, _, h2⟩ := bind_eq_ok.mp h
    exact ih h2

theorem subOp_log [Sub V] {cfg : Cfg} {s rhs r : Spline V} (hl : s.dim = rhs.dim) (h : s.subOp K cfg rhs = .ok r) :
    (∀ d p q : ℕ, s.degrees[d]? = some p → rhs.degrees[d]? = some q → q ≤ p) ∧ r.degrees = s.degrees ∧
      (subOp K cfg s rhs).log = climb rhs.degrees s.degrees := by
  rw [← out_subOp] at h
  unfold subOp at h ⊢
  rw [out_bind] at h
  obtain ⟨s0, h0, e1⟩ := bind_eq_ok.mp h
  rw [out_bind] at e1
  obtain ⟨s1, h1, e2⟩ := bind_eq_ok.mp e1
  rw [out_bind] at e2
  obtain ⟨q1, h2, e3⟩ := bind_eq_ok.mp e2
  rw [out_bind] at e3
  obtain ⟨c, h3, e4⟩ := bind_eq_ok.mp e3
  have hl' : s.degrees.length = rhs.degrees.length := hl
  rw [out_lift] at h0
  have key : ∀ k ≤ s.degrees.length, ∀ t, (loopS k (fun d ret =>
    whileS cfg.fuel (fun (_ : Spline V) => do
      let q ← rd rhs.degrees d
      let p ← rd s.degrees d
      pure (decide (q > p))) (fun ret => orderElevate K ret d) ret) s0).out = .ok t →
      (∀ d p q : ℕ, d < k → s.degrees[d]? = some p → rhs.degrees[d]? = some q → q ≤ p) ∧ t = s0 ∧ (loopS k (fun d ret =>
    whileS cfg.fuel (fun (_ : Spline V) => do
      let q ← rd rhs.degrees d
      let p ← rd s.degrees d
      pure (decide (q > p))) (fun ret => orderElevate K ret d) ret) s0).log = [] := by
    intro k
    induction k with
    | zero => intro _ t ht; cases ht; exact ⟨fun d p q h => by omega, rfl, rfl⟩
    | succ k ih =>
      intro hk t ht
      rw [loopS, out_bind] at ht
      obtain ⟨t1, g1, g2⟩ := bind_eq_ok.mp ht
      obtain ⟨i1, i2, i3⟩ := ih (by omega) t1 g1
      subst i2
      have hp : s.degrees[k]? = some s.degrees[k] := List.getElem?_eq_getElem hk
      have hq : rhs.degrees[k]? = some rhs.degrees[k] := List.getElem?_eq_getElem (by omega)
      have hc : ∀ x : Spline V, (fun (_ : Spline V) => (do
          let q ← rd rhs.degrees k
          let p ← rd s.degrees k
          pure (decide (q > p)) : M Bool)) x = .ok (decide (rhs.degrees[k] > s.degrees[k])) := by
        intro x
        dsimp only
        rw [rd_ok hq, bind_ok, rd_ok hp, bind_ok, pure_eq_ok]
      rw [loopS, log_bind_ok g1, i3]
      by_cases hgt : rhs.degrees[k] > s.degrees[k]
      · rw [decide_eq_true hgt] at hc
        exact absurd g2 (whileS_const hc)
      · rw [decide_eq_false hgt] at hc
        cases hfu : cfg.fuel with
        | zero => rw [hfu] at g2; cases g2
        | succ n =>
          rw [hfu] at g2
          have hw := whileS_false (n := n) (c := fun (_ : Spline V) => (do
            let q ← rd rhs.degrees k
            let p ← rd s.degrees k
            pure (decide (q > p)) : M Bool)) (f := fun ret => orderElevate K ret k) (s := t1) (hc t1)
          rw [hw] at g2 ⊢
          cases g2
          refine ⟨?_, rfl, rfl⟩
          intro d p q hd hp' hq'
          rcases Nat.lt_succ_iff_lt_or_eq.mp hd with hd | rfl
          · exact i1 d p q hd hp' hq'
          · rw [hp] at hp'; rw [hq] at hq'; cases hp'; cases hq'; omega
  obtain ⟨k1, k2, k3⟩ := key s.dim le_rfl s1 h1
  subst k2
  rw [h0, lift_ok_bind, log_bind_ok h1, log_bind_ok h2]
  rw [out_elevateTo] at h2
  rw [(elevateTo_climb hl h2).2, k3]
  rw [out_lift] at h3
  rw [h3, lift_ok_bind]
  cases e4
  exact ⟨fun d p q hp hq => k1 d p q (List.getElem?_eq_some_iff.mp hp).1 hp hq, (ofPoints_degrees h0 :), by simp⟩

end
end Bezman.Messages
