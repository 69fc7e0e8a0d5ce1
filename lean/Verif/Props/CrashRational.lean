import Verif.Props.Crash
import Verif.Props.Rational
import Verif.Proofs.RationalSums
import Verif.Spec.CrashRational

/-! # C101: `+=` and `-=` of rational splines with different weights that run out of memory -/

namespace Bezman.Props
open Spec Crash

section
variable {K V : Type} [Field K] [CharZero K] [DecidableEq K] [AddCommGroup V] [Module K V] [ScalarDiv K V] [LawfulScalarDiv K V]

omit [CharZero K] [ScalarDiv K V] [LawfulScalarDiv K V] in
theorem elevateToC_same {cfg : Cfg} (hf : 0 < cfg.fuel) {ds : List ℕ} {a b : Spline V} (ha : HasShape ds a) (hb : HasShape ds b) (n : ℕ) :
    Spline.elevateToC K cfg b.degrees a n = .ok (a, some ((), n)) := by
  obtain ⟨N, hN⟩ := (Spline.elevateToC_like (K := K) cfg b.degrees).runsLike a
  have h0 : N = 0 := by
    by_contra h
    obtain ⟨s', hs⟩ := (hN 0).1 (Nat.pos_of_ne_zero h)
    refine (Spline.elevateToC_idle (K := K) cfg b.degrees a fun d p q hp hq => ?_).2 0 s' hs
    rw [ha.2] at hp; rw [hb.2, hp] at hq
    exact (Option.some.inj hq).symm.le
  have e : Spline.elevateTo K cfg a b.degrees = .ok a := Spline.elevateTo_same hf ha hb
  rw [(hN n).2 (by omega), h0]
  simp only [e, Except.map]
  rfl

omit [CharZero K] [ScalarDiv K V] [LawfulScalarDiv K V] in
theorem combineAssignC_same {cfg : Cfg} (hf : 0 < cfg.fuel) {ds : List ℕ} {a b : Spline V} (ha : HasShape ds a) (hb : HasShape ds b)
    {g : V → V → V} {cps : List V} (hz : Spline.zipCps a.ncp g a.cps b.cps = .ok cps) (n : ℕ) :
    Spline.combineAssignC K cfg g b a n = .ok ({ a with cps := cps }, some ((), n)) := by
  unfold Spline.combineAssignC
  rw [bind_run, elevateToC_same hf ha hb]
  show (do let rhs ← local' (Spline.elevateToC K cfg a.degrees) b; let cps ← lift (Spline.zipCps a.ncp g a.cps rhs.cps); put { a with cps := cps }) a n = _
  have e : (local' (Spline.elevateToC K cfg a.degrees) b : Crash (Spline V) (Spline V)) a n = .ok (a, some (b, n)) := by
    unfold local'
    rw [elevateToC_same hf hb ha]
    rfl
  rw [bind_run, e]
  show (do let cps ← lift (Spline.zipCps a.ncp g a.cps b.cps); put { a with cps := cps }) a n = _
  rw [hz]
  rfl

omit [CharZero K] [ScalarDiv K V] [LawfulScalarDiv K V] in
theorem rcombine_states {cfg : Cfg} (hf : 0 < cfg.fuel) {ds : List ℕ} {r rhs : RSpline K V} (he : r.wt.eqOp rhs.wt = false)
    {a b : Spline V} {w : Spline K} {g : V → V → V} {cps : List V} (h1 : RSpline.mulWeight' cfg r.num rhs.wt = .ok a)
    (h2 : RSpline.mulWeight cfg r.wt rhs.num = .ok b) (h3 : Spline.mulScalar cfg r.wt rhs.wt = .ok w) (ha : HasShape ds a)
    (hb : HasShape ds b) (hw : w.degrees = ds) (hz : Spline.zipCps a.ncp g a.cps b.cps = .ok cps) (r' : RSpline K V) :
    FailsWith (RSpline.combineAssignC cfg g rhs) r r' ↔ r' = r ∨ r' = ⟨a, r.wt⟩ ∨ r' = ⟨{ a with cps := cps }, r.wt⟩ := by
  have hc := combineAssignC_same (K := K) hf ha hb hz
  have e0 : RSpline.combineAssignC cfg g rhs r 0 = .ok (r, none) := by
    unfold RSpline.combineAssignC
    rw [bind_run]
    show (if r.wt.eqOp rhs.wt then _ else _ : Crash (RSpline K V) Unit) r 0 = _
    rw [he]
    rfl
  have e1 : RSpline.combineAssignC cfg g rhs r 1 = .ok (⟨a, r.wt⟩, none) := by
    unfold RSpline.combineAssignC
    rw [bind_run]
    show (if r.wt.eqOp rhs.wt then _ else _ : Crash (RSpline K V) Unit) r 1 = _
    rw [he, h1]
    rfl
  have e2 : ∀ n, RSpline.combineAssignC cfg g rhs r (n + 2) = (do
      point
      let r ← obj
      let w ← lift (Spline.mulScalar cfg r.wt rhs.wt)
      put ⟨r.num, w⟩
      let r ← obj
      lift (assertM (RSpline.compatible r)) : Crash (RSpline K V) Unit) ⟨{ a with cps := cps }, r.wt⟩ n := by
    intro n
    unfold RSpline.combineAssignC
    rw [bind_run]
    show (if r.wt.eqOp rhs.wt then _ else _ : Crash (RSpline K V) Unit) r (n + 2) = _
    rw [he, h1, h2]
    show (RSpline.onNum (Spline.combineAssignC K cfg g b) >>= fun _ => _ : Crash (RSpline K V) Unit) ⟨a, r.wt⟩ n = _
    rw [bind_run]
    unfold RSpline.onNum
    rw [hc]
    rfl
  constructor
  · rintro ⟨n, h⟩
    match n, h with
    | 0, h => rw [e0] at h; cases h; exact .inl rfl
    | 1, h => rw [e1] at h; cases h; exact .inr (.inl rfl)
    | 2, h => rw [e2] at h; cases h; exact .inr (.inr rfl)
    | n + 3, h =>
      rw [show n + 3 = (n + 1) + 2 from rfl, e2] at h
      have hcomp : RSpline.compatible (⟨{ a with cps := cps }, w⟩ : RSpline K V) = true := by
        unfold RSpline.compatible
        simp [ha.2, hw]
      change (lift (Spline.mulScalar cfg r.wt rhs.wt) >>= fun w => (do
        put ⟨{ a with cps := cps }, w⟩
        let r ← obj
        lift (assertM (RSpline.compatible r)) : Crash (RSpline K V) Unit)) ⟨{ a with cps := cps }, r.wt⟩ n = _ at h
      rw [h3] at h
      change (lift (assertM (RSpline.compatible (⟨{ a with cps := cps }, w⟩ : RSpline K V))) : Crash (RSpline K V) Unit)
        ⟨{ a with cps := cps }, w⟩ n = _ at h
      rw [hcomp] at h
      cases h
  · rintro (rfl | rfl | rfl)
    · exact ⟨0, e0⟩
    · exact ⟨1, e1⟩
    · exact ⟨2, e2 0⟩

omit [CharZero K] [ScalarDiv K V] [LawfulScalarDiv K V] in
theorem zip_of_combine {cfg : Cfg} (hf : 0 < cfg.fuel) {ds : List ℕ} {a b n : Spline V} (ha : HasShape ds a) (hb : HasShape ds b)
    {g : V → V → V} (h : (do
      let s ← Spline.elevateTo K cfg a b.degrees
      let rhs ← Spline.elevateTo K cfg b s.degrees
      let cps ← Spline.zipCps s.ncp g s.cps rhs.cps
      pure { s with cps := cps }) = .ok n) :
    ∃ cps, Spline.zipCps a.ncp g a.cps b.cps = .ok cps ∧ n = { a with cps := cps } := by
  rw [Spline.elevateTo_same hf ha hb] at h
  simp only [bind_ok] at h
  rw [Spline.elevateTo_same hf hb ha] at h
  simp only [bind_ok] at h
  obtain ⟨cps, h1, h2⟩ := bind_eq_ok.mp h
  cases h2
  exact ⟨cps, h1, rfl⟩

/-- C101. `r += rhs` of rational splines with different weights that runs out of memory leaves behind: the old spline; the old weight
function below the product of the old numerator and the weight function of `rhs`; or the old weight function below the numerator of
the result. Each of these happens. -/
theorem C101_rational_add_states (cfg : Cfg) (hmax : cfg.maxBinom ≤ 68) (hf : 0 < cfg.fuel) (r rhs : RSpline K V) (da db : List ℕ)
    (f g : List K → V) (wa wb : List K → K) (ha : r.Computes da f wa) (hb : rhs.Computes db g wb) (h : RFits cfg da db)
    (he : r.wt.eqOp rhs.wt = false) :
    ∃ x q, RSpline.addAssign cfg r rhs = .ok q ∧ Halfway cfg da db wa wb f (fun t => f t + g t) r rhs q x ∧
      ∀ r', FailsWith ((.addAssign rhs : RMutator K V).applyC cfg) r r' ↔ r' = r ∨ r' = ⟨x, r.wt⟩ ∨ r' = ⟨q.num, r.wt⟩ := by
  obtain ⟨x, y, w, hx, hy, hw, hx', hy', hw'⟩ := crossNumerators cfg hmax ha hb h
  obtain ⟨q, hq, hr⟩ := C38_add_assign cfg hmax r rhs da db f g wa wb ha hb h
  have hr' : q.Computes (sumDegrees da db) (fun t => f t + g t) fun t => wa t * wb t := by
    rcases hr with ⟨h', _⟩ | ⟨_, h'⟩
    · rw [he] at h'; cases h'
    · exact h'
  have hxs : HasShape (sumDegrees da db) x := ⟨hx'.wf, hx'.degrees_eq⟩
  have hys : HasShape (sumDegrees da db) y := ⟨hy'.wf, hy'.degrees_eq⟩
  have hq' := hq
  unfold RSpline.addAssign at hq'
  simp only [he, Bool.false_eq_true, if_false, hx, hy, hw, bind_ok] at hq'
  obtain ⟨n, hn, hq'⟩ := bind_eq_ok.mp hq'
  obtain ⟨_, _, hq'⟩ := bind_eq_ok.mp hq'
  cases hq'
  obtain ⟨cps, hz, rfl⟩ := zip_of_combine hf hxs hys hn
  refine ⟨x, _, hq, ⟨hx, hx'.wf, hx'.degrees_eq, fun t ht h0 => ?_, hr'⟩, rcombine_states hf he hx hy hw hxs hys hw'.degrees_eq hz⟩
  rw [hx'.eval t (by rw [ht]; simp [sumDegrees, h.dims]), ha.num_value ht h0, smul_smul, mul_comm]

/-- C101. The same for `r -= rhs`. -/
theorem C101_rational_sub_states (cfg : Cfg) (hmax : cfg.maxBinom ≤ 68) (hf : 0 < cfg.fuel) (r rhs : RSpline K V) (da db : List ℕ)
    (f g : List K → V) (wa wb : List K → K) (ha : r.Computes da f wa) (hb : rhs.Computes db g wb) (h : RFits cfg da db)
    (he : r.wt.eqOp rhs.wt = false) :
    ∃ x q, RSpline.subAssign cfg r rhs = .ok q ∧ Halfway cfg da db wa wb f (fun t => f t - g t) r rhs q x ∧
      ∀ r', FailsWith ((.subAssign rhs : RMutator K V).applyC cfg) r r' ↔ r' = r ∨ r' = ⟨x, r.wt⟩ ∨ r' = ⟨q.num, r.wt⟩ := by
  obtain ⟨x, y, w, hx, hy, hw, hx', hy', hw'⟩ := crossNumerators cfg hmax ha hb h
  obtain ⟨q, hq, hr⟩ := C38_sub_assign cfg hmax r rhs da db f g wa wb ha hb h
  have hr' : q.Computes (sumDegrees da db) (fun t => f t - g t) fun t => wa t * wb t := by
    rcases hr with ⟨h', _⟩ | ⟨_, h'⟩
    · rw [he] at h'; cases h'
    · exact h'
  have hxs : HasShape (sumDegrees da db) x := ⟨hx'.wf, hx'.degrees_eq⟩
  have hys : HasShape (sumDegrees da db) y := ⟨hy'.wf, hy'.degrees_eq⟩
  have hq' := hq
  unfold RSpline.subAssign at hq'
  simp only [he, Bool.false_eq_true, if_false, hx, hy, hw, bind_ok] at hq'
  obtain ⟨n, hn, hq'⟩ := bind_eq_ok.mp hq'
  obtain ⟨_, _, hq'⟩ := bind_eq_ok.mp hq'
  cases hq'
  obtain ⟨cps, hz, rfl⟩ := zip_of_combine hf hxs hys hn
  refine ⟨x, _, hq, ⟨hx, hx'.wf, hx'.degrees_eq, fun t ht h0 => ?_, hr'⟩, rcombine_states hf he hx hy hw hxs hys hw'.degrees_eq hz⟩
  rw [hx'.eval t (by rw [ht]; simp [sumDegrees, h.dims]), ha.num_value ht h0, smul_smul, mul_comm]

omit [CharZero K] [DecidableEq K] [ScalarDiv K V] [LawfulScalarDiv K V] in
theorem sumDegrees_eq_left : ∀ {da db : List ℕ}, db.length = da.length → (sumDegrees da db = da ↔ ∀ p ∈ db, p = 0)
  | [], [], _ => by simp [sumDegrees]
  | [], _ :: _, h => by simp at h
  | _ :: _, [], h => by simp at h
  | a :: da, b :: db, h => by
    have ih := sumDegrees_eq_left (da := da) (db := db) (by simpa using h)
    unfold sumDegrees at ih ⊢
    simp only [List.zipWith, List.cons.injEq, ih, List.forall_mem_cons]
    refine and_congr_left fun _ => ⟨fun h => by omega, fun h => by omega⟩

theorem halfway_left {cfg : Cfg} {da db : List ℕ} {wa wb : List K → K} {f h : List K → V} {r rhs q : RSpline K V} {x : Spline V}
    (ha : r.Computes da f wa) (hd : db.length = da.length) (hh : Halfway cfg da db wa wb f h r rhs q x)
    {r' : RSpline K V} (hr : r' = r ∨ r' = ⟨x, r.wt⟩ ∨ r' = ⟨q.num, r.wt⟩) : LeftBehind da db wa wb f h r r' := by
  have hl : (sumDegrees da db).length = da.length := by simp [sumDegrees, hd]
  have key : ∀ (n : Spline V) (k : List K → V), n.WF → n.degrees = sumDegrees da db →
      (∀ t : List K, t.length = da.length → wa t ≠ 0 → wb t ≠ 0 → n.value t = (wa t * wb t) • k t) →
      ((⟨n, r.wt⟩ : RSpline K V).compatible = false ∧ ∃ p ∈ db, p ≠ 0) ∨ ((∀ p ∈ db, p = 0) ∧ n.WF ∧ n.degrees = da ∧
        ∀ t : List K, t.length = da.length → wa t ≠ 0 → wb t ≠ 0 → (⟨n, r.wt⟩ : RSpline K V).evaluate t = .ok (wb t • k t)) := by
    intro n k hn hdeg hk
    by_cases h0 : ∀ p ∈ db, p = 0
    · refine .inr ⟨h0, hn, hdeg.trans ((sumDegrees_eq_left hd).mpr h0), fun t ht h1 h2 => ?_⟩
      have hw := ha.wt_value ht
      rw [RSpline.evaluate_ok (r := ⟨n, r.wt⟩) hn ha.wt_wf (hdeg.trans ((sumDegrees_eq_left hd).mpr h0)) ha.wt_degrees ht (by rw [hw]; exact h1)]
      show Except.ok ((r.wt.value t)⁻¹ • n.value t) = _
      rw [hw, hk t ht h1 h2, mul_smul, inv_smul_smul₀ h1]
    · refine .inl ⟨?_, by push Not at h0; exact h0⟩
      unfold RSpline.compatible
      apply beq_false_of_ne
      show n.degrees ≠ r.wt.degrees
      rw [hdeg, ha.wt_degrees]
      exact fun e => h0 ((sumDegrees_eq_left hd).mp e)
  rcases hr with rfl | rfl | rfl
  · exact .inl rfl
  · have hx : ∀ t : List K, t.length = da.length → wa t ≠ 0 → wb t ≠ 0 → x.value t = (wa t * wb t) • f t := fun t ht h1 _ => by
      have e := hh.x_value t ht h1
      rw [Spline.evaluate_ok hh.x_wf (by rw [ht, ← hl, ← hh.x_degrees]; rfl)] at e
      exact Except.ok.inj e
    rcases key x f hh.x_wf hh.x_degrees hx with h | ⟨h1, h2, h3, h4⟩
    · exact .inr (.inl h)
    · exact .inr (.inr ⟨h1, h2, h3, rfl, .inl h4⟩)
  · rcases key q.num h hh.q_computes.num_wf hh.q_computes.num_degrees (fun t ht h1 h2 =>
        hh.q_computes.num_value (ht.trans hl.symm) (mul_ne_zero h1 h2)) with h | ⟨h1, h2, h3, h4⟩
    · exact .inr (.inl h)
    · exact .inr (.inr ⟨h1, h2, h3, rfl, .inr h4⟩)

/-- C101. `r += rhs` that runs out of memory, in terms of the functions. -/
theorem C101_rational_add_partial (cfg : Cfg) (hmax : cfg.maxBinom ≤ 68) (hf : 0 < cfg.fuel) (r r' rhs : RSpline K V) (da db : List ℕ)
    (f g : List K → V) (wa wb : List K → K) (ha : r.Computes da f wa) (hb : rhs.Computes db g wb) (h : RFits cfg da db)
    (hr : FailsWith ((.addAssign rhs : RMutator K V).applyC cfg) r r') : LeftBehind da db wa wb f (fun t => f t + g t) r r' := by
  cases he : r.wt.eqOp rhs.wt with
  | true =>
    obtain ⟨e, _⟩ := eqWeights ha hb he
    exact .inl (C101_rational_combine_strong_partial cfg _ r r' rhs he (by rw [ha.num_degrees, hb.num_degrees, e]) hr)
  | false =>
    obtain ⟨x, q, _, hh, hall⟩ := C101_rational_add_states cfg hmax hf r rhs da db f g wa wb ha hb h he
    exact halfway_left ha h.dims hh ((hall r').mp hr)

/-- C101. `r -= rhs` that runs out of memory, in terms of the functions. -/
theorem C101_rational_sub_partial (cfg : Cfg) (hmax : cfg.maxBinom ≤ 68) (hf : 0 < cfg.fuel) (r r' rhs : RSpline K V) (da db : List ℕ)
    (f g : List K → V) (wa wb : List K → K) (ha : r.Computes da f wa) (hb : rhs.Computes db g wb) (h : RFits cfg da db)
    (hr : FailsWith ((.subAssign rhs : RMutator K V).applyC cfg) r r') : LeftBehind da db wa wb f (fun t => f t - g t) r r' := by
  cases he : r.wt.eqOp rhs.wt with
  | true =>
    obtain ⟨e, _⟩ := eqWeights ha hb he
    exact .inl (C101_rational_combine_strong_partial cfg _ r r' rhs he (by rw [ha.num_degrees, hb.num_degrees, e]) hr)
  | false =>
    obtain ⟨x, q, _, hh, hall⟩ := C101_rational_sub_states cfg hmax hf r rhs da db f g wa wb ha hb h he
    exact halfway_left ha h.dims hh ((hall r').mp hr)

end

/-! ## Assignment and `UpdateDegrees` -/

section
variable {K V : Type}

theorem failsWith_bind {σ : Type} {x : Crash σ Unit} {y : Crash σ Unit} {f : σ → M σ} {s t s' : σ} (hx : LikeM x f) (hf : f s = .ok t) :
    FailsWith (x >>= fun _ => y) s s' ↔ FailsWith x s s' ∨ FailsWith y t s' := by
  obtain ⟨N, hN⟩ := hx.runsLike s
  constructor
  · rintro ⟨n, h⟩
    rw [bind_run] at h
    by_cases hn : n < N
    · obtain ⟨u, hu⟩ := (hN n).1 hn
      rw [hu] at h
      cases h
      exact .inl ⟨n, hu⟩
    · rw [(hN n).2 (not_lt.mp hn), hf] at h
      exact .inr ⟨n - N, h⟩
  · rintro (⟨n, h⟩ | ⟨n, h⟩)
    · exact ⟨n, by rw [bind_run, h]; rfl⟩
    · refine ⟨n + N, ?_⟩
      rw [bind_run, (hN _).2 (by omega), hf]
      show y t (n + N - N) = _
      rw [Nat.add_sub_cancel, h]

theorem failsWith_onNum {x : Crash (Spline V) Unit} {r r' : RSpline K V} :
    FailsWith (RSpline.onNum x) r r' ↔ FailsWith x r.num r'.num ∧ r'.wt = r.wt := by
  constructor
  · rintro ⟨n, h⟩
    obtain ⟨⟨q, o⟩, h1, h2⟩ := bind_eq_ok.mp h
    cases h2
    exact ⟨⟨n, h1⟩, rfl⟩
  · rintro ⟨⟨n, h⟩, h2⟩
    refine ⟨n, ?_⟩
    unfold RSpline.onNum
    rw [h, ← h2]
    rfl

theorem failsWith_onWt {x : Crash (Spline K) Unit} {r r' : RSpline K V} :
    FailsWith (RSpline.onWt x) r r' ↔ FailsWith x r.wt r'.wt ∧ r'.num = r.num := by
  constructor
  · rintro ⟨n, h⟩
    obtain ⟨⟨q, o⟩, h1, h2⟩ := bind_eq_ok.mp h
    cases h2
    exact ⟨⟨n, h1⟩, rfl⟩
  · rintro ⟨⟨n, h⟩, h2⟩
    refine ⟨n, ?_⟩
    unfold RSpline.onWt
    rw [h, ← h2]
    rfl

/-- C101. The assignment `r = rhs` of rational splines that runs out of memory: the numerator was growing and has the old control points
with the new degrees, the weight function is the old one; or the numerator is the new one, and the weight function has the old
weights with the new degrees. -/
theorem C101_rational_assign_states (rhs r r' : RSpline K V) :
    FailsWith (RSpline.assignC rhs) r r' ↔
      (r.num.cps.length < rhs.num.cps.length ∧ r' = ⟨{ rhs.num with cps := r.num.cps }, r.wt⟩) ∨
      (r.wt.cps.length < rhs.wt.cps.length ∧ r' = ⟨rhs.num, { rhs.wt with cps := r.wt.cps }⟩) := by
  unfold RSpline.assignC
  rw [failsWith_bind (t := ⟨rhs.num, r.wt⟩) (RSpline.onNum_like (Spline.assignC_like rhs.num)) rfl, failsWith_onNum, failsWith_onWt,
    C101_assign_states, C101_assign_states]
  obtain ⟨n', w'⟩ := r'
  simp only [RSpline.mk.injEq]
  tauto

/-- C101. `UpdateDegrees` of a rational spline that runs out of memory: the weight function was growing and has the new degrees with the
old weights, the numerator is the old one; or the weight function is the new one and the numerator has the new degrees with
the old control points. -/
theorem C101_rational_update_degrees_states [Field K] [CharZero K] [AddCommGroup V] [Module K V] (r r' : RSpline K V) (nd : List ℕ)
    (hn : r.num.WF) (hw : r.wt.WF) (hd : r.num.degrees = r.wt.degrees) (hl : nd.length = r.wt.dim) :
    ∃ w, r.wt.updateDegrees nd = .ok w ∧ (FailsWith (RSpline.updateDegreesC nd) r r' ↔ size r.wt.degrees < size nd ∧
      (r' = ⟨r.num, { r.wt with degrees := nd, ncp := size nd }⟩ ∨ r' = ⟨{ r.num with degrees := nd, ncp := size nd }, w⟩)) := by
  have ok : ∀ {W : Type} [Zero W] (s : Spline W), s.WF → nd.length = s.dim → ∃ w, s.updateDegrees nd = .ok w := by
    intro W _ s hs hl
    unfold Spline.updateDegrees
    rw [Spline.updateIndexOffsets_ok (by rw [hs.off_len, hl]) (by rw [hl]; exact hs.dim_pos)]
    exact ⟨_, rfl⟩
  have hdim : r.num.dim = r.wt.dim := by unfold Spline.dim; rw [hd]
  obtain ⟨w, hw'⟩ := ok r.wt hw hl
  obtain ⟨n, hn'⟩ := ok r.num hn (hl.trans hdim.symm)
  refine ⟨w, hw', ?_⟩
  unfold RSpline.updateDegreesC
  rw [failsWith_bind (t := ⟨r.num, w⟩) (RSpline.onWt_like (Spline.updateDegreesC_like nd)) (by simp only [hw', bind_ok, pure_eq_ok]),
    failsWith_bind (t := ⟨n, w⟩) (RSpline.onNum_like (Spline.updateDegreesC_like nd)) (by simp only [hn', bind_ok, pure_eq_ok]),
    failsWith_onNum, failsWith_onWt, C101_update_degrees_states _ _ _ hw, C101_update_degrees_states _ _ _ hn]
  have last : ¬ FailsWith (do let r ← obj; lift (assertM (RSpline.compatible r)) : Crash (RSpline K V) Unit) ⟨n, w⟩ r' := by
    rintro ⟨m, h⟩
    have e : Ends (do let r ← obj; lift (assertM (RSpline.compatible r)) : Crash (RSpline K V) Unit) ⟨n, w⟩ (fun _ _ => True)
        (fun _ => False) := (Ends.obj _).bind fun t s1 _ => (Ends.lift _ s1).mono (fun _ _ _ => trivial) fun _ h => h
    exact e.2 m r' h
  obtain ⟨n', w''⟩ := r'
  simp only [RSpline.mk.injEq, hd] at last ⊢
  tauto

/-- C101. Exactly what the elevation of a rational spline in direction `d` that runs out of memory leaves behind: the numerator interrupted;
the numerator elevated; that and the weight function interrupted; or both elevated. -/
theorem C101_rational_elevate_states [Field K] [CharZero K] [AddCommGroup V] [Module K V] (r r' : RSpline K V) (ds : List ℕ)
    (f : List K → V) (w : List K → K) (hn : r.num.Computes ds f) (hw : r.wt.Computes ds w) (d p : ℕ) (hp : ds[d]? = some p)
    (hsize : size (ds.set d (p + 1)) < 2 ^ 31) :
    ∃ n v, Spline.orderElevate K r.num d = .ok n ∧ Spline.orderElevate K r.wt d = .ok v ∧ n.Computes (ds.set d (p + 1)) f ∧
      v.Computes (ds.set d (p + 1)) w ∧
      (FailsWith (RSpline.orderElevateC d) r r' ↔ r' = ⟨{ r.num with ncp := r.num.ncp / (p + 1) * (p + 2) }, r.wt⟩ ∨ r' = ⟨n, r.wt⟩ ∨
        r' = ⟨n, { r.wt with ncp := r.wt.ncp / (p + 1) * (p + 2) }⟩ ∨ r' = ⟨n, v⟩) := by
  obtain ⟨n, hn1, hn2⟩ := C12_order_elevate r.num ds f hn d p hp hsize
  obtain ⟨v, hv1, hv2⟩ := C12_order_elevate r.wt ds w hw d p hp hsize
  refine ⟨n, v, hn1, hv1, hn2, hv2, ?_⟩
  unfold RSpline.orderElevateC
  rw [failsWith_bind (t := ⟨n, r.wt⟩) (RSpline.onNum_like (Spline.orderElevateC_like d)) (by simp only [hn1, bind_ok, pure_eq_ok]),
    failsWith_bind (t := ⟨n, v⟩) (RSpline.onWt_like (Spline.orderElevateC_like d)) (by simp only [hv1, bind_ok, pure_eq_ok]),
    failsWith_onNum, failsWith_onWt, C101_elevate_states r.num _ ds f hn d p hp hsize, C101_elevate_states r.wt _ ds w hw d p hp hsize,
    hn1, hv1]
  have last : ¬ FailsWith (do let r ← obj; lift (assertM (RSpline.compatible r)) : Crash (RSpline K V) Unit) ⟨n, v⟩ r' := by
    rintro ⟨m, h⟩
    have e : Ends (do let r ← obj; lift (assertM (RSpline.compatible r)) : Crash (RSpline K V) Unit) ⟨n, v⟩ (fun _ _ => True)
        (fun _ => False) := (Ends.obj _).bind fun t s1 _ => (Ends.lift _ s1).mono (fun _ _ _ => trivial) fun _ h => h
    exact e.2 m r' h
  obtain ⟨n', w''⟩ := r'
  simp only [RSpline.mk.injEq, Except.ok.injEq, eq_comm (a := n), eq_comm (a := v)] at last ⊢
  tauto

end

/-- a line that is assigned a curve, or given degree 2 -/
example : FailsWith (RSpline.assignC (⟨Ex.curve 1 2 3, Ex.curve 1 1 1⟩ : RSpline ℚ ℚ)) ⟨Ex.line 5 6, Ex.line 1 2⟩
      ⟨Ex.curve 1 2 3, { Ex.curve 1 1 1 with cps := [1, 2] }⟩ ∧
    FailsWith (RSpline.updateDegreesC [2] : Crash (RSpline ℚ ℚ) Unit) ⟨Ex.line 5 6, Ex.line 1 2⟩
      ⟨Ex.line 5 6, ⟨[2], 3, [1], [1, 2]⟩⟩ :=
  ⟨⟨1, by decide +kernel⟩, ⟨0, by decide +kernel⟩⟩

/-- two curves with different weights, and the three states in which the first one can be left behind -/
example :
    let r : RSpline ℚ ℚ := ⟨Ex.line 1 6, Ex.line 1 2⟩
    let rhs : RSpline ℚ ℚ := ⟨Ex.line 2 3, Ex.line 1 3⟩
    r.wt.eqOp rhs.wt = false ∧ RFits ⟨5, 5⟩ [1] [1] ∧
    FailsWith ((.addAssign rhs : RMutator ℚ ℚ).applyC ⟨5, 5⟩) r r ∧
    FailsWith ((.addAssign rhs : RMutator ℚ ℚ).applyC ⟨5, 5⟩) r ⟨Ex.curve 1 (9 / 2) 18, Ex.line 1 2⟩ ∧
    FailsWith ((.addAssign rhs : RMutator ℚ ℚ).applyC ⟨5, 5⟩) r ⟨Ex.curve 3 8 24, Ex.line 1 2⟩ :=
  ⟨by decide +kernel, ⟨rfl, by decide, by decide, by decide, by decide⟩, ⟨0, by decide +kernel⟩, ⟨1, by decide +kernel⟩,
    ⟨2, by decide +kernel⟩⟩

end Bezman.Props
