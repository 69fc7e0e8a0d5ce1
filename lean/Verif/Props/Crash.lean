import Verif.Proofs.Crash
import Verif.Proofs.SplitMany
import Verif.Props.Examples
import Verif.Props.History

/-! # C101: calls that run out of memory -/

namespace Bezman.Props
open Spec Crash

/-! ## The calls in `Verif.Model.Crash` are the calls of the other chapters -/

/-- C101. Every call of a mutator passes a number of places at which memory may run out. If it runs out there, the call ends in
`std::bad_alloc`; if not, the call behaves exactly as described in the other chapters. -/
theorem C101_runs {K V : Type} [Coords K V] [One K] [Add K] [Sub K] [Mul K] [Div K] [NatCast K] [LT K] [DecidableLT K]
    [Zero V] [Add V] [Sub V] [Neg V] [SMul K V] (cfg : Cfg) (m : Mutator K V) (s : Spline V) :
    ∃ N, RunsLike (m.applyC cfg) (m.apply cfg) s N := (Mutator.applyC_like cfg m).runsLike s

/-- C101. The same for rational splines. -/
theorem C101_rational_runs {K V : Type} [Zero K] [One K] [Add K] [Sub K] [Mul K] [Div K] [NatCast K] [BEq K] [Zero V] [Add V] [Sub V]
    [SMul K V] (cfg : Cfg) (m : RMutator K V) (r : RSpline K V) : ∃ N, RunsLike (m.applyC cfg) (m.apply cfg) r N :=
  (RMutator.applyC_like cfg m).runsLike r

/-- C101. The same for the assignment of a spline. -/
theorem C101_assign_runs {V : Type} (rhs s : Spline V) : ∃ N, RunsLike (Spline.assignC rhs) (fun _ => .ok rhs) s N :=
  (Spline.assignC_like rhs).runsLike s

/-! ## Calls that leave the object alone -/

section
variable {K V : Type} [Coords K V] [One K] [Add K] [Sub K] [Mul K] [Div K] [NatCast K] [LT K] [DecidableLT K]
  [Zero V] [Add V] [Sub V] [Neg V] [SMul K V]

theorem run_ends {σ : Type} (f : σ → M σ) (s : σ) {F : σ → Prop} :
    Ends (do let s ← obj; let r ← lift (f s); put r) s (fun _ t => f s = .ok t) F := by
  refine (Ends.obj s).bind fun t s1 h1 => (Ends.lift _ s1).bind fun r s2 h2 => (Ends.put _ s2).mono ?_ fun _ h => h
  obtain ⟨rfl, rfl⟩ := h1
  rintro _ _ rfl
  exact h2.1

/-- C101. `*=`, `+=` and `-=` with a point, `TransposeAndScale`, `FitIntoUnitCube` and the writes to control points: a call that runs
out of memory has not touched the object. -/
theorem C101_strong_partial (cfg : Cfg) (m : Mutator K V) (hm : Calm m) (s s' : Spline V) (h : FailsWith (m.applyC cfg) s s') :
    s' = s := by
  obtain ⟨n, h⟩ := h
  cases m with
  | updateDegrees nd => exact hm.elim
  | orderElevate d => exact hm.elim
  | addAssign rhs => exact hm.elim
  | subAssign rhs => exact hm.elim
  | transposeAndScale t c =>
    refine (Ends.bind (Ends.point s) (R := fun _ _ => True) (f := fun _ => do
      let s ← obj; let r ← lift (Spline.transposeAndScale K s t c); put r) fun _ t ht => ?_).2 n s' h
    exact (run_ends _ t).mono (fun _ _ _ => trivial) fun _ h => h
  | fitIntoUnitCube =>
    refine ((Ends.obj s).bind (R := fun _ _ => True) (F := fun s' => s' = s) fun t s1 h1 => ?_).2 n s' h
    obtain ⟨rfl, rfl⟩ := h1
    exact (Ends.point _).bind fun _ s2 _ => (Ends.lift _ s2).bind fun _ s3 _ => (Ends.put _ s3).mono (fun _ _ _ => trivial) fun _ h => h
  | _ => exact (run_ends _ s (F := fun s' => s' = s)).2 n s' h

example : Calm (.transposeAndScale 1 2 : Mutator ℚ ℚ) ∧
    FailsWith ((.transposeAndScale 1 2 : Mutator ℚ ℚ).applyC Ex.cfg) (Ex.curve 1 2 4) (Ex.curve 1 2 4) := ⟨trivial, 0, rfl⟩

end

section
variable {K V : Type} [Zero K] [One K] [Add K] [Sub K] [Mul K] [Div K] [NatCast K] [BEq K] [Zero V] [Add V] [Sub V] [SMul K V]

/-- C101. `*=`, `+=` and `-=` with a point and the writes to control points and weights of a rational spline do not allocate. -/
theorem C101_rational_strong_partial (cfg : Cfg) (r r' : RSpline K V) (m : RMutator K V) (hm : RCalm m) : ¬FailsWith (m.applyC cfg) r r' := by
  rintro ⟨n, h⟩
  cases m with
  | assign rhs => exact hm
  | updateDegrees nd => exact hm
  | orderElevate d => exact hm
  | addAssign rhs => exact hm
  | subAssign rhs => exact hm
  | _ => exact (run_ends _ r (F := fun _ => False)).2 n r' h

end

/-! ## What the other calls leave behind -/

section
variable {K V : Type} [Field K] [CharZero K] [AddCommGroup V] [Module K V]

theorem interrupted_lt {t s' : Spline V} (ht : t.WF) (h : Interrupted t s') : s'.cps.length < s'.ncp := by
  obtain ⟨d, p, hp, rfl⟩ := h
  show t.cps.length < t.ncp / (p + 1) * (p + 2)
  have hN : size t.degrees = (p + 1) * (t.ncp / (p + 1)) := by
    rw [ht.ncp_eq]
    conv_lhs => rw [list_split hp, size_append, size_cons]
    conv_rhs => rw [list_split hp, size_append, size_cons]
    rw [show ∀ a b : ℕ, a * ((p + 1) * b) = (p + 1) * (a * b) from fun a b => by ring,
      Nat.mul_div_cancel_left _ (Nat.succ_pos p)]
  have hpos : 0 < size t.degrees := size_pos _
  rw [ht.cps_len]
  rw [hN] at hpos ⊢
  have : 0 < t.ncp / (p + 1) := Nat.pos_of_mul_pos_left hpos
  nlinarith

theorem mapCps_ub {s : Spline V} (h : s.cps.length < s.ncp) (f : V → V) : s.mapCps f = .error .ub := by
  unfold Spline.mapCps
  rw [loop_inv_error (k := s.cps.length) (P := fun _ c => c.length = s.cps.length) (e := .ub) h rfl]
  · rfl
  · intro j hj c hc
    rw [rd_ok (List.getElem?_eq_getElem (by omega : j < c.length))]
    simp only [bind_ok]
    exact ⟨_, wr_ok _ (by omega), by simpa using hc⟩
  · intro c hc
    rw [rd_ub (by rw [hc]), bind_error]

/-- C101. An object interrupted in an order elevation is inconsistent: multiplying it by a number is undefined behaviour. -/
theorem C101_interrupted (t s' : Spline V) (ht : t.WF) (h : Interrupted t s') : ¬s'.WF ∧ ∀ c : K, s'.smulOp c = .error .ub := by
  have hlt := interrupted_lt ht h
  refine ⟨fun hw => ?_, fun c => mapCps_ub hlt _⟩
  rw [hw.cps_len, hw.ncp_eq] at hlt
  exact lt_irrefl _ hlt

theorem updateDegreesC_restore {s s' : Spline V} (h : s.WF) (hc : s'.cps = s.cps) (ho : s'.offsets.length = s.dim) (n : ℕ) :
    Spline.updateDegreesC s.degrees s' n = .ok (s, some ((), n)) := by
  have h1 : Spline.countCps s.degrees = s.cps.length := by rw [Spline.countCps_eq, h.cps_len]
  have h2 : s'.updateDegrees s.degrees = .ok s := by
    unfold Spline.updateDegrees
    rw [Spline.updateIndexOffsets_ok ho h.dim_pos]
    simp only [bind_ok, pure_eq_ok, h1, hc]
    rw [← h.offsets_eq]
    have : Spline.resize s.cps s.cps.length = s.cps := by simp [Spline.resize]
    rw [this, ← h1, Spline.countCps_eq, ← h.ncp_eq]
  unfold Spline.updateDegreesC
  rw [bind_run]
  show (do put _; pointIf (s'.cps.length < Spline.countCps s.degrees); let r ← lift (s'.updateDegrees s.degrees); put r) s' n = _
  rw [bind_run]
  show (do pointIf (s'.cps.length < Spline.countCps s.degrees); let r ← lift (s'.updateDegrees s.degrees); put r) _ n = _
  rw [h2, hc, h1, bind_run, pointIf, if_neg (lt_irrefl _)]
  rfl

/-- C101. What an order elevation that runs out of memory leaves behind, exactly: the interrupted object, or (the log message at the
end) the elevated one. -/
theorem C101_elevate_states (s s' : Spline V) (ds : List ℕ) (f : List K → V) (hs : s.Computes ds f) (d p : ℕ) (hp : ds[d]? = some p)
    (hsize : size (ds.set d (p + 1)) < 2 ^ 31) :
    FailsWith (Spline.orderElevateC K d) s s' ↔
      s' = { s with ncp := s.ncp / (p + 1) * (p + 2) } ∨ Spline.orderElevate K s d = .ok s' := by
  have hp' : s.degrees[d]? = some p := by rw [hs.degrees_eq]; exact hp
  obtain ⟨r, hr, _⟩ := C12_order_elevate s ds f hs d p hp hsize
  constructor
  · rintro ⟨n, h⟩
    rcases (Spline.orderElevateC_ends s d).2 n s' h with ⟨q, hq, e⟩ | h
    · rw [hp'] at hq
      cases hq
      exact .inl e
    · exact .inr h
  · have hrun : ∀ n, Spline.orderElevateC K d s n = (do
        point
        let r ← lift (Spline.orderElevate K s d)
        put r
        point) { s with ncp := s.ncp / (p + 1) * (p + 2) } n := by
      intro n
      unfold Spline.orderElevateC
      rw [bind_run]
      show (do
        let p ← lift (rd s.degrees d)
        put { s with ncp := s.ncp / (p + 1) * (p + 2) }
        point
        let r ← lift (Spline.orderElevate K s d)
        put r
        point) s n = _
      rw [rd_ok hp', bind_run]
      rfl
    rintro (rfl | h)
    · exact ⟨0, by rw [hrun]; rfl⟩
    · refine ⟨1, ?_⟩
      rw [hrun, h]; rfl

/-- C101 fails for order elevation: every elevation can leave an inconsistent object behind. -/
theorem C101_elevate_fails (s : Spline V) (ds : List ℕ) (f : List K → V) (hs : s.Computes ds f) (d p : ℕ) (hp : ds[d]? = some p)
    (hsize : size (ds.set d (p + 1)) < 2 ^ 31) :
    ¬BasicGuarantee (K := K) (Spline.orderElevateC K d) s ∧
      ∃ s', FailsWith (Spline.orderElevateC K d) s s' ∧ ¬s'.WF ∧ ∀ c : K, s'.smulOp c = .error .ub := by
  have h1 := (C101_elevate_states s _ ds f hs d p hp hsize).mpr (.inl rfl)
  have h2 := C101_interrupted (K := K) s _ hs.wf ⟨d, p, by rw [hs.degrees_eq]; exact hp, rfl⟩
  exact ⟨fun h => h2.1 (h _ h1).1, _, h1, h2⟩

/-- C101. `UpdateDegrees` that runs out of memory: it was growing the vector; the new degrees are written, the control points and
offsets are the old ones. -/
theorem C101_update_degrees_states (s s' : Spline V) (nd : List ℕ) (hs : s.WF) :
    FailsWith (Spline.updateDegreesC nd) s s' ↔ size s.degrees < size nd ∧ s' = { s with degrees := nd, ncp := size nd } := by
  rw [← Spline.countCps_eq nd, ← hs.cps_len]
  constructor
  · rintro ⟨n, h⟩
    exact (Spline.updateDegreesC_ends s nd).2 n s' h
  · rintro ⟨h, rfl⟩
    refine ⟨0, ?_⟩
    unfold Spline.updateDegreesC
    rw [bind_run]
    show (do put _; pointIf (s.cps.length < Spline.countCps nd); let r ← lift (s.updateDegrees nd); put r) s 0 = _
    rw [bind_run]
    show (do pointIf (s.cps.length < Spline.countCps nd); let r ← lift (s.updateDegrees nd); put r) _ 0 = _
    rw [bind_run, pointIf, if_pos h]
    rfl

/-- C101. The assignment of a larger spline that runs out of memory: everything but the control points is assigned. -/
theorem C101_assign_states {V : Type} (rhs s s' : Spline V) :
    FailsWith (Spline.assignC rhs) s s' ↔ s.cps.length < rhs.cps.length ∧ s' = { rhs with cps := s.cps } := by
  constructor
  · rintro ⟨n, h⟩
    exact (Spline.assignC_ends rhs s).2 n s' h
  · rintro ⟨h, rfl⟩
    refine ⟨0, ?_⟩
    unfold Spline.assignC
    rw [bind_run]
    show (do put { rhs with cps := s.cps }; pointIf (s.cps.length < rhs.cps.length); put rhs) s 0 = _
    rw [bind_run]
    show (do pointIf (s.cps.length < rhs.cps.length); put rhs) _ 0 = _
    rw [bind_run, pointIf, if_pos h]
    rfl

/-- C101. `+=` and `-=` of splines that run out of memory (copying the argument, or elevating the object or the copy): the object is a
consistent spline with the function it had before, elevated at most to the degrees of the result, or such a spline interrupted in an
elevation. -/
theorem C101_combine_partial (cfg : Cfg) (g : V → V → V) (s s' rhs : Spline V) (ds : List ℕ) (f : List K → V) (hs : s.Computes ds f)
    (hfit : Fits cfg ds rhs.degrees) (h : FailsWith (do point; Spline.combineAssignC K cfg g rhs) s s') :
    ∃ t ts, t.Computes ts f ∧ List.Forall₂ (· ≤ ·) ds ts ∧ List.Forall₂ (· ≤ ·) ts (maxDegrees ds rhs.degrees) ∧
      (s' = t ∨ Interrupted t s') := by
  obtain ⟨n, h⟩ := h
  have hmax : (maxDegrees ds rhs.degrees).length = ds.length := Spline.maxDeg_length hfit.dims
  have key : ∃ t, (t.Computes t.degrees f ∧ List.Forall₂ (· ≤ ·) ds t.degrees ∧
      List.Forall₂ (· ≤ ·) t.degrees (maxDegrees ds rhs.degrees)) ∧ (s' = t ∨ Interrupted t s') := by
    have h0 : s.Computes s.degrees f ∧ List.Forall₂ (· ≤ ·) ds s.degrees ∧
        List.Forall₂ (· ≤ ·) s.degrees (maxDegrees ds rhs.degrees) := by
      have e := hs.degrees_eq
      refine ⟨by rw [e]; exact hs, by rw [e]; exact List.forall₂_refl _, ?_⟩
      rw [e, List.forall₂_iff_get]
      refine ⟨hmax.symm, fun i h1 h2 => ?_⟩
      simp [maxDegrees]
    refine (((Ends.point s).mono (fun _ _ h => h) fun s' h => ⟨s, h0, .inl h⟩).bind (Q := fun _ t => t = s) (fun _ t ht => ?_) :
      Ends (do point; Spline.combineAssignC K cfg g rhs) s (fun _ _ => True) fun s' => ∃ t, (t.Computes t.degrees f ∧
        List.Forall₂ (· ≤ ·) ds t.degrees ∧ List.Forall₂ (· ≤ ·) t.degrees (maxDegrees ds rhs.degrees)) ∧
        (s' = t ∨ Interrupted t s')).2 n s' h
    subst ht
    refine Spline.combineAssignC_ends cfg g rhs t h0 ?_
    rintro u d p q r ⟨hu, hlo, hhi⟩ hd hp hq hpq hr
    have hd' : d < ds.length := by rw [← hs.degrees_eq]; exact hd
    have hx : ds[d]? = some ds[d] := List.getElem?_eq_getElem hd'
    have hm := Spline.maxDeg_getElem? hx hq
    have hle : List.Forall₂ (· ≤ ·) (u.degrees.set d (p + 1)) (maxDegrees ds rhs.degrees) := by
      rw [List.forall₂_iff_get] at hhi ⊢
      refine ⟨by simpa using hhi.1, fun i h1 h2 => ?_⟩
      simp only [List.get_eq_getElem, List.getElem_set]
      split
      · next hdi =>
        subst hdi
        have : (maxDegrees ds rhs.degrees)[d]? = some (max ds[d] q) := hm
        obtain ⟨_, e⟩ := List.getElem?_eq_some_iff.mp this
        rw [e]
        omega
      · exact hhi.2 i (by simpa using h1) h2
    have hsz : size (u.degrees.set d (p + 1)) < 2 ^ 31 := by
      refine lt_of_le_of_lt (size_mono hle.length_eq fun e x y hx hy => ?_) hfit.small
      obtain ⟨a1, rfl⟩ := List.getElem?_eq_some_iff.mp hx
      obtain ⟨a2, rfl⟩ := List.getElem?_eq_some_iff.mp hy
      exact (List.forall₂_iff_get.mp hle).2 e a1 a2
    obtain ⟨r', hr', hc⟩ := C12_order_elevate u u.degrees f hu d p hp hsz
    rw [hr] at hr'
    cases hr'
    have hdeg := hc.degrees_eq
    refine ⟨by rw [hdeg]; exact hc, ?_, by rw [hdeg]; exact hle⟩
    rw [hdeg]
    rw [List.forall₂_iff_get] at hlo ⊢
    refine ⟨by simpa using hlo.1, fun i h1 h2 => ?_⟩
    simp only [List.get_eq_getElem, List.getElem_set]
    split
    · next hdi =>
      subst hdi
      have := hlo.2 d h1 (by simpa using h2)
      obtain ⟨_, e⟩ := List.getElem?_eq_some_iff.mp hp
      simp only [List.get_eq_getElem, e] at this
      omega
    · exact hlo.2 i h1 (by simpa using h2)
  obtain ⟨t, ⟨h1, h2, h3⟩, h4⟩ := key
  exact ⟨t, t.degrees, h1, h2, h3, h4⟩

omit [CharZero K] in
/-- C101. `+=` and `-=` with an argument of degrees that are not higher: a call that runs out of memory has not touched the object. -/
theorem C101_combine_strong_partial (cfg : Cfg) (g : V → V → V) (s s' rhs : Spline V)
    (hd : ∀ d p q : ℕ, s.degrees[d]? = some p → rhs.degrees[d]? = some q → q ≤ p)
    (h : FailsWith (do point; Spline.combineAssignC K cfg g rhs) s s') : s' = s := by
  obtain ⟨n, h⟩ := h
  refine ((Ends.point s).bind (R := fun _ _ => True) (fun _ t ht => ?_) :
    Ends (do point; Spline.combineAssignC K cfg g rhs) s _ (fun s' => s' = s)).2 n s' h
  subst ht
  exact Spline.combineAssignC_idle cfg g rhs t hd

end

/-! ## Recovery -/

section
variable {K V : Type} [Field K] [CharZero K] [LT K] [DecidableLT K] [AddCommGroup V] [Module K V] [Coords K V]

/-- C101. No control point is ever lost: after any call that ran out of memory there are degrees for which `UpdateDegrees` succeeds
without allocating and makes the object a consistent spline with the function it had before the call. They are the present degrees of
the object, except after a failed `UpdateDegrees`, where they are the old ones. -/
theorem C101_recovery_partial (cfg : Cfg) (m : Mutator K V) (s s' : Spline V) (ds : List ℕ) (f : List K → V) (hs : s.Computes ds f)
    (hm : MakesSense cfg ds m) (h : FailsWith (m.applyC cfg) s s') :
    ∃ ts t, (∀ n, (Mutator.updateDegrees ts : Mutator K V).applyC cfg s' n = .ok (t, some ((), n))) ∧ t.Computes ts f ∧
      (s'.degrees = ts ∨ ∃ nd, m = .updateDegrees nd ∧ ts = ds) := by
  have same : ∀ t ts, t.Computes ts f → (s' = t ∨ Interrupted t s') →
      ∃ ts t, (∀ n, (Mutator.updateDegrees ts : Mutator K V).applyC cfg s' n = .ok (t, some ((), n))) ∧ t.Computes ts f ∧
      (s'.degrees = ts ∨ ∃ nd, m = .updateDegrees nd ∧ ts = ds) := by
    intro t ts ht hor
    have hc : s'.cps = t.cps ∧ s'.offsets = t.offsets ∧ s'.degrees = t.degrees := by
      rcases hor with rfl | ⟨d, p, _, rfl⟩
      · exact ⟨rfl, rfl, rfl⟩
      · exact ⟨rfl, rfl, rfl⟩
    refine ⟨ts, t, fun n => ?_, ht, .inl (by rw [hc.2.2, ht.degrees_eq])⟩
    have := updateDegreesC_restore ht.wf hc.1 (by rw [hc.2.1, ht.wf.off_len]) n
    rw [ht.degrees_eq] at this
    exact this
  have calm : Calm m → _ := fun hcalm => same s ds hs (.inl (C101_strong_partial cfg m hcalm s s' h))
  cases m with
  | updateDegrees nd =>
    obtain ⟨n, h⟩ := h
    obtain ⟨h1, rfl⟩ := (Spline.updateDegreesC_ends s nd).2 n s' h
    refine ⟨ds, s, fun n => ?_, hs, .inr ⟨nd, rfl, rfl⟩⟩
    have := updateDegreesC_restore (s' := { s with degrees := nd, ncp := Spline.countCps nd }) hs.wf rfl hs.wf.off_len n
    rw [hs.degrees_eq] at this
    exact this
  | orderElevate d =>
    obtain ⟨p, hp, hsz⟩ := hm
    rcases (C101_elevate_states s s' ds f hs d p hp hsz).mp h with h | h
    · exact same s ds hs (.inr ⟨d, p, by rw [hs.degrees_eq]; exact hp, h⟩)
    · obtain ⟨r, hr, hc⟩ := C12_order_elevate s ds f hs d p hp hsz
      rw [hr] at h
      cases h
      exact same s' _ hc (.inl rfl)
  | addAssign rhs =>
    obtain ⟨t, ts, h1, _, _, h2⟩ := C101_combine_partial cfg (· + ·) s s' rhs ds f hs hm h
    exact same t ts h1 h2
  | subAssign rhs =>
    obtain ⟨t, ts, h1, _, _, h2⟩ := C101_combine_partial cfg (· - ·) s s' rhs ds f hs hm h
    exact same t ts h1 h2
  | _ => exact calm trivial

/-- C101. After a failed assignment, `UpdateDegrees` with the old degrees brings the old object back. -/
theorem C101_assign_recovery (cfg : Cfg) (rhs s s' : Spline V) (hs : s.WF) (hr : rhs.WF) (hd : rhs.dim = s.dim)
    (h : FailsWith (Spline.assignC rhs) s s') :
    ∀ n, (Mutator.updateDegrees s.degrees : Mutator K V).applyC cfg s' n = .ok (s, some ((), n)) := by
  intro n
  obtain ⟨_, rfl⟩ := (C101_assign_states rhs s s').mp h
  exact updateDegreesC_restore (s' := { rhs with cps := s.cps }) hs rfl (hr.off_len.trans hd) n

/-- a surface, and what its calls leave behind -/
example : (⟨[1, 1], 4, [1, 2], [1, 2, 3, 4]⟩ : Spline ℚ).WF := ⟨by decide, rfl, rfl, rfl⟩

example : FailsWith ((.orderElevate 0 : Mutator ℚ ℚ).applyC Ex.cfg) ⟨[1, 1], 4, [1, 2], [1, 2, 3, 4]⟩ ⟨[1, 1], 6, [1, 2], [1, 2, 3, 4]⟩ ∧
    (⟨[1, 1], 6, [1, 2], [1, 2, 3, 4]⟩ : Spline ℚ).evaluate [(1 / 2 : ℚ), 1 / 2] = .error .ub ∧
    (.updateDegrees [1, 1] : Mutator ℚ ℚ).applyC Ex.cfg ⟨[1, 1], 6, [1, 2], [1, 2, 3, 4]⟩ 0
      = .ok (⟨[1, 1], 4, [1, 2], [1, 2, 3, 4]⟩, some ((), 0)) :=
  ⟨⟨0, by decide +kernel⟩, by decide +kernel, by decide +kernel⟩

/-- `+=` with an argument of higher degrees: memory runs out in the second elevation -/
example : FailsWith ((.addAssign (Ex.surf 1 2 3 4 5 6) : Mutator ℚ ℚ).applyC ⟨10, 10⟩) ⟨[0, 0], 1, [1, 1], [7]⟩
      ⟨[1, 0], 3, [1, 2], [7, 7]⟩ ∧
    Interrupted (⟨[1, 0], 2, [1, 2], [7, 7]⟩ : Spline ℚ) ⟨[1, 0], 3, [1, 2], [7, 7]⟩ :=
  ⟨⟨3, by decide +kernel⟩, 0, 1, rfl, rfl⟩

/-- `UpdateDegrees` and assignment -/
example : FailsWith ((.updateDegrees [2] : Mutator ℚ ℚ).applyC Ex.cfg) (Ex.line 1 2) ⟨[2], 3, [1], [1, 2]⟩ ∧
    FailsWith (Spline.assignC (Ex.curve 5 6 7)) (Ex.line 1 2) (⟨[2], 3, [1], [1, 2]⟩ : Spline ℚ) :=
  ⟨⟨0, by decide +kernel⟩, ⟨0, by decide +kernel⟩⟩

end

/-! ## Rational splines -/

section
variable {K V : Type} [Field K] [CharZero K] [AddCommGroup V] [Module K V]

theorem onNum_ends {x : Crash (Spline V) Unit} {r : RSpline K V} {Q : Unit → Spline V → Prop} {F : Spline V → Prop} (h : Ends x r.num Q F) :
    Ends (RSpline.onNum x) r (fun u r' => r'.wt = r.wt ∧ Q u r'.num) (fun r' => r'.wt = r.wt ∧ F r'.num) := by
  constructor
  · intro n r' u n' e
    obtain ⟨⟨q, o⟩, h1, h2⟩ := bind_eq_ok.mp e
    cases h2
    exact ⟨rfl, h.1 _ _ _ _ h1⟩
  · intro n r' e
    obtain ⟨⟨q, o⟩, h1, h2⟩ := bind_eq_ok.mp e
    cases h2
    exact ⟨rfl, h.2 _ _ h1⟩

theorem onWt_ends {x : Crash (Spline K) Unit} {r : RSpline K V} {Q : Unit → Spline K → Prop} {F : Spline K → Prop} (h : Ends x r.wt Q F) :
    Ends (RSpline.onWt x) r (fun u r' => r'.num = r.num ∧ Q u r'.wt) (fun r' => r'.num = r.num ∧ F r'.wt) := by
  constructor
  · intro n r' u n' e
    obtain ⟨⟨q, o⟩, h1, h2⟩ := bind_eq_ok.mp e
    cases h2
    exact ⟨rfl, h.1 _ _ _ _ h1⟩
  · intro n r' e
    obtain ⟨⟨q, o⟩, h1, h2⟩ := bind_eq_ok.mp e
    cases h2
    exact ⟨rfl, h.2 _ _ h1⟩

/-- C101. What an order elevation of a rational spline that runs out of memory leaves behind: the numerator interrupted or elevated and
the weight function as before, or the numerator elevated and the weight function interrupted or elevated. -/
theorem C101_rational_elevate_partial (r r' : RSpline K V) (ds : List ℕ) (f : List K → V) (w : List K → K) (hn : r.num.Computes ds f)
    (hw : r.wt.Computes ds w) (d p : ℕ) (hp : ds[d]? = some p) (hsize : size (ds.set d (p + 1)) < 2 ^ 31)
    (h : FailsWith (RSpline.orderElevateC d) r r') :
    ((Interrupted r.num r'.num ∨ r'.num.Computes (ds.set d (p + 1)) f) ∧ r'.wt = r.wt) ∨
    (r'.num.Computes (ds.set d (p + 1)) f ∧ (Interrupted r.wt r'.wt ∨ r'.wt.Computes (ds.set d (p + 1)) w)) := by
  obtain ⟨n, h⟩ := h
  obtain ⟨rn, hrn, hcn⟩ := C12_order_elevate r.num ds f hn d p hp hsize
  obtain ⟨rw', hrw, hcw⟩ := C12_order_elevate r.wt ds w hw d p hp hsize
  have hN := (Spline.orderElevateC_ends (K := K) r.num d).mono (Q' := fun _ t => t.Computes (ds.set d (p + 1)) f)
    (F' := fun t => Interrupted r.num t ∨ t.Computes (ds.set d (p + 1)) f)
    (fun _ t e => by rw [hrn] at e; cases e; exact hcn)
    (fun t e => by
      rcases e with ⟨q, hq, rfl⟩ | e
      · exact .inl ⟨d, q, hq, rfl⟩
      · rw [hrn] at e; cases e; exact .inr hcn)
  have hW := (Spline.orderElevateC_ends (K := K) r.wt d).mono (Q' := fun _ t => t.Computes (ds.set d (p + 1)) w)
    (F' := fun t => Interrupted r.wt t ∨ t.Computes (ds.set d (p + 1)) w)
    (fun _ t e => by rw [hrw] at e; cases e; exact hcw)
    (fun t e => by
      rcases e with ⟨q, hq, rfl⟩ | e
      · exact .inl ⟨d, q, hq, rfl⟩
      · rw [hrw] at e; cases e; exact .inr hcw)
  have key : Ends (RSpline.orderElevateC d) r (fun _ _ => True) (fun r' =>
      ((Interrupted r.num r'.num ∨ r'.num.Computes (ds.set d (p + 1)) f) ∧ r'.wt = r.wt) ∨
      (r'.num.Computes (ds.set d (p + 1)) f ∧ (Interrupted r.wt r'.wt ∨ r'.wt.Computes (ds.set d (p + 1)) w))) := by
    refine ((onNum_ends hN).mono (fun _ _ h => h) fun t h => ?_).bind fun _ t ht => ?_
    · exact .inl ⟨h.2, h.1⟩
    refine Ends.bind (Q := fun _ _ => True) ((onWt_ends (r := t) (by rw [ht.1]; exact hW)).mono (fun _ _ _ => trivial) fun u hu => ?_)
      fun _ u _ => (Ends.obj u).bind fun _ v _ => (Ends.lift _ v).mono (fun _ _ _ => trivial) fun _ h => h
    exact .inr ⟨by rw [hu.1]; exact ht.2, hu.2⟩
  exact key.2 n r' h

/-- C101. `+=` and `-=` of rational splines with equal weights: a call that runs out of memory has not touched the object. -/
theorem C101_rational_combine_strong_partial [BEq K] (cfg : Cfg) (g : V → V → V) (r r' rhs : RSpline K V)
    (heq : r.wt.eqOp rhs.wt = true) (hd : r.num.degrees = rhs.num.degrees) (h : FailsWith (RSpline.combineAssignC cfg g rhs) r r') :
    r' = r := by
  obtain ⟨n, h⟩ := h
  refine ((Ends.obj r).bind (R := fun _ _ => True) (fun t s1 h1 => ?_) :
    Ends (RSpline.combineAssignC cfg g rhs) r _ (fun r' => r' = r)).2 n r' h
  obtain ⟨rfl, rfl⟩ := h1
  rw [if_pos heq]
  refine (Ends.point _).bind fun _ t' ht' => ?_
  rw [← ht'] at hd ⊢
  refine (onNum_ends (Spline.combineAssignC_idle cfg g rhs.num t'.num fun d p q hp hq => ?_)).mono (fun _ _ _ => trivial) fun r' h => ?_
  · rw [hd, hq] at hp
    cases hp
    exact le_rfl
  · obtain ⟨n', w'⟩ := r'
    obtain ⟨n, w⟩ := t'
    obtain ⟨h1, h2⟩ := h
    cases h1
    cases h2
    rfl

example : (Ex.line 1 3 : Spline ℚ).eqOp (Ex.line 1 3) = true ∧
    FailsWith (RSpline.combineAssignC Ex.cfg (· + ·) ⟨Ex.line 5 6, Ex.line 1 3⟩) (⟨Ex.line 1 2, Ex.line 1 3⟩ : RSpline ℚ ℚ)
      ⟨Ex.line 1 2, Ex.line 1 3⟩ := ⟨by decide +kernel, 0, by decide +kernel⟩

/-- C101 fails for the order elevation of a rational spline: memory can run out between its two halves. The degrees of numerator and
weight function then differ, which every later operation asserts against. -/
theorem C101_rational_elevate_fails (r : RSpline K V) (ds : List ℕ) (f : List K → V) (w : List K → K) (hn : r.num.Computes ds f)
    (hw : r.wt.Computes ds w) (d p : ℕ) (hp : ds[d]? = some p) (hsize : size (ds.set d (p + 1)) < 2 ^ 31) :
    ∃ r', FailsWith (RSpline.orderElevateC d) r r' ∧ r'.num.Computes (ds.set d (p + 1)) f ∧ r'.wt.Computes ds w ∧
      r'.compatible = false := by
  obtain ⟨rn, hrn, hcn⟩ := C12_order_elevate r.num ds f hn d p hp hsize
  obtain ⟨n, hn'⟩ := (C101_elevate_states r.num rn ds f hn d p hp hsize).mpr (.inr hrn)
  refine ⟨⟨rn, r.wt⟩, ⟨n, ?_⟩, hcn, hw, ?_⟩
  · unfold RSpline.orderElevateC
    rw [bind_run]
    unfold RSpline.onNum
    rw [hn']
    rfl
  · unfold RSpline.compatible
    rw [hcn.degrees_eq, hw.degrees_eq]
    apply beq_false_of_ne
    intro e
    have := congrArg (fun l : List ℕ => l[d]?) e
    simp only [hp] at this
    rw [List.getElem?_set_self (List.getElem?_eq_some_iff.mp hp).1] at this
    simp at this

example : FailsWith (RSpline.orderElevateC 0) (⟨Ex.line 1 2, Ex.line 1 3⟩ : RSpline ℚ ℚ) ⟨Ex.curve 1 (3 / 2) 2, Ex.line 1 3⟩ :=
  ⟨1, by decide +kernel⟩

end

/-- C101 fails for `+=` of rational splines with different weights: the object can stand for another function afterwards, although it is
consistent: here `x / 1` with weights `1`, plus zero with weight `2`, becomes `2 x / 1`. -/
theorem C101_rational_add_fails :
    let r : RSpline ℚ ℚ := ⟨Ex.line 1 3, Ex.line 1 1⟩
    let zero : RSpline ℚ ℚ := ⟨⟨[0], 1, [1], [0]⟩, ⟨[0], 1, [1], [2]⟩⟩
    let r' : RSpline ℚ ℚ := ⟨Ex.line 2 6, Ex.line 1 1⟩
    FailsWith ((.addAssign zero : RMutator ℚ ℚ).applyC ⟨5, 5⟩) r r' ∧ r'.num.WF ∧ r'.wt.WF ∧ r'.compatible = true ∧
      r.evaluate [1 / 2] = .ok 2 ∧ zero.evaluate [1 / 2] = .ok 0 ∧ r'.evaluate [1 / 2] = .ok 4 := by
  refine ⟨⟨1, by decide +kernel⟩, Ex.line_wf _ _, Ex.line_wf _ _, by decide +kernel, by decide +kernel, by decide +kernel,
    by decide +kernel⟩

end Bezman.Props
