import Verif.Proofs.AnyRoundSingle
import Verif.Proofs.FloatCalls

set_option linter.unusedSectionVars false

/-! # Rounding errors of single operations -/

namespace Bezman
open Spec Trn
open Tri (Both Both.of derivRoundings_take derivFactor_take)
variable {A : Roundoff} {n : ℕ}

attribute [local instance] parTrnX parScalarTrnX parTrnY parScalarTrnY

/-! ## scalar valued splines -/
namespace Spline.AllNear
variable (hη : A.η = 0) (hu : A.u ≤ 1 / 2) {s t : Spline (Nd A)} {s' t' : Spline ℝ} {ds da db : List ℕ} {k ka kb : ℕ} {M Ma Mb : ℝ}

theorem neg (h : s.AllNear ds k M s') : AllNearRuns ds k M s.negOp s'.negOp := by
  obtain ⟨t, h1, rfl, rfl, h2⟩ := ofAllNear h
  exact Both.within (both_neg (A := A) x_iff y_iff h1 (fun z hz => (h2 z hz).1) fun a ha => ha.neg)

include hη in
theorem scale (h : s.AllNear ds k M s') (c : ℝ) : AllNearRuns ds (k + 1) (|c| * M) (s.smulOp (.exactly c : Nd A)) (s'.smulOp c) := by
  obtain ⟨t, h1, rfl, rfl, h2⟩ := ofAllNear h
  refine Both.within (both_smul x_iff y_iff h1 (fun z hz => (h2 z hz).1) (⟨.exactly c, c, 0⟩ : Trn A) fun a ha => ?_)
  have := NearM.mul hη (NearM.exact c 0) ha
  rw [Nat.zero_add] at this
  exact this

theorem addPoint (h : s.AllNear ds k M s') (v : ℝ) : AllNearRuns ds (k + 1) (M + |v|) (s.addPoint (.exactly v)) (s'.addPoint v) := by
  obtain ⟨t, h1, rfl, rfl, h2⟩ := ofAllNear h
  exact Both.within (both_addPoint (A := A) x_iff y_iff h1 (fun z hz => (h2 z hz).1) (⟨.exactly v, v, 0⟩ : Trn A) fun a ha => NearM.add ha ((NearM.exact v 0).mono (Nat.zero_le _)))

theorem subPoint (h : s.AllNear ds k M s') (v : ℝ) : AllNearRuns ds (k + 1) (M + |v|) (s.subPoint (.exactly v)) (s'.subPoint v) := by
  obtain ⟨t, h1, rfl, rfl, h2⟩ := ofAllNear h
  exact Both.within (both_subPoint (A := A) x_iff y_iff h1 (fun z hz => (h2 z hz).1) (⟨.exactly v, v, 0⟩ : Trn A) fun a ha => NearM.sub ha ((NearM.exact v 0).mono (Nat.zero_le _)))

theorem pointSub (h : s.AllNear ds k M s') (v : ℝ) : AllNearRuns ds (k + 1) (M + |v|) (Spline.pointSub (.exactly v) s) (Spline.pointSub v s') := by
  obtain ⟨t, h1, rfl, rfl, h2⟩ := ofAllNear h
  refine Both.within (both_pointSub (A := A) x_iff y_iff h1 (fun z hz => (h2 z hz).1) (⟨.exactly v, v, 0⟩ : Trn A) fun a ha => ?_)
  have ha := NearM.sub (N := |v|) (b := (⟨.exactly v, v, 0⟩ : Trn A)) ha ((NearM.exact v 0).mono (Nat.zero_le _))
  exact ha.neg

include hη hu in
theorem elevate (h : s.AllNear ds k M s') {d : ℕ} (hd : d < ds.length) (hsz : size (ds.modify d (· + 1)) < 2 ^ 31) :
    AllNearRuns (ds.modify d (· + 1)) (k + 12) M (Spline.orderElevate (Nd A) s d) (Spline.orderElevate ℝ s' d) := by
  obtain ⟨t, h1, rfl, rfl, h2⟩ := ofAllNear h
  obtain ⟨e1, e2⟩ := elevates hη hu M k
  exact Both.within (both_elevate x_iff y_iff (P := NearM M k) (Q := NearM M (k + 12)) (fun a ha => ha.mono (by omega))
    (fun p i hi1 hi2 a b ha hb => e2 0 p i hi1 hi2 a b ha hb) h1 hd hsz fun z hz => (h2 z hz).1)

section
variable (ha : s.AllNear da ka Ma s') (hb : t.AllNear db kb Mb t') {cfg : Cfg} (hf : Fits cfg da db)
include hη hu ha hb hf

theorem add : AllNearRuns (maxDegrees da db) (sumRoundings da db ka kb) (Ma + Mb) (Spline.addOp (Nd A) cfg s t) (Spline.addOp ℝ cfg s' t') := by
  obtain ⟨s, a1, rfl, rfl, a2⟩ := ofAllNear ha
  obtain ⟨t, b1, rfl, rfl, b2⟩ := ofAllNear hb
  refine Both.within (both_add x_iff y_iff (elevates hη hu Ma ka) (elevates hη hu Mb kb) a1 b1 hf (fun z hz => (a2 z hz).1)
    (fun z hz => (b2 z hz).1) fun a b h1 h2 => ⟨NearM.add (h1.mono (le_max_left _ _)) (h2.mono (le_max_right _ _)), ?_⟩)
  have := NearM.add (h2.mono (le_max_right _ _)) (h1.mono (le_max_left (ka + 12 * ((maxDegrees da db).sum - da.sum)) _))
  rw [add_comm Mb] at this
  exact this

theorem addAssign : AllNearRuns (maxDegrees da db) (sumRoundings da db ka kb) (Ma + Mb) (Spline.addAssign (Nd A) cfg s t)
    (Spline.addAssign ℝ cfg s' t') := by
  obtain ⟨s, a1, rfl, rfl, a2⟩ := ofAllNear ha
  obtain ⟨t, b1, rfl, rfl, b2⟩ := ofAllNear hb
  exact Both.within (both_addAssign x_iff y_iff (elevates hη hu Ma ka) (elevates hη hu Mb kb) a1 b1 hf (fun z hz => (a2 z hz).1)
    (fun z hz => (b2 z hz).1) fun a b h1 h2 => NearM.add (h1.mono (le_max_left _ _)) (h2.mono (le_max_right _ _)))

theorem subAssign : AllNearRuns (maxDegrees da db) (sumRoundings da db ka kb) (Ma + Mb) (Spline.subAssign (Nd A) cfg s t)
    (Spline.subAssign ℝ cfg s' t') := by
  obtain ⟨s, a1, rfl, rfl, a2⟩ := ofAllNear ha
  obtain ⟨t, b1, rfl, rfl, b2⟩ := ofAllNear hb
  exact Both.within (both_subAssign x_iff y_iff (elevates hη hu Ma ka) (elevates hη hu Mb kb) a1 b1 hf (fun z hz => (a2 z hz).1)
    (fun z hz => (b2 z hz).1) fun a b h1 h2 => NearM.sub (h1.mono (le_max_left _ _)) (h2.mono (le_max_right _ _)))

theorem sub (hle : ∀ d p q : ℕ, da[d]? = some p → db[d]? = some q → q ≤ p) :
    AllNearRuns (maxDegrees da db) (sumRoundings da db ka kb) (Ma + Mb) (Spline.subOp (Nd A) cfg s t) (Spline.subOp ℝ cfg s' t') := by
  obtain ⟨s, a1, rfl, rfl, a2⟩ := ofAllNear ha
  obtain ⟨t, b1, rfl, rfl, b2⟩ := ofAllNear hb
  exact Both.within (both_sub x_iff y_iff (elevates hη hu Ma ka) (elevates hη hu Mb kb) a1 b1 hf (fun z hz => (a2 z hz).1)
    (fun z hz => (b2 z hz).1) hle fun a b h1 h2 => NearM.sub (h1.mono (le_max_left _ _)) (h2.mono (le_max_right _ _)))
end

include hη in
theorem split (h : s.AllNear ds k M s') {d p : ℕ} (hp : ds[d]? = some p) {z : ℝ} (h0 : 0 < z) (h1 : z < 1) :
    ∃ l r l' r', s.splitAt (.exactly z : Nd A) d = .ok (l, r) ∧ s'.splitAt z d = .ok (l', r') ∧ l.AllNear ds (k + 3 * p) M l' ∧ r.AllNear ds (k + 3 * p) M r' := by
  have hM := h.bound_nonneg
  obtain ⟨t, t1, rfl, rfl, t2⟩ := ofAllNear h
  obtain ⟨l, r, e1, e2, ⟨l1, l2⟩, r1, r2⟩ := both_split (A := A) x_iff y_iff t1 (fun z hz => (t2 z hz).1) h0 h1 hp
    (Q := fun r => NearM M (k + 3 * r)) (fun _ _ _ => rfl) (fun _ _ _ => rfl) (NearM.zero' hM k) (fun a ha => ha)
    (fun r r' a hr ha => ha.mono (by omega)) (fun r a b ha hb => NearM.lerpExact hη h0.le h1.le ha hb (.inl rfl) (.inl rfl))
  obtain ⟨_, _, ⟨⟩, ⟨⟩, l3⟩ := Both.within ⟨l, rfl, rfl, l1, l2⟩
  obtain ⟨_, _, ⟨⟩, ⟨⟩, r3⟩ := Both.within ⟨r, rfl, rfl, r1, r2⟩
  exact ⟨_, _, _, _, e1, e2, l3, r3⟩

include hη in
theorem deriv (h : s.AllNear ds k M s') {cfg : Cfg} (hmax : cfg.maxBinom ≤ 68) {orders : List ℕ} (hl : orders.length = ds.length)
    (hle : ∀ d o p : ℕ, orders[d]? = some o → ds[d]? = some p → o ≤ p) (hord : ∀ o ∈ orders, o < cfg.maxBinom) (hsz : size ds < 2 ^ 64) :
    AllNearRuns (List.zipWith (· - ·) ds orders) (k + derivRoundings orders) (derivFactor ds orders * M)
      (Spline.derivativeSpline (Nd A) cfg s orders) (Spline.derivativeSpline ℝ cfg s' orders) := by
  obtain ⟨t, t1, rfl, rfl, t2⟩ := ofAllNear h
  have := both_deriv (P := NearM M k) x_iff y_iff t1 (fun z hz => (t2 z hz).1) hmax hl hle hord hsz
    (Q := fun d => NearM (derivFactor (ds.take d) (orders.take d) * M) (k + derivRoundings (orders.take d)))
    (by
      intro a ha
      simpa [derivFactor, derivRoundings] using ha)
    (by
      intro d h0 a ha
      have hd : d < ds.length := by have := (List.getElem?_eq_some_iff.mp h0).1; omega
      rw [derivRoundings_take h0, derivFactor_take h0 (List.getElem?_eq_getElem hd), if_pos rfl]
      simpa using ha)
    (by
      intro d o p ho hp h0 hop y hy
      have := deriv_near hη h0 hop hy
      rw [derivRoundings_take ho, derivFactor_take ho hp, if_neg (by omega), ← Nat.add_assoc]
      convert this using 1
      push_cast; ring)
  rw [derivFactor_full hl, derivRoundings_full hl] at this
  exact Both.within this
end Spline.AllNear

theorem Trn.NearP.negP (hη : A.η = 0) {M : Fin n → ℝ} {k : ℕ} {a : Point (Trn A) n} (h : NearP M k a) : NearP M (k + 1) (-a) := fun c => by
  have := NearM.mul hη (h c) NearM.one.neg
  rw [mul_one, Nat.add_zero] at this
  exact this

/-! ## point valued splines -/
namespace Spline.AllNearPoints
variable (hη : A.η = 0) (hu : A.u ≤ 1 / 2) {s t : Spline (Point (Nd A) n)} {s' t' : Spline (Point ℝ n)} {ds da db : List ℕ} {k ka kb : ℕ} {M Ma Mb : Fin n → ℝ}

theorem neg (h : s.AllNearPoints ds k M s') (hη : A.η = 0) : AllNearRunsPoints ds (k + 1) M s.negOp s'.negOp := by
  obtain ⟨t, h1, rfl, rfl, h2⟩ := ofAllNearPoints h
  exact Both.withinPoints (both_neg (A := A) x_iffP y_iffP h1 (fun z hz => (h2 z hz).1) fun a ha => NearP.negP hη ha)

include hη in
theorem scale (h : s.AllNearPoints ds k M s') (c : ℝ) : AllNearRunsPoints ds (k + 1) (fun c₁ => |c| * M c₁) (s.smulOp (.exactly c : Nd A)) (s'.smulOp c) := by
  obtain ⟨t, h1, rfl, rfl, h2⟩ := ofAllNearPoints h
  refine Both.withinPoints (both_smul x_iffP y_iffP h1 (fun z hz => (h2 z hz).1) (⟨.exactly c, c, 0⟩ : Trn A) fun a ha => ?_)
  have := NearP.smul hη (NearM.exact c 0) ha
  rw [Nat.zero_add] at this
  exact this

theorem addPoint (h : s.AllNearPoints ds k M s') (v : Point ℝ n) : AllNearRunsPoints ds (k + 1) (fun c => M c + |v.val c|) (s.addPoint (v.map .exactly)) (s'.addPoint v) := by
  obtain ⟨t, h1, rfl, rfl, h2⟩ := ofAllNearPoints h
  exact Both.withinPoints (both_addPoint (A := A) x_iffP y_iffP h1 (fun z hz => (h2 z hz).1) (⟨fun c => ⟨.exactly (v.val c), v.val c, 0⟩⟩ : Point (Trn A) n) fun a ha => NearP.add ha (fun c => (NearM.exact (v.val c) 0).mono (Nat.zero_le _)))

theorem subPoint (h : s.AllNearPoints ds k M s') (v : Point ℝ n) : AllNearRunsPoints ds (k + 1) (fun c => M c + |v.val c|) (s.subPoint (v.map .exactly)) (s'.subPoint v) := by
  obtain ⟨t, h1, rfl, rfl, h2⟩ := ofAllNearPoints h
  exact Both.withinPoints (both_subPoint (A := A) x_iffP y_iffP h1 (fun z hz => (h2 z hz).1) (⟨fun c => ⟨.exactly (v.val c), v.val c, 0⟩⟩ : Point (Trn A) n) fun a ha => NearP.sub ha (fun c => (NearM.exact (v.val c) 0).mono (Nat.zero_le _)))

theorem pointSub (h : s.AllNearPoints ds k M s') (hη : A.η = 0) (v : Point ℝ n) : AllNearRunsPoints ds (k + 2) (fun c => M c + |v.val c|) (Spline.pointSub (v.map .exactly) s) (Spline.pointSub v s') := by
  obtain ⟨t, h1, rfl, rfl, h2⟩ := ofAllNearPoints h
  refine Both.withinPoints (both_pointSub (A := A) x_iffP y_iffP h1 (fun z hz => (h2 z hz).1) (⟨fun c => ⟨.exactly (v.val c), v.val c, 0⟩⟩ : Point (Trn A) n) fun a ha => ?_)
  have ha := NearP.sub (N := fun c => |v.val c|) (b := (⟨fun c => ⟨.exactly (v.val c), v.val c, 0⟩⟩ : Point (Trn A) n)) ha (fun c => (NearM.exact (v.val c) 0).mono (Nat.zero_le _))
  exact NearP.negP hη ha

include hη hu in
theorem elevate (h : s.AllNearPoints ds k M s') {d : ℕ} (hd : d < ds.length) (hsz : size (ds.modify d (· + 1)) < 2 ^ 31) :
    AllNearRunsPoints (ds.modify d (· + 1)) (k + 12) M (Spline.orderElevate (Nd A) s d) (Spline.orderElevate ℝ s' d) := by
  obtain ⟨t, h1, rfl, rfl, h2⟩ := ofAllNearPoints h
  obtain ⟨e1, e2⟩ := elevatesP hη hu M k
  exact Both.withinPoints (both_elevate x_iffP y_iffP (P := NearP M k) (Q := NearP M (k + 12)) (fun a ha => ha.mono (by omega))
    (fun p i hi1 hi2 a b ha hb => e2 0 p i hi1 hi2 a b ha hb) h1 hd hsz fun z hz => (h2 z hz).1)

section
variable (ha : s.AllNearPoints da ka Ma s') (hb : t.AllNearPoints db kb Mb t') {cfg : Cfg} (hf : Fits cfg da db)
include hη hu ha hb hf

theorem add : AllNearRunsPoints (maxDegrees da db) (sumRoundings da db ka kb) (fun c => Ma c + Mb c) (Spline.addOp (Nd A) cfg s t) (Spline.addOp ℝ cfg s' t') := by
  obtain ⟨s, a1, rfl, rfl, a2⟩ := ofAllNearPoints ha
  obtain ⟨t, b1, rfl, rfl, b2⟩ := ofAllNearPoints hb
  refine Both.withinPoints (both_add x_iffP y_iffP (elevatesP hη hu Ma ka) (elevatesP hη hu Mb kb) a1 b1 hf (fun z hz => (a2 z hz).1)
    (fun z hz => (b2 z hz).1) fun a b h1 h2 => ⟨NearP.add (h1.mono (le_max_left _ _)) (h2.mono (le_max_right _ _)), ?_⟩)
  have := NearP.add (h2.mono (le_max_right _ _)) (h1.mono (le_max_left (ka + 12 * ((maxDegrees da db).sum - da.sum)) _))
  simp only [fun c => add_comm (Mb c) (Ma c)] at this
  exact this

theorem addAssign : AllNearRunsPoints (maxDegrees da db) (sumRoundings da db ka kb) (fun c => Ma c + Mb c) (Spline.addAssign (Nd A) cfg s t)
    (Spline.addAssign ℝ cfg s' t') := by
  obtain ⟨s, a1, rfl, rfl, a2⟩ := ofAllNearPoints ha
  obtain ⟨t, b1, rfl, rfl, b2⟩ := ofAllNearPoints hb
  exact Both.withinPoints (both_addAssign x_iffP y_iffP (elevatesP hη hu Ma ka) (elevatesP hη hu Mb kb) a1 b1 hf (fun z hz => (a2 z hz).1)
    (fun z hz => (b2 z hz).1) fun a b h1 h2 => NearP.add (h1.mono (le_max_left _ _)) (h2.mono (le_max_right _ _)))

theorem subAssign : AllNearRunsPoints (maxDegrees da db) (sumRoundings da db ka kb) (fun c => Ma c + Mb c) (Spline.subAssign (Nd A) cfg s t)
    (Spline.subAssign ℝ cfg s' t') := by
  obtain ⟨s, a1, rfl, rfl, a2⟩ := ofAllNearPoints ha
  obtain ⟨t, b1, rfl, rfl, b2⟩ := ofAllNearPoints hb
  exact Both.withinPoints (both_subAssign x_iffP y_iffP (elevatesP hη hu Ma ka) (elevatesP hη hu Mb kb) a1 b1 hf (fun z hz => (a2 z hz).1)
    (fun z hz => (b2 z hz).1) fun a b h1 h2 => NearP.sub (h1.mono (le_max_left _ _)) (h2.mono (le_max_right _ _)))

theorem sub (hle : ∀ d p q : ℕ, da[d]? = some p → db[d]? = some q → q ≤ p) :
    AllNearRunsPoints (maxDegrees da db) (sumRoundings da db ka kb) (fun c => Ma c + Mb c) (Spline.subOp (Nd A) cfg s t) (Spline.subOp ℝ cfg s' t') := by
  obtain ⟨s, a1, rfl, rfl, a2⟩ := ofAllNearPoints ha
  obtain ⟨t, b1, rfl, rfl, b2⟩ := ofAllNearPoints hb
  exact Both.withinPoints (both_sub x_iffP y_iffP (elevatesP hη hu Ma ka) (elevatesP hη hu Mb kb) a1 b1 hf (fun z hz => (a2 z hz).1)
    (fun z hz => (b2 z hz).1) hle fun a b h1 h2 => NearP.sub (h1.mono (le_max_left _ _)) (h2.mono (le_max_right _ _)))
end

include hη in
theorem split (h : s.AllNearPoints ds k M s') {d p : ℕ} (hp : ds[d]? = some p) {z : ℝ} (h0 : 0 < z) (h1 : z < 1) :
    ∃ l r l' r', s.splitAt (.exactly z : Nd A) d = .ok (l, r) ∧ s'.splitAt z d = .ok (l', r') ∧ l.AllNearPoints ds (k + 3 * p) M l' ∧ r.AllNearPoints ds (k + 3 * p) M r' := by
  have hM := h.bound_nonneg
  obtain ⟨t, t1, rfl, rfl, t2⟩ := ofAllNearPoints h
  obtain ⟨l, r, e1, e2, ⟨l1, l2⟩, r1, r2⟩ := both_split (A := A) x_iffP y_iffP t1 (fun z hz => (t2 z hz).1) h0 h1 hp
    (Q := fun r => NearP M (k + 3 * r)) (fun _ _ _ => rfl) (fun _ _ _ => rfl) (fun c => NearM.zero' (hM c) k) (fun a ha => ha)
    (fun r r' a hr ha => ha.mono (by omega)) (fun r a b ha hb => fun c => NearM.lerpExact hη h0.le h1.le (ha c) (hb c) (.inr rfl) (.inr rfl))
  obtain ⟨_, _, ⟨⟩, ⟨⟩, l3⟩ := Both.withinPoints ⟨l, rfl, rfl, l1, l2⟩
  obtain ⟨_, _, ⟨⟩, ⟨⟩, r3⟩ := Both.withinPoints ⟨r, rfl, rfl, r1, r2⟩
  exact ⟨_, _, _, _, e1, e2, l3, r3⟩

include hη in
theorem deriv (h : s.AllNearPoints ds k M s') {cfg : Cfg} (hmax : cfg.maxBinom ≤ 68) {orders : List ℕ} (hl : orders.length = ds.length)
    (hle : ∀ d o p : ℕ, orders[d]? = some o → ds[d]? = some p → o ≤ p) (hord : ∀ o ∈ orders, o < cfg.maxBinom) (hsz : size ds < 2 ^ 64) :
    AllNearRunsPoints (List.zipWith (· - ·) ds orders) (k + derivRoundings orders) (fun c => derivFactor ds orders * M c)
      (Spline.derivativeSpline (Nd A) cfg s orders) (Spline.derivativeSpline ℝ cfg s' orders) := by
  obtain ⟨t, t1, rfl, rfl, t2⟩ := ofAllNearPoints h
  have := both_deriv (P := NearP M k) x_iffP y_iffP t1 (fun z hz => (t2 z hz).1) hmax hl hle hord hsz
    (Q := fun d => NearP (fun c => derivFactor (ds.take d) (orders.take d) * M c) (k + derivRoundings (orders.take d)))
    (by
      intro a ha
      simpa [derivFactor, derivRoundings] using ha)
    (by
      intro d h0 a ha
      have hd : d < ds.length := by have := (List.getElem?_eq_some_iff.mp h0).1; omega
      rw [derivRoundings_take h0, derivFactor_take h0 (List.getElem?_eq_getElem hd), if_pos rfl]
      simpa using ha)
    (by
      intro d o p ho hp h0 hop y hy
      have := deriv_nearP hη h0 hop hy
      rw [derivRoundings_take ho, derivFactor_take ho hp, if_neg (by omega), ← Nat.add_assoc]
      convert this using 1
      funext c; push_cast; ring)
  rw [derivFactor_full hl, derivRoundings_full hl] at this
  exact Both.withinPoints this
end Spline.AllNearPoints

end Bezman
