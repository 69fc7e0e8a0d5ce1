import Verif.Proofs.FloatSingle

set_option linter.unusedSectionVars false

/-! # Rounding errors of single operations -/

namespace Bezman
open Spec Tri
variable {A : FloatArith} {n : ℕ}

attribute [local instance] parTriX parScalarTriX parTriY parScalarTriY

theorem derivRoundings_full {orders : List ℕ} {m : ℕ} (h : orders.length = m) : derivRoundings (orders.take m) = derivRoundings orders := by
  rw [List.take_of_length_le (by omega)]
theorem derivFactor_full {ds orders : List ℕ} (h : orders.length = ds.length) :
    derivFactor (ds.take ds.length) (orders.take ds.length) = derivFactor ds orders := by
  rw [List.take_length, List.take_of_length_le (by omega)]

/-! ## scalar valued splines -/
namespace Spline.Approx
variable (hη : A.η = 0) (hu : A.u ≤ 1 / 2) {s t : Spline (Fl A)} {s' t' : Spline ℝ} {ds da db : List ℕ} {k ka kb : ℕ} {M Ma Mb : ℝ}

theorem neg (h : s.Approx ds k M s') : ApproxRuns ds k M s.negOp s'.negOp := by
  obtain ⟨t, h1, rfl, rfl, h2⟩ := ofApprox h
  exact (both_neg (A := A) x_iff y_iff h1 (fun z hz => (h2 z hz).1) fun a ha => ha.neg).approx

include hη in
theorem scale (h : s.Approx ds k M s') (c : Fl A) : ApproxRuns ds (k + 1) (|c.val| * M) (s.smulOp c) (s'.smulOp c.val) := by
  obtain ⟨t, h1, rfl, rfl, h2⟩ := ofApprox h
  refine Both.approx (both_smul x_iff y_iff h1 (fun z hz => (h2 z hz).1) (⟨c, c.val, 0⟩ : Tri A) fun a ha => ?_)
  have := NearM.mul hη (NearM.exact c 0) ha
  rw [Nat.zero_add] at this
  exact this

theorem addPoint (h : s.Approx ds k M s') (v : (Fl A)) : ApproxRuns ds (k + 1) (M + |v.val|) (s.addPoint v) (s'.addPoint v.val) := by
  obtain ⟨t, h1, rfl, rfl, h2⟩ := ofApprox h
  exact Both.approx (both_addPoint (A := A) x_iff y_iff h1 (fun z hz => (h2 z hz).1) (⟨v, v.val, 0⟩ : Tri A) fun a ha => NearM.add ha ((NearM.exact v 0).mono (Nat.zero_le _)))

theorem subPoint (h : s.Approx ds k M s') (v : (Fl A)) : ApproxRuns ds (k + 1) (M + |v.val|) (s.subPoint v) (s'.subPoint v.val) := by
  obtain ⟨t, h1, rfl, rfl, h2⟩ := ofApprox h
  exact Both.approx (both_subPoint (A := A) x_iff y_iff h1 (fun z hz => (h2 z hz).1) (⟨v, v.val, 0⟩ : Tri A) fun a ha => NearM.sub ha ((NearM.exact v 0).mono (Nat.zero_le _)))

theorem pointSub (h : s.Approx ds k M s') (v : (Fl A)) : ApproxRuns ds (k + 1) (M + |v.val|) (Spline.pointSub v s) (Spline.pointSub v.val s') := by
  obtain ⟨t, h1, rfl, rfl, h2⟩ := ofApprox h
  refine Both.approx (both_pointSub (A := A) x_iff y_iff h1 (fun z hz => (h2 z hz).1) (⟨v, v.val, 0⟩ : Tri A) fun a ha => ?_)
  have ha := NearM.sub (N := |v.val|) (b := (⟨v, v.val, 0⟩ : Tri A)) ha ((NearM.exact v 0).mono (Nat.zero_le _))
  exact ha.neg

include hη hu in
theorem elevate (h : s.Approx ds k M s') {d : ℕ} (hd : d < ds.length) (hsz : size (ds.modify d (· + 1)) < 2 ^ 31) :
    ApproxRuns (ds.modify d (· + 1)) (k + 12) M (Spline.orderElevate (Fl A) s d) (Spline.orderElevate ℝ s' d) := by
  obtain ⟨t, h1, rfl, rfl, h2⟩ := ofApprox h
  obtain ⟨e1, e2⟩ := elevates hη hu M k
  exact Both.approx (both_elevate x_iff y_iff (P := NearM M k) (Q := NearM M (k + 12)) (fun a ha => ha.mono (by omega))
    (fun p i hi1 hi2 a b ha hb => e2 0 p i hi1 hi2 a b ha hb) h1 hd hsz fun z hz => (h2 z hz).1)

section
variable (ha : s.Approx da ka Ma s') (hb : t.Approx db kb Mb t') {cfg : Cfg} (hf : Fits cfg da db)
include hη hu ha hb hf

theorem add : ApproxRuns (maxDegrees da db) (sumRoundings da db ka kb) (Ma + Mb) (Spline.addOp (Fl A) cfg s t) (Spline.addOp ℝ cfg s' t') := by
  obtain ⟨s, a1, rfl, rfl, a2⟩ := ofApprox ha
  obtain ⟨t, b1, rfl, rfl, b2⟩ := ofApprox hb
  refine Both.approx (both_add x_iff y_iff (elevates hη hu Ma ka) (elevates hη hu Mb kb) a1 b1 hf (fun z hz => (a2 z hz).1)
    (fun z hz => (b2 z hz).1) fun a b h1 h2 => ⟨NearM.add (h1.mono (le_max_left _ _)) (h2.mono (le_max_right _ _)), ?_⟩)
  have := NearM.add (h2.mono (le_max_right _ _)) (h1.mono (le_max_left (ka + 12 * ((maxDegrees da db).sum - da.sum)) _))
  rw [add_comm Mb] at this
  exact this

theorem addAssign : ApproxRuns (maxDegrees da db) (sumRoundings da db ka kb) (Ma + Mb) (Spline.addAssign (Fl A) cfg s t)
    (Spline.addAssign ℝ cfg s' t') := by
  obtain ⟨s, a1, rfl, rfl, a2⟩ := ofApprox ha
  obtain ⟨t, b1, rfl, rfl, b2⟩ := ofApprox hb
  exact Both.approx (both_addAssign x_iff y_iff (elevates hη hu Ma ka) (elevates hη hu Mb kb) a1 b1 hf (fun z hz => (a2 z hz).1)
    (fun z hz => (b2 z hz).1) fun a b h1 h2 => NearM.add (h1.mono (le_max_left _ _)) (h2.mono (le_max_right _ _)))

theorem subAssign : ApproxRuns (maxDegrees da db) (sumRoundings da db ka kb) (Ma + Mb) (Spline.subAssign (Fl A) cfg s t)
    (Spline.subAssign ℝ cfg s' t') := by
  obtain ⟨s, a1, rfl, rfl, a2⟩ := ofApprox ha
  obtain ⟨t, b1, rfl, rfl, b2⟩ := ofApprox hb
  exact Both.approx (both_subAssign x_iff y_iff (elevates hη hu Ma ka) (elevates hη hu Mb kb) a1 b1 hf (fun z hz => (a2 z hz).1)
    (fun z hz => (b2 z hz).1) fun a b h1 h2 => NearM.sub (h1.mono (le_max_left _ _)) (h2.mono (le_max_right _ _)))

theorem sub (hle : ∀ d p q : ℕ, da[d]? = some p → db[d]? = some q → q ≤ p) :
    ApproxRuns (maxDegrees da db) (sumRoundings da db ka kb) (Ma + Mb) (Spline.subOp (Fl A) cfg s t) (Spline.subOp ℝ cfg s' t') := by
  obtain ⟨s, a1, rfl, rfl, a2⟩ := ofApprox ha
  obtain ⟨t, b1, rfl, rfl, b2⟩ := ofApprox hb
  exact Both.approx (both_sub x_iff y_iff (elevates hη hu Ma ka) (elevates hη hu Mb kb) a1 b1 hf (fun z hz => (a2 z hz).1)
    (fun z hz => (b2 z hz).1) hle fun a b h1 h2 => NearM.sub (h1.mono (le_max_left _ _)) (h2.mono (le_max_right _ _)))
end

include hη in
theorem split (h : s.Approx ds k M s') {d p : ℕ} (hp : ds[d]? = some p) {z : Fl A} (h0 : 0 < z.val) (h1 : z.val < 1) :
    ∃ l r l' r', s.splitAt z d = .ok (l, r) ∧ s'.splitAt z.val d = .ok (l', r') ∧ l.Approx ds (k + 3 * p) M l' ∧ r.Approx ds (k + 3 * p) M r' := by
  have hM := h.bound_nonneg
  obtain ⟨t, t1, rfl, rfl, t2⟩ := ofApprox h
  obtain ⟨l, r, e1, e2, ⟨l1, l2⟩, r1, r2⟩ := both_split x_iff y_iff t1 (fun z hz => (t2 z hz).1) h0 h1 hp
    (Q := fun r => NearM M (k + 3 * r)) (fun _ _ _ => rfl) (fun _ _ _ => rfl) (NearM.zero' hM k) (fun a ha => ha)
    (fun r r' a hr ha => ha.mono (by omega)) (fun r a b ha hb => NearM.lerpExact hη h0 h1 ha hb (.inl rfl) (.inl rfl))
  obtain ⟨_, _, ⟨⟩, ⟨⟩, l3⟩ := Both.approx ⟨l, rfl, rfl, l1, l2⟩
  obtain ⟨_, _, ⟨⟩, ⟨⟩, r3⟩ := Both.approx ⟨r, rfl, rfl, r1, r2⟩
  exact ⟨_, _, _, _, e1, e2, l3, r3⟩

include hη in
theorem deriv (h : s.Approx ds k M s') {cfg : Cfg} (hmax : cfg.maxBinom ≤ 68) {orders : List ℕ} (hl : orders.length = ds.length)
    (hle : ∀ d o p : ℕ, orders[d]? = some o → ds[d]? = some p → o ≤ p) (hord : ∀ o ∈ orders, o < cfg.maxBinom) (hsz : size ds < 2 ^ 64) :
    ApproxRuns (List.zipWith (· - ·) ds orders) (k + derivRoundings orders) (derivFactor ds orders * M)
      (Spline.derivativeSpline (Fl A) cfg s orders) (Spline.derivativeSpline ℝ cfg s' orders) := by
  obtain ⟨t, t1, rfl, rfl, t2⟩ := ofApprox h
  have := both_deriv (P := NearM M k) x_iff y_iff t1 (fun z hz => (t2 z hz).1) hmax hl hle hord hsz
    (Q := fun d => NearM (derivFactor (ds.take d) (orders.take d) * M) (k + derivRoundings (orders.take d)))
    (by
      intro a ha
      simpa [derivFactor, derivRoundings] using ha)
    (by
      intro d h0 a ha
      have hd : d < ds.length := by have := (List.getElem?_eq_some_iff.mp h0).1; omega
      rw [derivRoundings_take h0, derivFactor_take h0 (List.getElem?_eq_getElem hd), if_pos rfl]
      simpa using ha)
    (by
      intro d o p ho hp h0 hop y hy
      have := deriv_near hη h0 hop hy
      rw [derivRoundings_take ho, derivFactor_take ho hp, if_neg (by omega), ← Nat.add_assoc]
      convert this using 1
      push_cast; ring)
  rw [derivFactor_full hl, derivRoundings_full hl] at this
  exact this.approx
end Spline.Approx

theorem Tri.NearP.negP (hη : A.η = 0) {M : Fin n → ℝ} {k : ℕ} {a : Point (Tri A) n} (h : NearP M k a) : NearP M (k + 1) (-a) := fun c => by
  have := NearM.mul hη (h c) NearM.one.neg
  rw [mul_one, Nat.add_zero] at this
  exact this

/-! ## point valued splines -/
namespace Spline.ApproxPoints
variable (hη : A.η = 0) (hu : A.u ≤ 1 / 2) {s t : Spline (Point (Fl A) n)} {s' t' : Spline (Point ℝ n)} {ds da db : List ℕ} {k ka kb : ℕ} {M Ma Mb : Fin n → ℝ}

theorem neg (h : s.ApproxPoints ds k M s') (hη : A.η = 0) : ApproxRunsPoints ds (k + 1) M s.negOp s'.negOp := by
  obtain ⟨t, h1, rfl, rfl, h2⟩ := ofApproxPoints h
  exact (both_neg (A := A) x_iffP y_iffP h1 (fun z hz => (h2 z hz).1) fun a ha => NearP.negP hη ha).approxPoints

include hη in
theorem scale (h : s.ApproxPoints ds k M s') (c : Fl A) : ApproxRunsPoints ds (k + 1) (fun c₁ => |c.val| * M c₁) (s.smulOp c) (s'.smulOp c.val) := by
  obtain ⟨t, h1, rfl, rfl, h2⟩ := ofApproxPoints h
  refine Both.approxPoints (both_smul x_iffP y_iffP h1 (fun z hz => (h2 z hz).1) (⟨c, c.val, 0⟩ : Tri A) fun a ha => ?_)
  have := NearP.smul hη (NearM.exact c 0) ha
  rw [Nat.zero_add] at this
  exact this

theorem addPoint (h : s.ApproxPoints ds k M s') (v : (Point (Fl A) n)) : ApproxRunsPoints ds (k + 1) (fun c => M c + |(v.val c).val|) (s.addPoint v) (s'.addPoint (v.map Fl.val)) := by
  obtain ⟨t, h1, rfl, rfl, h2⟩ := ofApproxPoints h
  exact Both.approxPoints (both_addPoint (A := A) x_iffP y_iffP h1 (fun z hz => (h2 z hz).1) (⟨fun c => ⟨v.val c, (v.val c).val, 0⟩⟩ : Point (Tri A) n) fun a ha => NearP.add ha (fun c => (NearM.exact (v.val c) 0).mono (Nat.zero_le _)))

theorem subPoint (h : s.ApproxPoints ds k M s') (v : (Point (Fl A) n)) : ApproxRunsPoints ds (k + 1) (fun c => M c + |(v.val c).val|) (s.subPoint v) (s'.subPoint (v.map Fl.val)) := by
  obtain ⟨t, h1, rfl, rfl, h2⟩ := ofApproxPoints h
  exact Both.approxPoints (both_subPoint (A := A) x_iffP y_iffP h1 (fun z hz => (h2 z hz).1) (⟨fun c => ⟨v.val c, (v.val c).val, 0⟩⟩ : Point (Tri A) n) fun a ha => NearP.sub ha (fun c => (NearM.exact (v.val c) 0).mono (Nat.zero_le _)))

theorem pointSub (h : s.ApproxPoints ds k M s') (hη : A.η = 0) (v : (Point (Fl A) n)) : ApproxRunsPoints ds (k + 2) (fun c => M c + |(v.val c).val|) (Spline.pointSub v s) (Spline.pointSub (v.map Fl.val) s') := by
  obtain ⟨t, h1, rfl, rfl, h2⟩ := ofApproxPoints h
  refine Both.approxPoints (both_pointSub (A := A) x_iffP y_iffP h1 (fun z hz => (h2 z hz).1) (⟨fun c => ⟨v.val c, (v.val c).val, 0⟩⟩ : Point (Tri A) n) fun a ha => ?_)
  have ha := NearP.sub (N := fun c => |(v.val c).val|) (b := (⟨fun c => ⟨v.val c, (v.val c).val, 0⟩⟩ : Point (Tri A) n)) ha (fun c => (NearM.exact (v.val c) 0).mono (Nat.zero_le _))
  exact NearP.negP hη ha

include hη hu in
theorem elevate (h : s.ApproxPoints ds k M s') {d : ℕ} (hd : d < ds.length) (hsz : size (ds.modify d (· + 1)) < 2 ^ 31) :
    ApproxRunsPoints (ds.modify d (· + 1)) (k + 12) M (Spline.orderElevate (Fl A) s d) (Spline.orderElevate ℝ s' d) := by
  obtain ⟨t, h1, rfl, rfl, h2⟩ := ofApproxPoints h
  obtain ⟨e1, e2⟩ := elevatesP hη hu M k
  exact Both.approxPoints (both_elevate x_iffP y_iffP (P := NearP M k) (Q := NearP M (k + 12)) (fun a ha => ha.mono (by omega))
    (fun p i hi1 hi2 a b ha hb => e2 0 p i hi1 hi2 a b ha hb) h1 hd hsz fun z hz => (h2 z hz).1)

section
variable (ha : s.ApproxPoints da ka Ma s') (hb : t.ApproxPoints db kb Mb t') {cfg : Cfg} (hf : Fits cfg da db)
include hη hu ha hb hf

theorem add : ApproxRunsPoints (maxDegrees da db) (sumRoundings da db ka kb) (fun c => Ma c + Mb c) (Spline.addOp (Fl A) cfg s t) (Spline.addOp ℝ cfg s' t') := by
  obtain ⟨s, a1, rfl, rfl, a2⟩ := ofApproxPoints ha
  obtain ⟨t, b1, rfl, rfl, b2⟩ := ofApproxPoints hb
  refine Both.approxPoints (both_add x_iffP y_iffP (elevatesP hη hu Ma ka) (elevatesP hη hu Mb kb) a1 b1 hf (fun z hz => (a2 z hz).1)
    (fun z hz => (b2 z hz).1) fun a b h1 h2 => ⟨NearP.add (h1.mono (le_max_left _ _)) (h2.mono (le_max_right _ _)), ?_⟩)
  have := NearP.add (h2.mono (le_max_right _ _)) (h1.mono (le_max_left (ka + 12 * ((maxDegrees da db).sum - da.sum)) _))
  simp only [fun c => add_comm (Mb c) (Ma c)] at this
  exact this

theorem addAssign : ApproxRunsPoints (maxDegrees da db) (sumRoundings da db ka kb) (fun c => Ma c + Mb c) (Spline.addAssign (Fl A) cfg s t)
    (Spline.addAssign ℝ cfg s' t') := by
  obtain ⟨s, a1, rfl, rfl, a2⟩ := ofApproxPoints ha
  obtain ⟨t, b1, rfl, rfl, b2⟩ := ofApproxPoints hb
  exact Both.approxPoints (both_addAssign x_iffP y_iffP (elevatesP hη hu Ma ka) (elevatesP hη hu Mb kb) a1 b1 hf (fun z hz => (a2 z hz).1)
    (fun z hz => (b2 z hz).1) fun a b h1 h2 => NearP.add (h1.mono (le_max_left _ _)) (h2.mono (le_max_right _ _)))

theorem subAssign : ApproxRunsPoints (maxDegrees da db) (sumRoundings da db ka kb) (fun c => Ma c + Mb c) (Spline.subAssign (Fl A) cfg s t)
    (Spline.subAssign ℝ cfg s' t') := by
  obtain ⟨s, a1, rfl, rfl, a2⟩ := ofApproxPoints ha
  obtain ⟨t, b1, rfl, rfl, b2⟩ := ofApproxPoints hb
  exact Both.approxPoints (both_subAssign x_iffP y_iffP (elevatesP hη hu Ma ka) (elevatesP hη hu Mb kb) a1 b1 hf (fun z hz => (a2 z hz).1)
    (fun z hz => (b2 z hz).1) fun a b h1 h2 => NearP.sub (h1.mono (le_max_left _ _)) (h2.mono (le_max_right _ _)))

theorem sub (hle : ∀ d p q : ℕ, da[d]? = some p → db[d]? = some q → q ≤ p) :
    ApproxRunsPoints (maxDegrees da db) (sumRoundings da db ka kb) (fun c => Ma c + Mb c) (Spline.subOp (Fl A) cfg s t) (Spline.subOp ℝ cfg s' t') := by
  obtain ⟨s, a1, rfl, rfl, a2⟩ := ofApproxPoints ha
  obtain ⟨t, b1, rfl, rfl, b2⟩ := ofApproxPoints hb
  exact Both.approxPoints (both_sub x_iffP y_iffP (elevatesP hη hu Ma ka) (elevatesP hη hu Mb kb) a1 b1 hf (fun z hz => (a2 z hz).1)
    (fun z hz => (b2 z hz).1) hle fun a b h1 h2 => NearP.sub (h1.mono (le_max_left _ _)) (h2.mono (le_max_right _ _)))
end

include hη in
theorem split (h : s.ApproxPoints ds k M s') {d p : ℕ} (hp : ds[d]? = some p) {z : Fl A} (h0 : 0 < z.val) (h1 : z.val < 1) :
    ∃ l r l' r', s.splitAt z d = .ok (l, r) ∧ s'.splitAt z.val d = .ok (l', r') ∧ l.ApproxPoints ds (k + 3 * p) M l' ∧ r.ApproxPoints ds (k + 3 * p) M r' := by
  have hM := h.bound_nonneg
  obtain ⟨t, t1, rfl, rfl, t2⟩ := ofApproxPoints h
  obtain ⟨l, r, e1, e2, ⟨l1, l2⟩, r1, r2⟩ := both_split x_iffP y_iffP t1 (fun z hz => (t2 z hz).1) h0 h1 hp
    (Q := fun r => NearP M (k + 3 * r)) (fun _ _ _ => rfl) (fun _ _ _ => rfl) (fun c => NearM.zero' (hM c) k) (fun a ha => ha)
    (fun r r' a hr ha => ha.mono (by omega)) (fun r a b ha hb => fun c => NearM.lerpExact hη h0 h1 (ha c) (hb c) (.inr rfl) (.inr rfl))
  obtain ⟨_, _, ⟨⟩, ⟨⟩, l3⟩ := Both.approxPoints ⟨l, rfl, rfl, l1, l2⟩
  obtain ⟨_, _, ⟨⟩, ⟨⟩, r3⟩ := Both.approxPoints ⟨r, rfl, rfl, r1, r2⟩
  exact ⟨_, _, _, _, e1, e2, l3, r3⟩

include hη in
theorem deriv (h : s.ApproxPoints ds k M s') {cfg : Cfg} (hmax : cfg.maxBinom ≤ 68) {orders : List ℕ} (hl : orders.length = ds.length)
    (hle : ∀ d o p : ℕ, orders[d]? = some o → ds[d]? = some p → o ≤ p) (hord : ∀ o ∈ orders, o < cfg.maxBinom) (hsz : size ds < 2 ^ 64) :
    ApproxRunsPoints (List.zipWith (· - ·) ds orders) (k + derivRoundings orders) (fun c => derivFactor ds orders * M c)
      (Spline.derivativeSpline (Fl A) cfg s orders) (Spline.derivativeSpline ℝ cfg s' orders) := by
  obtain ⟨t, t1, rfl, rfl, t2⟩ := ofApproxPoints h
  have := both_deriv (P := NearP M k) x_iffP y_iffP t1 (fun z hz => (t2 z hz).1) hmax hl hle hord hsz
    (Q := fun d => NearP (fun c => derivFactor (ds.take d) (orders.take d) * M c) (k + derivRoundings (orders.take d)))
    (by
      intro a ha
      simpa [derivFactor, derivRoundings] using ha)
    (by
      intro d h0 a ha
      have hd : d < ds.length := by have := (List.getElem?_eq_some_iff.mp h0).1; omega
      rw [derivRoundings_take h0, derivFactor_take h0 (List.getElem?_eq_getElem hd), if_pos rfl]
      simpa using ha)
    (by
      intro d o p ho hp h0 hop y hy
      have := deriv_nearP hη h0 hop hy
      rw [derivRoundings_take ho, derivFactor_take ho hp, if_neg (by omega), ← Nat.add_assoc]
      convert this using 1
      funext c; push_cast; ring)
  rw [derivFactor_full hl, derivRoundings_full hl] at this
  exact this.approxPoints
end Spline.ApproxPoints

end Bezman
