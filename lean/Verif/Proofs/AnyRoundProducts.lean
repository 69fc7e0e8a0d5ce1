import Verif.Proofs.AnyRoundCalls
import Verif.Proofs.FloatProducts
import Verif.Proofs.Power

set_option linter.unusedSectionVars false

/-! # Rounding errors of products, powers and coordinates -/

namespace Bezman
open Spec Trn
open Tri (Both Both.of)
variable {A : Roundoff} {n : ℕ}

attribute [local instance] parTrnX parScalarTrnX parTrnY parScalarTrnY

namespace Trn

theorem Near.mul' (hη : A.η = 0) {j k : ℕ} {a b : Trn A} (ha : Near j a) (hb : Near k b) : Near (j + k + 1) (b * a) := by
  rw [Nat.add_comm j k]; exact Near.mul hη hb ha

theorem Near.zero' (k : ℕ) : Near k (0 : Trn A) := by
  constructor
  · show |(0 : ℝ)| ≤ 0; simp
  · intro r hr
    obtain rfl : r = 0 := hr
    show |(0 : ℝ) - 0| ≤ _ * (0 : ℝ); simp

theorem Near.addMono {j k : ℕ} {a b : Trn A} (ha : Near (k + j) a) (hb : Near k b) : Near (k + (j + 1)) (a + b) :=
  Near.add ha (hb.mono (Nat.le_add_right _ _))

theorem dot_near (hη : A.η = 0) {j k : ℕ} {a b : Point (Trn A) n} (ha : ∀ c, Near j (a.val c)) (hb : ∀ c, Near k (b.val c)) :
    Near (j + k + 1 + n) (a.dot b) := by
  unfold Point.dot Point.accumulate
  have : ∀ (l : List (Fin n)) (z : Trn A) (m : ℕ), Near (j + k + 1 + m) z →
      Near (j + k + 1 + (m + l.length)) (l.foldl (fun acc i => acc + a.val i * b.val i) z) := by
    intro l
    induction l with
    | nil => intro z m h; exact h
    | cons i l ih =>
      intro z m h
      have := ih _ (m + 1) (Near.addMono h (Near.mul hη (ha i) (hb i)))
      rw [List.length_cons, List.foldl_cons]
      exact this.mono (by omega)
  have := this (List.finRange n) 0 0 (Near.zero' _)
  rw [List.length_finRange, Nat.zero_add] at this
  exact this
end Trn

section
variable (hη : A.η = 0) (hu : A.u ≤ 1 / 2) {cfg : Cfg} (hmax : cfg.maxBinom ≤ 68) {da db : List ℕ} {ka kb : ℕ} (hdim : db.length = da.length)
  (hdeg : ∀ p ∈ sumDegrees da db, p < cfg.maxBinom)
include hη hu hmax hdim hdeg

theorem Spline.AllNear.mul {s t : Spline (Nd A)} {s' t' : Spline ℝ} {Ma Mb : ℝ} (ha : s.AllNear da ka Ma s') (hb : t.AllNear db kb Mb t') :
    AllNearRuns (sumDegrees da db) (productRoundings da db ka kb) (Ma * Mb) (Spline.mulScalar cfg s t) (Spline.mulScalar cfg s' t') := by
  obtain ⟨s, a1, rfl, rfl, a2⟩ := ofAllNear ha
  obtain ⟨t, b1, rfl, rfl, b2⟩ := ofAllNear hb
  refine Both.within (Both.of (Spline.mulOp_returns (K := Trn A) cfg hmax (fun a b => a * b) a1 b1 hdim hdeg)
    (Spline.mulOp_map (K := Trn A) x_iff x_iff x_iff cfg (fun _ _ => rfl) s t)
    (Spline.mulOp_map (K := Trn A) y_iff y_iff y_iff cfg (fun _ _ => rfl) s t) fun r hr z hz => ?_)
  refine Near.toM ?_ (mul_m hmax a1 b1 hdim hdeg (fun z hz => (a2 z hz).2) (fun z hz => (b2 z hz).2) hr z hz)
  obtain ⟨a1, rfl⟩ := a1
  obtain ⟨b1, rfl⟩ := b1
  refine Spline.mulOp_graded hmax (L := Near 4) (F := fun j => Near (5 * j)) (T := Near (ka + kb + 5 * s.dim + 2))
    (G := fun j => Near (ka + kb + 5 * s.dim + 2 + j)) (fun c d hd => Near.ratio hη hu c hd) Near.one
    (fun j a b ha hb => (Near.mul hη ha hb).mono (by omega)) (fun a l x y h1 h2 h3 h4 => ?_) (Near.zero' _)
    (fun j x t hx ht => Near.addMono hx ht) (fun j x hx => hx.mono (by omega)) a1.dim_pos hdim hr z hz
  have h5 := Near.mul hη h2 (Near.mul hη h1 (Near.mul hη (NearM.toNear (a2 x h3)) (NearM.toNear (b2 y h4))))
  have : 0 < s.dim := a1.dim_pos
  exact h5.mono (by omega)

theorem Spline.AllNear.mulLeft {s : Spline (Nd A)} {t : Spline (Point (Nd A) n)} {s' : Spline ℝ} {t' : Spline (Point ℝ n)} {Ma : ℝ}
    {Mb : Fin n → ℝ} (ha : s.AllNear da ka Ma s') (hb : t.AllNearPoints db kb Mb t') :
    AllNearRunsPoints (sumDegrees da db) (productRoundings da db ka kb) (fun c => Ma * Mb c)
      (Spline.mulOp (Nd A) cfg (fun c v => c • v) s t) (Spline.mulOp ℝ cfg (fun c v => c • v) s' t') := by
  obtain ⟨s, a1, rfl, rfl, a2⟩ := ofAllNear ha
  obtain ⟨t, b1, rfl, rfl, b2⟩ := ofAllNearPoints hb
  refine Both.withinPoints (Both.of (Spline.mulOp_returns (K := Trn A) cfg hmax (fun (c : Trn A) (v : Point (Trn A) n) => c • v) a1 b1 hdim hdeg)
    (Spline.mulOp_map (K := Trn A) x_iff x_iffP x_iffP cfg (fun _ _ => rfl) s t)
    (Spline.mulOp_map (K := Trn A) y_iff y_iffP y_iffP cfg (fun _ _ => rfl) s t) fun r hr z hz c => ?_)
  refine Near.toM ?_ (mulLeft_m hmax a1 b1 hdim hdeg (fun z hz => (a2 z hz).2) (fun z hz => (b2 z hz).2) hr z hz c)
  obtain ⟨a1, rfl⟩ := a1
  obtain ⟨b1, rfl⟩ := b1
  revert c
  refine Spline.mulOp_graded hmax (L := Near 4) (F := fun j => Near (5 * j)) (T := fun z => ∀ c, Near (ka + kb + 5 * s.dim + 2) (z.val c))
    (G := fun j z => ∀ c, Near (ka + kb + 5 * s.dim + 2 + j) (z.val c)) (fun c d hd => Near.ratio hη hu c hd) Near.one
    (fun j a b ha hb => (Near.mul hη ha hb).mono (by omega)) (fun a l x y h1 h2 h3 h4 c => ?_) (fun c => Near.zero' _)
    (fun j x t hx ht c => Near.addMono (hx c) (ht c)) (fun j x hx c => (hx c).mono (by omega)) a1.dim_pos hdim hr z hz
  have h5 := Near.mul' hη h2 (Near.mul' hη h1 (Near.mul' hη (NearM.toNear (a2 x h3)) (NearM.toNear ⟨(b2 y h4).1 c, (b2 y h4).2 c⟩)))
  have : 0 < s.dim := a1.dim_pos
  exact h5.mono (by omega)

theorem Spline.AllNearPoints.mulRight {s : Spline (Point (Nd A) n)} {t : Spline (Nd A)} {s' : Spline (Point ℝ n)} {t' : Spline ℝ}
    {Ma : Fin n → ℝ} {Mb : ℝ} (ha : s.AllNearPoints da ka Ma s') (hb : t.AllNear db kb Mb t') :
    AllNearRunsPoints (sumDegrees da db) (productRoundings da db ka kb) (fun c => Ma c * Mb)
      (Spline.mulOp (Nd A) cfg (fun (v : Point (Nd A) n) c => c • v) s t) (Spline.mulOp ℝ cfg (fun (v : Point ℝ n) c => c • v) s' t') := by
  obtain ⟨s, a1, rfl, rfl, a2⟩ := ofAllNearPoints ha
  obtain ⟨t, b1, rfl, rfl, b2⟩ := ofAllNear hb
  refine Both.withinPoints (Both.of (Spline.mulOp_returns (K := Trn A) cfg hmax (fun (v : Point (Trn A) n) (c : Trn A) => c • v) a1 b1 hdim hdeg)
    (Spline.mulOp_map (K := Trn A) x_iffP x_iff x_iffP cfg (fun _ _ => rfl) s t)
    (Spline.mulOp_map (K := Trn A) y_iffP y_iff y_iffP cfg (fun _ _ => rfl) s t) fun r hr z hz c => ?_)
  refine Near.toM ?_ (mulRight_m hmax a1 b1 hdim hdeg (fun z hz => (a2 z hz).2) (fun z hz => (b2 z hz).2) hr z hz c)
  obtain ⟨a1, rfl⟩ := a1
  obtain ⟨b1, rfl⟩ := b1
  revert c
  refine Spline.mulOp_graded hmax (L := Near 4) (F := fun j => Near (5 * j)) (T := fun z => ∀ c, Near (ka + kb + 5 * s.dim + 2) (z.val c))
    (G := fun j z => ∀ c, Near (ka + kb + 5 * s.dim + 2 + j) (z.val c)) (fun c d hd => Near.ratio hη hu c hd) Near.one
    (fun j a b ha hb => (Near.mul hη ha hb).mono (by omega)) (fun a l x y h1 h2 h3 h4 c => ?_) (fun c => Near.zero' _)
    (fun j x t hx ht c => Near.addMono (hx c) (ht c)) (fun j x hx c => (hx c).mono (by omega)) a1.dim_pos hdim hr z hz
  have h5 := Near.mul' hη h2 (Near.mul' hη h1 (Near.mul hη (NearM.toNear ⟨(a2 x h3).1 c, (a2 x h3).2 c⟩) (NearM.toNear (b2 y h4))))
  have : 0 < s.dim := a1.dim_pos
  exact h5.mono (by omega)

theorem Spline.AllNearPoints.dot {s t : Spline (Point (Nd A) n)} {s' t' : Spline (Point ℝ n)}
    {Ma Mb : Fin n → ℝ} (ha : s.AllNearPoints da ka Ma s') (hb : t.AllNearPoints db kb Mb t') :
    AllNearRuns (sumDegrees da db) (productRoundings da db ka kb + n) (∑ c, Ma c * Mb c)
      (Spline.mulOp (Nd A) cfg Point.dot s t) (Spline.mulOp ℝ cfg Point.dot s' t') := by
  obtain ⟨s, a1, rfl, rfl, a2⟩ := ofAllNearPoints ha
  obtain ⟨t, b1, rfl, rfl, b2⟩ := ofAllNearPoints hb
  refine Both.within (Both.of (Spline.mulOp_returns (K := Trn A) cfg hmax (Point.dot : Point (Trn A) n → _ → _) a1 b1 hdim hdeg)
    (Spline.mulOp_map (K := Trn A) x_iffP x_iffP x_iff cfg (Tri.dot_map rfl (fun _ _ => rfl) (fun _ _ => rfl)) s t)
    (Spline.mulOp_map (K := Trn A) y_iffP y_iffP y_iff cfg (Tri.dot_map rfl (fun _ _ => rfl) (fun _ _ => rfl)) s t) fun r hr z hz => ?_)
  refine Near.toM ?_ (dot_m hmax a1 b1 hdim hdeg (fun z hz => (a2 z hz).2) (fun z hz => (b2 z hz).2) hr z hz)
  obtain ⟨a1, rfl⟩ := a1
  obtain ⟨b1, rfl⟩ := b1
  have := Spline.mulOp_graded hmax (L := Near 4) (F := fun j => Near (5 * j)) (T := Near (ka + kb + 5 * s.dim + 2 + n))
    (G := fun j => Near (ka + kb + 5 * s.dim + 2 + n + j)) (fun c d hd => Near.ratio hη hu c hd) Near.one
    (fun j a b ha hb => (Near.mul hη ha hb).mono (by omega)) (fun a l x y h1 h2 h3 h4 => by
      have h5 := Near.mul hη h2 (Near.mul hη h1 (dot_near hη (fun c => NearM.toNear ⟨(a2 x h3).1 c, (a2 x h3).2 c⟩)
        (fun c => NearM.toNear ⟨(b2 y h4).1 c, (b2 y h4).2 c⟩)))
      have : 0 < s.dim := a1.dim_pos
      exact h5.mono (by omega)) (Near.zero' _)
    (fun j x t hx ht => Near.addMono hx ht) (fun j x hx => hx.mono (by omega)) a1.dim_pos hdim hr z hz
  refine this.mono (le_of_eq ?_)
  unfold productRoundings
  show _ + _ + 5 * s.dim + 2 + n + (Spline.prodTerms s.degrees t.degrees).prod = _ + _ + 5 * s.dim + 2 + (Spline.prodTerms s.degrees t.degrees).prod + n
  omega
end

theorem Spline.AllNearPoints.extract {ds : List ℕ} {k : ℕ} {M : Fin n → ℝ} {s : Spline (Point (Nd A) n)} {s' : Spline (Point ℝ n)}
    (h : s.AllNearPoints ds k M s') (j : Fin n) :
    AllNearRuns ds k (M j) (Spline.extractDimension (Nd A) s j) (Spline.extractDimension ℝ s' j) := by
  have e1 := Spline.extractDimension_eq (K := Nd A) h.shape.1 j
  have e2 := Spline.extractDimension_eq (K := ℝ) h.shape'.1 j
  refine ⟨_, _, e1, e2, ⟨h.shape.1.map _, h.shape.2⟩, ⟨h.shape'.1.map _, h.shape'.2⟩, ?_⟩
  simp only [List.forall₂_map_left_iff, List.forall₂_map_right_iff]
  exact h.near.imp fun x y hxy => hxy j

theorem oneSpline_within {m : ℕ} (hm : 0 < m) :
    AllNearRuns (List.replicate m 0) 0 1 (Spline.oneSpline (K := Nd A) m) (Spline.oneSpline (K := ℝ) m) := by
  have h := Spline.ofPoints_ok (ps := List.replicate m 0) (pts := [(1 : Nd A)]) (by simpa using hm) (by simp [Spline.size_replicate_zero])
  have h' := Spline.ofPoints_ok (ps := List.replicate m 0) (pts := [(1 : ℝ)]) (by simpa using hm) (by simp [Spline.size_replicate_zero])
  refine ⟨_, _, h.1, h'.1, ⟨h.2, rfl⟩, ⟨h'.2, rfl⟩, .cons ?_ .nil⟩
  exact NearM.one (A := A)

section
variable (hη : A.η = 0) (hu : A.u ≤ 1 / 2) {cfg : Cfg} (hmax : cfg.maxBinom ≤ 68)
include hη hu hmax

theorem Spline.AllNear.powerAux {ds : List ℕ} {k : ℕ} {M : ℝ} {s : Spline (Nd A)} {s' : Spline ℝ} (h : s.AllNear ds k M s') (depth : ℕ) :
    ∀ m, m < depth → (∀ p ∈ ds, m * p < cfg.maxBinom) →
      AllNearRuns (ds.map (m * ·)) (powerRoundings ds k m) (M ^ m) (Spline.raisePowerAux cfg s depth m) (Spline.raisePowerAux cfg s' depth m) := by
  induction depth with
  | zero => intro m hm; omega
  | succ depth ih =>
    intro m hm hdeg
    rw [Spline.raisePowerAux, Spline.raisePowerAux]
    by_cases h0 : m = 0
    · subst h0
      rw [if_pos rfl, if_pos rfl, powerRoundings, pow_zero, show s.dim = s'.dim by unfold Spline.dim; rw [h.shape.2, h.shape'.2]]
      have := oneSpline_within (A := A) (m := s'.dim) h.shape'.1.dim_pos
      have e : ds.map (0 * ·) = List.replicate s'.dim 0 := by
        simp only [zero_mul]
        rw [List.map_const']
        unfold Spline.dim
        rw [h.shape'.2]
      rw [e]; exact this
    rw [if_neg h0, if_neg h0]
    by_cases h1 : m = 1
    · subst h1
      rw [if_pos rfl, if_pos rfl, powerRoundings, pow_one]
      simp only [one_mul, List.map_id']
      exact ⟨_, _, rfl, rfl, h⟩
    rw [if_neg h1, if_neg h1]
    have hdeg' : ∀ (a : ℕ), a ≤ m → ∀ p ∈ ds, a * p < cfg.maxBinom :=
      fun a ha p hp => lt_of_le_of_lt (Nat.mul_le_mul_right p ha) (hdeg p hp)
    obtain ⟨r, r', r1, r2, r3⟩ := ih (m / 2) (by omega) (hdeg' _ (by omega))
    rw [r1, r2]
    simp only [bind_ok]
    have hrr : sumDegrees (ds.map (m / 2 * ·)) (ds.map (m / 2 * ·)) = ds.map ((m / 2 + m / 2) * ·) := Spline.zipWith_map_mul _ _ _
    have hq := Spline.AllNear.mul hη hu hmax rfl (by
      rw [hrr]; intro p hp
      obtain ⟨q, hq, rfl⟩ := List.mem_map.mp hp
      exact hdeg' _ (by omega) q hq) r3 r3
    rw [powerRoundings_step ds k (by omega)]
    by_cases h2 : m % 2 = 0
    · rw [if_pos h2, if_pos h2, if_pos h2]
      rw [hrr, ← pow_add, show m / 2 + m / 2 = m by omega] at hq
      exact hq
    · rw [if_neg h2, if_neg h2, if_neg h2]
      obtain ⟨q, q', q1, q2, q3⟩ := hq
      rw [q1, q2]
      simp only [bind_ok]
      have hqs : sumDegrees (ds.map ((m / 2 + m / 2) * ·)) ds = ds.map (m * ·) := by
        have h1 : ds = ds.map (1 * ·) := by simp
        have := Spline.zipWith_map_mul (m / 2 + m / 2) 1 ds
        rw [← h1, show m / 2 + m / 2 + 1 = m by omega] at this
        exact this
      have := Spline.AllNear.mul hη hu hmax (by rw [hrr]; simp) (by
        rw [hrr, hqs]; intro p hp
        obtain ⟨q, hq, rfl⟩ := List.mem_map.mp hp
        exact hdeg q hq) q3 h
      rw [← pow_add, ← pow_succ, show m / 2 + m / 2 + 1 = m by omega] at this
      rw [show sumDegrees (sumDegrees (ds.map (m / 2 * ·)) (ds.map (m / 2 * ·))) ds = ds.map (m * ·) by rw [hrr, hqs]] at this
      exact this

theorem Spline.AllNear.power {ds : List ℕ} {k : ℕ} {M : ℝ} {s : Spline (Nd A)} {s' : Spline ℝ} (h : s.AllNear ds k M s') (m : ℕ)
    (hdeg : ∀ p ∈ ds, m * p < cfg.maxBinom) :
    AllNearRuns (ds.map (fun p => m * p)) (powerRoundings ds k m) (M ^ m) (Spline.raisePower cfg s m) (Spline.raisePower cfg s' m) :=
  Spline.AllNear.powerAux hη hu hmax h (m + 1) m (Nat.lt_succ_self m) hdeg
end

end Bezman
