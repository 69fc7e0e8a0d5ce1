import Verif.Props.NearArith
import Verif.Props.Units

/-! # Property C111, continued: small changes of the base of a power -/

namespace Bezman.Props
open Spec Finset
variable {K : Type} [Field K] [LinearOrder K] [IsStrictOrderedRing K]

theorem abs_is_length : IsLength (fun x : K => |x|) := ⟨abs_add_le, fun c x => abs_mul c x⟩

theorem near_self {s : Spline K} : Near (fun x : K => |x|) 0 s s :=
  ⟨rfl, fun idx x x' _ h h' => by
    obtain rfl := Except.ok.inj (h.symm.trans h')
    simp⟩

theorem power_degrees : ∀ (ds : List ℕ) (n : ℕ), sumDegrees (ds.map fun p => n * p) ds = ds.map fun p => (n + 1) * p
  | [], _ => rfl
  | a :: ds, n => by
    have h := power_degrees ds n
    unfold sumDegrees at h ⊢
    simp only [List.map_cons, List.zipWith_cons_cons, h, Nat.succ_mul]

/-- C111. Powers: if all control points of `a` and `a'` are at most `R` in absolute value, then the control points of `a ^ n` and `a' ^ n` have at
most the distance `n Rⁿ⁻¹ ε`, and are at most `Rⁿ` in absolute value. -/
theorem C111_power (cfg : Cfg) (hmax : cfg.maxBinom ≤ 68) (a a' : Spline K) (ha : a.WF) (ha' : a'.WF) (ε R : K)
    (h : Near (fun x : K => |x|) ε a a') (hR : ∀ x ∈ a.cps, |x| ≤ R) (hR' : ∀ x ∈ a'.cps, |x| ≤ R) (n : ℕ)
    (hdeg : ∀ p ∈ a.degrees, n * p < cfg.maxBinom) :
    ∃ r r', Spline.raisePower cfg a n = .ok r ∧ Spline.raisePower cfg a' n = .ok r' ∧ Near (fun x : K => |x|) (n * R ^ (n - 1) * ε) r r' ∧
      (∀ x ∈ r.cps, |x| ≤ R ^ n) ∧ ∀ x ∈ r'.cps, |x| ≤ R ^ n := by
  have ca := ha.computes (K := K)
  have ca' := ha'.computes (K := K)
  rw [h.1] at ca'
  have key : ∀ (b : Spline K) (f : List K → K), b.Computes a.degrees f → (∀ x ∈ b.cps, |x| ≤ R) → ∀ n : ℕ, (∀ p ∈ a.degrees, (n + 1) * p < cfg.maxBinom) →
      ∀ x y, Spline.raisePower cfg b n = .ok x → Spline.raisePower cfg b (n + 1) = .ok y → Spline.mulOp K cfg (fun x y => x * y) x b = .ok y := by
    intro b f cb hb n hd x y hx hy
    have hd' : ∀ p ∈ a.degrees, n * p < cfg.maxBinom := fun p hp => lt_of_le_of_lt (Nat.mul_le_mul_right p (Nat.le_succ n)) (hd p hp)
    obtain ⟨r, e, cr⟩ := C22_raise_power cfg hmax b _ _ cb n hd'
    cases hx.symm.trans e
    obtain ⟨r', e', cr'⟩ := C22_raise_power cfg hmax b _ _ cb (n + 1) hd
    cases hy.symm.trans e'
    obtain ⟨m, em, cm⟩ := C21_mul cfg hmax (fun x y : K => x * y) (LinearMap.mul K K) (fun _ _ => rfl) x b _ _ _ _ cr cb (by simp) (by
      rw [power_degrees]
      intro p hp
      obtain ⟨q, hq, rfl⟩ := List.mem_map.mp hp
      exact hd q hq)
    rw [power_degrees] at cm
    rw [em, cm.unique (cr'.congr fun t _ => pow_succ _ _)]
  induction n with
  | zero =>
    obtain ⟨r, e, cr⟩ := C22_raise_power cfg hmax a _ _ ca 0 hdeg
    obtain ⟨r', e', cr'⟩ := C22_raise_power cfg hmax a' _ _ ca' 0 hdeg
    have hrr : r' = r := cr'.unique (cr.congr fun t _ => by simp)
    subst hrr
    have hone : ∀ x ∈ r'.cps, |x| ≤ R ^ 0 := by
      let u : Spline K := ⟨r'.degrees, r'.ncp, r'.offsets, List.replicate r'.ncp 1⟩
      have uw : u.WF := ⟨cr.wf.dim_pos, cr.wf.ncp_eq, cr.wf.offsets_eq, by simp [u, cr.wf.ncp_eq]⟩
      have cu := const_computes (K := K) uw (c := (1 : K)) fun x hx => (List.mem_replicate.mp hx).2
      have hud : u.degrees = a.degrees.map fun p => 0 * p := cr.degrees_eq
      rw [hud] at cu
      have e : r' = u := cr.unique (cu.congr fun t _ => by simp)
      intro x hx
      rw [e] at hx
      rw [(List.mem_replicate.mp hx).2]
      simp
    refine ⟨r', r', e, e', ?_, hone, hone⟩
    simpa using near_self
  | succ n ih =>
    have hd' : ∀ p ∈ a.degrees, n * p < cfg.maxBinom := fun p hp => lt_of_le_of_lt (Nat.mul_le_mul_right p (Nat.le_succ n)) (hdeg p hp)
    obtain ⟨x, x', ex, ex', hx, hb, hb'⟩ := ih hd'
    obtain ⟨y, ey, cy⟩ := C22_raise_power cfg hmax a _ _ ca (n + 1) hdeg
    obtain ⟨y', ey', cy'⟩ := C22_raise_power cfg hmax a' _ _ ca' (n + 1) hdeg
    obtain ⟨z, ez, cz⟩ := C22_raise_power cfg hmax a _ _ ca n hd'
    cases ex.symm.trans ez
    obtain ⟨z', ez', cz'⟩ := C22_raise_power cfg hmax a' _ _ ca' n hd'
    cases ex'.symm.trans ez'
    have m := key a _ ca hR n hdeg x y ex ey
    have m' := key a' _ ca' hR' n hdeg x' y' ex' ey'
    have hdims : ∀ p ∈ sumDegrees x.degrees a.degrees, p < cfg.maxBinom := by
      rw [cz.degrees_eq, power_degrees]
      intro p hp
      obtain ⟨q, hq, rfl⟩ := List.mem_map.mp hp
      exact hdeg q hq
    have hdims' : ∀ p ∈ sumDegrees x'.degrees a'.degrees, p < cfg.maxBinom := by rw [h.1, hx.1]; exact hdims
    have hdim : a.dim = x.dim := by unfold Spline.dim; rw [cz.degrees_eq]; simp
    have hdim' : a'.dim = x'.dim := by unfold Spline.dim; rw [h.1, cz'.degrees_eq]; simp
    obtain ⟨r, r', er, er', hr⟩ := C111_mul (K := K) abs_is_length abs_is_length abs_is_length cfg hmax (fun x y : K => x * y) (LinearMap.mul K K)
      (fun _ _ => rfl) (fun x y => (abs_mul x y).le) x x' a a' cz.wf cz'.wf ha ha' hdim hdims _ _ _ _ hx h hb' hR
    cases er.symm.trans m
    cases er'.symm.trans m'
    have hconv : Convex K {x : K | |x| ≤ R ^ (n + 1)} := by
      have e : {x : K | |x| ≤ R ^ (n + 1)} = Set.Icc (-R ^ (n + 1)) (R ^ (n + 1)) := by ext x; simp [abs_le]
      rw [e]
      exact convex_Icc _ _
    have hmul : ∀ x ∈ {x : K | |x| ≤ R ^ n}, ∀ y ∈ {y : K | |y| ≤ R}, x * y ∈ {x : K | |x| ≤ R ^ (n + 1)} := by
      intro x hx y hy
      show |x * y| ≤ R ^ (n + 1)
      rw [abs_mul, pow_succ]
      exact mul_le_mul hx hy (abs_nonneg _) ((abs_nonneg _).trans hx)
    obtain ⟨s, es, hs⟩ := C73_mul (K := K) cfg hmax (fun x y : K => x * y) (LinearMap.mul K K) (fun _ _ => rfl) x a cz.wf ha hdim hdims _ _ _ hconv hb hR hmul
    cases es.symm.trans m
    obtain ⟨s', es', hs'⟩ := C73_mul (K := K) cfg hmax (fun x y : K => x * y) (LinearMap.mul K K) (fun _ _ => rfl) x' a' cz'.wf ha' hdim' hdims' _ _ _ hconv hb' hR' hmul
    cases es'.symm.trans m'
    refine ⟨y, y', ey, ey', ?_, hs, hs'⟩
    have e : ((n + 1 : ℕ) : K) * R ^ (n + 1 - 1) * ε = n * R ^ (n - 1) * ε * R + R ^ n * ε := by
      cases n with
      | zero => simp
      | succ k => simp only [Nat.add_sub_cancel]; push_cast; ring
    rw [e]
    exact hr

/-- `A` and the moved `A`, to the fifth power -/
example := C111_power (K := ℚ) Ex.cfg Ex.cfg_ok Ex.A Am Ex.A_wf Am_wf (1 / 10) 7 A_near (by decide +kernel) (by decide +kernel) 5 (by decide)

end Bezman.Props
