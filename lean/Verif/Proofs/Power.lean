import Verif.Proofs.Product

/-! Powers of scalar splines. -/

namespace Bezman
open Spec Finset
namespace Spline
variable {K : Type} [Field K]

theorem size_replicate_zero (n : ℕ) : size (List.replicate n 0) = 1 := by
  induction n with
  | zero => rfl
  | succ n ih => simp [List.replicate_succ, ih]

theorem oneSpline_ok {n : ℕ} (hn : 0 < n) :
    ∃ r : Spline K, oneSpline n = .ok r ∧ r.WF ∧ r.degrees = List.replicate n 0 ∧
      ∀ t : List K, t.length = n → r.value t = 1 := by
  have h := ofPoints_ok (ps := List.replicate n 0) (pts := [(1 : K)]) (by simpa using hn)
    (by simp [size_replicate_zero])
  refine ⟨_, h.1, h.2, rfl, ?_⟩
  intro t ht
  rw [value_eq_neval]
  have : neval (List.replicate n 0) t (fun i => ([(1 : K)]).getD i 0)
      = neval (List.replicate n 0) t (fun _ => (1 : K)) := by
    apply neval_congr; intro j hj
    rw [size_replicate_zero] at hj
    have : j = 0 := by omega
    subst this; rfl
  show neval (List.replicate n 0) t (fun i => ([(1 : K)]).getD i 0) = 1
  rw [this, neval_const (by simpa using ht)]

theorem zipWith_map_mul (a b : ℕ) (l : List ℕ) :
    List.zipWith (· + ·) (l.map (a * ·)) (l.map (b * ·)) = l.map ((a + b) * ·) := by
  induction l with
  | nil => rfl
  | cons x l ih => simp only [List.map_cons, List.zipWith_cons_cons, ih, add_mul]

theorem DegOk.mono_mul {cfg : Cfg} {a b : ℕ} (h : a ≤ b) {l : List ℕ} (hb : DegOk cfg (l.map (b * ·))) :
    DegOk cfg (l.map (a * ·)) := by
  intro p hp
  simp only [List.mem_map] at hp
  obtain ⟨x, hx, rfl⟩ := hp
  have := hb (b * x) (by simp only [List.mem_map]; exact ⟨x, hx, rfl⟩)
  exact lt_of_le_of_lt (Nat.mul_le_mul_right x h) this

theorem raisePowerAux_ok [CharZero K] {cfg : Cfg} (hc : cfg.Ok) {s : Spline K} (hs : s.WF) (depth n : ℕ)
    (hn : n < depth) (hdeg : DegOk cfg (s.degrees.map (n * ·))) :
    ∃ r, raisePowerAux cfg s depth n = .ok r ∧ r.WF ∧ r.degrees = s.degrees.map (n * ·) ∧
      ∀ t : List K, t.length = s.dim → r.value t = s.value t ^ n := by
  induction depth generalizing n with
  | zero => omega
  | succ depth ih =>
    rw [raisePowerAux]
    by_cases h0 : n = 0
    · subst h0
      rw [if_pos rfl]
      obtain ⟨r, r1, r2, r3, r4⟩ := oneSpline_ok (K := K) hs.dim_pos
      refine ⟨r, r1, r2, ?_, ?_⟩
      · rw [r3]; simp only [zero_mul]
        rw [List.map_const']
      · intro t ht; rw [r4 t ht, pow_zero]
    rw [if_neg h0]
    by_cases h1 : n = 1
    · subst h1
      rw [if_pos rfl]
      exact ⟨s, rfl, hs, by simp, fun t _ => by simp⟩
    rw [if_neg h1]
    obtain ⟨r, r1, r2, r3, r4⟩ := ih (n / 2) (by omega) (hdeg.mono_mul (by omega))
    rw [r1]
    simp only [bind_ok]
    have hrr : List.zipWith (· + ·) r.degrees r.degrees = s.degrees.map ((n / 2 + n / 2) * ·) := by
      rw [r3, zipWith_map_mul]
    have hrd : r.dim = s.dim := by unfold dim; rw [r3]; simp
    obtain ⟨q, q1, q2, q3, q4⟩ := mulScalar_ok hc r2 r2 rfl
      (by rw [hrr]; exact hdeg.mono_mul (by omega))
    by_cases h2 : n % 2 = 0
    · rw [if_pos h2]
      refine ⟨q, q1, q2, by rw [q3, hrr]; congr 1; funext x; congr 1; omega, ?_⟩
      intro t ht
      rw [q4 t (by rw [ht, hrd]), r4 t ht, ← pow_add]; congr 1; omega
    · rw [if_neg h2, q1]
      simp only [bind_ok]
      have hqs : List.zipWith (· + ·) q.degrees s.degrees = s.degrees.map (n * ·) := by
        have h1 : s.degrees = s.degrees.map (1 * ·) := by simp
        conv_lhs => rw [q3, hrr, h1]
        rw [List.map_map]
        have : ((fun x => (n / 2 + n / 2) * x) ∘ fun x => 1 * x) = fun x => (n / 2 + n / 2) * x := by
          funext x; simp
        rw [this, zipWith_map_mul]
        congr 1; funext x; congr 1; omega
      have hqd : q.dim = s.dim := by unfold dim; rw [q3, hrr]; simp
      obtain ⟨w, w1, w2, w3, w4⟩ := mulScalar_ok hc q2 hs hqd.symm (by rw [hqs]; exact hdeg)
      refine ⟨w, w1, w2, by rw [w3, hqs], ?_⟩
      intro t ht
      rw [w4 t (by rw [ht, hqd]), q4 t (by rw [ht, hrd]), r4 t ht, ← pow_add, ← pow_succ]
      congr 1; omega

theorem raisePower_ok [CharZero K] {cfg : Cfg} (hc : cfg.Ok) {s : Spline K} (hs : s.WF) (n : ℕ)
    (hdeg : DegOk cfg (s.degrees.map (n * ·))) :
    ∃ r, raisePower cfg s n = .ok r ∧ r.WF ∧ r.degrees = s.degrees.map (n * ·) ∧
      ∀ t : List K, t.length = s.dim → r.value t = s.value t ^ n :=
  raisePowerAux_ok hc hs (n + 1) n (by omega) hdeg

end Spline
end Bezman
