import Verif.Proofs.DerivSpline

/-! Derivative splines for an order one above the degree: the `size_t` subtraction
wraps around. -/

namespace Bezman
open Spec Finset
namespace Spline

theorem foldl_mul64_zero (l : List ℕ) : l.foldl (fun n d => mul64 n (add64 d 1)) 0 = 0 := by
  induction l with
  | nil => rfl
  | cons x l ih => simpa [mul64] using ih

theorem count64_wrap {nd : List ℕ} {d : ℕ} (h : nd[d]? = some (2 ^ 64 - 1)) : count64 nd = 0 := by
  unfold count64
  rw [list_split h, List.foldl_append, List.foldl_cons]
  have : add64 (2 ^ 64 - 1) 1 = 0 := by decide
  rw [this]
  have : ∀ n, mul64 n 0 = 0 := fun n => by simp [mul64]
  rw [this]
  exact foldl_mul64_zero _

theorem sub64_wrap {p : ℕ} (h : p < 2 ^ 64 - 1) : sub64 p (p + 1) = 2 ^ 64 - 1 := by
  unfold sub64
  rw [Nat.mod_eq_of_lt (by omega : p + 1 < 2 ^ 64), show p + (2 ^ 64 - (p + 1)) = 2 ^ 64 - 1 by omega]
  rfl

section
variable {K V : Type} [Field K] [AddCommGroup V] [Module K V] {s : Spline V}

theorem ofDegrees64_wrap {nd : List ℕ} {d : ℕ} (h : nd[d]? = some (2 ^ 64 - 1)) :
    ∃ r : Spline V, ofDegrees64 nd = .ok r ∧ r.degrees = nd ∧ r.ncp = 0 ∧ r.cps = [] ∧ r.offsets.length = nd.length := by
  have hpos : 0 < nd.length := by
    obtain ⟨hd, _⟩ := List.getElem?_eq_some_iff.mp h; omega
  unfold ofDegrees64
  rw [count64_wrap h]
  simp only []
  rw [wr_ok _ (by simpa using hpos)]
  simp only [bind_ok]
  obtain ⟨o, h1, h2⟩ := loopFrom_inv (a := 1) (b := nd.length) (s := (List.replicate nd.length 0).set 0 1)
    (f := fun i o => do
      let a ← rd o (i - 1)
      let d ← rd nd (i - 1)
      wr o i (mul64 a (add64 d 1)))
    (P := fun _ o => o.length = nd.length) (by omega) (by simp)
    (by
      intro k hk1 hk2 o hl
      rw [rd_getElem (by omega : k - 1 < o.length), rd_getElem (by omega : k - 1 < nd.length)]
      simp only [bind_ok]
      rw [wr_ok _ (by omega)]
      exact ⟨_, rfl, by simpa using hl⟩)
  rw [h1]
  exact ⟨_, rfl, rfl, rfl, by simp [resize], h2⟩

theorem deriv_step_wrap {cfg : Cfg} {orders : List ℕ} {e o p nd' : ℕ} {r : List ℕ × List V}
    (ho : orders[e]? = some o) (hp : s.degrees[e]? = some p) (hn : r.1[e]? = some nd')
    (h0 : o ≠ 0) (hz : count64 (r.1.set e (sub64 nd' o)) = 0) :
    derivStep K cfg s orders e r = .ok (r.1.set e (sub64 nd' o), r.2) := by
  obtain ⟨he, _⟩ := List.getElem?_eq_some_iff.mp hn
  unfold derivStep
  rw [rd_ok ho]
  simp only [bind_ok]
  rw [if_neg h0, rd_ok hn]
  simp only [bind_ok]
  rw [wr_ok _ he]
  simp only [bind_ok]
  rw [rd_ok hp]
  simp only [bind_ok]
  obtain ⟨f, h1, _⟩ : ∃ f, loopFrom 1 o (fun i (f : K) => pure (f * ((sub64 p i : Nat) : K))) ((p : Nat) : K) = .ok f ∧ True := by
    by_cases h : 1 ≤ o
    · exact loopFrom_inv (P := fun _ _ => True) h trivial (fun k _ _ s _ => ⟨_, rfl, trivial⟩)
    · exact ⟨_, loopFrom_empty (by omega), trivial⟩
  rw [h1]
  simp only [bind_ok]
  rw [hz]
  rfl

/-- If the first order above its degree exceeds it by one, the call returns a spline
with no control points. -/
theorem derivativeSpline_above {cfg : Cfg} (hc : cfg.Ok) (h : s.WF) {orders : List ℕ} (hl : orders.length = s.dim)
    {d p : ℕ} (hp : s.degrees[d]? = some p) (ho : orders[d]? = some (p + 1))
    (hle : ∀ (e o q : ℕ), e < d → orders[e]? = some o → s.degrees[e]? = some q → o ≤ q)
    (hmax : ∀ (e o : ℕ), e < d → orders[e]? = some o → o < cfg.maxBinom) (hsz : size s.degrees < 2 ^ 64) :
    ∃ r, derivativeSpline K cfg s orders = .ok r ∧ r.degrees.length = s.dim ∧ r.ncp = 0 ∧ r.cps = [] ∧
      r.offsets.length = s.dim := by
  have hl' : orders.length = s.degrees.length := hl
  obtain ⟨hd, _⟩ := List.getElem?_eq_some_iff.mp hp
  have hp64 : p < 2 ^ 64 - 1 := by
    have := lt_of_le_of_lt (lt_size_of_mem (List.mem_of_getElem? hp)) hsz
    omega
  unfold derivativeSpline
  obtain ⟨⟨nd, pts⟩, h1, h2⟩ := loop_inv (n := s.dim) (s := (s.degrees, s.cps))
    (f := derivStep K cfg s orders)
    (P := fun k r => if k ≤ d then DerivInv (K := K) s orders k r
      else r.1.length = s.dim ∧ r.1[d]? = some (2 ^ 64 - 1))
    (by
      rw [if_pos (Nat.zero_le _)]
      exact ⟨by simp [doneDegrees], fun i => s.cps.getD i 0, h.cps_tab, by
        intro t ht
        simp only [restOrders, Nat.zero_min, List.replicate_zero, List.nil_append, List.drop_zero]
        exact mt_tens _ _ (fun n => s.cps.getD n 0)⟩)
    (by
      intro k hk r hr
      rcases Nat.lt_trichotomy k d with hkd | rfl | hkd
      · rw [if_pos (by omega)] at hr
        simp only [show k + 1 ≤ d by omega, if_true]
        exact deriv_step hc h hl hk (fun o q => hle k o q hkd) (fun o => hmax k o hkd) hsz hr
      · rw [if_pos le_rfl] at hr
        simp only [show ¬ k + 1 ≤ k by omega, if_false]
        have hr1 : r.1 = doneDegrees s.degrees orders k := hr.1
        have hn : r.1[k]? = some p := by
          rw [hr1, doneDegrees_getElem? hl' hp ho, if_neg (by omega)]
        have hlen : r.1.length = s.dim := by rw [hr1]; exact doneDegrees_length hl' k
        have hget : (r.1.set k (sub64 p (p + 1)))[k]? = some (2 ^ 64 - 1) := by
          rw [List.getElem?_set, if_pos rfl, if_pos (by omega), sub64_wrap hp64]
        exact ⟨_, deriv_step_wrap ho hp hn (by omega) (count64_wrap hget), by simpa using hlen, hget⟩
      · rw [if_neg (by omega)] at hr
        simp only [show ¬ k + 1 ≤ d by omega, if_false]
        obtain ⟨hlen, hget⟩ := hr
        have hp' : s.degrees[k]? = some s.degrees[k] := List.getElem?_eq_getElem hk
        have ho' : orders[k]? = some orders[k] := List.getElem?_eq_getElem (by omega)
        have hn : r.1[k]? = some (r.1[k]'(by omega)) := List.getElem?_eq_getElem (by omega)
        by_cases h0 : orders[k] = 0
        · refine ⟨r, ?_, hlen, hget⟩
          unfold derivStep
          rw [rd_ok ho']
          simp only [bind_ok]
          rw [if_pos h0]; rfl
        · have hget' : (r.1.set k (sub64 (r.1[k]'(by omega)) orders[k]))[d]? = some (2 ^ 64 - 1) := by
            rw [List.getElem?_set, if_neg (by omega), hget]
          exact ⟨_, deriv_step_wrap ho' hp' hn h0 (count64_wrap hget'), by simpa using hlen, hget'⟩)
  rw [if_neg (by omega : ¬ s.dim ≤ d)] at h2
  unfold derivStep at h1
  rw [h1]
  simp only [bind_ok]
  obtain ⟨r, e1, e2, e3, e4, e5⟩ := ofDegrees64_wrap (V := V) h2.2
  rw [e1]
  simp only [bind_ok]
  rw [e3]
  simp only [loop_zero, bind_ok, pure_eq_ok]
  exact ⟨_, rfl, by rw [e2]; exact h2.1, rfl, e4, by rw [e5]; exact h2.1⟩

/-- Evaluating a spline without control points is undefined behaviour. -/
theorem evaluate_empty {r : Spline V} (h1 : r.ncp = 0) (h2 : r.cps = []) (h3 : r.offsets.length = r.degrees.length)
    {t : List K} (ht : t.length = r.degrees.length) : r.evaluate t = .error .ub := by
  unfold evaluate
  rw [h1, h2]
  obtain ⟨m, e1, e2⟩ := loop_inv (n := r.dim) (s := (([] : List V), 0))
    (f := fun par_dim (q : List V × Nat) => do
      let factor ← rd t par_dim
      let inv_factor := 1 - factor
      let p ← rd r.degrees par_dim
      let off ← rd r.offsets par_dim
      let ctps_to_consider := q.2 / (p + 1)
      let m ← loop ctps_to_consider (fun starting_point_id m =>
        let offset := (off * (p + 1)) * starting_point_id
        loop (p + 1) (fun i m =>
          loop (p - i) (fun j m => do
            let a ← rd m (j * off + offset)
            let b ← rd m ((j + 1) * off + offset)
            wr m (j * off + offset) (inv_factor • a + factor • b)) m) m) q.1
      pure (m, ctps_to_consider))
    (P := fun _ q => q = ([], 0)) rfl
    (by
      rintro k hk q rfl
      have hk' : k < r.degrees.length := hk
      rw [rd_getElem (by omega : k < t.length), rd_getElem hk', rd_getElem (by omega : k < r.offsets.length)]
      simp only [bind_ok, Nat.zero_div, loop_zero, pure_eq_ok]
      exact ⟨_, rfl, rfl⟩)
  rw [e1, e2]
  rfl

end
end Spline
end Bezman
