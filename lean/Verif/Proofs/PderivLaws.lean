import Verif.Props.Deriv
import Verif.Props.Split

/-! # Laws of mixed partial derivatives of spline functions -/

namespace Bezman
open Spec

variable {𝕜 V : Type} [NontriviallyNormedField 𝕜] [NormedAddCommGroup V] [NormedSpace 𝕜 V]

/-- raising one order differentiates once more -/
theorem Spline.Computes.hasDerivAt {s : Spline V} {ds : List ℕ} {f : List 𝕜 → V} (hs : s.Computes ds f) {k : List ℕ}
    (hk : k.length = ds.length) {d kd : ℕ} (hkd : k[d]? = some kd) {t : List 𝕜} (ht : t.length = ds.length) {td : 𝕜}
    (htd : t[d]? = some td) :
    HasDerivAt (fun x => pderiv k f (t.set d x)) (pderiv (k.set d (kd + 1)) f t) td := by
  have e : (fun x => pderiv k f (t.set d x)) =
      fun x => tens s.degrees (Spline.dFns s.degrees k (t.set d x)) (fun n => s.cps.getD n 0) := by
    funext x
    exact Props.pderiv_value hs hk (by simpa using ht)
  rw [e, Props.pderiv_value hs (by simpa using hk) ht]
  exact hasDerivAt_tens (by rw [hs.degrees_eq]; exact hk) (by rw [hs.degrees_eq]; exact ht) _ hkd htd

theorem Spline.Computes.pderiv_zero {s : Spline V} {ds : List ℕ} {f : List 𝕜 → V} (hs : s.Computes ds f)
    {t : List 𝕜} (ht : t.length = ds.length) : pderiv (List.replicate ds.length 0) f t = f t := by
  rw [Props.pderiv_value hs (by simp) ht, ← hs.value_eq ht, Spline.value_eq_neval, neval_eq_tens, hs.degrees_eq,
    dFns_zero ht]

/-- the first partial derivative -/
theorem Spline.Computes.hasDerivAt_one {s : Spline V} {ds : List ℕ} {f : List 𝕜 → V} (hs : s.Computes ds f) {d : ℕ}
    (hd : d < ds.length) {t : List 𝕜} (ht : t.length = ds.length) {td : 𝕜} (htd : t[d]? = some td) :
    HasDerivAt (fun x => f (t.set d x)) (pderiv ((List.replicate ds.length 0).set d 1) f t) td := by
  have := hs.hasDerivAt (k := List.replicate ds.length 0) (by simp) (d := d) (kd := 0) (by simp [hd]) ht htd
  have e : (fun x => pderiv (List.replicate ds.length 0) f (t.set d x)) = fun x => f (t.set d x) := by
    funext x
    exact hs.pderiv_zero (by simpa using ht)
  rwa [e] at this

/-- The mixed partial derivatives are determined by one step in each direction. -/
theorem Spline.Computes.pderiv_unique {s : Spline V} {ds : List ℕ} {f : List 𝕜 → V} (hs : s.Computes ds f)
    (G : List ℕ → List 𝕜 → V) (h0 : ∀ t : List 𝕜, t.length = ds.length → G (List.replicate ds.length 0) t = f t)
    (hstep : ∀ (k : List ℕ) (d kd : ℕ) (t : List 𝕜) (td : 𝕜), k.length = ds.length → k[d]? = some kd → t.length = ds.length →
      t[d]? = some td → HasDerivAt (fun x => G k (t.set d x)) (G (k.set d (kd + 1)) t) td) :
    ∀ (k : List ℕ) (t : List 𝕜), k.length = ds.length → t.length = ds.length → pderiv k f t = G k t := by
  intro k
  induction hn : k.sum using Nat.strong_induction_on generalizing k with
  | _ n ih =>
  intro t hk ht
  by_cases hz : ∃ (d m : ℕ), k[d]? = some (m + 1)
  · obtain ⟨d, m, hd⟩ := hz
    obtain ⟨hdl, hde⟩ := List.getElem?_eq_some_iff.mp hd
    have hk' : (k.set d m).length = ds.length := by simpa using hk
    have hkd : (k.set d m)[d]? = some m := by simp [hdl]
    have e : (k.set d m).set d (m + 1) = k := by
      rw [List.set_set, ← hde, List.set_getElem_self]
    have htd : t[d]? = some (t[d]'(by omega)) := List.getElem?_eq_getElem _
    have h1 := hs.hasDerivAt hk' hkd ht htd
    have h2 := hstep _ d m t _ hk' hkd ht htd
    rw [e] at h1 h2
    have hlt : (k.set d m).sum < n := by
      obtain ⟨l, r, hl, he⟩ := List.exists_of_set (l := k) (a' := m) hdl
      rw [he.2, ← hn]
      conv_rhs => rw [hl]
      simp only [List.sum_append, List.sum_cons, hde]
      omega
    have e2 : (fun x => pderiv (k.set d m) f (t.set d x)) = fun x => G (k.set d m) (t.set d x) := by
      funext x
      exact ih _ hlt _ rfl _ hk' (by simpa using ht)
    rw [e2] at h1
    exact h1.unique h2
  · have hz' : k = List.replicate ds.length 0 := by
      rw [List.eq_replicate_iff]
      refine ⟨hk, fun x hx => ?_⟩
      obtain ⟨i, hi, rfl⟩ := List.mem_iff_getElem.mp hx
      by_contra hne
      exact hz ⟨i, k[i] - 1, by rw [List.getElem?_eq_getElem hi]; congr 1; omega⟩
    rw [hz', hs.pderiv_zero ht, h0 t ht]

/-- sum rule -/
theorem Spline.Computes.pderiv_add {a b c : Spline V} {da db dc : List ℕ} {f g : List 𝕜 → V} (ha : a.Computes da f)
    (hb : b.Computes db g) (hl : db.length = da.length) (hlc : dc.length = da.length) (hc : c.Computes dc (fun t => f t + g t)) {k : List ℕ} {t : List 𝕜}
    (hk : k.length = da.length) (ht : t.length = da.length) :
    pderiv k (fun t => f t + g t) t = pderiv k f t + pderiv k g t := by
  refine hc.pderiv_unique (fun k t => pderiv k f t + pderiv k g t) (fun t ht => ?_) ?_ k t (by omega) (by omega)
  · rw [hlc] at *
    show _ = f t + g t
    rw [ha.pderiv_zero ht, ← hl, hb.pderiv_zero (by omega)]
  · intro k d kd t td hk hkd ht htd
    exact (ha.hasDerivAt (by omega) hkd (by omega) htd).add (hb.hasDerivAt (by omega) hkd (by omega) htd)

/-- orders add up -/
theorem Spline.Computes.pderiv_pderiv {s r : Spline V} {ds dr : List ℕ} {f : List 𝕜 → V} (hs : s.Computes ds f) {k : List ℕ}
    (hk : k.length = ds.length) (hr : r.Computes dr (pderiv k f)) (hdr : dr.length = ds.length) {l : List ℕ} {t : List 𝕜}
    (hl : l.length = ds.length) (ht : t.length = ds.length) :
    pderiv l (pderiv k f) t = pderiv (List.zipWith (· + ·) k l) f t := by
  refine hr.pderiv_unique (fun l t => pderiv (List.zipWith (· + ·) k l) f t) (fun t ht => ?_) ?_ l t (by omega) (by omega)
  · congr 1
    apply List.ext_getElem
    · simp; omega
    · intro i h1 h2; simp
  · intro l d ld t td hl hld ht htd
    obtain ⟨hd, hde⟩ := List.getElem?_eq_some_iff.mp hld
    have e : List.zipWith (· + ·) k (l.set d (ld + 1)) = (List.zipWith (· + ·) k l).set d (k[d]'(by omega) + ld + 1) := by
      apply List.ext_getElem
      · simp
      · intro i h1 h2
        rw [List.getElem_zipWith, List.getElem_set, List.getElem_set, List.getElem_zipWith]
        split
        · next h => subst h; rfl
        · rfl
    show HasDerivAt (fun x => pderiv (List.zipWith (· + ·) k l) f (t.set d x)) (pderiv (List.zipWith (· + ·) k (l.set d (ld + 1))) f t) td
    rw [e]
    refine hs.hasDerivAt (by simp; omega) ?_ (by omega) htd
    rw [List.getElem?_eq_getElem (by simp; omega), List.getElem_zipWith, hde]

/-- product rule, first order -/
theorem Spline.Computes.pderiv_smul {a : Spline 𝕜} {b c : Spline V} {da db dc : List ℕ} {f : List 𝕜 → 𝕜} {g : List 𝕜 → V}
    (ha : a.Computes da f) (hb : b.Computes db g) (hl : db.length = da.length) (hlc : dc.length = da.length)
    (hc : c.Computes dc (fun t => f t • g t)) {d : ℕ} (hd : d < da.length) {t : List 𝕜} (ht : t.length = da.length) :
    pderiv ((List.replicate da.length 0).set d 1) (fun t => f t • g t) t =
      pderiv ((List.replicate da.length 0).set d 1) f t • g t + f t • pderiv ((List.replicate da.length 0).set d 1) g t := by
  have htd : t[d]? = some (t[d]'(by omega)) := List.getElem?_eq_getElem _
  have h1 := ha.hasDerivAt_one hd ht htd
  have h2 := hb.hasDerivAt_one (by omega) (by omega) htd
  have h3 := hc.hasDerivAt_one (by omega) (by omega) htd
  rw [hl] at h2
  rw [hlc] at h3
  have h4 := h1.smul h2
  simp only [List.set_getElem_self] at h4
  rw [h3.unique h4, add_comm]

/-- derivative of a reparametrised function: `t_d` replaced by `c + m t_d` -/
theorem Spline.Computes.pderiv_modify {s r : Spline V} {ds : List ℕ} {f : List 𝕜 → V} (hs : s.Computes ds f) {e : ℕ}
    (he : e < ds.length) (c m : 𝕜) (hr : r.Computes ds (fun t => f (t.modify e (fun x => c + m * x)))) {k : List ℕ} {t : List 𝕜}
    (hk : k.length = ds.length) (ht : t.length = ds.length) :
    pderiv k (fun t => f (t.modify e (fun x => c + m * x))) t = m ^ (k.getD e 0) • pderiv k f (t.modify e (fun x => c + m * x)) := by
  refine hr.pderiv_unique (fun k t => m ^ (k.getD e 0) • pderiv k f (t.modify e (fun x => c + m * x))) (fun t ht => ?_) ?_ k t hk ht
  · have e1 : (List.replicate ds.length 0).getD e 0 = 0 := by simp [he]
    show m ^ _ • _ = _
    rw [e1, pow_zero, one_smul, hs.pderiv_zero (by simpa using ht)]
  · intro k d kd t td hk hkd ht htd
    obtain ⟨hd, hde⟩ := List.getElem?_eq_some_iff.mp hkd
    by_cases hde' : d = e
    · subst hde'
      have e1 : ∀ x, (t.set d x).modify d (fun x => c + m * x) = (t.modify d (fun x => c + m * x)).set d (c + m * x) := by
        intro x
        apply List.ext_getElem
        · simp
        · intro i h1 h2
          rw [List.getElem_modify, List.getElem_set, List.getElem_set, List.getElem_modify]
          split <;> rfl
      have e2 : (t.modify d (fun x => c + m * x))[d]? = some (c + m * td) := by
        obtain ⟨h1, h2⟩ := List.getElem?_eq_some_iff.mp htd
        rw [List.getElem?_eq_getElem (by simpa using h1), List.getElem_modify, if_pos rfl, h2]
      have h1 := hs.hasDerivAt hk hkd (t := t.modify d (fun x => c + m * x)) (by simpa using ht) e2
      have h2 : HasDerivAt (fun x => c + m * x) m td := by
        simpa using ((hasDerivAt_id td).const_mul m).const_add c
      have h3 := (h1.scomp td h2).const_smul (m ^ (k.getD d 0))
      have e3 : (k.set d (kd + 1)).getD d 0 = k.getD d 0 + 1 := by
        rw [List.getD_eq_getElem?_getD, List.getD_eq_getElem?_getD, hkd, List.getElem?_eq_getElem (by simpa using hd)]
        simp
      show HasDerivAt (fun x => m ^ (k.getD d 0) • pderiv k f ((t.set d x).modify d _)) (m ^ ((k.set d (kd + 1)).getD d 0) • _) td
      simp only [e1]
      rw [e3, pow_succ, mul_smul]
      exact h3
    · have e1 : ∀ x, (t.set d x).modify e (fun x => c + m * x) = (t.modify e (fun x => c + m * x)).set d x := by
        intro x
        apply List.ext_getElem
        · simp
        · intro i h1 h2
          rw [List.getElem_modify, List.getElem_set, List.getElem_set, List.getElem_modify]
          split <;> split <;> first | rfl | omega
      have e2 : (t.modify e (fun x => c + m * x))[d]? = some td := by
        obtain ⟨h1, h2⟩ := List.getElem?_eq_some_iff.mp htd
        rw [List.getElem?_eq_getElem (by simpa using h1), List.getElem_modify, if_neg (by omega), h2]
      have h1 := (hs.hasDerivAt hk hkd (t := t.modify e (fun x => c + m * x)) (by simpa using ht) e2).const_smul (m ^ (k.getD e 0))
      have e3 : (k.set d (kd + 1)).getD e 0 = k.getD e 0 := by
        rw [List.getD_eq_getElem?_getD, List.getD_eq_getElem?_getD, List.getElem?_set_ne hde']
      show HasDerivAt (fun x => m ^ (k.getD e 0) • pderiv k f ((t.set d x).modify e _)) (m ^ ((k.set d (kd + 1)).getD e 0) • _) td
      simp only [e1]
      rw [e3]
      exact h1

end Bezman
