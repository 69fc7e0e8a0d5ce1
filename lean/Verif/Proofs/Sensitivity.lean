import Verif.Proofs.PropsAux
import Verif.Proofs.Computes

/-! # Moving one control point -/

namespace Bezman
open Spec Finset

variable {K V : Type} [CommRing K] [AddCommGroup V] [Module K V]

namespace Spline

omit [CommRing K] [Module K V] in
theorem wf_set {s : Spline V} (hs : s.WF) (n : ℕ) (y : V) : ({ s with cps := s.cps.set n y } : Spline V).WF :=
  ⟨hs.dim_pos, hs.ncp_eq, hs.offsets_eq, by simpa using hs.cps_len⟩

/-- the value after control point `n` was moved by `v` -/
theorem value_set {s : Spline V} (hs : s.WF) {idx : List ℕ} (hidx : ValidIdx s.degrees idx) {x v : V}
    (hx : s.cps[flatIndex s.degrees idx]? = some x) {t : List K} (ht : t.length = s.dim) :
    ({ s with cps := s.cps.set (flatIndex s.degrees idx) (x + v) } : Spline V).value t =
      s.value t + bernProd s.degrees idx t • v := by
  have hl : t.length = s.degrees.length := ht
  have key : ∀ c : List V, ({ s with cps := c } : Spline V).value t =
      ∑ n ∈ range (size s.degrees), pw (bernFns s.degrees t) (unflat s.degrees n) • c.getD n 0 := by
    intro c
    rw [sum_pw _ (Spline.bernFns_length hl), ← neval_eq_tens]; exact value_eq_neval _ _
  have hn := flatIndex_lt hidx
  have e : s.value t = _ := key s.cps
  rw [key, e]
  have hb : bernProd s.degrees idx t • v = ∑ n ∈ range (size s.degrees),
      if n = flatIndex s.degrees idx then bernProd s.degrees idx t • v else 0 := by
    rw [sum_ite_eq' (range _) _ (fun _ => bernProd s.degrees idx t • v), if_pos (by simpa using hn)]
  rw [hb, ← sum_add_distrib]
  refine sum_congr rfl fun n hn' => ?_
  have hlen : flatIndex s.degrees idx < s.cps.length := by rw [hs.cps_len]; exact hn
  by_cases h : n = flatIndex s.degrees idx
  · subst h
    rw [if_pos rfl, List.getD_eq_getElem?_getD, List.getElem?_set_self hlen, List.getD_eq_getElem?_getD, hx,
      unflat_flatIndex hidx, pw_bernFns hidx.length hl]
    simp [smul_add]
  · rw [if_neg h, add_zero, List.getD_eq_getElem?_getD, List.getElem?_set_ne (Ne.symm h),
      ← List.getD_eq_getElem?_getD]

end Spline
end Bezman
