import Verif.Props.Cuts
import Verif.Props.RationalBounds

/-! # C113 for rational splines with positive weights: where the cuts are -/

namespace Bezman.Props
open Spec
variable {A : FloatArith} {n : ℕ}

theorem rchain_of_ok {ds : List ℕ} {d : ℕ} (hd : d < ds.length) (r : RSpline (Fl A) (Point (Fl A) n)) (hs : HasRShape ds r)
    (planes : List (Fl A)) {l : List (RSpline (Fl A) (Point (Fl A) n))} (hl : r.splitAtMany planes d = .ok l) :
    (∀ z ∈ relatives (fun zp z : Fl A => (z - zp) / (1 - zp)) planes, 0 < z ∧ z < 1) ∧
      cutChain (fun a z => a.splitAt z d) r (relatives (fun zp z : Fl A => (z - zp) / (1 - zp)) planes) = .ok l := by
  have e : r.splitAtMany planes d = r.splitAtManyVia (fun zp z => (z - zp) / (1 - zp)) planes d := rfl
  rw [e, C113_rational_chain] at hl
  split at hl
  · refine ⟨?_, hl⟩
    by_contra hn
    rw [cutChain_throws (fun a z => rsplit_ok hd a z) (fun a z _ hz => RSpline.splitAt_throws hz) hs hn] at hl
    cases hl
  · cases hl

/-- C113. Rational splines of points with positive weights: if splitting at increasing positions returns, the parts are those of the exact
spline, cut at positions that are wrong by at most three roundings, and their stored control points and weights are wrong by the roundings
of the cuts, relative to the weights. -/
theorem C113_rational_error (hη : A.η = 0) (hu : A.u < 1) (r : RSpline (Fl A) (Point (Fl A) n)) (r' : RSpline ℝ (Point ℝ n)) (ds : List ℕ) (k : ℕ)
    (B : Fin n → ℝ) (hr : r.ApproxPoints ds k B r') (f : List ℝ → Point ℝ n) (w : List ℝ → ℝ) (hf : r'.Computes ds f w) (d p : ℕ) (hd : ds[d]? = some p)
    (planes : List (Fl A)) (h01 : ∀ z ∈ planes, 0 < z.val ∧ z.val < 1) (hinc : planes.Pairwise (fun a b => a.val < b.val))
    (l : List (RSpline (Fl A) (Point (Fl A) n))) (hl : r.splitAtMany planes d = .ok l) :
    ∃ (cs : List ℝ) (l' : List (RSpline ℝ (Point ℝ n))), cs.length = planes.length ∧ l.length = planes.length + 1 ∧ l'.length = planes.length + 1 ∧
      (0 :: cs ++ [1]).Pairwise (· < ·) ∧
      (∀ (i : ℕ) c z, cs[i]? = some c → planes[i]? = some z → |c - z.val| ≤ ((1 + A.u) ^ 2 / (1 - A.u) - 1) * z.val) ∧
      (∀ (i : ℕ) a' lo hi, l'[i]? = some a' → (0 :: cs ++ [1])[i]? = some lo → (0 :: cs ++ [1])[i + 1]? = some hi →
        a'.Computes ds (fun t => f (t.modify d (fun x => lo + (hi - lo) * x))) (fun t => w (t.modify d (fun x => lo + (hi - lo) * x)))) ∧
      ∀ (i : ℕ) a a', l[i]? = some a → l'[i]? = some a' → a.ApproxPoints ds (k + 3 * p * min (i + 1) planes.length) B a' := by
  have hd' : d < ds.length := (List.getElem?_eq_some_iff.mp hd).1
  obtain ⟨hrs, e⟩ := rchain_of_ok hd' r hr.shape planes hl
  set rs := relatives (fun zp z : Fl A => (z - zp) / (1 - zp)) planes with hrsdef
  obtain ⟨m, m', g1, g2, g3, g4, g5⟩ := cutChain_related (split := fun (a : RSpline (Fl A) (Point (Fl A) n)) z => a.splitAt z d)
    (split' := fun (a : RSpline ℝ (Point ℝ n)) z => a.splitAt z d) (v := Fl.val) (m := 3 * p) (R := fun k a a' => a.ApproxPoints ds k B a')
    (Q := fun z => 0 < z ∧ z < 1) (fun k a a' z ha hz => C114_split hη ha z hz.1 hz.2 d p hd) hr hrs
  rw [e] at g1; cases g1
  have hrs' : ∀ r ∈ rs.map Fl.val, 0 < r ∧ r < 1 := by
    intro r hr; obtain ⟨x, hx, rfl⟩ := List.mem_map.mp hr; exact hrs x hx
  obtain ⟨m'', k1, k2, k3⟩ := C113_rational_exact r' ds f w hf d hd' (rs.map Fl.val) hrs'
  rw [g2] at k1; cases k1
  have hlen : rs.length = planes.length := relatives_length _ _
  refine ⟨cutsFrom 0 (rs.map Fl.val), m', by rw [cutsFrom_length, List.length_map, hlen], by rw [g3, hlen], by rw [g4, hlen],
    cutsFrom_increasing zero_lt_one hrs', ?_, k3, fun i a a' x y => ?_⟩
  · exact cuts_near hη hu h01 hinc hrs
  · have := g5 i a a' x y
    rwa [hlen] at this

/-! ## A concrete case -/

theorem exRPoint_splitMany : ∃ l, exRPoint.splitAtMany [(⟨1 / 4⟩ : F64), ⟨1 / 2⟩] 0 = .ok l := by
  obtain ⟨l, hl⟩ := exFl_splitMany
  obtain ⟨hr, -⟩ := chain_of_ok (ds := [2, 1]) (d := 0) (by decide) exFl ⟨wf_exFl, rfl⟩ _ hl
  obtain ⟨l, h1, -⟩ := cutChain_returns (fun a z => rsplit_ok (V := Point F64 2) (ds := [1]) (d := 0) (by decide) a z) exRPoint_stored.shape hr
  refine ⟨l, ?_⟩
  show exRPoint.splitAtManyVia (fun zp z => (z - zp) / (1 - zp)) [(⟨1 / 4⟩ : F64), ⟨1 / 2⟩] 0 = .ok l
  rw [C113_rational_chain, if_pos (isSorted_of_pairwise (by
    simp only [List.pairwise_cons, List.mem_singleton, forall_eq, List.not_mem_nil, false_imp_iff, implies_true, and_true, List.Pairwise.nil]
    exact fun h => absurd (show (1 / 2 : ℝ) < 1 / 4 from h) (by norm_num)))]
  exact h1

/-- a rational curve with weights 10^20 and 10^-20, cut into three parts -/
example : ∃ (l : List (RSpline F64 (Point F64 2))) (l' : List (RSpline ℝ (Point ℝ 2))), exRPoint.splitAtMany [(⟨1 / 4⟩ : F64), ⟨1 / 2⟩] 0 = .ok l ∧
    l.length = 3 ∧ l'.length = 3 ∧
    ∀ (i : ℕ) a a', l[i]? = some a → l'[i]? = some a' → a.ApproxPoints [1] (0 + 3 * 1 * min (i + 1) 2) ![10 ^ 20, 2 * 10 ^ 20] a' := by
  obtain ⟨l, hl⟩ := exRPoint_splitMany
  obtain ⟨cs, l', h1, h2, h3, -, -, -, h7⟩ := C113_rational_error (A := FloatArith.binary 53) rfl (by norm_num [FloatArith.binary]) exRPoint
    exRPoint.exactPoints [1] 0 _ exRPoint_stored _ _ (HasRShape.computes' exRPoint_stored.shape') 0 1 rfl [⟨1 / 4⟩, ⟨1 / 2⟩]
    (by simp; norm_num) (by simp; norm_num) l hl
  exact ⟨l, l', hl, h2, h3, h7⟩

end Bezman.Props
