import Verif.Proofs.CutsNarrow

/-! # Properties: splitting at several positions in floating-point arithmetic -/

namespace Bezman.Props
open Spec

/-! ## C113 -/

section any
variable {K V : Type} [Zero K] [One K] [Sub K] [LT K] [DecidableLT K] [Add V] [SMul K V]

/-- C113. `SplitAtPosition` with a vector of positions throws if the vector is not sorted. Otherwise it cuts at the first position, and cuts what
is left over again and again at the relative position `rel zp z` of the next position `z` after the previous one `zp`. This is the
case in any arithmetic, and for any way of computing the relative positions. -/
theorem C113_chain (rel : K → K → K) (s : Spline V) (planes : List K) (d : ℕ) :
    s.splitAtManyVia rel planes d =
      if Spline.isSorted planes then cutChain (fun a z => a.splitAt z d) s (relatives rel planes) else .error .throws := by
  unfold Spline.splitAtManyVia
  cases hs : Spline.isSorted planes with
  | false => rfl
  | true =>
    by_cases h0 : planes.length = 0
    · obtain rfl := List.length_eq_zero_iff.mp h0
      rfl
    · simp only [Bool.not_true, Bool.false_eq_true, if_false, if_true, if_neg h0]
      exact cutChain_head (fun a z => a.splitAt z d) rel s planes h0

/-- C113. The same for rational splines. -/
theorem C113_rational_chain [Add K] [Mul K] (rel : K → K → K) (r : RSpline K V) (planes : List K) (d : ℕ) :
    r.splitAtManyVia rel planes d =
      if Spline.isSorted planes then cutChain (fun a z => a.splitAt z d) r (relatives rel planes) else .error .throws := by
  unfold RSpline.splitAtManyVia
  cases hs : Spline.isSorted planes with
  | false => rfl
  | true =>
    by_cases h0 : planes.length = 0
    · obtain rfl := List.length_eq_zero_iff.mp h0
      rfl
    · simp only [Bool.not_true, Bool.false_eq_true, if_false, if_true, if_neg h0]
      exact cutChain_head (fun a z => a.splitAt z d) rel r planes h0

/-- C113. The functions of the other theorems compute the relative position as `(z - zp) / (1 - zp)`. -/
theorem C113_plain [Add K] [Mul K] [Div K] (s : Spline V) (r : RSpline K V) (planes : List K) (d : ℕ) :
    s.splitAtMany planes d = s.splitAtManyVia (fun zp z => (z - zp) / (1 - zp)) planes d ∧
    r.splitAtMany planes d = r.splitAtManyVia (fun zp z => (z - zp) / (1 - zp)) planes d := ⟨rfl, rfl⟩

end any

/-! ### Exact arithmetic -/

section exact
variable {K V : Type} [Field K] [LinearOrder K] [IsStrictOrderedRing K] [AddCommGroup V] [Module K V]

omit [LinearOrder K] [IsStrictOrderedRing K] in
theorem start_id : (fun x : K => 0 + (1 - 0) * x) = id := by funext x; simp

/-- C113. In exact arithmetic the parts of a chain of cuts trace the geometry between the cuts. -/
theorem C113_exact (s : Spline V) (ds : List ℕ) (f : List K → V) (hs : s.Computes ds f) (d : ℕ) (hd : d < ds.length) (rs : List K)
    (hr : ∀ r ∈ rs, 0 < r ∧ r < 1) :
    (0 :: cutsFrom 0 rs ++ [1]).Pairwise (· < ·) ∧
    ∃ l, cutChain (fun a z => a.splitAt z d) s rs = .ok l ∧ l.length = rs.length + 1 ∧
      ∀ (i : ℕ) (a : Spline V) (lo hi : K), l[i]? = some a → (0 :: cutsFrom 0 rs ++ [1])[i]? = some lo →
        (0 :: cutsFrom 0 rs ++ [1])[i + 1]? = some hi → a.Computes ds (fun t => f (t.modify d (fun x => lo + (hi - lo) * x))) := by
  refine ⟨cutsFrom_increasing zero_lt_one hr, ?_⟩
  refine cutChain_exact (split := fun (a : Spline V) z => a.splitAt z d) (C := fun a φ => a.Computes ds (fun t => f (t.modify d φ)))
    (fun a φ ψ ha h => by rwa [funext h] at ha) (fun a φ z ha h0 h1 => ?_) (by rw [start_id]; simpa using hs) hr
  obtain ⟨b, c, e, cb, cc⟩ := C31_split a ds _ ha d hd z h0 h1
  refine ⟨b, c, e, cb.congr fun t _ => ?_, cc.congr fun t _ => ?_⟩
  · simp only [List.modify_modify_eq]; rfl
  · simp only [List.modify_modify_eq]; rfl

/-- C113. The same for rational splines. -/
theorem C113_rational_exact [ScalarDiv K V] [LawfulScalarDiv K V] (r : RSpline K V) (ds : List ℕ) (f : List K → V) (w : List K → K) (hr : r.Computes ds f w) (d : ℕ)
    (hd : d < ds.length) (rs : List K) (hr01 : ∀ r ∈ rs, 0 < r ∧ r < 1) :
    ∃ l, cutChain (fun a z => a.splitAt z d) r rs = .ok l ∧ l.length = rs.length + 1 ∧
      ∀ (i : ℕ) (a : RSpline K V) (lo hi : K), l[i]? = some a → (0 :: cutsFrom 0 rs ++ [1])[i]? = some lo →
        (0 :: cutsFrom 0 rs ++ [1])[i + 1]? = some hi →
        a.Computes ds (fun t => f (t.modify d (fun x => lo + (hi - lo) * x))) (fun t => w (t.modify d (fun x => lo + (hi - lo) * x))) := by
  refine cutChain_exact (split := fun (a : RSpline K V) z => a.splitAt z d)
    (C := fun a φ => a.Computes ds (fun t => f (t.modify d φ)) (fun t => w (t.modify d φ)))
    (fun a φ ψ ha h => by rwa [funext h] at ha) (fun a φ z ha h0 h1 => ?_) (by rw [start_id]; simpa using hr) hr01
  obtain ⟨b, c, e, cb, cc⟩ := C40_split a ds _ _ ha d hd z h0 h1
  refine ⟨b, c, e, cb.congr (fun t _ => ?_) (fun t _ _ => ?_), cc.congr (fun t _ => ?_) (fun t _ _ => ?_)⟩ <;>
    · simp only [List.modify_modify_eq]; rfl

end exact

section
variable {K : Type} [Zero K] [One K] [Add K] [Sub K] [Mul K] [Neg K] [Div K] [NatCast K] [LT K] [DecidableLT K]

theorem split_ok {ds : List ℕ} {d : ℕ} (hd : d < ds.length) {V : Type} [Zero V] [Add V] [Sub V] [Neg V] [SMul K V]
    (s : Spline V) (z : K) (hs : HasShape ds s) (hz : 0 < z ∧ z < 1) : ∃ a b, s.splitAt z d = .ok (a, b) ∧ HasShape ds a ∧ HasShape ds b := by
  rcases Spline.splitAt_shape hs hd z with ⟨h1, _⟩ | ⟨_, h2⟩
  · exact absurd hz h1
  · exact h2

theorem rsplit_ok {ds : List ℕ} {d : ℕ} (hd : d < ds.length) {V : Type} [Zero V] [Add V] [Sub V] [Neg V]
    [SMul K V] (s : RSpline K V) (z : K) (hs : HasRShape ds s) (hz : 0 < z ∧ z < 1) :
    ∃ a b, s.splitAt z d = .ok (a, b) ∧ HasRShape ds a ∧ HasRShape ds b := by
  rcases RSpline.splitAt_shape hs hd z with ⟨h1, _⟩ | ⟨_, h2⟩
  · exact absurd hz h1
  · exact h2

end

/-! ### Rounding to nearest -/

section nearest
variable {p : ℕ} {q : ℤ} {rnd : ℝ → ℝ} {V : Type} [Zero V] [Add V] [Sub V] [Neg V] [SMul (Rd rnd) V]

theorem _root_.Bezman.Spec.Positions.sorted {planes : List (Rd rnd)} (h : Positions p q planes) : Spline.isSorted planes = true :=
  isSorted_of_pairwise (h.2.imp fun hab => not_lt.mpr (le_of_lt hab))

theorem _root_.Bezman.Spec.Positions.step {planes : List (Rd rnd)} (h : Positions p q planes) {i : ℕ} {a b : Rd rnd} (ha : planes[i]? = some a)
    (hb : planes[i + 1]? = some b) :
    IsFloat p q a.val ∧ IsFloat p q b.val ∧ 0 < a.val ∧ a.val < b.val ∧ b.val < 1 := by
  obtain ⟨ha1, ha2⟩ := List.getElem?_eq_some_iff.mp ha
  obtain ⟨hb1, hb2⟩ := List.getElem?_eq_some_iff.mp hb
  have := List.pairwise_iff_getElem.mp h.2 i (i + 1) ha1 hb1 (by omega)
  have ma := h.1 a (ha2 ▸ List.getElem_mem _)
  have mb := h.1 b (hb2 ▸ List.getElem_mem _)
  exact ⟨ma.1, mb.1, ma.2.1, by rw [← ha2, ← hb2]; exact this, mb.2.2⟩

theorem separated_iff (h : Nearest p q rnd) (hp : 0 < p) (hq : q ≤ -p) {planes : List (Rd rnd)} (hpl : Positions p q planes) :
    Separated planes ↔ ∀ r ∈ relatives (fun zp z => (z - zp) / (1 - zp)) planes, 0 < r ∧ r < 1 := by
  constructor
  · intro hs r hr
    rcases mem_relatives.mp hr with h0 | ⟨i, a, b, ha, hb, rfl⟩
    · exact (hpl.1 r (List.mem_of_getElem? h0)).2
    · obtain ⟨f1, f2, f3, f4, f5⟩ := hpl.step ha hb
      obtain ⟨g1, g2⟩ := h.rel_iff hp hq f1 f2 f3 f4 f5
      exact ⟨g1, g2.mpr (hs i a b ha hb)⟩
  · intro hr i a b ha hb
    obtain ⟨f1, f2, f3, f4, f5⟩ := hpl.step ha hb
    obtain ⟨-, g2⟩ := h.rel_iff hp hq f1 f2 f3 f4 f5
    exact g2.mp (hr _ (mem_relatives.mpr (.inr ⟨i, a, b, ha, hb, rfl⟩))).2

/-- C113. With rounding to nearest, splitting at strictly increasing positions between 0 and 1 returns exactly if no two consecutive positions
`a < b` are such that `b - a` and `1 - a` round to the same number. Otherwise it throws. -/
theorem C113_returns_iff (h : Nearest p q rnd) (hp : 0 < p) (hq : q ≤ -p) (s : Spline V) (ds : List ℕ) (hs : HasShape ds s) (d : ℕ)
    (hd : d < ds.length) (planes : List (Rd rnd)) (hpl : Positions p q planes) :
    (Separated planes → ∃ l, s.splitAtMany planes d = .ok l ∧ l.length = planes.length + 1 ∧ ∀ a ∈ l, HasShape ds a) ∧
    (¬ Separated planes → s.splitAtMany planes d = .error .throws) := by
  have e : s.splitAtMany planes d = cutChain (fun a z => a.splitAt z d) s (relatives (fun zp z => (z - zp) / (1 - zp)) planes) := by
    show s.splitAtManyVia (fun zp z => (z - zp) / (1 - zp)) planes d = _
    rw [C113_chain, if_pos hpl.sorted]
  rw [e, separated_iff h hp hq hpl]
  constructor
  · intro hr
    have := cutChain_returns (fun a z => split_ok hd a z) hs hr
    rwa [relatives_length] at this
  · exact cutChain_throws (fun a z => split_ok hd a z) (fun a z _ => Spline.splitAt_throws) hs

/-- C113. The same for rational splines. -/
theorem C113_rational_returns_iff (h : Nearest p q rnd) (hp : 0 < p) (hq : q ≤ -p) (r : RSpline (Rd rnd) V) (ds : List ℕ) (hs : HasRShape ds r)
    (d : ℕ) (hd : d < ds.length) (planes : List (Rd rnd)) (hpl : Positions p q planes) :
    (Separated planes → ∃ l, r.splitAtMany planes d = .ok l ∧ l.length = planes.length + 1 ∧ ∀ a ∈ l, HasRShape ds a) ∧
    (¬ Separated planes → r.splitAtMany planes d = .error .throws) := by
  have e : r.splitAtMany planes d = cutChain (fun a z => a.splitAt z d) r (relatives (fun zp z => (z - zp) / (1 - zp)) planes) := by
    show r.splitAtManyVia (fun zp z => (z - zp) / (1 - zp)) planes d = _
    rw [C113_rational_chain, if_pos hpl.sorted]
  rw [e, separated_iff h hp hq hpl]
  constructor
  · intro hr
    have := cutChain_returns (fun a z => rsplit_ok hd a z) hs hr
    rwa [relatives_length] at this
  · exact cutChain_throws (fun a z => rsplit_ok hd a z) (fun a z _ hz => RSpline.splitAt_throws hz) hs

/-- C113 (partial). Splitting at strictly increasing positions between 0 and 1 returns one more part than there are positions, if each position is at most
`1 - 2^(1-p)` or follows on one of at least one half. Missing: the largest number below 1 as a position after one that is smaller than
one half, where it may throw, see below. -/
theorem C113_returns_partial (h : Nearest p q rnd) (hp : 0 < p) (hq : q ≤ -p) (s : Spline V) (r : RSpline (Rd rnd) V) (ds : List ℕ)
    (hs : HasShape ds s) (hr : HasRShape ds r) (d : ℕ) (hd : d < ds.length) (planes : List (Rd rnd)) (hpl : Positions p q planes)
    (hfar : ∀ (i : ℕ) (a b : Rd rnd), planes[i]? = some a → planes[i + 1]? = some b → b.val ≤ 1 - 2 ^ (1 - (p : ℤ)) ∨ 1 / 2 ≤ a.val) :
    (∃ l, s.splitAtMany planes d = .ok l ∧ l.length = planes.length + 1 ∧ ∀ a ∈ l, HasShape ds a) ∧
    (∃ l, r.splitAtMany planes d = .ok l ∧ l.length = planes.length + 1 ∧ ∀ a ∈ l, HasRShape ds a) := by
  have hsep : Separated planes := by
    intro i a b ha hb
    obtain ⟨f1, f2, f3, f4, f5⟩ := hpl.step ha hb
    exact h.diff_lt hp hq f1 f2 f3 f4 f5 (hfar i a b ha hb)
  exact ⟨(C113_returns_iff h hp hq s ds hs d hd planes hpl).1 hsep, (C113_rational_returns_iff h hp hq r ds hr d hd planes hpl).1 hsep⟩

/-- the positions `3·2^-(p+1)` and `1 - 2^-p` (for `double`, about `1.7e-16` and `1 - 1.1e-16`) -/
noncomputable def badPlanes (p : ℕ) (rnd : ℝ → ℝ) : List (Rd rnd) := [⟨3 * 2 ^ (-(p : ℤ) - 1)⟩, ⟨1 - 2 ^ (-(p : ℤ))⟩]

theorem badPlanes_positions (hp : 3 ≤ p) (hq : q ≤ -p - 1) : Positions p q (badPlanes p rnd) := by
  have hg : (0 : ℝ) < 2 ^ (-(p : ℤ)) := by positivity
  have hg8 : (2 : ℝ) ^ (-(p : ℤ)) ≤ 1 / 8 := by
    have := zpow_le_zpow_right₀ (by norm_num : (1 : ℝ) ≤ 2) (show -(p : ℤ) ≤ -3 by omega)
    refine this.trans ?_; norm_num
  have h2 : (2 : ℝ) ^ (-(p : ℤ) - 1) = 2 ^ (-(p : ℤ)) / 2 := by rw [zpow_sub₀ two_ne_zero, zpow_one]
  have hinv : (2 : ℝ) ^ p * 2 ^ (-(p : ℤ)) = 1 := by rw [← zpow_natCast, ← zpow_add₀ two_ne_zero]; simp
  have hbig : (8 : ℤ) ≤ 2 ^ p := by
    calc (8 : ℤ) = 2 ^ 3 := by norm_num
      _ ≤ 2 ^ p := pow_le_pow_right₀ (by norm_num) hp
  have f1 : IsFloat p q (3 * 2 ^ (-(p : ℤ) - 1)) := by
    have := IsFloat.mk_le (p := p) (q := q) (m := 3) (e := -(p : ℤ) - 1) (by omega) (by norm_num; omega) (by omega)
    simpa using this
  have f2 : IsFloat p q (1 - 2 ^ (-(p : ℤ))) := by
    have e : (1 : ℝ) - 2 ^ (-(p : ℤ)) = ((2 ^ p - 1 : ℤ) : ℝ) * 2 ^ (-(p : ℤ)) := by push_cast; rw [sub_mul, hinv, one_mul]
    rw [e]
    exact IsFloat.mk_le (by omega) (by rw [abs_of_nonneg (by omega)]; omega) (by omega)
  constructor
  · intro z hz
    simp only [badPlanes, List.mem_cons, List.not_mem_nil, or_false] at hz
    rcases hz with rfl | rfl
    · exact ⟨f1, by positivity, by show 3 * (2 : ℝ) ^ (-(p : ℤ) - 1) < 1; rw [h2]; linarith⟩
    · exact ⟨f2, by show (0 : ℝ) < 1 - 2 ^ (-(p : ℤ)); linarith, by show (1 : ℝ) - 2 ^ (-(p : ℤ)) < 1; linarith⟩
  · simp only [badPlanes, List.pairwise_cons, List.mem_singleton, forall_eq, List.not_mem_nil, false_imp_iff, implies_true, and_true,
      List.Pairwise.nil]
    rw [h2]; linarith

/-- C113: in the default rounding mode of IEEE 754 splitting at two strictly increasing positions between 0 and 1 throws, for every consistent spline. -/
theorem C113_fails (h : TiesToEven p q rnd) (hp : 3 ≤ p) (hq : q ≤ -p - 1) (s : Spline V) (r : RSpline (Rd rnd) V) (ds : List ℕ)
    (hs : HasShape ds s) (hr : HasRShape ds r) (d : ℕ) (hd : d < ds.length) :
    Positions p q (badPlanes p rnd) ∧ s.splitAtMany (badPlanes p rnd) d = .error .throws ∧
      r.splitAtMany (badPlanes p rnd) d = .error .throws := by
  have hpl := badPlanes_positions (rnd := rnd) hp hq
  have hsep : ¬ Separated (badPlanes p rnd) := fun hsep => by
    have := hsep 0 _ _ rfl rfl
    simp only at this
    rw [h.same hp (by omega)] at this
    exact lt_irrefl _ this
  exact ⟨hpl, (C113_returns_iff h.toNearest (by omega) (by omega) s ds hs d hd _ hpl).2 hsep,
    (C113_rational_returns_iff h.toNearest (by omega) (by omega) r ds hr d hd _ hpl).2 hsep⟩

/-- C113. With a narrow scalar type (`float`, `p = 24`) whose relative positions are computed with a wide one (`double`, `P = 53`), that is with
the difference of two positions in the narrow type, the difference from `1.` and the quotient in the wide type, and the result converted
to the narrow type: splitting at strictly increasing positions between 0 and 1 always returns. -/
theorem C113_narrow {P : ℕ} {q' : ℤ} {rnd' : ℝ → ℝ} (h : Nearest p q rnd) (h' : Nearest P q' rnd') (hp : 0 < p) (hpP : 2 * p + 3 ≤ P)
    (hq : q ≤ -p) (hqq : q' ≤ q) (hq' : q' ≤ -P) (s : Spline V) (r : RSpline (Rd rnd) V) (ds : List ℕ) (hs : HasShape ds s)
    (hr : HasRShape ds r) (d : ℕ) (hd : d < ds.length) (planes : List (Rd rnd)) (hpl : Positions p q planes) :
    (∃ l, s.splitAtManyVia (fun zp z => ⟨rnd (rnd' ((z - zp).val / rnd' (1 - zp.val)))⟩) planes d = .ok l ∧
      l.length = planes.length + 1 ∧ ∀ a ∈ l, HasShape ds a) ∧
    (∃ l, r.splitAtManyVia (fun zp z => ⟨rnd (rnd' ((z - zp).val / rnd' (1 - zp.val)))⟩) planes d = .ok l ∧
      l.length = planes.length + 1 ∧ ∀ a ∈ l, HasRShape ds a) := by
  have key : ∀ x ∈ relatives (fun zp z : Rd rnd => ⟨rnd (rnd' ((z - zp).val / rnd' (1 - zp.val)))⟩) planes, 0 < x ∧ x < 1 := by
    intro x hx
    rcases mem_relatives.mp hx with h0 | ⟨i, a, b, ha, hb, rfl⟩
    · exact (hpl.1 x (List.mem_of_getElem? h0)).2
    · obtain ⟨f1, f2, f3, f4, f5⟩ := hpl.step ha hb
      exact rel_narrow h h' hp hpP hq hqq hq' f1 f2 f3 f4 f5
  rw [C113_chain, C113_rational_chain, if_pos hpl.sorted, if_pos hpl.sorted]
  have a1 := cutChain_returns (fun a z => split_ok hd a z) hs key
  have a2 := cutChain_returns (fun a z => rsplit_ok hd a z) hr key
  rw [relatives_length] at a1 a2
  exact ⟨a1, a2⟩

/-- C113: with a scalar type wider than `double` (64 digits) the relative position is converted to `double`, and splitting at the positions
`1/4` and `1 - 2^-60` throws. -/
theorem C113_wide_fails {q' : ℤ} {conv : ℝ → ℝ} (h : Nearest 64 q rnd) (h' : Nearest 53 q' conv) (hq : q ≤ -64) (hq' : q' ≤ -53) (s : Spline V)
    (r : RSpline (Rd rnd) V) (ds : List ℕ) (hs : HasShape ds s) (hr : HasRShape ds r) (d : ℕ) (hd : d < ds.length) :
    Positions 64 q [(⟨1 / 4⟩ : Rd rnd), ⟨1 - 2 ^ (-60 : ℤ)⟩] ∧
    s.splitAtManyVia (fun zp z : Rd rnd => ⟨conv ((z - zp) / (1 - zp)).val⟩) [⟨1 / 4⟩, ⟨1 - 2 ^ (-60 : ℤ)⟩] d = .error .throws ∧
    r.splitAtManyVia (fun zp z : Rd rnd => ⟨conv ((z - zp) / (1 - zp)).val⟩) [⟨1 / 4⟩, ⟨1 - 2 ^ (-60 : ℤ)⟩] d = .error .throws := by
  have f1 : IsFloat 64 q (1 / 4) := ⟨1, -2, by norm_num, by omega, by norm_num⟩
  have f2 : IsFloat 64 q (1 - 2 ^ (-60 : ℤ)) := ⟨2 ^ 60 - 1, -60, by norm_num, by omega, by norm_num⟩
  have f3 : IsFloat 64 q (1 - 2 ^ (-60 : ℤ) - 1 / 4) := ⟨3 * 2 ^ 58 - 1, -60, by norm_num, by omega, by norm_num⟩
  have f4 : IsFloat 64 q (1 - 1 / 4) := ⟨3, -2, by norm_num, by omega, by norm_num⟩
  have f5 : IsFloat 64 q (1 - 2 ^ (-56 : ℤ)) := ⟨2 ^ 56 - 1, -56, by norm_num, by omega, by norm_num⟩
  have f6 : IsFloat 64 q 1 := ⟨1, 0, by norm_num, by omega, by norm_num⟩
  have hpl : Positions 64 q [(⟨1 / 4⟩ : Rd rnd), ⟨1 - 2 ^ (-60 : ℤ)⟩] := by
    constructor
    · intro z hz
      simp only [List.mem_cons, List.not_mem_nil, or_false] at hz
      rcases hz with rfl | rfl
      · exact ⟨f1, by norm_num, by norm_num⟩
      · exact ⟨f2, by norm_num, by norm_num⟩
    · simp only [List.pairwise_cons, List.mem_singleton, forall_eq, List.not_mem_nil, false_imp_iff, implies_true, and_true, List.Pairwise.nil]
      norm_num
  have e : conv (((⟨1 - 2 ^ (-60 : ℤ)⟩ : Rd rnd) - ⟨1 / 4⟩) / (1 - ⟨1 / 4⟩)).val = 1 := by
    show conv (rnd (rnd (1 - 2 ^ (-60 : ℤ) - 1 / 4) / rnd (1 - 1 / 4))) = 1
    rw [h.exact f3, h.exact f4]
    have g1 := h.mono (show (1 : ℝ) - 2 ^ (-56 : ℤ) ≤ (1 - 2 ^ (-60 : ℤ) - 1 / 4) / (1 - 1 / 4) by norm_num)
    have g2 := h.mono (show (1 - 2 ^ (-60 : ℤ) - 1 / 4) / (1 - 1 / 4) ≤ (1 : ℝ) by norm_num)
    rw [h.exact f5] at g1
    rw [h.exact f6] at g2
    refine (Nearest.below_one h' (by norm_num) hq').1 (lt_of_lt_of_le ?_ g1) g2
    norm_num
  have hbad : ¬ ∀ x ∈ relatives (fun zp z : Rd rnd => ⟨conv ((z - zp) / (1 - zp)).val⟩) [⟨1 / 4⟩, ⟨1 - 2 ^ (-60 : ℤ)⟩], 0 < x ∧ x < 1 := by
    intro hall
    have := (hall _ (mem_relatives.mpr (.inr ⟨0, _, _, rfl, rfl, rfl⟩))).2
    have : conv (((⟨1 - 2 ^ (-60 : ℤ)⟩ : Rd rnd) - ⟨1 / 4⟩) / (1 - ⟨1 / 4⟩)).val < 1 := this
    rw [e] at this
    exact lt_irrefl _ this
  refine ⟨hpl, ?_, ?_⟩
  · rw [C113_chain, if_pos hpl.sorted]
    exact cutChain_throws (fun a z => split_ok hd a z) (fun a z _ => Spline.splitAt_throws) hs hbad
  · rw [C113_rational_chain, if_pos hpl.sorted]
    exact cutChain_throws (fun a z => rsplit_ok hd a z) (fun a z _ hz => RSpline.splitAt_throws hz) hr hbad

end nearest

/-! ### Where the cuts are -/

section error
variable {A : FloatArith}

theorem chain_of_ok {ds : List ℕ} {d : ℕ} (hd : d < ds.length) {V : Type} [Zero V] [Add V] [Sub V] [Neg V] [SMul (Fl A) V] (s : Spline V) (hs : HasShape ds s)
    (planes : List (Fl A)) {l : List (Spline V)} (hl : s.splitAtMany planes d = .ok l) :
    (∀ r ∈ relatives (fun zp z : Fl A => (z - zp) / (1 - zp)) planes, 0 < r ∧ r < 1) ∧
      cutChain (fun a z => a.splitAt z d) s (relatives (fun zp z : Fl A => (z - zp) / (1 - zp)) planes) = .ok l := by
  have e : s.splitAtMany planes d = s.splitAtManyVia (fun zp z => (z - zp) / (1 - zp)) planes d := rfl
  rw [e, C113_chain] at hl
  split at hl
  · refine ⟨?_, hl⟩
    by_contra hn
    rw [cutChain_throws (fun a z => split_ok hd a z) (fun a z _ => Spline.splitAt_throws) hs hn] at hl
    cases hl
  · cases hl

theorem cuts_near (hη : A.η = 0) (hu : A.u < 1) {planes : List (Fl A)} (h01 : ∀ z ∈ planes, 0 < z.val ∧ z.val < 1)
    (hinc : planes.Pairwise (fun a b => a.val < b.val))
    (hrs : ∀ r ∈ relatives (fun zp z : Fl A => (z - zp) / (1 - zp)) planes, 0 < r ∧ r < 1) :
    ∀ (i : ℕ) c z, (cutsFrom 0 ((relatives (fun zp z : Fl A => (z - zp) / (1 - zp)) planes).map Fl.val))[i]? = some c → planes[i]? = some z →
      |c - z.val| ≤ ((1 + A.u) ^ 2 / (1 - A.u) - 1) * z.val := by
  have hu0 := A.u_nonneg
  have hγ : 0 ≤ (1 + A.u) ^ 2 / (1 - A.u) - 1 := by
    rw [sub_nonneg, le_div_iff₀ (by linarith)]; nlinarith
  obtain _ | ⟨z0, zs⟩ := planes
  · intro i c z _ h; simp at h
  intro i c z hc hz
  simp only [relatives, List.map_cons, cutsFrom, sub_zero, one_mul, zero_add] at hc
  cases i with
  | zero =>
    simp at hc hz; subst hc; subst hz
    rw [sub_self, abs_zero]
    exact mul_nonneg hγ (h01 z0 (by simp)).1.le
  | succ i =>
    have rlen : ((relativesFrom (fun zp z : Fl A => (z - zp) / (1 - zp)) z0 zs).map Fl.val).length = (zs.map Fl.val).length := by
      simp [relativesFrom_length]
    have := cutsFrom_near (γ := (1 + A.u) ^ 2 / (1 - A.u) - 1) (η := 0) hγ le_rfl (zs := zs.map Fl.val)
      (rs := (relativesFrom (fun zp z : Fl A => (z - zp) / (1 - zp)) z0 zs).map Fl.val) (zp := z0.val) (c := z0.val) (e := 0)
      (by rw [sub_self, abs_zero, add_zero]; exact mul_nonneg hγ (h01 z0 (by simp)).1.le) (h01 z0 (by simp)).1.le (h01 z0 (by simp)).2
      (by rw [← List.map_cons (f := Fl.val), List.pairwise_map]; exact hinc)
      (by intro x hx; obtain ⟨y, hy, rfl⟩ := List.mem_map.mp hx; exact (h01 y (by simp [hy])).2)
      (by
        intro r hr; obtain ⟨x, hx, rfl⟩ := List.mem_map.mp hr
        exact hrs x (by simp [relatives, hx]))
      rlen
      (by
        intro j a b r ha hb hr
        rw [← List.map_cons (f := Fl.val), List.getElem?_map, Option.map_eq_some_iff] at ha hb
        rw [List.getElem?_map, Option.map_eq_some_iff] at hr
        obtain ⟨a', ha', rfl⟩ := ha
        obtain ⟨b', hb', rfl⟩ := hb
        obtain ⟨r', hr', rfl⟩ := hr
        have hlt : a'.val < b'.val := by
          obtain ⟨x1, x2⟩ := List.getElem?_eq_some_iff.mp ha'
          obtain ⟨y1, y2⟩ := List.getElem?_eq_some_iff.mp hb'
          rw [← x2, ← y2]
          exact List.pairwise_iff_getElem.mp hinc j (j + 1) x1 y1 (by omega)
        rw [getElem?_relativesFrom ha' hb'] at hr'
        cases hr'
        have := rel_err hη hu hlt (h01 b' (List.mem_of_getElem? hb')).2
        simpa using this)
      i c z.val (by simpa using hc) (by rw [List.getElem?_map]; simp at hz; rw [hz]; rfl)
    simpa using this

/-- C113. In floating-point arithmetic (without underflow), whenever splitting a scalar spline at strictly increasing positions between 0 and 1 returns:
each part approximates, with `3p` roundings for each cut made so far, the exact part of the spline between two cuts; and each cut is
where it should be up to the relative error of three roundings, no matter how many cuts were made before it. -/
theorem C113_error (hη : A.η = 0) (hu : A.u < 1) (s : Spline (Fl A)) (ds : List ℕ) (hs : HasShape ds s) (M : ℝ)
    (hM : ∀ x ∈ s.cps, |x.val| ≤ M) (f : List ℝ → ℝ) (hf : (s.map Fl.val).Computes ds f) (d p : ℕ) (hd : ds[d]? = some p)
    (planes : List (Fl A)) (h01 : ∀ z ∈ planes, 0 < z.val ∧ z.val < 1) (hinc : planes.Pairwise (fun a b => a.val < b.val))
    (l : List (Spline (Fl A))) (hl : s.splitAtMany planes d = .ok l) :
    ∃ (cs : List ℝ) (l' : List (Spline ℝ)), cs.length = planes.length ∧ l.length = planes.length + 1 ∧ l'.length = planes.length + 1 ∧
      (0 :: cs ++ [1]).Pairwise (· < ·) ∧
      (∀ (i : ℕ) c z, cs[i]? = some c → planes[i]? = some z → |c - z.val| ≤ ((1 + A.u) ^ 2 / (1 - A.u) - 1) * z.val) ∧
      (∀ (i : ℕ) a' lo hi, l'[i]? = some a' → (0 :: cs ++ [1])[i]? = some lo → (0 :: cs ++ [1])[i + 1]? = some hi →
        a'.Computes ds (fun t => f (t.modify d (fun x => lo + (hi - lo) * x)))) ∧
      ∀ (i : ℕ) a a', l[i]? = some a → l'[i]? = some a' → a.Approx ds (3 * p * min (i + 1) planes.length) M a' := by
  have hd' : d < ds.length := (List.getElem?_eq_some_iff.mp hd).1
  obtain ⟨hrs, e⟩ := chain_of_ok hd' s hs planes hl
  set rs := relatives (fun zp z : Fl A => (z - zp) / (1 - zp)) planes with hrsdef
  obtain ⟨m, m', g1, g2, g3, g4, g5⟩ := cutChain_related (split := fun (a : Spline (Fl A)) z => a.splitAt z d)
    (split' := fun (a : Spline ℝ) z => a.splitAt z d) (v := Fl.val) (m := 3 * p) (R := fun k a a' => a.Approx ds k M a')
    (Q := fun z => 0 < z ∧ z < 1)
    (fun k a a' z ha hz => C87_split hη a a' ds k M ha d p hd z hz.1 hz.2) (leaf_approx hs hM) hrs
  rw [e] at g1; cases g1
  have hrs' : ∀ r ∈ rs.map Fl.val, 0 < r ∧ r < 1 := by
    intro r hr; obtain ⟨x, hx, rfl⟩ := List.mem_map.mp hr; exact hrs x hx
  obtain ⟨hc, m'', k1, k2, k3⟩ := C113_exact (s.map Fl.val) ds f hf d hd' (rs.map Fl.val) hrs'
  rw [g2] at k1; cases k1
  have hlen : rs.length = planes.length := relatives_length _ _
  refine ⟨cutsFrom 0 (rs.map Fl.val), m', by rw [cutsFrom_length, List.length_map, hlen], by rw [g3, hlen], by rw [g4, hlen], hc, ?_, k3,
    fun i a a' x y => ?_⟩
  · exact cuts_near hη hu h01 hinc hrs
  · have := g5 i a a' x y
    rwa [zero_add, hlen] at this

/-- C113. The same for splines of points. -/
theorem C113_error_points {n : ℕ} (hη : A.η = 0) (hu : A.u < 1) (s : Spline (Point (Fl A) n)) (ds : List ℕ) (hs : HasShape ds s)
    (M : Fin n → ℝ) (hM : ∀ x ∈ s.cps, ∀ c, |(x.val c).val| ≤ M c) (f : List ℝ → Point ℝ n)
    (hf : (s.map (Point.map Fl.val)).Computes ds f) (d p : ℕ) (hd : ds[d]? = some p)
    (planes : List (Fl A)) (h01 : ∀ z ∈ planes, 0 < z.val ∧ z.val < 1) (hinc : planes.Pairwise (fun a b => a.val < b.val))
    (l : List (Spline (Point (Fl A) n))) (hl : s.splitAtMany planes d = .ok l) :
    ∃ (cs : List ℝ) (l' : List (Spline (Point ℝ n))), cs.length = planes.length ∧ l.length = planes.length + 1 ∧ l'.length = planes.length + 1 ∧
      (0 :: cs ++ [1]).Pairwise (· < ·) ∧
      (∀ (i : ℕ) c z, cs[i]? = some c → planes[i]? = some z → |c - z.val| ≤ ((1 + A.u) ^ 2 / (1 - A.u) - 1) * z.val) ∧
      (∀ (i : ℕ) a' lo hi, l'[i]? = some a' → (0 :: cs ++ [1])[i]? = some lo → (0 :: cs ++ [1])[i + 1]? = some hi →
        a'.Computes ds (fun t => f (t.modify d (fun x => lo + (hi - lo) * x)))) ∧
      ∀ (i : ℕ) a a', l[i]? = some a → l'[i]? = some a' → a.ApproxPoints ds (3 * p * min (i + 1) planes.length) M a' := by
  have hd' : d < ds.length := (List.getElem?_eq_some_iff.mp hd).1
  obtain ⟨hrs, e⟩ := chain_of_ok hd' s hs planes hl
  set rs := relatives (fun zp z : Fl A => (z - zp) / (1 - zp)) planes with hrsdef
  obtain ⟨m, m', g1, g2, g3, g4, g5⟩ := cutChain_related (split := fun (a : Spline (Point (Fl A) n)) z => a.splitAt z d)
    (split' := fun (a : Spline (Point ℝ n)) z => a.splitAt z d) (v := Fl.val) (m := 3 * p) (R := fun k a a' => a.ApproxPoints ds k M a')
    (Q := fun z => 0 < z ∧ z < 1)
    (fun k a a' z ha hz => C87_split_points hη a a' ds k M ha d p hd z hz.1 hz.2) (leaf_approx_points hs hM) hrs
  rw [e] at g1; cases g1
  have hrs' : ∀ r ∈ rs.map Fl.val, 0 < r ∧ r < 1 := by
    intro r hr; obtain ⟨x, hx, rfl⟩ := List.mem_map.mp hr; exact hrs x hx
  obtain ⟨hc, m'', k1, k2, k3⟩ := C113_exact (s.map (Point.map Fl.val)) ds f hf d hd' (rs.map Fl.val) hrs'
  rw [g2] at k1; cases k1
  have hlen : rs.length = planes.length := relatives_length _ _
  refine ⟨cutsFrom 0 (rs.map Fl.val), m', by rw [cutsFrom_length, List.length_map, hlen], by rw [g3, hlen], by rw [g4, hlen], hc, ?_, k3,
    fun i a a' x y => ?_⟩
  · exact cuts_near hη hu h01 hinc hrs
  · have := g5 i a a' x y
    rwa [zero_add, hlen] at this

end error

/-! ### C113: concrete cases -/

theorem quarters_positions (rnd : ℝ → ℝ) {p : ℕ} {q : ℤ} (hp : 2 ≤ p) (hq : q ≤ -2) :
    Positions p q [(⟨1 / 4⟩ : Rd rnd), ⟨1 / 2⟩, ⟨3 / 4⟩] := by
  have h4 : (4 : ℤ) ≤ 2 ^ p := by
    calc (4 : ℤ) = 2 ^ 2 := by norm_num
      _ ≤ 2 ^ p := pow_le_pow_right₀ (by norm_num) hp
  constructor
  · intro z hz
    simp only [List.mem_cons, List.not_mem_nil, or_false] at hz
    rcases hz with rfl | rfl | rfl
    · exact ⟨⟨1, -2, by norm_num; omega, hq, by norm_num⟩, by norm_num, by norm_num⟩
    · exact ⟨⟨2, -2, by norm_num; omega, hq, by norm_num⟩, by norm_num, by norm_num⟩
    · exact ⟨⟨3, -2, by norm_num; omega, hq, by norm_num⟩, by norm_num, by norm_num⟩
  · simp only [List.pairwise_cons, List.mem_cons, List.not_mem_nil, or_false, forall_eq_or_imp, forall_eq, false_imp_iff, implies_true,
      and_true, List.Pairwise.nil]
    norm_num

section
variable (a b c e f g : Point (Rd (rndEven 53 (-1074))) 2) (w : Fin 6 → Rd (rndEven 53 (-1074)))

/-- `double`: quarters -/
example : ∃ l, (Ex.surf a b c e f g).splitAtMany [(⟨1 / 4⟩ : Rd (rndEven 53 (-1074))), ⟨1 / 2⟩, ⟨3 / 4⟩] 1 = .ok l ∧ l.length = 4 := by
  obtain ⟨⟨l, h1, h2, -⟩, -⟩ := C113_returns_partial (rndEven_ties (by norm_num) (-1074)).toNearest (by norm_num) (by norm_num)
    (Ex.surf a b c e f g) ⟨Ex.surf a b c e f g, Ex.surf (w 0) (w 1) (w 2) (w 3) (w 4) (w 5)⟩ [2, 1] ⟨Ex.surf_wf .., rfl⟩
    ⟨⟨Ex.surf_wf .., rfl⟩, Ex.surf_wf .., rfl⟩ 1 (by decide) _ (quarters_positions _ (by norm_num) (by norm_num)) (by
      intro i x y hx hy
      have hy' := List.mem_of_getElem? hy
      simp only [List.mem_cons, List.not_mem_nil, or_false] at hy'
      left
      rcases hy' with rfl | rfl | rfl <;> norm_num)
  exact ⟨l, h1, h2⟩

/-- `double`, default rounding mode: two positions at which no surface can be split -/
example : (Ex.surf a b c e f g).splitAtMany (badPlanes 53 (rndEven 53 (-1074))) 1 = .error .throws ∧
    RSpline.splitAtMany ⟨Ex.surf a b c e f g, Ex.surf (w 0) (w 1) (w 2) (w 3) (w 4) (w 5)⟩ (badPlanes 53 (rndEven 53 (-1074))) 1 = .error .throws :=
  (C113_fails (rndEven_ties (by norm_num) (-1074)) (by norm_num) (by norm_num) (Ex.surf a b c e f g)
    ⟨Ex.surf a b c e f g, Ex.surf (w 0) (w 1) (w 2) (w 3) (w 4) (w 5)⟩ [2, 1] ⟨Ex.surf_wf .., rfl⟩
    ⟨⟨Ex.surf_wf .., rfl⟩, Ex.surf_wf .., rfl⟩ 1 (by decide)).2
end

/-- `float`: the two positions of `C113_fails` are no problem -/
example (a b c e f g : Rd (rndEven 24 (-149))) : ∃ l, (Ex.surf a b c e f g).splitAtManyVia
    (fun zp z => ⟨rndEven 24 (-149) (rndEven 53 (-1074) ((z - zp).val / rndEven 53 (-1074) (1 - zp.val)))⟩) (badPlanes 24 (rndEven 24 (-149))) 1 = .ok l ∧
    l.length = 3 := by
  obtain ⟨⟨l, h1, h2, -⟩, -⟩ := C113_narrow (rndEven_ties (p := 24) (by norm_num) (-149)).toNearest
    (rndEven_ties (p := 53) (by norm_num) (-1074)).toNearest (by norm_num) (by norm_num) (by norm_num) (by norm_num) (by norm_num)
    (Ex.surf a b c e f g) ⟨Ex.surf a b c e f g, Ex.surf a b c e f g⟩ [2, 1] ⟨Ex.surf_wf .., rfl⟩
    ⟨⟨Ex.surf_wf .., rfl⟩, Ex.surf_wf .., rfl⟩ 1 (by decide) (badPlanes 24 (rndEven 24 (-149))) (badPlanes_positions (by norm_num) (by norm_num))
  exact ⟨l, h1, h2⟩

/-- `long double`: they exist -/
example (a b c e f g : Rd (rndEven 64 (-16445))) : (Ex.surf a b c e f g).splitAtManyVia
    (fun zp z : Rd (rndEven 64 (-16445)) => ⟨rndEven 53 (-1074) ((z - zp) / (1 - zp)).val⟩) [⟨1 / 4⟩, ⟨1 - 2 ^ (-60 : ℤ)⟩] 1 = .error .throws :=
  (C113_wide_fails (rndEven_ties (p := 64) (by norm_num) (-16445)).toNearest (rndEven_ties (p := 53) (by norm_num) (-1074)).toNearest (by norm_num)
    (by norm_num) (Ex.surf a b c e f g) ⟨Ex.surf a b c e f g, Ex.surf a b c e f g⟩ [2, 1] ⟨Ex.surf_wf .., rfl⟩
    ⟨⟨Ex.surf_wf .., rfl⟩, Ex.surf_wf .., rfl⟩ 1 (by decide)).2.1

/-- a chain of three cuts in exact arithmetic: at one half of what is left over -/
example : cutsFrom 0 [(1 / 2 : ℚ), 1 / 2, 1 / 2] = [1 / 2, 3 / 4, 7 / 8] ∧
    ∃ l, cutChain (fun (a : Spline (Point ℚ 2)) z => a.splitAt z 0) Ex.P [(1 / 2 : ℚ), 1 / 2, 1 / 2] = .ok l ∧ l.length = 4 := by
  refine ⟨by decide +kernel, ?_⟩
  obtain ⟨-, l, h1, h2, -⟩ := C113_exact (K := ℚ) Ex.P _ _ Ex.P_wf.computes 0 (by decide) [1 / 2, 1 / 2, 1 / 2] (by simp; norm_num)
  exact ⟨l, h1, h2⟩

theorem wf_exFl : exFl.WF := Ex.surf_wf ..
theorem bound_exFl : ∀ x ∈ exFl.cps, |x.val| ≤ 5 := by
  simp only [exFl, Ex.surf, List.mem_cons, List.not_mem_nil, or_false]
  rintro x (rfl | rfl | rfl | rfl | rfl | rfl) <;> norm_num [abs_le]

/-- C113_error applies: splitting at 1/4 and 1/2 in arithmetic with 53 digits returns -/
theorem exFl_splitMany : ∃ l, exFl.splitAtMany [(⟨1 / 4⟩ : F64), ⟨1 / 2⟩] 0 = .ok l := by
  have hr : ∀ r ∈ relatives (fun zp z : F64 => (z - zp) / (1 - zp)) [⟨1 / 4⟩, ⟨1 / 2⟩], 0 < r ∧ r < 1 := by
    intro r hr
    simp only [relatives, relativesFrom, List.mem_cons, List.not_mem_nil, or_false] at hr
    rcases hr with rfl | rfl
    · exact ⟨show (0 : ℝ) < 1 / 4 by norm_num, show (1 / 4 : ℝ) < 1 by norm_num⟩
    · have := rel_err (A := FloatArith.binary 53) (zp := ⟨1 / 4⟩) (z := ⟨1 / 2⟩) rfl (by norm_num [FloatArith.binary]) (by norm_num) (by norm_num)
      rw [abs_le] at this
      norm_num [FloatArith.binary] at this
      exact ⟨show (0 : ℝ) < _ by linarith, show _ < (1 : ℝ) by linarith⟩
  obtain ⟨l, h1, -⟩ := cutChain_returns (fun a z => split_ok (V := F64) (ds := [2, 1]) (d := 0) (by decide) a z) ⟨wf_exFl, rfl⟩ hr
  refine ⟨l, ?_⟩
  show exFl.splitAtManyVia (fun zp z => (z - zp) / (1 - zp)) [(⟨1 / 4⟩ : F64), ⟨1 / 2⟩] 0 = .ok l
  rw [C113_chain, if_pos (isSorted_of_pairwise (by
    simp only [List.pairwise_cons, List.mem_singleton, forall_eq, List.not_mem_nil, false_imp_iff, implies_true, and_true, List.Pairwise.nil]
    exact fun h => absurd (show (1 / 2 : ℝ) < 1 / 4 from h) (by norm_num)))]
  exact h1

example : ∃ (l : List (Spline F64)) (cs : List ℝ), exFl.splitAtMany [(⟨1 / 4⟩ : F64), ⟨1 / 2⟩] 0 = .ok l ∧ l.length = 3 ∧ cs.length = 2 ∧
    ∀ (i : ℕ) c z, cs[i]? = some c → [(⟨1 / 4⟩ : F64), ⟨1 / 2⟩][i]? = some z → |c - z.val| ≤ 4 * 2 ^ (-53 : ℤ) * z.val := by
  obtain ⟨l, hl⟩ := exFl_splitMany
  obtain ⟨cs, l', h1, h2, h3, h4, h5, -⟩ := C113_error (A := FloatArith.binary 53) rfl (by norm_num [FloatArith.binary]) exFl [2, 1] ⟨wf_exFl, rfl⟩ 5
    bound_exFl _ (Spline.WF.computes (K := ℝ) (wf_exFl.map _)) 0 2 rfl [⟨1 / 4⟩, ⟨1 / 2⟩]
    (by simp; norm_num) (by simp; norm_num) l hl
  refine ⟨l, cs, hl, h2, h1, fun i c z hc hz => (h5 i c z hc hz).trans ?_⟩
  have hz0 : 0 < z.val := by
    have := List.mem_of_getElem? hz
    simp only [List.mem_cons, List.not_mem_nil, or_false] at this
    rcases this with rfl | rfl <;> norm_num
  refine mul_le_mul_of_nonneg_right ?_ hz0.le
  norm_num [FloatArith.binary]

end Bezman.Props
