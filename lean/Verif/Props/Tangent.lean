import Verif.Props.Smooth
import Verif.Props.Formulas

/-! # Properties: tangents at the corners (C112) -/

namespace Bezman.Props
open Spec Finset Topology
variable {V : Type} [NormedAddCommGroup V] [NormedSpace ℝ V]

omit [NormedSpace ℝ V] in
theorem derivNet_single [Module ℝ V] (ps : List ℕ) (P : List ℕ → V) (n d : ℕ) (hd : d < n) : ∀ (k : ℕ) (idx : List ℕ),
    derivNet ℝ ps ((List.replicate n 0).set d 1) P k idx =
      if d < k then (ps.getD d 0 : ℝ) • (P (idx.set d (idx.getD d 0 + 1)) - P (idx.set d (idx.getD d 0))) else P idx
  | 0, idx => by simp [derivNet]
  | k + 1, idx => by
    have hg : ((List.replicate n 0).set d 1).getD k 0 = if k = d then 1 else 0 := by
      rw [List.getD_eq_getElem?_getD, List.getElem?_set, List.length_replicate]
      by_cases h : d = k
      · subst h; simp [hd]
      · simp only [if_neg h, if_neg (Ne.symm h), List.getElem?_replicate]
        split <;> rfl
    rw [derivNet, hg]
    by_cases h : k = d
    · subst h
      simp only [if_true, one_ne_zero, if_false, derivNet_single ps P n k hd k, lt_irrefl, Nat.lt_succ_self]
      simp only [derivOf, signOf, fallingOf, differenceOf, repeatFrom, Nat.sub_self, Nat.choose_self]
      norm_num
      rw [smul_sub]; abel
    · rw [if_neg h, if_pos rfl, derivNet_single ps P n d hd k]
      have : (d < k) ↔ (d < k + 1) := by omega
      simp only [this]

theorem cornerIdx_set {ps : List ℕ} {c : List Bool} (hc : c.length = ps.length) {d p : ℕ} (hp : ps[d]? = some p) (q : ℕ) :
    (cornerIdx (ps.set d q) c).getD d 0 = (if c.getD d false then q else 0) ∧ ∀ m, (cornerIdx (ps.set d q) c).set d m = (cornerIdx ps c).set d m := by
  have hd := (List.getElem?_eq_some_iff.mp hp).1
  have hd' : d < c.length := by rw [hc]; exact hd
  constructor
  · rw [List.getD_eq_getElem?_getD, List.getElem?_zipWith, List.getElem?_set_self hd, List.getElem?_eq_getElem hd', List.getD_eq_getElem?_getD,
      List.getElem?_eq_getElem hd']
    simp
  · intro m
    apply List.ext_getElem?
    intro i
    rw [List.getElem?_set, List.getElem?_set]
    by_cases h : d = i
    · subst h
      simp [hc]
    · simp only [if_neg h]
      rw [List.getElem?_zipWith, List.getElem?_zipWith, List.getElem?_set_ne h]

theorem zipWith_sub_single {ps : List ℕ} {d p : ℕ} (hp : ps[d]? = some p) :
    List.zipWith (· - ·) ps ((List.replicate ps.length 0).set d 1) = ps.set d (p - 1) := by
  have hd := (List.getElem?_eq_some_iff.mp hp).1
  apply List.ext_getElem?
  intro i
  rw [List.getElem?_zipWith, List.getElem?_set, List.getElem?_set, List.length_replicate]
  by_cases h : d = i
  · subst h
    rw [hp]
    simp [hd]
  · simp only [if_neg h, List.getElem?_replicate]
    by_cases hi : i < ps.length
    · simp [hi]
    · simp [hi]

theorem beside_valid {ps : List ℕ} {c : List Bool} (hc : c.length = ps.length) {d p : ℕ} (hp : ps[d]? = some p) (hpos : 0 < p) :
    ValidIdx ps (besideIdx ps c d) := by
  refine Spline.validIdx_iff.mpr ⟨by simp [hc], fun i k q hk hq => ?_⟩
  have hd := (List.getElem?_eq_some_iff.mp hp).1
  have hv := Spline.validIdx_iff.mp (corner_valid hc)
  rw [List.getElem?_set] at hk
  by_cases h : d = i
  · subst h
    obtain rfl := Option.some.inj (hp.symm.trans hq)
    have hg : ps.getD d 0 = p := by rw [List.getD_eq_getElem?_getD, hp]; rfl
    have hl : d < (cornerIdx ps c).length := by simp [hc, hd]
    rw [if_pos rfl, if_pos hl, hg] at hk
    have := Option.some.inj hk
    rw [← this]
    split <;> omega
  · rw [if_neg h] at hk
    exact hv.2 i k q hk hq

/-- C112. The first derivative of `EvaluateDerivative` at a corner: the degree times the step from the corner to the neighbour control point. -/
theorem C112_corner (cfg : Cfg) (hmax : cfg.Ok) (s : Spline V) (hs : s.WF) (hdeg : ∀ p ∈ s.degrees, p < cfg.maxBinom)
    (hsize : size s.degrees < 2 ^ 64) (c : List Bool) (hc : c.length = s.dim) (d p : ℕ) (hp : s.degrees[d]? = some p) (hpos : 0 < p) :
    ∃ Q N, s.controlPoint (cornerIdx s.degrees c) = .ok Q ∧ s.controlPoint (besideIdx s.degrees c d) = .ok N ∧
      s.evaluateDerivative cfg (cornerAt c) ((List.replicate s.dim 0).set d 1) = .ok ((inward c d * p) • (N - Q)) := by
  have hd := (List.getElem?_eq_some_iff.mp hp).1
  have hc' : c.length = s.degrees.length := hc
  have hg : s.degrees.getD d 0 = p := by rw [List.getD_eq_getElem?_getD, hp]; rfl
  have hmax1 : 1 < cfg.maxBinom := lt_of_le_of_lt hpos (hdeg p (List.mem_of_getElem? hp))
  have hord : ∀ o ∈ (List.replicate s.dim 0).set d 1, o < cfg.maxBinom := by
    intro o ho
    rcases List.mem_or_eq_of_mem_set ho with h | h
    · obtain rfl := (List.mem_replicate.mp h).2; omega
    · omega
  have hle : ∀ (e o q : ℕ), ((List.replicate s.dim 0).set d 1)[e]? = some o → s.degrees[e]? = some q → o ≤ q := by
    intro e o q ho hq
    rw [List.getElem?_set] at ho
    by_cases h : d = e
    · subst h
      obtain rfl := Option.some.inj (hp.symm.trans hq)
      rw [if_pos rfl] at ho
      split at ho
      · rw [← Option.some.inj ho]; exact hpos
      · cases ho
    · rw [if_neg h, List.getElem?_replicate] at ho
      split at ho
      · rw [← Option.some.inj ho]; exact Nat.zero_le _
      · cases ho
  have hlen : ((List.replicate s.dim 0).set d 1).length = s.dim := by simp
  obtain ⟨r, e, hr, hP⟩ := C90_derivative (K := ℝ) cfg hmax s hs _ hlen hle hord hsize _ (hasPoints_cp hs)
  obtain ⟨r', e', cr⟩ := C13_derivative_spline cfg hmax s _ _ (hs.computes (K := ℝ)) _ hlen hle hord hsize
  obtain rfl := Except.ok.inj (e.symm.trans e')
  have hds : r.degrees = s.degrees.set d (p - 1) := by rw [hr.2]; exact zipWith_sub_single hp
  have hcr : c.length = r.dim := by show _ = r.degrees.length; rw [hds, List.length_set]; exact hc
  obtain ⟨x, h1, h2⟩ := C10_corners (K := ℝ) r cr.wf c hcr
  have hv := corner_valid (ps := r.degrees) hcr
  have h3 := hP _ hv
  rw [h3] at h2
  have h4 := cr.eval (cornerAt c) (by rw [List.length_zipWith, hlen, List.length_map]; show _ = min s.dim s.dim; rw [Nat.min_self]; exact hc)
  rw [h1] at h4
  have hQ := hasPoints_cp hs _ (corner_valid hc')
  have hN := hasPoints_cp hs _ (beside_valid hc' hp hpos)
  refine ⟨_, _, hQ, hN, ?_⟩
  rw [C14_evaluate_derivative cfg hmax s _ _ (hs.computes (K := ℝ)) hdeg _ hlen (cornerAt c) (by rw [List.length_map]; exact hc), ← Except.ok.inj h4,
    ← Except.ok.inj h2]
  congr 1
  rw [derivNet_single s.degrees _ s.dim d hd s.dim, if_pos (show d < s.dim from hd), hds, (cornerIdx_set hc' hp (p - 1)).1, (cornerIdx_set hc' hp (p - 1)).2,
    (cornerIdx_set hc' hp (p - 1)).2, hg]
  have hci : ∀ b, c.getD d false = b → (cornerIdx s.degrees c).set d (if b then p else 0) = cornerIdx s.degrees c := by
    rintro b rfl
    have := (cornerIdx_set hc' hp p).1
    have hsp : s.degrees.set d p = s.degrees := Spline.set_deg hp
    rw [hsp] at this
    rw [← this]
    apply List.ext_getElem?
    intro i
    rw [List.getElem?_set]
    by_cases h : d = i
    · subst h
      have hl : d < (cornerIdx s.degrees c).length := by simp [hc', hd]
      rw [if_pos rfl, if_pos hl, List.getD_eq_getElem?_getD, List.getElem?_eq_getElem hl]; rfl
    · rw [if_neg h]
  unfold besideIdx inward
  cases hb : c.getD d false with
  | false =>
    have := hci false hb
    simp only [Bool.false_eq_true, if_false, zero_add, one_mul] at this ⊢
    rw [this]
  | true =>
    have := hci true hb
    simp only [if_true, hg] at this ⊢
    rw [Nat.sub_add_cancel hpos, this, neg_one_mul, neg_smul, ← smul_neg, neg_sub]

variable [ScalarDiv ℝ V] [LawfulScalarDiv ℝ V]

theorem binomFits_zero (n : ℕ) : BinomFits (List.replicate n 0) := by
  unfold BinomFits
  rw [List.map_replicate, List.prod_replicate]
  norm_num

theorem binomFits_single (n d : ℕ) : BinomFits ((List.replicate n 0).set d 1) := by
  unfold BinomFits
  rw [List.prod_eq_one]
  · norm_num
  · intro x hx
    obtain ⟨k, hk, rfl⟩ := List.mem_map.mp hx
    rcases List.mem_or_eq_of_mem_set hk with h | h
    · rw [(List.mem_replicate.mp h).2]; rfl
    · rw [h]; rfl

/-- C112. The first derivative of a rational spline at a corner: the degree times the ratio of the weights of the neighbour and the corner, times
the step from the corner to the neighbour. -/
theorem C112_rational_corner (cfg : Cfg) (hmax : cfg.Ok) (r : RSpline ℝ V) (ds : List ℕ) (f : List ℝ → V) (w : List ℝ → ℝ)
    (hr : r.Computes ds f w) (hdeg : ∀ p ∈ ds, p < cfg.maxBinom) (hsize : size ds < 2 ^ 64) (c : List Bool) (hc : c.length = ds.length) (d p : ℕ)
    (hp : ds[d]? = some p) (hpos : 0 < p) (wQ wN : ℝ) (Q N : V) (hwQ : r.weight (cornerIdx ds c) = .ok wQ)
    (hwN : r.weight (besideIdx ds c d) = .ok wN) (hQ : r.controlPoint (cornerIdx ds c) = .ok Q) (hN : r.controlPoint (besideIdx ds c d) = .ok N) :
    r.evaluateDerivative cfg (cornerAt c) ((List.replicate ds.length 0).set d 1) = .ok ((inward c d * p * (wN / wQ)) • (N - Q)) := by
  obtain rfl := hr.num_degrees
  have hwd := hr.wt_degrees
  have hdim : r.wt.dim = r.num.dim := congrArg List.length hwd
  have hd := (List.getElem?_eq_some_iff.mp hp).1
  have hmax1 : 1 < cfg.maxBinom := lt_of_le_of_lt hpos (hdeg p (List.mem_of_getElem? hp))
  -- corner and neighbour
  obtain ⟨Qn, Nn, q1, q2, q3⟩ := C112_corner cfg hmax r.num hr.num_wf hdeg hsize c hc d p hp hpos
  obtain ⟨Qw, Nw, v1, v2, v3⟩ := C112_corner cfg hmax r.wt hr.wt_wf (by rw [hwd]; exact hdeg) (by rw [hwd]; exact hsize) c
    (by rw [hdim]; exact hc) d p (by rw [hwd]; exact hp) hpos
  rw [hwd] at v1 v2
  rw [hdim] at v3
  obtain rfl : Qw = wQ := Except.ok.inj (v1.symm.trans hwQ)
  obtain rfl : Nw = wN := Except.ok.inj (v2.symm.trans hwN)
  have hQ' : Qw ≠ 0 ∧ Q = Qw⁻¹ • Qn := by
    unfold RSpline.controlPoint at hQ
    rw [q1, v1] at hQ
    simp only [bind_ok] at hQ
    by_cases h0 : Qw = 0
    · simp [divM, h0] at hQ
    · rw [RSpline.divM_ok _ h0] at hQ
      exact ⟨h0, (Except.ok.inj hQ).symm⟩
  have hN' : Nw ≠ 0 ∧ N = Nw⁻¹ • Nn := by
    unfold RSpline.controlPoint at hN
    rw [q2, v2] at hN
    simp only [bind_ok] at hN
    by_cases h0 : Nw = 0
    · simp [divM, h0] at hN
    · rw [RSpline.divM_ok _ h0] at hN
      exact ⟨h0, (Except.ok.inj hN).symm⟩
  -- values at the corner
  have htl : (cornerAt c).length = r.num.degrees.length := by rw [List.length_map]; exact hc
  obtain ⟨x, e1, e2⟩ := C10_corners (K := ℝ) r.num hr.num_wf c hc
  obtain rfl : x = Qn := Except.ok.inj (e2.symm.trans q1)
  obtain ⟨y, e3, e4⟩ := C10_corners (K := ℝ) r.wt hr.wt_wf c (by rw [hdim]; exact hc)
  rw [hwd] at e4
  obtain rfl : y = Qw := Except.ok.inj (e4.symm.trans v1)
  have hwt : w (cornerAt c) = y := Except.ok.inj ((hr.weight _ htl).symm.trans e3)
  have hd' : d < c.length := by rw [hc]; exact hd
  have htd : (cornerAt c)[d]? = some (if c[d] then (1 : ℝ) else 0) := by rw [List.getElem?_map, List.getElem?_eq_getElem hd']; rfl
  have hz : (List.replicate r.num.degrees.length 0)[d]? = some 0 := by rw [List.getElem?_replicate, if_pos hd]
  have hord : ∀ o ∈ (List.replicate r.num.degrees.length 0).set d (0 + 1), o < cfg.maxBinom := by
    intro o ho
    rcases List.mem_or_eq_of_mem_set ho with h | h
    · obtain rfl := (List.mem_replicate.mp h).2; omega
    · omega
  -- the functions along the line
  obtain ⟨g, g', g1, g2, g3⟩ := C42_chain cfg hmax r _ f w hr hdeg (List.replicate r.num.degrees.length 0) (by simp) d 0 hz hord (binomFits_zero _)
    (binomFits_single _ _) (cornerAt c) htl (by rw [hwt]; exact hQ'.1) _ htd
  obtain ⟨gn, gn', n1, n2, n3⟩ := C14_chain (𝕜 := ℝ) cfg hmax r.num hr.num_wf hdeg (List.replicate r.num.degrees.length 0) (by simp [Spline.dim]) d 0 hz
    (cornerAt c) htl _ htd
  obtain ⟨gw, gw', w1, w2, w3⟩ := C14_chain (𝕜 := ℝ) cfg hmax r.wt hr.wt_wf (by rw [hwd]; exact hdeg) (List.replicate r.num.degrees.length 0)
    (by rw [hdim]; simp [Spline.dim]) d 0 hz (cornerAt c) (by rw [hdim]; exact htl) _ htd
  have hcn : ∀ x : ℝ, r.num.evaluate ((cornerAt c).set d x) = .ok (gn x) := fun x => by
    rw [← n1 x, ← C14_zero cfg hmax r.num _ _ (hr.num_wf.computes (K := ℝ)) hdeg _ (by rw [List.length_set]; exact htl)]
  have hcw : ∀ x : ℝ, r.wt.evaluate ((cornerAt c).set d x) = .ok (gw x) := fun x => by
    rw [← w1 x, ← hwd, ← C14_zero cfg hmax r.wt _ _ (hr.wt_wf.computes (K := ℝ)) (by rw [hwd]; exact hdeg) _
      (by rw [hwd, List.length_set]; exact htl)]
  have hset : (cornerAt c).set d (if c[d] then (1 : ℝ) else 0) = cornerAt c := by
    apply List.ext_getElem?
    intro i
    rw [List.getElem?_set]
    by_cases h : d = i
    · subst h
      rw [if_pos rfl, if_pos (by rw [List.length_map]; exact hd'), htd]
    · rw [if_neg h]
  have hgn : gn (if c[d] then (1 : ℝ) else 0) = x := by
    have := hcn (if c[d] then (1 : ℝ) else 0)
    rw [hset, e1] at this
    exact (Except.ok.inj this).symm
  have hgw : gw (if c[d] then (1 : ℝ) else 0) = y := by
    have := hcw (if c[d] then (1 : ℝ) else 0)
    rw [hset, e3] at this
    exact (Except.ok.inj this).symm
  have hn' : gn' = (inward c d * p) • (Nn - x) := Except.ok.inj (n2.symm.trans q3)
  have hw' : gw' = (inward c d * p) • (Nw - y) := Except.ok.inj (w2.symm.trans v3)
  have hne : ∀ᶠ u in 𝓝 (if c[d] then (1 : ℝ) else 0), gw u ≠ 0 := w3.continuousAt.eventually_ne (by rw [hgw]; exact hQ'.1)
  have hq : g =ᶠ[𝓝 (if c[d] then (1 : ℝ) else 0)] fun u => (gw u)⁻¹ • gn u := by
    filter_upwards [g1, hne] with u hu h0
    have hul : ((cornerAt c).set d u).length = r.num.degrees.length := by rw [List.length_set]; exact htl
    have hwu : w ((cornerAt c).set d u) = gw u := Except.ok.inj ((hr.weight _ hul).symm.trans (hcw u))
    have e5 := hr.eval _ hul (by rw [hwu]; exact h0)
    rw [C42_evaluate_derivative cfg hmax r _ f w hr hdeg _ (by simp) (by
        intro o ho; rw [(List.mem_replicate.mp ho).2]; omega) (binomFits_zero _) _ hul (by rw [hwu]; exact h0)] at hu
    have hz' : pderiv (List.replicate r.num.degrees.length 0) f ((cornerAt c).set d u) = f ((cornerAt c).set d u) := by
      generalize (cornerAt c).set d u = v
      generalize r.num.degrees.length = m
      clear * -
      induction m generalizing v f with
      | zero => cases v <;> rfl
      | succ m ih =>
        cases v with
        | nil => rfl
        | cons a v =>
          show iteratedDeriv 0 _ a = _
          rw [iteratedDeriv_zero, ih (fun xs => f (a :: xs))]
    have e6 : r.evaluate ((cornerAt c).set d u) = .ok ((gw u)⁻¹ • gn u) := by
      unfold RSpline.evaluate
      rw [hcn u, hcw u]
      simp only [bind_ok]
      rw [RSpline.divM_ok _ h0]
    rw [← Except.ok.inj hu, hz']
    exact Except.ok.inj (e5.symm.trans e6)
  have hD : HasDerivAt (fun u => (gw u)⁻¹ • gn u) (y⁻¹ • gn' + (-gw' / y ^ 2) • x) (if c[d] then (1 : ℝ) else 0) := by
    have := (w3.inv (by rw [hgw]; exact hQ'.1)).smul n3
    rw [Pi.inv_apply, hgn, hgw] at this
    exact this
  have hfin := (g3.congr_of_eventuallyEq hq.symm).unique hD
  have e7 : r.evaluateDerivative cfg (cornerAt c) ((List.replicate r.num.degrees.length 0).set d 1) = .ok g' := g2
  rw [e7, hfin, hn', hw', hQ'.2, hN'.2]
  congr 1
  have hy := hQ'.1
  have hNw := hN'.1
  simp only [smul_sub, smul_smul, smul_eq_mul]
  match_scalars <;> field_simp
  ring

/-! ## Concrete cases -/

theorem deg_ok : ∀ p ∈ [2, 1], p < Ex.cfg.maxBinom := by decide
theorem zero_lt_two' : 0 < [2, 1].length := by decide

/-- the halves of any surface of degrees (2,1), cut at 1/3, join smoothly -/
example (a b c d e f : Point ℝ 3) : ∃ l r y y', (Ex.surf a b c d e f).splitAt (1 / 3 : ℝ) 0 = .ok (l, r) ∧
    l.evaluateDerivative Ex.cfg [(1 : ℝ), 1 / 2] [2, 1] = .ok y ∧ r.evaluateDerivative Ex.cfg [(0 : ℝ), 1 / 2] [2, 1] = .ok y' ∧
    ((2 / 3 : ℝ) ^ 2) • y = ((1 / 3 : ℝ) ^ 2) • y' := by
  have hs : (Ex.surf a b c d e f).WF := Ex.surf_wf ..
  obtain ⟨l, r, e1, hl, hr⟩ := C31_split (K := ℝ) (Ex.surf a b c d e f) _ _ hs.computes 0 zero_lt_two' (1 / 3) (by norm_num) (by norm_num)
  have h1 : PartOf (Ex.surf a b c d e f) [((0 : ℝ), 0 + (1 - 0) * (1 / 3)), (0, 1)] l :=
    PartOf.left (PartOf.whole (K := ℝ) (s := Ex.surf a b c d e f)) zero_lt_two' e1
  have h2 : PartOf (Ex.surf a b c d e f) [((0 : ℝ) + (1 - 0) * (1 / 3), 1), (0, 1)] r :=
    PartOf.right (PartOf.whole (K := ℝ) (s := Ex.surf a b c d e f)) zero_lt_two' e1
  obtain ⟨y, y', e2, e3, e4⟩ := C112_joint Ex.cfg Ex.cfg_ok (Ex.surf a b c d e f) hs deg_ok _ _ l r h1 h2 (by rw [hl.degrees_eq]; exact deg_ok)
    (by rw [hr.degrees_eq]; exact deg_ok) [2, 1] rfl [1, 1 / 2] [0, 1 / 2] rfl rfl (by norm_num [inBox])
  refine ⟨l, r, y, y', e1, e2, e3, ?_⟩
  norm_num [boxScale, width, Finset.prod_range_succ] at e4
  norm_num
  exact e4

example (a b c d e f : Point ℝ 3) := C112_corner Ex.cfg Ex.cfg_ok (Ex.surf a b c d e f) (Ex.surf_wf ..) deg_ok (show size [2, 1] < 2 ^ 64 by decide) [true, false] rfl 0 2 rfl
  (by decide)
/-- the tangent in direction 0 at the corner (1,0): the weights of the corner and its neighbour are 1 and 2 -/
example (a b c d e f : Point ℝ 3) : (RR a b c d e f).evaluateDerivative Ex.cfg [1, 0] [1, 0] =
    .ok ((-1 * (2 : ℕ) * (2 / 1) : ℝ) • ((2 : ℝ)⁻¹ • b - (1 : ℝ)⁻¹ • c)) :=
  C112_rational_corner Ex.cfg Ex.cfg_ok (RR a b c d e f) _ _ _ (RR_computes a b c d e f) (by decide) (by decide) [true, false] rfl 0 2 rfl (by decide) 1 2
    _ _ rfl rfl (RSpline.divM_ok c one_ne_zero) (RSpline.divM_ok b two_ne_zero)
/-- the half of the rational surface below 1/2 in direction 1 -/
example (a b c d e f : Point ℝ 3) : ∃ l r x, (RR a b c d e f).splitAt (1 / 2 : ℝ) 1 = .ok (l, r) ∧
    (RR a b c d e f).evaluateDerivative Ex.cfg [1 / 3, 1 / 2] [3, 2] = .ok x ∧ l.evaluateDerivative Ex.cfg [1 / 3, 1] [3, 2] = .ok ((1 / 4 : ℝ) • x) := by
  obtain ⟨l, r, e1, hl, _⟩ := C40_split (RR a b c d e f) _ _ _ (RR_computes a b c d e f) 1 (by decide) (1 / 2) (by norm_num) (by norm_num)
  have h1 : RPartOf (RR a b c d e f) [((0 : ℝ), 1), (0, 0 + (1 - 0) * (1 / 2))] l :=
    RPartOf.left (RPartOf.whole (K := ℝ) (r := RR a b c d e f)) (show 1 < [2, 1].length by decide) e1
  have hb : inBox [((0 : ℝ), 1), (0, 0 + (1 - 0) * (1 / 2))] [1 / 3, 1] = [1 / 3, 1 / 2] := by norm_num [inBox]
  obtain ⟨x, e2, e3, _⟩ := C112_rational_part Ex.cfg Ex.cfg_ok (RR a b c d e f) _ _ _ (RR_computes a b c d e f) deg_ok _ l h1
    (by rw [hl.num_degrees]; exact deg_ok) [3, 2] rfl (by decide) (by unfold BinomFits; decide) [1 / 3, 1] rfl (by rw [hb]; exact RR_weight a b c d e f)
  rw [hb] at e2
  refine ⟨l, r, x, e1, e2, ?_⟩
  rw [e3]
  norm_num [boxScale, width, Finset.prod_range_succ]

end Bezman.Props
