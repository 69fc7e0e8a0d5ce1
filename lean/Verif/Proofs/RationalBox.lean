import Verif.Proofs.Rational
import Verif.Proofs.Box
import Verif.Proofs.SplitJoin
import Mathlib.Data.Finset.Max

/-! Rational splines: bounding box, basis functions, splitting at several positions. -/

namespace Bezman
open Spec Finset

/-- two loops running in lockstep, seen as one loop on pairs -/
theorem loop_sim2 {σ τ ρ : Type} {n : ℕ} {f : ℕ → σ → M σ} {g : ℕ → τ → M τ} {h : ℕ → ρ → M ρ}
    (P : σ → τ → Prop) (c : σ → τ → ρ) {a : σ} {b : τ} (h0 : P a b)
    (hstep : ∀ k, k < n → ∀ a1 b1 a2 b2, P a1 b1 → f k a1 = .ok a2 → g k b1 = .ok b2 →
      P a2 b2 ∧ h k (c a1 b1) = .ok (c a2 b2)) :
    ∀ {a' b'}, loop n f a = .ok a' → loop n g b = .ok b' → P a' b' ∧ loop n h (c a b) = .ok (c a' b') := by
  induction n with
  | zero =>
    intro a' b' h1 h2
    simp only [loop_zero, Except.ok.injEq] at h1 h2
    subst h1; subst h2
    exact ⟨h0, rfl⟩
  | succ n ih =>
    intro a' b' h1 h2
    rw [loop_succ] at h1 h2
    obtain ⟨a1, e1, e2⟩ := bind_eq_ok.mp h1
    obtain ⟨b1, e3, e4⟩ := bind_eq_ok.mp h2
    obtain ⟨p1, p2⟩ := ih (fun k hk => hstep k (by omega)) e1 e3
    obtain ⟨q1, q2⟩ := hstep n (by omega) a1 b1 a' b' p1 e2 e4
    exact ⟨q1, by rw [loop_succ, p2]; exact q2⟩

namespace RSpline
section split
variable {K V : Type} [Zero K] [One K] [Add K] [Sub K] [Mul K] [Div K] [LT K] [DecidableLT K] [Add V] [SMul K V]

theorem splitAt_spec {s : Spline V} {d p : ℕ} {z : K} {sp : Spline V × Spline V} (h : s.WF)
    (hp : s.degrees[d]? = some p) (h1 : s.splitAt z d = .ok sp) :
    sp.1.WF ∧ sp.2.WF ∧ sp.1.degrees = s.degrees ∧ sp.2.degrees = s.degrees := by
  have hz : 0 < z ∧ z < 1 := by
    by_contra hz
    rw [Spline.splitAt_throws hz] at h1; cases h1
  obtain ⟨a, b, e, w1, w2, d1, d2, _⟩ := Spline.splitAt_join h hp hz
  rw [e] at h1; injection h1 with h1; subst h1
  exact ⟨w1, w2, d1, d2⟩

theorem splitAt_pair {r : RSpline K V} {ds : List ℕ} {d p : ℕ} (hn : r.num.WF) (hw : r.wt.WF)
    (hnd : r.num.degrees = ds) (hwd : r.wt.degrees = ds) (hp : ds[d]? = some p) {z : K} {n : Spline V × Spline V}
    {w : Spline K × Spline K} (h1 : r.num.splitAt z d = .ok n) (h2 : r.wt.splitAt z d = .ok w) :
    r.splitAt z d = .ok (⟨n.1, w.1⟩, ⟨n.2, w.2⟩) := by
  obtain ⟨_, _, a1, a2⟩ := splitAt_spec hn (by rw [hnd]; exact hp) h1
  obtain ⟨_, _, b1, b2⟩ := splitAt_spec hw (by rw [hwd]; exact hp) h2
  unfold splitAt
  rw [h1, h2]
  simp only [bind_ok]
  rw [ofSplines_ok (by rw [a1, b1, hnd, hwd]), ofSplines_ok (by rw [a2, b2, hnd, hwd])]
  rfl

theorem splitAtMany_pair {r : RSpline K V} {ds : List ℕ} {d p : ℕ} (hn : r.num.WF) (hw : r.wt.WF)
    (hnd : r.num.degrees = ds) (hwd : r.wt.degrees = ds) (hp : ds[d]? = some p) {planes : List K} {ln : List (Spline V)}
    {lw : List (Spline K)} (h1 : r.num.splitAtMany planes d = .ok ln) (h2 : r.wt.splitAtMany planes d = .ok lw) :
    r.splitAtMany planes d = .ok (List.zipWith RSpline.mk ln lw) := by
  unfold Spline.splitAtMany at h1 h2
  unfold splitAtMany
  by_cases hs : Spline.isSorted planes = true
  case neg => simp [hs] at h1
  simp only [hs, Bool.not_true, Bool.false_eq_true, if_false] at h1 h2 ⊢
  by_cases h0 : planes.length = 0
  · rw [if_pos h0] at h1 h2 ⊢
    simp only [pure_eq_ok, Except.ok.injEq] at h1 h2 ⊢
    subst h1; subst h2
    rfl
  rw [if_neg h0] at h1 h2 ⊢
  have hlen : 0 < planes.length := by omega
  rw [rd_getElem hlen] at h1 h2 ⊢
  simp only [bind_ok] at h1 h2 ⊢
  obtain ⟨n, n1, h1⟩ := bind_eq_ok.mp h1
  obtain ⟨n', n2, h1⟩ := bind_eq_ok.mp h1
  obtain ⟨w, w1, h2⟩ := bind_eq_ok.mp h2
  obtain ⟨w', w2, h2⟩ := bind_eq_ok.mp h2
  simp only [pure_eq_ok, Except.ok.injEq] at h1 h2
  rw [splitAt_pair hn hw hnd hwd hp n1 w1]
  simp only [bind_ok]
  unfold loopFrom at n2 w2 ⊢
  obtain ⟨_, a2, _, a4⟩ := splitAt_spec hn (by rw [hnd]; exact hp) n1
  obtain ⟨_, b2, _, b4⟩ := splitAt_spec hw (by rw [hwd]; exact hp) w1
  obtain ⟨p1, p2⟩ := loop_sim2
    (h := fun k (q : List (RSpline K V) × (RSpline K V × RSpline K V)) => do
      let z ← rd planes (1 + k)
      let zp ← rd planes (1 + k - 1)
      let rel := (z - zp) / (1 - zp)
      let sp ← q.2.2.splitAt rel d
      pure (q.1 ++ [sp.1], sp))
    (P := fun (a : List (Spline V) × (Spline V × Spline V)) (b : List (Spline K) × (Spline K × Spline K)) =>
      a.1.length = b.1.length ∧ a.2.2.WF ∧ b.2.2.WF ∧ a.2.2.degrees = ds ∧ b.2.2.degrees = ds)
    (c := fun a b => (List.zipWith RSpline.mk a.1 b.1, (⟨a.2.1, b.2.1⟩, ⟨a.2.2, b.2.2⟩)))
    ⟨rfl, a2, b2, by rw [a4, hnd], by rw [b4, hwd]⟩
    (by
      rintro k _ a1 b1 a' b' ⟨i1, i2, i3, i4, i5⟩ f1 f2
      simp only at f1 f2 ⊢
      obtain ⟨z, z1, f1⟩ := bind_eq_ok.mp f1
      obtain ⟨zp, z2, f1⟩ := bind_eq_ok.mp f1
      obtain ⟨sp, s1, f1⟩ := bind_eq_ok.mp f1
      rw [z1, z2] at f2
      simp only [bind_ok] at f2
      obtain ⟨sq, s2, f2⟩ := bind_eq_ok.mp f2
      simp only [pure_eq_ok, Except.ok.injEq] at f1 f2
      subst f1; subst f2
      rw [z1, z2]
      simp only [bind_ok]
      obtain ⟨_, c2, _, c4⟩ := splitAt_spec i2 (by rw [i4]; exact hp) s1
      obtain ⟨_, d2, _, d4⟩ := splitAt_spec i3 (by rw [i5]; exact hp) s2
      rw [splitAt_pair (r := ⟨a1.2.2, b1.2.2⟩) i2 i3 i4 i5 hp s1 s2]
      refine ⟨⟨by simp [i1], c2, d2, by rw [c4, i4], by rw [d4, i5]⟩, ?_⟩
      simp only [bind_ok, pure_eq_ok]
      rw [List.zipWith_append i1]
      rfl) n2 w2
  have e : ([(⟨n.1, w.1⟩ : RSpline K V)] : List (RSpline K V)) = List.zipWith RSpline.mk [n.1] [w.1] := rfl
  rw [e, p2]
  simp only [bind_ok, pure_eq_ok]
  rw [← h1, ← h2, List.zipWith_append p1.1]
  rfl

end split

section box
variable {K V : Type} [Field K] [LinearOrder K] [IsStrictOrderedRing K] [AddCommGroup V] [Module K V]
  [ScalarDiv K V] [LawfulScalarDiv K V] [Coords K V] [LawfulCoords K V]

/-- the spline whose control points are the (unweighted) control points of `r` -/
def euclid (r : RSpline K V) : Spline V :=
  { r.num with cps := tab (size r.num.degrees) (fun i => (r.wt.cps.getD i 0)⁻¹ • r.num.cps.getD i 0) }

variable {r : RSpline K V}

omit [LinearOrder K] [IsStrictOrderedRing K] [ScalarDiv K V] [LawfulScalarDiv K V] [Coords K V] [LawfulCoords K V] in
theorem euclid_wf (hn : r.num.WF) : r.euclid.WF := hn.setCps (by simp)

omit [Coords K V] [LawfulCoords K V] [IsStrictOrderedRing K] in
theorem rd_euclid (hn : r.num.WF) (hw : r.wt.WF) (hd : r.num.degrees = r.wt.degrees) (h0 : ∀ w ∈ r.wt.cps, w ≠ 0)
    {i : ℕ} (hi : i < size r.num.degrees) :
    (do let x ← rd r.num.cps i
        let w ← rd r.wt.cps i
        divM x w) = rd r.euclid.cps i := by
  have h1 : i < r.num.cps.length := by rw [hn.cps_len]; exact hi
  have h2 : i < r.wt.cps.length := by rw [hw.cps_len, ← hd]; exact hi
  rw [rd_getElem h1, rd_getElem h2]
  simp only [bind_ok]
  rw [divM_ok _ (h0 _ (List.getElem_mem _))]
  unfold euclid
  rw [rd_tab _ hi]
  simp [h1, h2]

omit [Coords K V] [LawfulCoords K V] [IsStrictOrderedRing K] in
theorem controlPoint_euclid (hn : r.num.WF) (hw : r.wt.WF) (hd : r.num.degrees = r.wt.degrees)
    (h0 : ∀ w ∈ r.wt.cps, w ≠ 0) {idx : List ℕ} (hi : ValidIdx r.num.degrees idx) :
    r.controlPoint idx = r.euclid.controlPoint idx := by
  have h1 := rd_euclid hn hw hd h0 (flatIndex_lt hi)
  unfold controlPoint Spline.controlPoint
  rw [Spline.globalToLocal_ok hn hi.length, Spline.globalToLocal_ok hw (by unfold Spline.dim; rw [← hd]; exact hi.length),
    Spline.globalToLocal_ok (euclid_wf hn) hi.length]
  simp only [bind_ok, ← hd]
  exact h1

omit [LawfulCoords K V] [IsStrictOrderedRing K] in
theorem corner_eq (hn : r.num.WF) (hw : r.wt.WF) (hd : r.num.degrees = r.wt.degrees)
    (h0 : ∀ w ∈ r.wt.cps, w ≠ 0) (pick : K → K → K) :
    corner pick r = (if r.euclid.ncp = 0 then .error .throws
      else do
        let m ← rd r.euclid.cps 0
        loopFrom 1 r.euclid.ncp (fun i m => do
          let x ← rd r.euclid.cps i
          pure (Coords.ofCoords (K := K) fun j => pick (Coords.coord m j) (Coords.coord x j))) m) := by
  have hnc : r.num.ncp = size r.num.degrees := hn.ncp_eq
  have hpos := size_pos r.num.degrees
  unfold corner
  have e : r.euclid.ncp = r.num.ncp := rfl
  rw [e, if_neg (by omega), if_neg (by omega)]
  unfold localToGlobal
  rw [Spline.localToGlobal_ok hw]
  simp only [bind_ok]
  rw [controlPoint_euclid hn hw hd h0 (by rw [hd]; exact unflat_valid _ _)]
  unfold Spline.controlPoint
  rw [Spline.globalToLocal_ok (euclid_wf hn) (by simp [Spline.dim, euclid, hd])]
  have e2 : flatIndex r.euclid.degrees (unflat r.wt.degrees 0) = 0 := by
    show flatIndex r.num.degrees _ = 0
    rw [hd, flatIndex_unflat (size_pos _)]
  simp only [bind_ok, e2]
  congr 1
  funext m
  unfold loopFrom
  apply loop_congr
  intro k hk m
  have h3 := rd_euclid hn hw hd h0 (i := 1 + k) (by omega)
  simp only []
  rw [← h3]
  simp only [bind_assoc]

omit [LawfulCoords K V] [IsStrictOrderedRing K] in
theorem maximumCorner_eq (hn : r.num.WF) (hw : r.wt.WF) (hd : r.num.degrees = r.wt.degrees)
    (h0 : ∀ w ∈ r.wt.cps, w ≠ 0) : r.maximumCorner = Spline.maximumCorner K r.euclid :=
  corner_eq hn hw hd h0 _

omit [LawfulCoords K V] [IsStrictOrderedRing K] in
theorem minimumCorner_eq (hn : r.num.WF) (hw : r.wt.WF) (hd : r.num.degrees = r.wt.degrees)
    (h0 : ∀ w ∈ r.wt.cps, w ≠ 0) : r.minimumCorner = Spline.minimumCorner K r.euclid :=
  corner_eq hn hw hd h0 _

omit [LawfulCoords K V] [IsStrictOrderedRing K] in
theorem fitsIntoUnitCube_eq (hn : r.num.WF) (hw : r.wt.WF) (hd : r.num.degrees = r.wt.degrees)
    (h0 : ∀ w ∈ r.wt.cps, w ≠ 0) : r.fitsIntoUnitCube = Spline.fitsIntoUnitCube K r.euclid := by
  unfold fitsIntoUnitCube Spline.fitsIntoUnitCube
  rw [maximumCorner_eq hn hw hd h0, minimumCorner_eq hn hw hd h0]

omit [AddCommGroup V] [Module K V] [ScalarDiv K V] [LawfulScalarDiv K V] [Coords K V] [LawfulCoords K V] in
theorem neval_pos {ds : List ℕ} {t : List K} (ht : t.length = ds.length) (h01 : ∀ x ∈ t, 0 ≤ x ∧ x ≤ 1) {F : ℕ → K}
    (hF : ∀ j, j < size ds → 0 < F j) : 0 < neval ds t F := by
  obtain ⟨m, hm, hmin⟩ := Finset.exists_min_image (range (size ds)) F ⟨0, by simpa using size_pos ds⟩
  have hm' : m < size ds := by simpa using hm
  exact lt_of_lt_of_le (hF m hm') (le_neval ht h01 fun j hj => hmin j (by simpa using hj))

omit [ScalarDiv K V] [LawfulScalarDiv K V] in
/-- with positive weights the value is a weighted mean of the control points -/
theorem value_mean_le {ds : List ℕ} {t : List K} (ht : t.length = ds.length) (h01 : ∀ x ∈ t, 0 ≤ x ∧ x ≤ 1) {w : ℕ → K} {x : ℕ → K}
    (hw : ∀ j, j < size ds → 0 < w j) {c : K} (hc : ∀ j, j < size ds → (w j)⁻¹ * x j ≤ c) :
    (neval ds t w)⁻¹ * neval ds t x ≤ c := by
  have hp := neval_pos ht h01 hw
  rw [inv_mul_le_iff₀ hp]
  have h : 0 ≤ neval ds t (fun j => c * w j - x j) := by
    apply neval_nonneg h01
    intro j hj
    have := hc j hj
    rw [inv_mul_le_iff₀ (hw j hj)] at this
    rw [mul_comm]; exact sub_nonneg.mpr this
  rw [neval_sub] at h
  have e : neval ds t (fun j => c * w j) = c * neval ds t w := neval_smul c ds t w
  rw [e] at h
  rw [mul_comm]; exact sub_nonneg.mp h

theorem value_mean_ge {ds : List ℕ} {t : List K} (ht : t.length = ds.length) (h01 : ∀ x ∈ t, 0 ≤ x ∧ x ≤ 1) {w : ℕ → K} {x : ℕ → K}
    (hw : ∀ j, j < size ds → 0 < w j) {c : K} (hc : ∀ j, j < size ds → c ≤ (w j)⁻¹ * x j) :
    c ≤ (neval ds t w)⁻¹ * neval ds t x := by
  have := value_mean_le ht h01 hw (x := fun j => - x j) (c := -c) (fun j hj => by
    rw [mul_neg]; exact neg_le_neg (hc j hj))
  rw [neval_neg, mul_neg] at this
  exact neg_le_neg_iff.mp this

end box

section basis
variable {K V : Type} [Field K] [DecidableEq K]

/-- value of the weight function in terms of the basis functions -/
theorem weightSum {ds : List ℕ} {wt : Spline K} (hw : wt.WF) (hwd : wt.degrees = ds) {t : List K}
    (ht : t.length = ds.length) :
    loop (size ds) (fun i acc => do
      let f ← rd (tab (size ds) (fun n => pw (bernFns ds t) (unflat ds n))) i
      let w ← rd wt.cps i
      pure (acc + f * w)) 0 = .ok (wt.value t) := by
  have hl : wt.cps.length = size ds := by rw [hw.cps_len, hwd]
  have := loop_eq (n := size ds) (s := 0) (f := fun i acc => do
      let f ← rd (tab (size ds) (fun n => pw (bernFns ds t) (unflat ds n))) i
      let w ← rd wt.cps i
      pure (acc + f * w)) (fun k => ∑ i ∈ range k, pw (bernFns ds t) (unflat ds i) • wt.cps.getD i 0) (by simp) (by
      intro k hk
      rw [rd_tab _ hk, rd_getElem (by omega)]
      simp only [bind_ok, pure_eq_ok]
      rw [Finset.sum_range_succ]
      simp [hl, hk])
  rw [this, sum_pw _ (Spline.bernFns_length ht), ← neval_eq_tens, Spline.value_eq_neval, hwd]

theorem unweightedBasisFunctions_ok {cfg : Cfg} (hc : cfg.Ok) {r : RSpline K V} {ds : List ℕ} (hn : r.num.degrees = ds)
    (hw : r.wt.WF) (hwd : r.wt.degrees = ds) (hd : Spline.DegOk cfg ds) {t : List K} (ht : t.length = ds.length)
    (h0 : r.wt.value t ≠ 0) :
    r.unweightedBasisFunctions cfg t
      = .ok (tab (size ds) (fun n => pw (bernFns ds t) (unflat ds n) * (r.wt.value t)⁻¹)) := by
  unfold unweightedBasisFunctions
  rw [assertM_ok (by simp [compatible, hn, hwd]),
    Spline.basisFunctions_ok hc hw.dim_pos (by rw [hwd]; exact hd) (by unfold Spline.dim; rw [hwd, ht])]
  simp only [bind_ok, hwd, tab_length]
  rw [weightSum hw hwd ht]
  simp only [bind_ok]
  rw [divM_ok _ h0]
  simp only [bind_ok, smul_eq_mul, mul_one]
  apply loop_update
  intro k H hk hH
  rw [rd_tab _ hk]
  simp only [bind_ok]
  rw [wr_tab _ _ hk, hH]

theorem basisFunctions_ok {cfg : Cfg} (hc : cfg.Ok) {r : RSpline K V} {ds : List ℕ} (hn : r.num.degrees = ds)
    (hw : r.wt.WF) (hwd : r.wt.degrees = ds) (hd : Spline.DegOk cfg ds) {t : List K} (ht : t.length = ds.length)
    (h0 : r.wt.value t ≠ 0) :
    r.basisFunctions cfg t
      = .ok (tab (size ds) (fun n => pw (bernFns ds t) (unflat ds n) * (r.wt.value t)⁻¹ * r.wt.cps.getD n 0)) := by
  have hl : r.wt.cps.length = size ds := by rw [hw.cps_len, hwd]
  unfold basisFunctions
  rw [assertM_ok (by simp [compatible, hn, hwd]), unweightedBasisFunctions_ok hc hn hw hwd hd ht h0]
  simp only [bind_ok, tab_length]
  apply loop_update
  intro k H hk hH
  rw [rd_tab _ hk, rd_getElem (by omega)]
  simp only [bind_ok]
  rw [wr_tab _ _ hk, hH]
  simp [hl, hk]

end basis
end RSpline
end Bezman
