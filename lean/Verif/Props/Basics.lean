import Verif.Props.Examples
import Verif.Proofs.PropsAux
import Verif.Proofs.BernDeriv

/-! # Properties: binomials, Bernstein basis, indices, evaluation -/

namespace Bezman.Props
open Spec Finset

/-! ## C01 -/

/-- C01. `choose(n,i)` is the binomial coefficient for every table size up to 68. -/
theorem C01_choose_exact (cfg : Cfg) (hmax : cfg.maxBinom ≤ 68) (n i : ℕ) (hn : n < cfg.maxBinom)
    (hi : i ≤ n) : choose cfg n i = .ok (n.choose i) := choose_ok hmax hn hi

/-- C01. Beyond the table the assertion fires. -/
theorem C01_choose_assert (cfg : Cfg) (n i : ℕ) (hn : cfg.maxBinom ≤ n) :
    choose cfg n i = .error .assertFail := choose_assert hn

/-- C01, sharpness: with a larger table some lookups are wrong, since `C(68,34)` does
not fit into 64 bits. -/
theorem C01_choose_limit (cfg : Cfg) (hmax : 68 < cfg.maxBinom) :
    ∃ r, choose cfg 68 34 = .ok r ∧ r ≠ Nat.choose 68 34 := by
  refine ⟨_, choose_mod cfg hmax (by norm_num), ?_⟩
  have : 2 ^ 64 ≤ Nat.choose 68 34 := by
    rw [Nat.choose_eq_factorial_div_factorial (by norm_num)]
    decide +kernel
  have := Nat.mod_lt (Nat.choose 68 34) (y := 2 ^ 64) (by norm_num)
  omega

example : choose ⟨62, 0⟩ 61 30 = .ok (Nat.choose 61 30) :=
  C01_choose_exact ⟨62, 0⟩ (by norm_num) 61 30 (by norm_num) (by norm_num)
example : choose ⟨62, 0⟩ 62 30 = .error .assertFail := C01_choose_assert ⟨62, 0⟩ 62 30 le_rfl

/-! ## C02 -/

/-- C02. `BernsteinPolynomial::Evaluate(p,t)`. -/
theorem C02_bernstein {K : Type} [CommRing K] (cfg : Cfg) (hmax : cfg.maxBinom ≤ 68) (p : ℕ)
    (hp : p < cfg.maxBinom) (t : K) :
    ∃ l, bernsteinEvaluate cfg p t = .ok l ∧ l.length = p + 1 ∧
      ∀ i ≤ p, l[i]? = some ((p.choose i : K) * t ^ i * (1 - t) ^ (p - i)) :=
  ⟨_, bernsteinEvaluate_ok hmax hp t, by simp, fun i hi => tab_getElem? _ (by omega)⟩

example : ∃ l, bernsteinEvaluate Ex.cfg 7 (-5 / 3 : ℚ) = .ok l ∧ l.length = 8 ∧
      ∀ i ≤ 7, l[i]? = some ((Nat.choose 7 i : ℚ) * (-5 / 3) ^ i * (1 - (-5 / 3)) ^ (7 - i)) :=
  C02_bernstein Ex.cfg Ex.cfg_ok 7 (by decide) _

/-! ## C03 -/

/-- C03. The basis functions sum to one, for any parameter. -/
theorem C03_partition_of_unity {K V : Type} [CommRing K] (cfg : Cfg) (hmax : cfg.maxBinom ≤ 68) (s : Spline V)
    (hs : s.WF) (hd : ∀ p ∈ s.degrees, p < cfg.maxBinom) (t : List K) (ht : t.length = s.dim) :
    ∃ l, s.basisFunctions cfg t = .ok l ∧ l.sum = 1 :=
  ⟨_, Spline.basisFunctions_ok hmax hs.dim_pos hd ht, by rw [list_sum_tab, sum_pw_bern ht]⟩

/-- C03. In the unit cube they are non-negative. -/
theorem C03_nonneg {K V : Type} [CommRing K] [LinearOrder K] [IsStrictOrderedRing K] (cfg : Cfg)
    (hmax : cfg.maxBinom ≤ 68) (s : Spline V)
    (hs : s.WF) (hd : ∀ p ∈ s.degrees, p < cfg.maxBinom) (t : List K) (ht : t.length = s.dim)
    (h01 : InCube t) : ∃ l, s.basisFunctions cfg t = .ok l ∧ ∀ x ∈ l, 0 ≤ x := by
  refine ⟨_, Spline.basisFunctions_ok hmax hs.dim_pos hd ht, ?_⟩
  intro x hx
  obtain ⟨n, hn, rfl⟩ := List.mem_map.mp hx
  rw [pw_bernFns (by simp) ht]
  exact bernProd_nonneg _ _ h01

example : ∃ l, Ex.A.basisFunctions Ex.cfg [(1 / 3 : ℚ), 3 / 4] = .ok l ∧ l.sum = 1 :=
  C03_partition_of_unity Ex.cfg Ex.cfg_ok Ex.A Ex.A_wf (by decide) _ rfl
example : ∃ l, Ex.A.basisFunctions Ex.cfg [(1 / 3 : ℚ), 3 / 4] = .ok l ∧ ∀ x ∈ l, 0 ≤ x :=
  C03_nonneg Ex.cfg Ex.cfg_ok Ex.A Ex.A_wf (by decide) _ rfl (by unfold InCube; norm_num)

/-! ## C05 -/

/-- C05. Flat index to multi-index and back. -/
theorem C05_local_global {V : Type} (s : Spline V) (hs : s.WF) (n : ℕ) (hn : n < s.ncp) :
    ∃ idx, s.localToGlobal n = .ok idx ∧ ValidIdx s.degrees idx ∧ s.globalToLocal idx = .ok n := by
  rw [hs.ncp_eq] at hn
  refine ⟨_, Spline.localToGlobal_ok hs n, unflat_valid _ _, ?_⟩
  rw [Spline.globalToLocal_ok hs (by simp [Spline.dim]), flatIndex_unflat hn]

/-- C05. Multi-index to flat index and back; the first dimension runs fastest
(see `Spec.flatIndex`). -/
theorem C05_global_local {V : Type} (s : Spline V) (hs : s.WF) (idx : List ℕ) (hi : ValidIdx s.degrees idx) :
    ∃ n, s.globalToLocal idx = .ok n ∧ n < s.ncp ∧ n = flatIndex s.degrees idx ∧ s.localToGlobal n = .ok idx := by
  refine ⟨_, Spline.globalToLocal_ok hs hi.length, ?_, rfl, ?_⟩
  · rw [hs.ncp_eq]; exact flatIndex_lt hi
  · rw [Spline.localToGlobal_ok hs, unflat_flatIndex hi]

example : ∃ idx, Ex.A.localToGlobal 4 = .ok idx ∧ ValidIdx [2, 1] idx ∧ Ex.A.globalToLocal idx = .ok 4 :=
  C05_local_global Ex.A Ex.A_wf 4 (by decide)
example : ∃ n, Ex.A.globalToLocal [1, 1] = .ok n ∧ n < 6 ∧ n = 4 ∧ Ex.A.localToGlobal n = .ok [1, 1] :=
  C05_global_local Ex.A Ex.A_wf [1, 1] (by unfold ValidIdx; simp [Ex.A, Ex.surf])

/-! ## C07 -/

/-- C07. `Evaluate` returns the tensor-product Bezier sum over the control net, where
the control point of a multi-index is what `ControlPoint` returns for it. -/
theorem C07_evaluate {K V : Type} [CommRing K] [AddCommGroup V] [Module K V] (s : Spline V) (hs : s.WF)
    (t : List K) (ht : t.length = s.dim) (P : List ℕ → V)
    (hP : ∀ idx, ValidIdx s.degrees idx → s.controlPoint idx = .ok (P idx)) :
    s.evaluate t = .ok (bezier s.degrees t P) := by
  rw [Spline.evaluate_ok hs ht]
  congr 1
  unfold Spline.value
  apply bezier_congr
  intro idx hidx
  have := hP idx hidx
  rw [Spline.controlPoint_ok hs hidx] at this
  injection this

/-- C07. Every valid multi-index has a control point, the one stored at its flat
position, so the previous theorem applies to every consistent spline. -/
theorem C07_control_points {V : Type} [AddCommGroup V] (s : Spline V) (hs : s.WF) (idx : List ℕ)
    (hi : ValidIdx s.degrees idx) :
    ∃ x, s.controlPoint idx = .ok x ∧ s.cps[flatIndex s.degrees idx]? = some x := by
  refine ⟨_, Spline.controlPoint_ok hs hi, ?_⟩
  unfold Spline.net
  have : flatIndex s.degrees idx < s.cps.length := by rw [hs.cps_len]; exact flatIndex_lt hi
  simp [this]

example : ∃ P : List ℕ → Point ℚ 2, (∀ idx, ValidIdx Ex.P.degrees idx → Ex.P.controlPoint idx = .ok (P idx)) ∧
    Ex.P.evaluate [(1 / 3 : ℚ), 5] = .ok (bezier Ex.P.degrees [(1 / 3 : ℚ), 5] P) := by
  have h : ∀ idx, ValidIdx Ex.P.degrees idx → Ex.P.controlPoint idx = .ok (Ex.P.net idx) :=
    fun _ h => Spline.controlPoint_ok Ex.P_wf h
  have := C07_evaluate (K := ℚ) Ex.P Ex.P_wf [1 / 3, 5] rfl Ex.P.net h
  exact ⟨Ex.P.net, h, this⟩

/-! ## C08 -/

/-- C08. `ForwardEvaluate` and `Evaluate` return the same point. -/
theorem C08_forward_evaluate {K V : Type} [CommRing K] [AddCommGroup V] [Module K V] (cfg : Cfg)
    (hmax : cfg.maxBinom ≤ 68) (s : Spline V) (hs : s.WF) (hd : ∀ p ∈ s.degrees, p < cfg.maxBinom)
    (t : List K) (ht : t.length = s.dim) :
    ∃ x, s.forwardEvaluate cfg t = .ok x ∧ s.evaluate t = .ok x :=
  ⟨_, Spline.forwardEvaluate_ok hmax hs hd ht, Spline.evaluate_ok hs ht⟩

example : ∃ x, Ex.P.forwardEvaluate Ex.cfg [(1 / 3 : ℚ), 5] = .ok x ∧ Ex.P.evaluate [(1 / 3 : ℚ), 5] = .ok x :=
  C08_forward_evaluate Ex.cfg Ex.cfg_ok Ex.P Ex.P_wf (by decide) _ rfl

/-! ## C09 -/

/-- C09. Order, number and meaning of the basis functions. -/
theorem C09_basis_order {K V : Type} [CommRing K] (cfg : Cfg)
    (hmax : cfg.maxBinom ≤ 68) (s : Spline V) (hs : s.WF) (hd : ∀ p ∈ s.degrees, p < cfg.maxBinom)
    (t : List K) (ht : t.length = s.dim) :
    ∃ l, s.basisFunctions cfg t = .ok l ∧ l.length = s.ncp ∧
      ∀ idx, ValidIdx s.degrees idx →
        ∃ n, s.globalToLocal idx = .ok n ∧ l[n]? = some (bernProd s.degrees idx t) := by
  refine ⟨_, Spline.basisFunctions_ok hmax hs.dim_pos hd ht, by simp [hs.ncp_eq], ?_⟩
  intro idx hidx
  refine ⟨_, Spline.globalToLocal_ok hs hidx.length, ?_⟩
  rw [tab_getElem? _ (flatIndex_lt hidx), unflat_flatIndex hidx, pw_bernFns hidx.length ht]

/-- C09. Combining them with the control points, in storage order, gives `Evaluate`. -/
theorem C09_basis_evaluate {K V : Type} [CommRing K] [AddCommGroup V] [Module K V] (cfg : Cfg)
    (hmax : cfg.maxBinom ≤ 68) (s : Spline V) (hs : s.WF) (hd : ∀ p ∈ s.degrees, p < cfg.maxBinom)
    (t : List K) (ht : t.length = s.dim) :
    ∃ l, s.basisFunctions cfg t = .ok l ∧
      s.evaluate t = .ok (List.zipWith (fun b x => b • x) l s.cps).sum := by
  refine ⟨_, Spline.basisFunctions_ok hmax hs.dim_pos hd ht, ?_⟩
  rw [Spline.evaluate_ok hs ht]
  congr 1
  conv_rhs => rw [hs.cps_tab, zipWith_tab, list_sum_tab, sum_pw _ (Spline.bernFns_length ht), ← neval_eq_tens]
  rfl

example : ∃ l, Ex.P.basisFunctions Ex.cfg [(1 / 3 : ℚ), 5] = .ok l ∧
      Ex.P.evaluate [(1 / 3 : ℚ), 5] = .ok (List.zipWith (fun b x => b • x) l Ex.P.cps).sum :=
  C09_basis_evaluate Ex.cfg Ex.cfg_ok Ex.P Ex.P_wf (by decide) _ rfl
example : ∃ l, Ex.P.basisFunctions Ex.cfg [(1 / 3 : ℚ), 5] = .ok l ∧ l.length = 6 ∧
      ∀ idx, ValidIdx [2, 1] idx →
        ∃ n, Ex.P.globalToLocal idx = .ok n ∧ l[n]? = some (bernProd [2, 1] idx [1 / 3, 5]) :=
  C09_basis_order Ex.cfg Ex.cfg_ok Ex.P Ex.P_wf (by decide) _ rfl

/-! ## C10 -/

/-- C10. At the corner given by the choice `c` of 0 or 1 per dimension, `Evaluate`
returns what `ControlPoint` returns for the indices 0 or `degree` per dimension. -/
theorem C10_corners {K V : Type} [CommRing K] [AddCommGroup V] [Module K V] (s : Spline V) (hs : s.WF)
    (c : List Bool) (hc : c.length = s.dim) :
    ∃ x, s.evaluate (c.map (fun b => if b then (1 : K) else 0)) = .ok x ∧
      s.controlPoint (List.zipWith (fun (b : Bool) p => if b then p else 0) c s.degrees) = .ok x := by
  refine ⟨_, Spline.evaluate_ok hs (by simpa using hc), ?_⟩
  rw [Spline.controlPoint_ok hs (corner_valid hc)]
  unfold Spline.value
  rw [bezier_corner hc]
  rfl

example : ∃ x, Ex.P.evaluate [(1 : ℚ), 0] = .ok x ∧ Ex.P.controlPoint [2, 0] = .ok x :=
  C10_corners Ex.P Ex.P_wf [true, false] rfl

end Bezman.Props
